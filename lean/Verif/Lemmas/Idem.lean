import Verif.Props.DecodeProps
/-! Replaying a decoder's log twice is replaying it once. -/
namespace SL
open Prog (run andThen Res)

/-! ## Structural laws of stores -/

theorem aset_same {K V : Type} [DecidableEq K] {k : K} {v : V} {l : List (K × V)} (h : aget k l = some v) : aset k v l = l := by
  induction l with
  | nil => simp [aget] at h
  | cons a t ih =>
    obtain ⟨k', v'⟩ := a
    simp only [aget] at h
    simp only [aset]
    split
    · rename_i hk
      rw [if_pos hk, Option.some.injEq] at h
      subst h hk; rfl
    · rename_i hk
      rw [if_neg hk] at h
      rw [ih h]

theorem aset_aset {K V : Type} [DecidableEq K] (k : K) (v w : V) (l : List (K × V)) : aset k v (aset k w l) = aset k v l := by
  induction l with
  | nil => simp [aset]
  | cons a t ih =>
    obtain ⟨k', v'⟩ := a
    by_cases hk : k' = k
    · simp [aset, hk]
    · simp [aset, hk, ih]

theorem aset_comm {K V : Type} [DecidableEq K] {k k' : K} (hne : k ≠ k') (v w : V) {l : List (K × V)}
    (h : (aget k l).isSome) : aset k v (aset k' w l) = aset k' w (aset k v l) := by
  induction l with
  | nil => simp [aget] at h
  | cons a t ih =>
    obtain ⟨k2, v2⟩ := a
    by_cases h1 : k2 = k
    · subst h1; simp [aset, hne]
    · by_cases h2 : k2 = k'
      · subst h2; simp [aset, h1]
      · simp only [aget, h1, if_false] at h
        simp [aset, h1, h2, ih h]

theorem put_same {p : Path} {x d : Val} (h : Val.look p d = some x) : Val.put p x d = d := by
  induction p generalizing d with
  | nil => simp at h; simp [h]
  | cons k p ih =>
    obtain ⟨kv, w, rfl, h1, h2⟩ := look_cons_some h
    rw [put_cons_dict, h1, Option.getD_some, ih h2, aset_same h1]

theorem put_put (p : Path) (x y d : Val) : Val.put p x (Val.put p y d) = Val.put p x d := by
  induction p generalizing d with
  | nil => simp
  | cons k p ih =>
    cases d with
    | dict kv => rw [put_cons_dict, put_cons_dict, put_cons_dict, aget_aset_same, Option.getD_some, ih, aset_aset]
    | _ =>
      simp only [Val.put, aget, if_true, Option.getD_some, ih, aset]

theorem put_comm {p q : Path} (x y : Val) {d : Val} (hp : (Val.look p d).isSome) (hq : (Val.look q d).isSome)
    (h1 : ¬ p <+: q) (h2 : ¬ q <+: p) : Val.put p x (Val.put q y d) = Val.put q y (Val.put p x d) := by
  induction p generalizing q d with
  | nil => exact absurd List.nil_prefix h1
  | cons k p ih =>
    cases q with
    | nil => exact absurd List.nil_prefix h2
    | cons k' q =>
      obtain ⟨vx, hvx⟩ := Option.isSome_iff_exists.1 hp
      obtain ⟨vy, hvy⟩ := Option.isSome_iff_exists.1 hq
      obtain ⟨kv, w, rfl, g1, g2⟩ := look_cons_some hvx
      obtain ⟨kv', w', hkv, g3, g4⟩ := look_cons_some hvy
      injection hkv with hkv
      subst hkv
      simp only [put_cons_dict]
      by_cases hk : k = k'
      · subst hk
        rw [g1, Option.some.injEq] at g3
        subst g3
        rw [List.cons_prefix_cons] at h1 h2
        simp only [aget_aset_same, g1, Option.getD_some, aset_aset]
        rw [ih (by rw [g2]; rfl) (by rw [g4]; rfl) (fun h => h1 ⟨rfl, h⟩) (fun h => h2 ⟨rfl, h⟩)]
      · rw [aget_aset_ne (Ne.symm hk), aget_aset_ne hk, aset_comm hk _ _ (by rw [g1]; rfl)]

/-! ## Logs -/

/-- A store of a disciplined program. -/
def W.ok (c : Bool) : W → Prop
  | .set p _ => p ≠ [] ∧ isNode p = false ∧ isNode p.dropLast = true ∧ defaulted c p = false
  | .dflt p _ => p ≠ [] ∧ isNode p.dropLast = true ∧ defaulted c p = true

theorem strict_prefix {p q : Path} (h : p <+: q) (hne : p ≠ q) : p <+: q.dropLast := by
  obtain ⟨r, rfl⟩ := h
  have : r ≠ [] := by rintro rfl; simp at hne
  rw [List.dropLast_append_of_ne_nil this]
  exact List.prefix_append _ _

theorem set_set {c : Bool} {p q : Path} {x y : Val} (hp : (W.set p x).ok c) (hq : (W.set q y).ok c) (h : p <+: q) : p = q := by
  by_cases he : p = q
  · exact he
  · have := isNode_prefix hq.2.2.1 (strict_prefix h he)
    rw [hp.2.1] at this; simp at this

theorem set_dflt {c : Bool} {p q : Path} {x y : Val} (hp : (W.set p x).ok c) (hq : (W.dflt q y).ok c) : ¬ p <+: q := by
  intro h
  by_cases he : p = q
  · subst he; have := hp.2.2.2; rw [hq.2.2] at this; simp at this
  · have := isNode_prefix hq.2.1 (strict_prefix h he)
    rw [hp.2.1] at this; simp at this

theorem W.parent {c : Bool} {w : W} (h : w.ok c) : isNode w.path.dropLast = true := by
  cases w with
  | set p x => exact h.2.2.1
  | dflt p x => exact h.2.1

theorem present_app {c : Bool} {w : W} (hw : w.ok c) {q : Path} (hq : isNode q.dropLast = true) {d : Val}
    (h : (Val.look q d).isSome) : (Val.look q (w.app d)).isSome := by
  cases w with
  | set p x =>
    simp only [W.app]
    by_cases h1 : p <+: q
    · by_cases h2 : p = q
      · subst h2; rw [look_put_same]; rfl
      · have := isNode_prefix hq (strict_prefix h1 h2); rw [hw.2.1] at this; simp at this
    · by_cases h2 : q <+: p
      · obtain ⟨kv, hkv⟩ := look_put_above x d h2 (by rintro rfl; exact h1 h2)
        rw [hkv]; rfl
      · rw [look_put_other x d h1 h2]; exact h
  | dflt p x =>
    simp only [W.app]
    cases hp : Val.look p d with
    | some y => rw [putNew_of_some hp]; exact h
    | none =>
      rw [putNew_of_none hp]
      by_cases h1 : p <+: q
      · obtain ⟨y, hy⟩ := Option.isSome_iff_exists.1 h
        obtain ⟨z, hz⟩ := look_prefix_some h1 hy
        rw [hp] at hz; simp at hz
      · by_cases h2 : q <+: p
        · obtain ⟨kv, hkv⟩ := look_put_above x d h2 (by rintro rfl; exact h1 h2)
          rw [hkv]; rfl
        · rw [look_put_other x d h1 h2]; exact h

theorem present_replay {c : Bool} {ws : List W} (hws : ∀ w ∈ ws, w.ok c) {q : Path} (hq : isNode q.dropLast = true) {d : Val}
    (h : (Val.look q d).isSome) : (Val.look q (replay ws d)).isSome := by
  induction ws generalizing d with
  | nil => exact h
  | cons w ws ih =>
    exact ih (fun w hw => hws w (List.mem_cons_of_mem _ hw)) (present_app (hws w List.mem_cons_self) hq h)

theorem present_own {c : Bool} {ws : List W} (hws : ∀ w ∈ ws, w.ok c) (d : Val) :
    ∀ w ∈ ws, (Val.look w.path (replay ws d)).isSome := by
  induction ws generalizing d with
  | nil => intro w hw; simp at hw
  | cons w ws ih =>
    intro w' hw'
    have hws' := fun w hw => hws w (List.mem_cons_of_mem _ hw)
    rcases List.mem_cons.1 hw' with rfl | hw'
    · refine present_replay hws' (W.parent (hws _ List.mem_cons_self)) ?_
      cases w' with
      | set p x => simp only [W.app, W.path, look_put_same]; rfl
      | dflt p x => simp only [W.app, W.path, look_putNew_same]; rfl
    · exact ih hws' _ w' hw'

theorem value_stays {c : Bool} {ws : List W} (hws : ∀ w ∈ ws, w.ok c) {p : Path} {x : Val} (hp : (W.set p x).ok c)
    (hno : ∀ y, W.set p y ∉ ws) {d : Val} {v : Val} (h : Val.look p d = some v) : Val.look p (replay ws d) = some v := by
  induction ws generalizing d with
  | nil => exact h
  | cons w ws ih =>
    refine ih (fun w hw => hws w (List.mem_cons_of_mem _ hw)) (fun y hy => hno y (List.mem_cons_of_mem _ hy)) ?_
    have hw := hws w List.mem_cons_self
    cases w with
    | set q y =>
      have hne : p ≠ q := by rintro rfl; exact hno y List.mem_cons_self
      simp only [W.app]
      rw [look_put_other y d (fun hh => hne (set_set hw hp hh).symm) (fun hh => hne (set_set hp hw hh))]
      exact h
    | dflt q y =>
      simp only [W.app]
      cases hq : Val.look q d with
      | some z => rw [putNew_of_some hq]; exact h
      | none =>
        rw [putNew_of_none hq, look_put_other y d ?_ (set_dflt hp hw)]
        · exact h
        · intro hh
          obtain ⟨z, hz⟩ := look_prefix_some hh h
          rw [hq] at hz; simp at hz

theorem absorb {c : Bool} {ws : List W} (hws : ∀ w ∈ ws, w.ok c) {p : Path} {x : Val} (hp : (W.set p x).ok c)
    {e : Val} (hpe : (Val.look p e).isSome) (hpres : ∀ w ∈ ws, (Val.look w.path e).isSome) (hin : ∃ y, W.set p y ∈ ws) :
    replay ws (Val.put p x e) = replay ws e := by
  induction ws generalizing e with
  | nil => obtain ⟨y, hy⟩ := hin; simp at hy
  | cons w ws ih =>
    have hw := hws w List.mem_cons_self
    have hws' := fun w hw => hws w (List.mem_cons_of_mem _ hw)
    have hwe := hpres w List.mem_cons_self
    have pe : ∀ q, isNode q.dropLast = true → (Val.look q e).isSome → (Val.look q (Val.put p x e)).isSome :=
      fun q hq h => present_app hp hq h
    cases w with
    | set q y =>
      simp only [replay, W.app]
      simp only [W.path] at hwe
      by_cases hq : q = p
      · subst hq; rw [put_put]
      · rw [put_comm y x hwe hpe (fun hh => hq (set_set hw hp hh)) (fun hh => hq (set_set hp hw hh).symm)]
        refine ih hws' (present_app hw (W.parent hp) hpe) (fun w' hw' => present_app hw (W.parent (hws' w' hw')) (hpres w' (List.mem_cons_of_mem _ hw'))) ?_
        obtain ⟨z, hz⟩ := hin
        rcases List.mem_cons.1 hz with hz | hz
        · injection hz with hz _; exact absurd hz.symm hq
        · exact ⟨z, hz⟩
    | dflt q y =>
      simp only [replay, W.app]
      simp only [W.path] at hwe
      obtain ⟨v, hv⟩ := Option.isSome_iff_exists.1 hwe
      obtain ⟨v', hv'⟩ := Option.isSome_iff_exists.1 (pe q (W.parent hw) hwe)
      rw [putNew_of_some hv, putNew_of_some hv']
      refine ih hws' hpe (fun w' hw' => hpres w' (List.mem_cons_of_mem _ hw')) ?_
      obtain ⟨z, hz⟩ := hin
      rcases List.mem_cons.1 hz with hz | hz
      · simp at hz
      · exact ⟨z, hz⟩

theorem replay_noop {c : Bool} {ws : List W} (hws : ∀ w ∈ ws, w.ok c) {e : Val}
    (hpres : ∀ w ∈ ws, (Val.look w.path e).isSome)
    (hlast : ∀ a p x b, ws = a ++ W.set p x :: b → (∀ y, W.set p y ∉ b) → Val.look p e = some x) : replay ws e = e := by
  induction ws with
  | nil => rfl
  | cons w ws ih =>
    have hws' := fun w hw => hws w (List.mem_cons_of_mem _ hw)
    have hpres' := fun w hw => hpres w (List.mem_cons_of_mem _ hw)
    have ih := ih hws' hpres' (fun a p x b h => hlast (w :: a) p x b (by rw [h]; rfl))
    cases w with
    | set p x =>
      simp only [replay, W.app]
      by_cases hin : ∃ y, W.set p y ∈ ws
      · rw [absorb hws' (hws _ List.mem_cons_self) (hpres _ List.mem_cons_self) hpres' hin, ih]
      · rw [put_same (hlast [] p x ws rfl (fun y hy => hin ⟨y, hy⟩)), ih]
    | dflt p x =>
      obtain ⟨v, hv⟩ := Option.isSome_iff_exists.1 (hpres _ List.mem_cons_self)
      simp only [replay, W.app]
      simp only [W.path] at hv
      rw [putNew_of_some hv, ih]

theorem replay_twice {c : Bool} {ws : List W} (hws : ∀ w ∈ ws, w.ok c) (d : Val) :
    replay ws (replay ws d) = replay ws d := by
  refine replay_noop hws (present_own hws d) ?_
  rintro a p x b rfl hno
  rw [replay_append]
  have hp := hws (.set p x) (by simp)
  exact value_stays (fun w hw => hws w (by simp [hw])) hp hno (look_put_same p x _)

/-! ## Logs of programs -/

theorem log_all {α : Type} {P : Op → Prop} {p : Prog α} (h : AllOps P p) (env : Path → Option Val) (o : Nat) (r : Bytes) :
    ∀ w ∈ (trace env p o r).2, match w with
      | .set p x => P (.set p x)
      | .dflt p x => P (.setdef p x) := by
  have key : ∀ {γ : Type} (x : Except PyErr (γ × Nat)) (k : γ → Nat → Bytes → TRes α),
      (∀ a n r, ∀ w ∈ (k a n r).2, match w with
        | .set p x => P (.set p x)
        | .dflt p x => P (.setdef p x)) → ∀ w ∈ (onRead x o r k).2, match w with
        | .set p x => P (.set p x)
        | .dflt p x => P (.setdef p x) := by
    intro γ x k hk
    cases x with
    | error e => intro w hw; simp [onRead] at hw
    | ok a => exact hk _ _ _
  induction p generalizing o r with
  | pure a => intro w hw; simp [trace] at hw
  | raise e => intro w hw; simp [trace] at hw
  | num f k ih => exact key _ _ (fun a n r => ih a (h a) n r (by
      intro γ x k hk
      cases x with
      | error e => intro w hw; simp [onRead] at hw
      | ok a => exact hk _ _ _))
  | str k ih => exact key _ _ (fun a n r => ih a (h a) n r (by
      intro γ x k hk
      cases x with
      | error e => intro w hw; simp [onRead] at hw
      | ok a => exact hk _ _ _))
  | arr k ih => exact key _ _ (fun a n r => ih a (h.2 a) n r (by
      intro γ x k hk
      cases x with
      | error e => intro w hw; simp [onRead] at hw
      | ok a => exact hk _ _ _))
  | time k ih => exact key _ _ (fun a n r => ih a (h a) n r (by
      intro γ x k hk
      cases x with
      | error e => intro w hw; simp [onRead] at hw
      | ok a => exact hk _ _ _))
  | msgStr k ih => intro w hw; simp [trace] at hw
  | off k ih => exact ih o (h o) o r key
  | set q x k ih =>
    intro w hw
    simp only [trace, logged, List.mem_cons] at hw
    rcases hw with rfl | hw
    · exact h.1
    · exact ih h.2 o r key w hw
  | setdef q x k ih =>
    intro w hw
    simp only [trace, logged, List.mem_cons] at hw
    rcases hw with rfl | hw
    · exact h.1
    · exact ih h.2 o r key w hw
  | get q k ih => exact ih _ (h.2 _) o r key

/-- Parents of stores are groups. -/
def NodeParent : Op → Prop
  | .set p _ => p ≠ [] ∧ isNode p.dropLast = true
  | .setdef p _ => p ≠ [] ∧ isNode p.dropLast = true
  | _ => True

theorem disc_parent {α : Type} {p : Prog α} {E : List Path} {Q : List Path → α → Prop} (h : Disc p E Q)
    (hE : ∀ e ∈ E, isNode e = true) : AllOps NodeParent p := by
  induction p generalizing E with
  | pure a => trivial
  | raise e => trivial
  | num f k ih => exact fun x => ih x (h x) hE
  | str k ih => exact fun x => ih x (h x) hE
  | arr k ih => exact ⟨trivial, fun x => ih x (h x) hE⟩
  | time k ih => exact fun x => ih x (h x) hE
  | msgStr k ih => exact ⟨trivial, fun x => ih x (h x) hE⟩
  | off k ih => exact fun x => ih x (h x) hE
  | set p x k ih => exact ⟨⟨h.1, hE _ h.2.1⟩, ih h.2.2.2 hE⟩
  | setdef p x k ih =>
    refine ⟨⟨h.1, hE _ h.2.1⟩, ih h.2.2.2 ?_⟩
    intro e he
    by_cases hn : isNode p = true
    · rw [if_pos hn] at he
      rcases List.mem_cons.1 he with rfl | he
      · exact hn
      · exact hE e he
    · rw [if_neg hn] at he
      exact hE e he
  | get p k ih => exact ⟨trivial, fun v => ih v (h.2 v) hE⟩

theorem log_ok {α : Type} {f : Profile} {p : Prog α} {Q : List Path → α → Prop} (hf : Conforms f p) (hD : Disc p [[]] Q)
    (env : Path → Option Val) (o : Nat) (r : Bytes) : ∀ w ∈ (trace env p o r).2, w.ok f.cid := by
  intro w hw
  have h1 := log_all hf env o r w hw
  have h2 := log_all (disc_parent hD (by intro e he; simp at he; subst he; rfl)) env o r w hw
  cases w with
  | set p x =>
    simp only [opOK, Bool.and_eq_true, Bool.not_eq_true'] at h1
    refine ⟨h2.1, ?_, h2.2, h1.2.2⟩
    have := h1.2.2
    simp only [defaulted, Bool.or_eq_false_iff] at this
    exact this.1
  | dflt p x =>
    simp only [opOK, Bool.and_eq_true] at h1
    exact ⟨h2.1, h2.2, h1.2.2⟩

theorem trace_congr {α : Type} {P : Op → Prop} {env env' : Path → Option Val} (hP : ∀ g, P (.get g) → env g = env' g)
    {p : Prog α} (h : AllOps P p) (o : Nat) (r : Bytes) : trace env p o r = trace env' p o r := by
  induction p generalizing o r with
  | pure a => rfl
  | raise e => rfl
  | num f k ih => simp only [trace]; congr 1; funext a n r; exact ih a (h a) n r
  | str k ih => simp only [trace]; congr 1; funext a n r; exact ih a (h a) n r
  | arr k ih => simp only [trace]; congr 1; funext a n r; exact ih a (h.2 a) n r
  | time k ih => simp only [trace]; congr 1; funext a n r; exact ih a (h a) n r
  | msgStr k ih => rfl
  | off k ih => exact ih o (h o) o r
  | set q x k ih => simp only [trace]; rw [ih h.2]
  | setdef q x k ih => simp only [trace]; rw [ih h.2]
  | get q k ih => simp only [trace]; rw [hP q h.1]; exact ih _ (h.2 _) o r

end SL
