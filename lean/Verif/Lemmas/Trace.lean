import Verif.Lemmas.Prog
/-! Decoder runs as logs of stores: what the reads give depends only on the bytes, and the data afterwards is
the data before with the log replayed. -/
namespace SL
open Prog (run andThen loop Res)

/-! ## Reading at an offset is reading the rest of the buffer -/

/-- Move the end offset of a read. -/
def shift {γ : Type} (o : Nat) (r : Except PyErr (γ × Nat)) : Except PyErr (γ × Nat) :=
  r.map (fun x => (x.1, o + x.2))

theorem unpackRaw_drop (n : Nat) (buff : Bytes) (o : Nat) (h : o ≤ buff.length ∨ 0 < n) :
    unpackRaw n buff o = unpackRaw n (buff.drop o) 0 := by
  unfold unpackRaw
  have : (o + n ≤ buff.length) ↔ (0 + n ≤ (buff.drop o).length) := by simp; omega
  simp only [this, List.drop_zero]

theorem unpackFrom_drop (f : Fmt) (buff : Bytes) (o : Nat) :
    unpackFrom f buff o = unpackFrom f (buff.drop o) 0 := by
  unfold unpackFrom
  rw [unpackRaw_drop _ _ _ (.inr (by cases f <;> decide))]

theorem getSome_drop (f : Fmt) (buff : Bytes) (o : Nat) :
    getSome f buff o = shift o (getSome f (buff.drop o) 0) := by
  unfold getSome
  rw [unpackFrom_drop]
  cases unpackFrom f (buff.drop o) 0 with
  | error e => rfl
  | ok x => simp [shift, Except.map, bind, Except.bind, pure, Except.pure]

theorem unpackRaw_bound {n : Nat} {buff : Bytes} {o : Nat} {x} (h : unpackRaw n buff o = .ok x) :
    o + n ≤ buff.length := (unpackRaw_eq_ok.1 h).1

theorem unpackFrom_bound {f : Fmt} {buff : Bytes} {o : Nat} {x} (h : unpackFrom f buff o = .ok x) :
    o + f.size ≤ buff.length := by
  unfold unpackFrom at h
  rw [Except_bind_eq_ok] at h
  obtain ⟨v, hv, -⟩ := h
  exact unpackRaw_bound hv

theorem getString_drop (buff : Bytes) (o : Nat) : getString buff o = shift o (getString (buff.drop o) 0) := by
  unfold getString
  rw [unpackFrom_drop]
  cases hx : unpackFrom .I (buff.drop o) 0 with
  | error e => rfl
  | ok x =>
    have hb := unpackFrom_bound hx
    simp only [Fmt.size, List.length_drop] at hb
    simp only [bind, Except.bind, Nat.zero_add]
    rw [unpackRaw_drop _ buff (o + 4) (.inl (by omega)), unpackRaw_drop _ (buff.drop o) 4 (.inl (by simp; omega)),
      List.drop_drop]
    split
    · rfl
    · split
      · rfl
      · simp [shift, Except.map, pure, Except.pure]; omega

theorem getTime_drop (buff : Bytes) (o : Nat) : getTime buff o = shift o (getTime (buff.drop o) 0) := by
  unfold getTime
  rw [unpackRaw_drop _ _ _ (.inr (by decide))]
  cases unpackRaw 16 (buff.drop o) 0 with
  | error e => rfl
  | ok x =>
    simp only [bind, Except.bind]
    cases timeOfBlock x with
    | error e => rfl
    | ok x => simp [shift, Except.map, pure, Except.pure]

theorem getArrayItems_drop (buff : Bytes) (o a n : Nat) :
    getArrayItems buff (o + a) n = getArrayItems (buff.drop o) a n := by
  induction n with
  | zero => rfl
  | succ n ih =>
    simp only [getArrayItems]
    rw [ih, getSome_drop .B buff, getSome_drop .B (buff.drop o), List.drop_drop]
    cases getArrayItems (buff.drop o) a n with
    | error e => rfl
    | ok xs =>
      simp only [bind, Except.bind, Nat.add_assoc]
      cases getSome .B (buff.drop (o + (a + n))) 0 with
      | error e => rfl
      | ok y => rfl

theorem getArray_drop (buff : Bytes) (o : Nat) : getArray buff o = shift o (getArray (buff.drop o) 0) := by
  unfold getArray
  rw [getSome_drop .I buff o]
  cases getSome .I (buff.drop o) 0 with
  | error e => rfl
  | ok x =>
    simp only [shift, Except.map, bind, Except.bind]
    rw [getArrayItems_drop]
    cases getArrayItems (buff.drop o) x.2 x.1.toNat with
    | error e => rfl
    | ok y => simp [pure, Except.pure]; omega

/-! ## Logs -/

/-- A store. -/
inductive W
  | set (p : Path) (x : Val)
  | dflt (p : Path) (x : Val)

/-- The effect of one store. -/
def W.app : W → Val → Val
  | .set p x, d => Val.put p x d
  | .dflt p x, d => Val.putNew p x d

/-- Replaying a log. -/
def replay : List W → Val → Val
  | [], d => d
  | w :: ws, d => replay ws (w.app d)

theorem replay_append (a b : List W) (d : Val) : replay (a ++ b) d = replay b (replay a d) := by
  induction a generalizing d with
  | nil => rfl
  | cons w a ih => exact ih _

/-- Outcome of tracing: result, offset and remaining bytes, or the exception; and the log. -/
abbrev TRes (α : Type) := Except PyErr (α × Nat × Bytes) × List W

/-- Continue a trace. -/
def TRes.andThen {α β : Type} (t : TRes α) (k : α → Nat → Bytes → TRes β) : TRes β :=
  match t with
  | (.ok (a, o, r), ws) => let t' := k a o r; (t'.1, ws ++ t'.2)
  | (.error e, ws) => (.error e, ws)

/-- A read on the remaining bytes. -/
def onRead {α γ : Type} (x : Except PyErr (γ × Nat)) (o : Nat) (r : Bytes) (k : γ → Nat → Bytes → TRes α) : TRes α :=
  match x with
  | .ok (a, n) => k a (o + n) (r.drop n)
  | .error e => (.error e, [])

/-- Add a store in front. -/
def logged {α : Type} (w : W) (t : TRes α) : TRes α := (t.1, w :: t.2)

/-- Tracing a program: `.get`s are answered by `env`. -/
def trace {α : Type} (env : Path → Option Val) : Prog α → Nat → Bytes → TRes α
  | .pure a, o, r => (.ok (a, o, r), [])
  | .raise e, _, _ => (.error e, [])
  | .num f k, o, r => onRead (getSome f r 0) o r (fun x o r => trace env (k x) o r)
  | .str k, o, r => onRead (getString r 0) o r (fun x o r => trace env (k x) o r)
  | .arr k, o, r => onRead (getArray r 0) o r (fun x o r => trace env (k x) o r)
  | .time k, o, r => onRead (getTime r 0) o r (fun x o r => trace env (k x) o r)
  | .msgStr _, _, _ => (.error .runtimeError, [])
  | .off k, o, r => trace env (k o) o r
  | .set p x k, o, r => logged (.set p x) (trace env k o r)
  | .setdef p x k, o, r => logged (.dflt p x) (trace env k o r)
  | .get p k, o, r => trace env (k (env p)) o r

theorem onRead_andThen {α β γ : Type} (x : Except PyErr (γ × Nat)) (o : Nat) (r : Bytes)
    (k : γ → Nat → Bytes → TRes α) (k' : α → Nat → Bytes → TRes β) :
    (onRead x o r k).andThen k' = onRead x o r (fun a o r => (k a o r).andThen k') := by
  unfold onRead; split <;> rfl

theorem logged_andThen {α β : Type} (w : W) (t : TRes α) (k : α → Nat → Bytes → TRes β) :
    (logged w t).andThen k = logged w (t.andThen k) := by
  rcases t with ⟨_ | ⟨a, o, r⟩, ws⟩ <;> rfl

theorem trace_bind {α β : Type} (env : Path → Option Val) (p : Prog α) (k : α → Prog β) (o : Nat) (r : Bytes) :
    trace env (p.bind k) o r = (trace env p o r).andThen (fun a o r => trace env (k a) o r) := by
  induction p generalizing o r with
  | pure a => rfl
  | raise e => rfl
  | num f k' ih => simp only [Prog.bind, trace, onRead_andThen, ih]
  | str k' ih => simp only [Prog.bind, trace, onRead_andThen, ih]
  | arr k' ih => simp only [Prog.bind, trace, onRead_andThen, ih]
  | time k' ih => simp only [Prog.bind, trace, onRead_andThen, ih]
  | msgStr k' ih => rfl
  | off k' ih => simp only [Prog.bind, trace, ih]
  | set q x k' ih => simp only [Prog.bind, trace, logged_andThen, ih]
  | setdef q x k' ih => simp only [Prog.bind, trace, logged_andThen, ih]
  | get q k' ih => simp only [Prog.bind, trace, ih]

/-! ## Shape of the data -/

/-- A path pattern element. -/
inductive Pat
  | k (s : String)
  | any

/-- Does the path have exactly this pattern? -/
def pathMatches : List Pat → Path → Bool
  | [], [] => true
  | .k s :: ps, .s x :: q => (s == x) && pathMatches ps q
  | .any :: ps, _ :: q => pathMatches ps q
  | _, _ => false

/-- The groups of the data tree. -/
def nodePats : List (List Pat) :=
  [[], [.k "controller"], [.k "controller", .k "sensor"], [.k "controller", .k "configuration"],
   [.k "controller", .k "configuration", .k "body_type"],
   [.k "controller", .k "configuration", .k "body_type", .any],
   [.k "controller", .k "equipment"], [.k "controller", .k "color_lights"], [.k "controller", .k "date_time"],
   [.k "body"], [.k "body", .any],
   [.k "circuit"], [.k "circuit", .any], [.k "circuit", .any, .k "configuration"],
   [.k "pump"], [.k "pump", .any], [.k "pump", .any, .k "state"], [.k "pump", .any, .k "preset"],
   [.k "pump", .any, .k "preset", .any],
   [.k "intellichem"], [.k "intellichem", .k "sensor"], [.k "intellichem", .k "configuration"],
   [.k "intellichem", .k "dose_status"], [.k "intellichem", .k "alarm"], [.k "intellichem", .k "alert"],
   [.k "intellichem", .k "water_balance"],
   [.k "scg"], [.k "scg", .k "sensor"], [.k "scg", .k "configuration"],
   [.k "adapter"], [.k "equipment"]]

/-- Readings that other code looks into. -/
def leafPats : List (List Pat) :=
  [[.k "controller", .k "configuration", .k "is_celsius"], [.k "adapter", .k "firmware"]]

/-- A group of the data tree. -/
def isNode (p : Path) : Bool := nodePats.any (pathMatches · p)
/-- A reading that other code looks into. -/
def isLeafDict (p : Path) : Bool := leafPats.any (pathMatches · p)

theorem pathMatches_prefix {ps : List Pat} {p q : Path} (h : pathMatches ps p = true) (hq : q <+: p) :
    pathMatches (ps.take q.length) q = true := by
  induction q generalizing ps p with
  | nil => simp [pathMatches]
  | cons k q ih =>
    obtain ⟨t, rfl⟩ := hq
    cases ps with
    | nil => simp [pathMatches] at h
    | cons a ps =>
      cases a with
      | any =>
        simp only [List.cons_append, pathMatches] at h
        simp only [List.length_cons, List.take_succ_cons, pathMatches]
        exact ih h ⟨t, rfl⟩
      | k s =>
        cases k with
        | i n => simp [pathMatches] at h
        | s x =>
          simp only [List.cons_append, pathMatches, Bool.and_eq_true] at h
          simp only [List.length_cons, List.take_succ_cons, pathMatches, Bool.and_eq_true]
          exact ⟨h.1, ih h.2 ⟨t, rfl⟩⟩

theorem pathMatches_length {ps : List Pat} {p : Path} (h : pathMatches ps p = true) : ps.length = p.length := by
  induction p generalizing ps with
  | nil => cases ps with
    | nil => rfl
    | cons a ps => cases a <;> simp [pathMatches] at h
  | cons k p ih =>
    cases ps with
    | nil => simp [pathMatches] at h
    | cons a ps =>
      cases a with
      | any => simp only [pathMatches] at h; simp [ih h]
      | k s =>
        cases k with
        | i n => simp [pathMatches] at h
        | s x => simp only [pathMatches, Bool.and_eq_true] at h; simp [ih h.2]

theorem isNode_iff (p : Path) : isNode p = true ↔ ∃ ps ∈ nodePats, pathMatches ps p = true := by
  simp [isNode]

theorem isNode_prefix {p q : Path} (h : isNode p = true) (hq : q <+: p) : isNode q = true := by
  rw [isNode_iff] at h ⊢
  obtain ⟨ps, hps, hm⟩ := h
  refine ⟨ps.take q.length, ?_, pathMatches_prefix hm hq⟩
  revert hps
  generalize q.length = n
  clear hm hq
  revert ps
  have key : ∀ ps ∈ nodePats, ∀ n, n ≤ 4 → ps.take n ∈ nodePats := by
    intro ps hps
    simp only [nodePats, List.mem_cons, List.not_mem_nil, or_false] at hps
    intro n hn
    have : n = 0 ∨ n = 1 ∨ n = 2 ∨ n = 3 ∨ n = 4 := by omega
    rcases this with rfl | rfl | rfl | rfl | rfl <;>
      (rcases hps with rfl|rfl|rfl|rfl|rfl|rfl|rfl|rfl|rfl|rfl|rfl|rfl|rfl|rfl|rfl|rfl|rfl|rfl|rfl|rfl|rfl|rfl|rfl|rfl|rfl|rfl|rfl|rfl|rfl|rfl|rfl <;> simp [nodePats])
  intro ps hps
  by_cases hn : n ≤ 4
  · exact key ps hps n hn
  · have := key ps hps 4 (Nat.le_refl 4)
    have hlen : ps.length ≤ 4 := by
      simp only [nodePats, List.mem_cons, List.not_mem_nil, or_false] at hps
      rcases hps with rfl|rfl|rfl|rfl|rfl|rfl|rfl|rfl|rfl|rfl|rfl|rfl|rfl|rfl|rfl|rfl|rfl|rfl|rfl|rfl|rfl|rfl|rfl|rfl|rfl|rfl|rfl|rfl|rfl|rfl|rfl <;> simp
    rwa [List.take_of_length_le (by omega)]

/-- Well-shaped data: every group, and every reading that is looked into, is a dict where it exists. -/
def Shaped (d : Val) : Prop :=
  ∀ p v, (isNode p || isLeafDict p) = true → Val.look p d = some v → v.isDict = true

theorem leaf_prefix_node {p q : Path} (h : isLeafDict p = true) (hq : q <+: p) (hne : q ≠ p) : isNode q = true := by
  simp only [isLeafDict, leafPats, List.any_cons, List.any_nil, Bool.or_false, Bool.or_eq_true] at h
  rw [isNode_iff]
  have hlen := hq.length_le
  have hlt : q.length < p.length := by
    rcases Nat.lt_or_ge q.length p.length with h | h
    · exact h
    · exact absurd (hq.eq_of_length (by omega)) hne
  rcases h with h | h
  · have hl := pathMatches_length h
    have hm := pathMatches_prefix h hq
    simp only [List.length_cons, List.length_nil] at hl
    have : q.length = 0 ∨ q.length = 1 ∨ q.length = 2 := by omega
    rcases this with e | e | e <;> rw [e] at hm <;> exact ⟨_, by simp [nodePats], hm⟩
  · have hl := pathMatches_length h
    have hm := pathMatches_prefix h hq
    simp only [List.length_cons, List.length_nil] at hl
    have : q.length = 0 ∨ q.length = 1 := by omega
    rcases this with e | e <;> rw [e] at hm <;> exact ⟨_, by simp [nodePats], hm⟩

/-- A store that keeps the data well-shaped: not on a group, and a dict on the readings looked into. -/
def okSet (p : Path) (x : Val) : Prop := isNode p = false ∧ (isLeafDict p = true → x.isDict = true)

theorem shaped_put {d : Val} (hs : Shaped d) {p : Path} {x : Val} (hok : okSet p x) :
    Shaped (Val.put p x d) := by
  intro q v hq hv
  by_cases h1 : p <+: q
  · by_cases he : p = q
    · subst he
      rw [look_put_same] at hv
      simp only [Option.some.injEq] at hv
      subst hv
      rw [hok.1] at hq
      exact hok.2 (by simpa using hq)
    · exfalso
      have hnp := hok.1
      rcases Bool.or_eq_true _ _ ▸ hq with h | h
      · rw [isNode_prefix h h1] at hnp; exact absurd hnp (by simp)
      · rw [leaf_prefix_node h h1 he] at hnp; exact absurd hnp (by simp)
  · by_cases h2 : q <+: p
    · have hne : q ≠ p := by rintro rfl; exact h1 h2
      obtain ⟨kv, hkv⟩ := look_put_above x d h2 hne
      rw [hkv] at hv
      simp only [Option.some.injEq] at hv
      subst hv; rfl
    · rw [look_put_other x d h1 h2] at hv
      exact hs q v hq hv

/-- A default that keeps the data well-shaped: an empty group or a dict of plain values on a group, or a
plain value elsewhere. -/
def okDef (p : Path) (x : Val) : Prop :=
  if isNode p then ∃ kv, x = .dict kv ∧ ∀ k v, aget k kv = some v → isNode (p ++ [k]) = false ∧ isLeafDict (p ++ [k]) = false
  else isLeafDict p = false

theorem shaped_putNew {d : Val} (hs : Shaped d) {p : Path} {x : Val} (hok : okDef p x) :
    Shaped (Val.putNew p x d) := by
  cases hp : Val.look p d with
  | some y => rw [putNew_of_some hp]; exact hs
  | none =>
    rw [putNew_of_none hp]
    unfold okDef at hok
    by_cases hn : isNode p = true
    · rw [if_pos hn] at hok
      obtain ⟨kv, rfl, hkv⟩ := hok
      intro q v hq hv
      by_cases h1 : p <+: q
      · obtain ⟨r, rfl⟩ := h1
        rw [look_put_below] at hv
        cases r with
        | nil => simp at hv; subst hv; rfl
        | cons k r =>
          exfalso
          rw [look_cons_dict] at hv
          cases hk : aget k kv with
          | none => rw [hk] at hv; simp at hv
          | some w =>
            have h3 := hkv k w hk
            have hpre : (p ++ [k]) <+: (p ++ k :: r) := ⟨r, by simp⟩
            rcases Bool.or_eq_true _ _ ▸ hq with h | h
            · have := isNode_prefix h hpre; simp [h3.1] at this
            · by_cases he : p ++ [k] = p ++ k :: r
              · rw [← he] at h; simp [h3.2] at h
              · have := leaf_prefix_node h hpre he; simp [h3.1] at this
      · by_cases h2 : q <+: p
        · have hne : q ≠ p := by rintro rfl; exact h1 h2
          obtain ⟨kv', hkv'⟩ := look_put_above (Val.dict kv) d h2 hne
          rw [hkv'] at hv
          simp only [Option.some.injEq] at hv
          subst hv; rfl
        · rw [look_put_other _ d h1 h2] at hv
          exact hs q v hq hv
    · rw [if_neg hn] at hok
      exact shaped_put hs ⟨by simpa using hn, fun h => by simp [hok] at h⟩

theorem okDef_empty {p : Path} (h : isNode p = true) : okDef p (.dict []) := by
  unfold okDef; rw [if_pos h]; exact ⟨[], rfl, fun k v hk => by simp [aget] at hk⟩

/-! ## Programs that respect the shape -/

/-- Every proper prefix of the path is a group or a reading looked into. -/
def okGet (p : Path) : Prop := ∀ q k, (q ++ [k]) <+: p → (isNode q || isLeafDict q) = true

/-- The program respects the shape, starting with the groups `E` present; `Q` holds of the groups present and
the result at the end. -/
def Disc {α : Type} : Prog α → List Path → (List Path → α → Prop) → Prop
  | .pure a, E, Q => Q E a
  | .raise _, _, _ => True
  | .num _ k, E, Q => ∀ x, Disc (k x) E Q
  | .str k, E, Q => ∀ x, Disc (k x) E Q
  | .arr k, E, Q => ∀ x, Disc (k x) E Q
  | .time k, E, Q => ∀ x, Disc (k x) E Q
  | .msgStr k, E, Q => ∀ x, Disc (k x) E Q
  | .off k, E, Q => ∀ x, Disc (k x) E Q
  | .set p x k, E, Q => p ≠ [] ∧ p.dropLast ∈ E ∧ okSet p x ∧ Disc k E Q
  | .setdef p x k, E, Q => p ≠ [] ∧ p.dropLast ∈ E ∧ okDef p x ∧ Disc k (if isNode p then p :: E else E) Q
  | .get p k, E, Q => okGet p ∧ ∀ v, Disc (k v) E Q

theorem disc_mono {α : Type} {p : Prog α} {E E' : List Path} {Q Q' : List Path → α → Prop} (h : Disc p E Q)
    (hE : ∀ e ∈ E, e ∈ E') (hQ : ∀ F F' a, (∀ e ∈ F, e ∈ F') → (∀ e ∈ E', e ∈ F') → Q F a → Q' F' a) :
    Disc p E' Q' := by
  induction p generalizing E E' with
  | pure a => exact hQ E E' a hE (fun e he => he) h
  | raise e => trivial
  | num f k ih => exact fun x => ih x (h x) hE hQ
  | str k ih => exact fun x => ih x (h x) hE hQ
  | arr k ih => exact fun x => ih x (h x) hE hQ
  | time k ih => exact fun x => ih x (h x) hE hQ
  | msgStr k ih => exact fun x => ih x (h x) hE hQ
  | off k ih => exact fun x => ih x (h x) hE hQ
  | set p x k ih => exact ⟨h.1, hE _ h.2.1, h.2.2.1, ih h.2.2.2 hE hQ⟩
  | setdef p x k ih =>
    refine ⟨h.1, hE _ h.2.1, h.2.2.1, ih h.2.2.2 ?_ ?_⟩
    · intro e he
      by_cases hn : isNode p = true
      · rw [if_pos hn] at he ⊢
        rcases List.mem_cons.1 he with rfl | he
        · exact List.mem_cons_self
        · exact List.mem_cons_of_mem _ (hE e he)
      · rw [if_neg hn] at he ⊢
        exact hE e he
    · intro F F' a h1 h2 h3
      refine hQ F F' a h1 (fun e he => h2 e ?_) h3
      by_cases hn : isNode p = true
      · rw [if_pos hn]; exact List.mem_cons_of_mem _ he
      · rw [if_neg hn]; exact he
  | get p k ih => exact ⟨h.1, fun v => ih v (h.2 v) hE hQ⟩

theorem disc_bind {α β : Type} {p : Prog α} {k : α → Prog β} {E : List Path} {Q : List Path → β → Prop}
    (h : Disc p E (fun E' a => Disc (k a) E' Q)) : Disc (p.bind k) E Q := by
  induction p generalizing E with
  | pure a => exact h
  | raise e => trivial
  | num f k ih => exact fun x => ih x (h x)
  | str k ih => exact fun x => ih x (h x)
  | arr k ih => exact fun x => ih x (h x)
  | time k ih => exact fun x => ih x (h x)
  | msgStr k ih => exact fun x => ih x (h x)
  | off k ih => exact fun x => ih x (h x)
  | set p x k ih => exact ⟨h.1, h.2.1, h.2.2.1, ih h.2.2.2⟩
  | setdef p x k ih => exact ⟨h.1, h.2.1, h.2.2.1, ih h.2.2.2⟩
  | get p k ih => exact ⟨h.1, fun v => ih v (h.2 v)⟩

/-- Sequencing with a block whose final groups include `E'`. -/
theorem disc_seq {α β : Type} {p : Prog α} {k : α → Prog β} {E E' : List Path} {Q : List Path → β → Prop}
    (h : Disc p E (fun F _ => ∀ e ∈ E', e ∈ F)) (hk : ∀ a, Disc (k a) E' (fun _ _ => True))
    (hQ : ∀ F b, Q F b) : Disc (p.bind k) E Q :=
  disc_bind (disc_mono h (fun _ he => he) (fun _ _ a h1 _ h3 =>
    disc_mono (hk a) (fun e he => h1 e (h3 e he)) (fun _ F' b _ _ _ => hQ F' b)))

theorem disc_loop {σ : Type} {body : Nat → σ → Prog σ} {E : List Path}
    (h : ∀ i s, Disc (body i s) E (fun _ _ => True)) :
    ∀ n i s, Disc (loop body n i s) E (fun F _ => ∀ e ∈ E, e ∈ F)
  | 0, _, _ => fun _ he => he
  | n + 1, i, s => disc_bind (disc_mono (h i s) (fun _ he => he) (fun _ _ a _ h2 _ =>
      disc_mono (disc_loop h n (i + 1) a) h2 (fun _ _ _ _ h4 _ => fun e he => h4 e (h2 e he))))

/-! ## Gets that the program's own stores do not influence -/

/-- The gets are among `G` and no store changes their answer. -/
def Tame (G : List Path) : Op → Prop
  | .set p _ => ∀ g ∈ G, ¬ p <+: g ∧ ¬ g <+: p
  | .setdef p x => ∀ g ∈ G, ¬ g <+: p ∧ (x = .dict [] ∨ ¬ p <+: g)
  | .get p => p ∈ G
  | .arr => True
  | .msgStr => False

theorem tame_look {G : List Path} {w : W} {d : Val} {g : Path} (hg : g ∈ G)
    (h : match w with
      | .set p x => Tame G (.set p x)
      | .dflt p x => Tame G (.setdef p x)) : Val.look g (w.app d) = Val.look g d := by
  cases w with
  | set p x => exact look_put_other x d (h g hg).1 (h g hg).2
  | dflt p x =>
    rcases (h g hg).2 with rfl | h2
    · exact look_putNew_empty d (h g hg).1
    · exact look_putNew_other x d h2 (h g hg).1

theorem chain_shaped {p : Path} {d : Val} (hs : Shaped d) (hp : okGet p) :
    Val.chain p d = .ok (Val.look p d) :=
  chain_eq_look (fun q k hq w hw => hs q w (hp q k hq) hw)

/-- The result part of a trace. -/
def TRes.result {α : Type} (t : TRes α) : Except PyErr (α × Nat) := t.1.map (fun x => (x.1, x.2.1))

theorem present_put {E : List Path} {d : Val} (hE : ∀ e ∈ E, isNode e = true ∧ ∃ kv, Val.look e d = some (.dict kv))
    {p : Path} {x : Val} (hok : okSet p x) :
    ∀ e ∈ E, isNode e = true ∧ ∃ kv, Val.look e (Val.put p x d) = some (.dict kv) := by
  intro e he
  obtain ⟨hn, kv, hkv⟩ := hE e he
  refine ⟨hn, ?_⟩
  by_cases h1 : p <+: e
  · have := isNode_prefix hn h1; simp [hok.1] at this
  · by_cases h2 : e <+: p
    · exact look_put_above x d h2 (by rintro rfl; exact h1 h2)
    · exact ⟨kv, by rw [look_put_other x d h1 h2, hkv]⟩

theorem present_putNew {E : List Path} {d : Val} (hs : Shaped d)
    (hE : ∀ e ∈ E, isNode e = true ∧ ∃ kv, Val.look e d = some (.dict kv))
    {p : Path} {x : Val} (hok : okDef p x) :
    ∀ e ∈ (if isNode p then p :: E else E), isNode e = true ∧ ∃ kv, Val.look e (Val.putNew p x d) = some (.dict kv) := by
  have old : ∀ e ∈ E, isNode e = true ∧ ∃ kv, Val.look e (Val.putNew p x d) = some (.dict kv) := by
    intro e he
    obtain ⟨hn, kv, hkv⟩ := hE e he
    refine ⟨hn, ?_⟩
    cases hp : Val.look p d with
    | some y => rw [putNew_of_some hp]; exact ⟨kv, hkv⟩
    | none =>
      rw [putNew_of_none hp]
      by_cases h1 : p <+: e
      · obtain ⟨y, hy⟩ := look_prefix_some h1 hkv
        rw [hp] at hy; simp at hy
      · by_cases h2 : e <+: p
        · exact look_put_above x d h2 (by rintro rfl; exact h1 h2)
        · exact ⟨kv, by rw [look_put_other x d h1 h2, hkv]⟩
  by_cases hn : isNode p = true
  · rw [if_pos hn]
    intro e he
    rcases List.mem_cons.1 he with rfl | he
    · refine ⟨hn, ?_⟩
      have hsh := shaped_putNew hs hok
      have hl := look_putNew_same e x d
      have := hsh e _ (by rw [hn]; rfl) hl
      cases hv : (Val.look e d).getD x with
      | dict kv => exact ⟨kv, by rw [hl, hv]⟩
      | _ => rw [hv] at this; simp [Val.isDict] at this
    · exact old e he
  · rw [if_neg hn]; exact old

/-- Running is tracing and replaying the log, on well-shaped data; and the data stays well-shaped. -/
theorem run_trace {α : Type} {p : Prog α} {G E : List Path} {Q : List Path → α → Prop} (hT : AllOps (Tame G) p)
    (hD : Disc p E Q) (buff : Bytes) (env : Path → Option Val) (o : Nat) (d : Val) (hS : Shaped d)
    (hE : ∀ e ∈ E, isNode e = true ∧ ∃ kv, Val.look e d = some (.dict kv))
    (hG : ∀ g ∈ G, env g = Val.look g d) :
    p.run buff o d = ((trace env p o (buff.drop o)).result, replay (trace env p o (buff.drop o)).2 d) ∧
      Shaped (p.run buff o d).2 := by
  have hread : ∀ {γ : Type} (x : Except PyErr (γ × Nat)) (k : γ → Nat → Res α) (k' : γ → Nat → Bytes → TRes α),
      (∀ a n, k a (o + n) = ((k' a (o + n) (buff.drop (o + n))).result, replay (k' a (o + n) (buff.drop (o + n))).2 d) ∧
        Shaped (k a (o + n)).2) →
      andThen (shift o x) d k = ((onRead x o (buff.drop o) k').result, replay (onRead x o (buff.drop o) k').2 d) ∧
        Shaped (andThen (shift o x) d k).2 := by
    intro γ x k k' h
    cases x with
    | error e => exact ⟨rfl, hS⟩
    | ok r =>
      have := h r.1 r.2
      simp only [shift, Except.map, andThen, onRead, List.drop_drop]
      exact this
  induction p generalizing o d E with
  | pure a => exact ⟨rfl, hS⟩
  | raise e => exact ⟨rfl, hS⟩
  | num f k ih =>
    simp only [run, trace]
    rw [getSome_drop f buff o]
    exact hread _ _ (fun x o r => trace env (k x) o r) (fun a n => ih a (hT a) (hD a) (o + n) d hS hE hG (by
      intro γ x k k' h
      cases x with
      | error e => exact ⟨rfl, hS⟩
      | ok r => have := h r.1 r.2
                simp only [shift, Except.map, andThen, onRead, List.drop_drop]
                exact this))
  | str k ih =>
    simp only [run, trace]
    rw [getString_drop buff o]
    exact hread _ _ (fun x o r => trace env (k x) o r) (fun a n => ih a (hT a) (hD a) (o + n) d hS hE hG (by
      intro γ x k k' h
      cases x with
      | error e => exact ⟨rfl, hS⟩
      | ok r => have := h r.1 r.2
                simp only [shift, Except.map, andThen, onRead, List.drop_drop]
                exact this))
  | arr k ih =>
    simp only [run, trace]
    rw [getArray_drop buff o]
    exact hread _ _ (fun x o r => trace env (k x) o r) (fun a n => ih a (hT.2 a) (hD a) (o + n) d hS hE hG (by
      intro γ x k k' h
      cases x with
      | error e => exact ⟨rfl, hS⟩
      | ok r => have := h r.1 r.2
                simp only [shift, Except.map, andThen, onRead, List.drop_drop]
                exact this))
  | time k ih =>
    simp only [run, trace]
    rw [getTime_drop buff o]
    exact hread _ _ (fun x o r => trace env (k x) o r) (fun a n => ih a (hT a) (hD a) (o + n) d hS hE hG (by
      intro γ x k k' h
      cases x with
      | error e => exact ⟨rfl, hS⟩
      | ok r => have := h r.1 r.2
                simp only [shift, Except.map, andThen, onRead, List.drop_drop]
                exact this))
  | msgStr k ih => exact absurd hT.1 (by simp [Tame])
  | off k ih => exact ih o (hT o) (hD o) o d hS hE hG hread
  | set p x k ih =>
    obtain ⟨hne, hpar, hok, hD⟩ := hD
    obtain ⟨-, kv, hkv⟩ := hE _ hpar
    simp only [run, hkv, trace]
    exact ih hT.2 hD o _ (shaped_put hS hok) (present_put hE hok)
      (fun g hg => by rw [hG g hg]; exact (tame_look (w := .set p x) hg hT.1).symm) (by
      intro γ x' k k' h
      cases x' with
      | error e => exact ⟨rfl, shaped_put hS hok⟩
      | ok r => have := h r.1 r.2
                simp only [shift, Except.map, andThen, onRead, List.drop_drop]
                exact this)
  | setdef p x k ih =>
    obtain ⟨hne, hpar, hok, hD⟩ := hD
    obtain ⟨-, kv, hkv⟩ := hE _ hpar
    simp only [run, hkv, trace]
    exact ih hT.2 hD o _ (shaped_putNew hS hok) (present_putNew hS hE hok)
      (fun g hg => by rw [hG g hg]; exact (tame_look (w := .dflt p x) hg hT.1).symm) (by
      intro γ x' k k' h
      cases x' with
      | error e => exact ⟨rfl, shaped_putNew hS hok⟩
      | ok r => have := h r.1 r.2
                simp only [shift, Except.map, andThen, onRead, List.drop_drop]
                exact this)
  | get p k ih =>
    simp only [run, trace]
    rw [chain_shaped hS hD.1, ← hG p hT.1]
    exact ih _ (hT.2 _) (hD.2 _) o d hS hE hG hread

end SL
