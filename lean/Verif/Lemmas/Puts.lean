import Verif.Lemmas.Places
import Verif.Props.StatusProps
/-! # Every reading a message says something about is stored -/
set_option linter.unusedVariables false
set_option maxRecDepth 20000
namespace SL
open Prog (rd rdString rdArray rdTime rdMsgString offset store setdefault lookup throw loop forRange)

/-- No operation stores an empty group. -/
def Filled {α : Type} (p : Prog α) : Prop := AllOps (fun op => match op with | .set _ x => x ≠ .dict [] | _ => True) p

/-- Whenever the program, started at offset `o`, ends normally, it has stored something at `q` (if `s`, it is not empty and stays so). -/
def Puts (s : Bool) (m : Bytes) (q : Path) {α : Type} : Prog α → Nat → Prop
  | .pure _, _ => False
  | .raise _, _ => True
  | .num f k, o => ∀ x, NumAt m o f x → Puts s m q (k x) (o + f.size)
  | .str k, o => ∀ x o', Puts s m q (k x) o'
  | .arr k, o => ∀ x o', Puts s m q (k x) o'
  | .time k, o => ∀ x, Puts s m q (k x) (o + 16)
  | .msgStr k, o => ∀ x, decodeMessageString m = .ok x → Puts s m q (k x) o
  | .off k, o => Puts s m q (k o) o
  | .set p x k, o => (p = q ∧ (s = true → x ≠ .dict [] ∧ Filled k)) ∨ Puts s m q k o
  | .setdef p x k, o => Puts s m q k o
  | .get p k, o => ∀ v, Puts s m q (k v) o

section
variable {D : Decoder} {m : Bytes} {q : Path} {s : Bool}

theorem puts_first {α β : Type} {p : Prog α} {k : α → Prog β} {o : Nat} (hp : Puts false m q p o) : Puts false m q (p >>= k) o := by
  show Puts false m q (p.bind k) o
  induction p generalizing o with
  | pure a => exact hp.elim
  | raise e => trivial
  | num f k' ih => exact fun x hx => ih x (hp x hx)
  | str k' ih => exact fun x o' => ih x (hp x o')
  | arr k' ih => exact fun x o' => ih x (hp x o')
  | time k' ih => exact fun x => ih x (hp x)
  | msgStr k' ih => exact fun x hx => ih x (hp x hx)
  | off k' ih => exact ih o hp
  | set p x k' ih => exact hp.imp (fun h => ⟨h.1, fun e => by cases e⟩) ih
  | setdef p x k' ih => exact ih hp
  | get p k' ih => exact fun v => ih v (hp v)

theorem puts_then {α β : Type} {p : Prog α} {k : α → Prog β} {o : Nat} {R : α → Nat → Prop} (hp : Shown D m p o R)
    (hk : ∀ a o', R a o' → Puts s m q (k a) o') : Puts s m q (p >>= k) o := by
  show Puts s m q (p.bind k) o
  induction p generalizing o with
  | pure a => exact hk a o hp
  | raise e => trivial
  | num f k' ih => exact fun x hx => ih x (hp x hx)
  | str k' ih => exact fun x o' => ih x (hp x o')
  | arr k' ih => exact fun x o' => ih x (hp x o')
  | time k' ih => exact fun x => ih x (hp x)
  | msgStr k' ih => exact fun x hx => ih x (hp x hx)
  | off k' ih => exact ih o hp
  | set p x k' ih => exact .inr (ih hp.2.2)
  | setdef p x k' ih => exact ih hp.2.2
  | get p k' ih => exact fun v => ih v (hp v)

theorem puts_loop {σ : Type} {body : Nat → σ → Prog σ} {n start : Nat} (Inv : Nat → σ → Nat → Prop)
    (h : ∀ i s o, start ≤ i → i < start + n → Inv i s o → Shown D m (body i s) o (Inv (i + 1))) {s : σ} {o : Nat} (h0 : Inv start s o)
    {j : Nat} (hj : start ≤ j) (hj' : j < start + n) (hp : ∀ s o, Inv j s o → Puts false m q (body j s) o) :
    Puts false m q (loop body n start s) o := by
  induction n generalizing start s o with
  | zero => omega
  | succ n ih =>
    by_cases e : start = j
    · subst e
      exact puts_first (hp s o h0)
    · refine puts_then (h start s o (Nat.le_refl _) (by omega) h0) (fun s' o' h' => ?_)
      exact ih (start := start + 1) (fun i s o h1 h2 => h i s o (by omega) (by omega)) h' (by omega) (by omega)

theorem puts_forRange {body : Nat → Prog Unit} {n : Nat} (Inv : Nat → Nat → Prop)
    (h : ∀ i o, i < n → Inv i o → Shown D m (body i) o (fun _ => Inv (i + 1))) {o : Nat} (h0 : Inv 0 o) {j : Nat} (hj : j < n)
    (hp : ∀ o, Inv j o → Puts false m q (body j) o) : Puts false m q (forRange n body) o :=
  puts_loop (D := D) (body := fun i (_ : Unit) => body i) (start := 0) (fun i _ o => Inv i o)
    (fun i s o _ h2 h3 => h i o (by omega) h3) (s := ()) h0 (Nat.zero_le _) (by omega) (fun _ o h => hp o h)

variable {α : Type} {o : Nat}
theorem pt_rd {g : Fmt} {k : Int → Prog α} (h : ∀ x, NumAt m o g x → Puts s m q (k x) (o + g.size)) : Puts s m q (rd g >>= k) o := h
theorem pt_rdString {k : String → Prog α} (h : ∀ x o', Puts s m q (k x) o') : Puts s m q (rdString >>= k) o := h
theorem pt_rdArray {k : List Int → Prog α} (h : ∀ x o', Puts s m q (k x) o') : Puts s m q (rdArray >>= k) o := h
theorem pt_rdTime {k : DateTime → Prog α} (h : ∀ x, Puts s m q (k x) (o + 16)) : Puts s m q (rdTime >>= k) o := h
theorem pt_rdMsgString {k : String → Prog α} (h : ∀ x, Puts s m q (k x) o) : Puts s m q (rdMsgString >>= k) o := fun x _ => h x
theorem pt_offset {k : Nat → Prog α} (h : Puts s m q (k o) o) : Puts s m q (offset >>= k) o := h
theorem pt_here {p : Path} {x : Val} {k : Unit → Prog α} (h : p = q) : Puts false m q (store p x >>= k) o := .inl ⟨h, fun e => by cases e⟩
theorem pt_here' {p : Path} {x : Val} (h : p = q) : Puts false m q (store p x) o := .inl ⟨h, fun e => by cases e⟩
theorem pt_full {p : Path} {x : Val} {k : Unit → Prog α} (h : p = q) (hx : x ≠ .dict []) (hk : Filled (k ())) : Puts s m q (store p x >>= k) o := .inl ⟨h, fun _ => ⟨hx, hk⟩⟩
theorem pt_full' {p : Path} {x : Val} (h : p = q) (hx : x ≠ .dict []) : Puts s m q (store p x) o := .inl ⟨h, fun _ => ⟨hx, trivial⟩⟩
theorem pt_skip {p : Path} {x : Val} {k : Unit → Prog α} (h : Puts s m q (k ()) o) : Puts s m q (store p x >>= k) o := .inr h
theorem pt_setdefault {p : Path} {x : Val} {k : Unit → Prog α} (h : Puts s m q (k ()) o) : Puts s m q (setdefault p x >>= k) o := h
theorem pt_lookup {p : Path} {k : Option Val → Prog α} (hk : ∀ v, Puts s m q (k v) o) : Puts s m q (lookup p >>= k) o := hk
end

/-- A reading that is not empty stays so, when nothing empty is put there. -/
theorem filled_at_run {cid : Profile} {q : Path} {s : Sheet} (hq : sheet q = some s) {α : Type} {p : Prog α}
    (hp : AllOps (fun op => opOK cid op = true ∧ opM op) p) (hf : AllOps (fun op => match op with | .set p x => p = q → x ≠ .dict [] | _ => True) p)
    (m : Bytes) (o : Nat) {d : Val} (h : Val.look q d ≠ some (.dict [])) :
    Val.look q (p.run m o d).2 ≠ some (.dict []) := by
  have hn := (sheet_place hq).1
  have hpre : ∀ p : Path, p <+: q → p ≠ q → isNode p = true := by
    intro p hp hne
    refine isNode_prefix hn ?_
    obtain ⟨r, rfl⟩ := hp
    have : r ≠ [] := by rintro rfl; simp at hne
    rw [List.dropLast_append_of_ne_nil this]
    exact List.prefix_append _ _
  refine run_rel (R := fun a b => Val.look q a ≠ some (.dict []) → Val.look q b ≠ some (.dict [])) (fun _ h => h)
    (fun a b c h1 h2 h => h2 (h1 h)) ?_ ?_ (allOps_and hp hf) m o d h
  · rintro p x d ⟨⟨hop, hc, -⟩, hx⟩ h
    have hnp : isNode p = false := by
      simp only [opOK, Bool.and_eq_true, Bool.not_eq_true', defaulted, Bool.or_eq_false_iff] at hop
      exact hop.2.2.1
    by_cases h2 : p = q
    · subst h2
      rw [look_put_same]
      exact fun e => hx rfl (Option.some.inj e)
    · by_cases h1 : p <+: q
      · rw [hpre p h1 h2] at hnp; cases hnp
      · by_cases h3 : q <+: p
        · rw [clear_prefix hc h3 (fun e => h2 e.symm)] at hq; cases hq
        · rw [look_put_other x d h1 h3]; exact h
  · rintro p x d ⟨⟨-, hc, hsh, hx⟩, -⟩ h
    cases hl : Val.look p d with
    | some y => rw [putNew_of_some hl]; exact h
    | none =>
      rw [putNew_of_none hl]
      by_cases h2 : p = q
      · subst h2; rw [hsh] at hq; cases hq
      · by_cases h3 : q <+: p
        · rw [clear_prefix hc h3 (fun e => h2 e.symm)] at hq; cases hq
        · by_cases h1 : p <+: q
          · obtain ⟨r, rfl⟩ := h1
            rw [look_put_below]
            have hr : r ≠ [] := by rintro rfl; simp at h2
            rcases hx with rfl | hx
            · cases r with
              | nil => exact absurd rfl hr
              | cons k r => simp [Val.look, aget]
            · have := (sheet_place hq).2
              have := List.length_pos_iff.2 hr
              rw [List.length_append] at *
              omega
          · rw [look_put_other x d h1 h3]; exact h

/-- A reading that is not empty stays so. -/
theorem filled_run {cid : Profile} {q : Path} {s : Sheet} (hq : sheet q = some s) {α : Type} {p : Prog α}
    (hp : AllOps (fun op => opOK cid op = true ∧ opM op) p) (hf : Filled p) (m : Bytes) (o : Nat) {d : Val} (h : Val.look q d ≠ some (.dict [])) :
    Val.look q (p.run m o d).2 ≠ some (.dict []) := by
  refine filled_at_run hq hp (allOps_mono (fun op h => ?_) hf) m o h
  cases op with
  | set p x => exact fun _ => h
  | _ => trivial

/-- The program stores a told reading with what the message says. -/
theorem puts_run {D : Decoder} {m : Bytes} {cid : Profile} {q : Path} (hq : Told q) {s : Bool} {α : Type} {p : Prog α}
    (hp : AllOps (fun op => opOK cid op = true ∧ opM op) p) {o : Nat} {Q : α → Nat → Prop} (hs : Shown D m p o Q) (hw : Puts s m q p o) {d : Val}
    {r : α × Nat} (hr : (p.run m o d).1 = .ok r) :
    (Val.look q (p.run m o d).2).isSome ∧ (∀ x, Val.look q (p.run m o d).2 = some x → ∀ v, valOf q x = some v → Tells D m q v) ∧
      (s = true → (sheet q).isSome → Val.look q (p.run m o d).2 ≠ some (.dict [])) := by
  induction p generalizing o d with
  | pure a => exact hw.elim
  | raise e => cases hr
  | num f k ih =>
    simp only [Prog.run, Prog.andThen] at hr ⊢
    split at hr
    · rename_i x o' hx
      obtain ⟨h1, rfl⟩ := numAt_read hx
      exact ih x (hp x) (hs x h1) (hw x h1) hr
    · cases hr
  | str k ih =>
    simp only [Prog.run, Prog.andThen] at hr ⊢
    split at hr
    · rename_i x o' hx
      exact ih x (hp x) (hs x o') (hw x o') hr
    · cases hr
  | arr k ih =>
    simp only [Prog.run, Prog.andThen] at hr ⊢
    split at hr
    · rename_i x o' hx
      exact ih x (hp.2 x) (hs x o') (hw x o') hr
    · cases hr
  | time k ih =>
    simp only [Prog.run, Prog.andThen] at hr ⊢
    split at hr
    · rename_i x o' hx
      have := time_read hx
      subst this
      exact ih x (hp x) (hs x) (hw x) hr
    · cases hr
  | msgStr k ih =>
    simp only [Prog.run] at hr ⊢
    split at hr
    · rename_i x hx
      exact ih x (hp.2 x) (hs x hx) (hw x hx) hr
    · cases hr
  | off k ih => exact ih o (hp o) hs hw hr
  | get p k ih =>
    simp only [Prog.run] at hr ⊢
    split at hr
    · rename_i v hv
      exact ih v (hp.2 v) (hs v) (hw v) hr
    · cases hr
  | setdef p x k ih =>
    simp only [Prog.run] at hr ⊢
    split at hr
    · exact ih hp.2 hs.2.2 hw hr
    · cases hr
  | set p x k ih =>
    simp only [Prog.run] at hr ⊢
    split at hr
    · rcases hw with ⟨rfl, hfull⟩ | hw
      · have hk : KnownAs (fun q v => q = p → Tells D m p v) (Val.put p x d) := by
          intro q ht y hy v hv e
          subst e
          rw [look_put_same] at hy
          cases hy
          exact hs.2.1 v hq hv
        refine ⟨present_run (f := cid) (allOps_mono (fun op h => h.1) hp.2) m o _ p (told_place hq).1 (by rw [look_put_same]; rfl), ?_, ?_⟩
        · intro y hy v hv
          exact shown_run (K := fun q v => q = p → Tells D m p v) (fun q v h e => e ▸ h) hp.2 hs.2.2 hk p hq y hy v hv rfl
        · intro hs' hsh
          obtain ⟨s', hsh⟩ := Option.isSome_iff_exists.1 hsh
          refine filled_run hsh hp.2 (hfull hs').2 m o ?_
          rw [look_put_same]
          exact fun e => (hfull hs').1 (Option.some.inj e)
      · exact ih hp.2 hs.2.2 hw hr
    · cases hr

/-- What a message says at a place is one number. -/
theorem numAt_unique {m : Bytes} {o : Nat} {f : Fmt} {x y : Int} (hx : NumAt m o f x) (hy : NumAt m o f y) : x = y := by
  obtain ⟨pre, bs, post, e1, l1, h1⟩ := hx
  obtain ⟨pre', bs', post', e2, l2, h2⟩ := hy
  have hlen : ∀ {bs : Bytes} {z : Int}, fieldValue f bs = some z → bs.length = f.size := by
    intro bs z h
    unfold fieldValue at h
    split at h <;> first | rfl | cases h
  have a := hlen h1
  have b := hlen h2
  rw [e1, List.append_assoc, List.append_assoc] at e2
  obtain ⟨-, e3⟩ := List.append_inj e2 (by rw [l1, l2])
  obtain ⟨rfl, -⟩ := List.append_inj e3 (by rw [a, b])
  rw [h1] at h2
  exact Option.some.inj h2

macro "pt_step" : tactic =>
  `(tactic| first
    | exact pt_here (by with_reducible rfl)
    | exact pt_here' (by with_reducible rfl)
    | (refine pt_skip ?_)
    | (refine pt_rd (fun _ _ => ?_))
    | (refine pt_setdefault ?_)
    | (refine pt_offset ?_)
    | (refine pt_rdString (fun _ _ => ?_))
    | (refine pt_rdArray (fun _ _ => ?_))
    | (refine pt_rdTime (fun _ => ?_))
    | (refine pt_rdMsgString (fun _ => ?_)))

/-- Every key of a list, one after the other. -/
theorem all_keys {α β : Type} {P : α → Prop} {l : List (α × β)} (h : ∀ a ∈ l.map (·.1), P a) {a : α} {b : β} (hm : (a, b) ∈ l) : P a :=
  h a (List.mem_map.2 ⟨_, hm, rfl⟩)

theorem puts_scg (m : Bytes) {q : Path} {f : Place} (h : (q, f) ∈ scgPlaces) : Puts false m q decodeScg 0 := by
  refine all_keys (P := fun q => Puts false m q decodeScg 0) ?_ h
  simp only [scgPlaces, List.map_cons, List.map_nil, List.forall_mem_cons]
  unfold decodeScg
  refine ⟨?_, ?_, ?_, ?_, ?_, ?_, by simp⟩ <;> repeat pt_step

theorem puts_dateTime (now : Rat) (m : Bytes) {q : Path} {f : Place} (h : (q, f) ∈ timePlaces) : Puts false m q (decodeDateTime now) 0 := by
  refine all_keys (P := fun q => Puts false m q (decodeDateTime now) 0) ?_ h
  simp only [timePlaces, List.map_cons, List.map_nil, List.forall_mem_cons]
  unfold decodeDateTime
  refine ⟨?_, by simp⟩ <;> repeat pt_step

theorem puts_chemistry (m : Bytes) : ∀ q ∈ chemPlaces.map (·.1) ++ [[.s "intellichem", .s "firmware"]], Puts false m q decodeChemistry 0 := by
  have hA : ∀ q ∈ (chemPlaces.take 10).map (·.1), Puts false m q decodeChemistryA 0 := by
    simp only [chemPlaces, List.take, List.map_cons, List.map_nil, List.forall_mem_cons]
    unfold decodeChemistryA
    refine ⟨?_, ?_, ?_, ?_, ?_, ?_, ?_, ?_, ?_, ?_, by simp⟩ <;> repeat pt_step
  have hB : ∀ q ∈ ((chemPlaces.drop 10).take 6).map (·.1), Puts false m q decodeChemistryB 27 := by
    simp only [chemPlaces, List.take, List.drop, List.map_cons, List.map_nil, List.forall_mem_cons]
    unfold decodeChemistryB
    refine ⟨?_, ?_, ?_, ?_, ?_, ?_, by simp⟩
    all_goals repeat pt_step
    all_goals refine puts_then (shown_unit .chemistry _ _) (fun _ _ _ => ?_)
    all_goals repeat pt_step
  have hC : ∀ q ∈ ((chemPlaces.drop 16).take 13).map (·.1), Puts false m q decodeChemistryC 37 := by
    simp only [chemPlaces, List.take, List.drop, List.map_cons, List.map_nil, List.forall_mem_cons]
    unfold decodeChemistryC
    refine ⟨?_, ?_, ?_, ?_, ?_, ?_, ?_, ?_, ?_, ?_, ?_, ?_, ?_, by simp⟩ <;> repeat pt_step
  have hD : ∀ q ∈ (chemPlaces.drop 29).map (·.1) ++ [[.s "intellichem", .s "firmware"]], Puts false m q decodeChemistryD 40 := by
    simp only [chemPlaces, List.drop, List.map_cons, List.map_nil, List.cons_append, List.nil_append, List.forall_mem_cons]
    unfold decodeChemistryD
    refine ⟨?_, ?_, ?_, by simp⟩ <;> repeat pt_step
  intro q hq
  have e : chemPlaces.map (·.1) ++ [[Key.s "intellichem", .s "firmware"]] = (chemPlaces.take 10).map (·.1) ++ (((chemPlaces.drop 10).take 6).map (·.1) ++
      (((chemPlaces.drop 16).take 13).map (·.1) ++ ((chemPlaces.drop 29).map (·.1) ++ [[.s "intellichem", .s "firmware"]]))) := rfl
  rw [e, List.mem_append, List.mem_append, List.mem_append] at hq
  unfold decodeChemistry
  rcases hq with h | h | h | h
  · exact puts_first (hA q h)
  · refine puts_then (shown_chemistryA m) (fun _ o ho => ?_)
    subst ho
    exact puts_first (hB q h)
  · refine puts_then (shown_chemistryA m) (fun _ o ho => ?_)
    subst ho
    refine puts_then (shown_chemistryB m) (fun _ o ho => ?_)
    subst ho
    exact puts_first (hC q h)
  · refine puts_then (shown_chemistryA m) (fun _ o ho => ?_)
    subst ho
    refine puts_then (shown_chemistryB m) (fun _ o ho => ?_)
    subst ho
    refine puts_then (shown_chemistryC m) (fun _ o ho => ?_)
    subst ho
    exact hD q h

theorem puts_statusHead (m : Bytes) : ∀ q ∈ statusPlaces.map (·.1), Puts false m q decodeStatusHead 0 := by
  simp only [statusPlaces, List.map_cons, List.map_nil, List.forall_mem_cons]
  unfold decodeStatusHead
  refine ⟨?_, ?_, ?_, ?_, ?_, ?_, by simp⟩
  all_goals repeat pt_step
  all_goals refine puts_then (shown_unit .status _ _) (fun _ _ _ => ?_)
  all_goals repeat pt_step

theorem puts_statusTail (m : Bytes) (o : Nat) : ∀ q ∈ tailPlaces.map (·.1), Puts false m q decodeStatusTail o := by
  simp only [tailPlaces, List.map_cons, List.map_nil, List.forall_mem_cons]
  unfold decodeStatusTail
  refine ⟨?_, ?_, ?_, ?_, ?_, ?_, ?_, by simp⟩ <;> repeat pt_step

theorem puts_body (u : String) (sp : Option Val) (m : Bytes) (k o : Nat) :
    ∀ key ∈ bodyPlaces.map (·.1), Puts false m [.s "body", .i k, .s key] (decodeBody u sp k) o := by
  simp only [bodyPlaces, List.map_cons, List.map_nil, List.forall_mem_cons]
  unfold decodeBody
  refine ⟨?_, ?_, ?_, ?_, ?_, by simp⟩
  all_goals repeat pt_step
  all_goals refine puts_then (shown_blind (D := .status) (apart_copySetpoints _ _ _) (blind_copySetpoints _ _ _) _) (fun _ o' h => ?_)
  all_goals repeat pt_step

theorem puts_statusCircuit (m : Bytes) (id : Int) (j o : Nat) (hid : NumAt m o .I id) :
    Puts false m [.s "circuit", .i id, .s "value"] (decodeStatusCircuit j) o := by
  unfold decodeStatusCircuit
  refine pt_rd (fun x hx => ?_)
  cases numAt_unique hx hid
  repeat pt_step

/-- What is put when the status is read. -/
theorem puts_status (m : Bytes) {q : Path} {v : Val} (h : Tells .status m q v) : Puts false m q decodeStatus 0 := by
  unfold decodeStatus
  generalize hD : Decoder.status = D at h
  cases h with
  | fixed _ _ _ f _ hf _ =>
    subst hD
    exact puts_first (puts_statusHead m q (List.mem_map.2 ⟨_, hf, rfl⟩))
  | body _ k key f _ n hn hk hf _ =>
    refine puts_then (shown_statusHead m) (fun u o h => ?_)
    subst h
    refine pt_rd (fun n' hn' => ?_)
    cases numAt_unique hn hn'
    refine pt_lookup (fun sp => pt_setdefault (puts_first ?_))
    exact puts_forRange (D := .status) (fun i o => o = 20 + 24 * i) (fun i o hi h => by subst h; exact shown_body u sp m hn i hi) rfl hk
      (fun o _ => puts_body u sp m k o key (List.mem_map.2 ⟨_, hf, rfl⟩))
  | circuit _ id j _ n c hn hc hj hid _ =>
    refine puts_then (shown_statusHead m) (fun u o h => ?_)
    subst h
    refine pt_rd (fun n' hn' => ?_)
    cases numAt_unique hn hn'
    refine pt_lookup (fun sp => pt_setdefault ?_)
    refine puts_then (shown_forRange (D := .status) (fun i o => o = 20 + 24 * i) (fun i o hi h => by subst h; exact shown_body u sp m hn i hi) rfl) (fun _ o h => ?_)
    subst h
    refine pt_rd (fun c' hc' => ?_)
    cases numAt_unique hc hc'
    refine pt_setdefault (puts_first ?_)
    refine puts_forRange (D := .status) (fun i o => o = 24 + 24 * min n.toNat 2 + 12 * i) (fun i o hi h => by subst h; exact shown_statusCircuit m hn hc i hi)
      (by show 20 + _ + 4 = _; omega) hj (fun o h => ?_)
    subst h
    exact puts_statusCircuit m id j _ hid
  | tail _ _ f _ n c hn hc hf _ =>
    refine puts_then (shown_statusHead m) (fun u o h => ?_)
    subst h
    refine pt_rd (fun n' hn' => ?_)
    refine pt_lookup (fun sp => pt_setdefault ?_)
    refine puts_then (shown_forRange (D := .status) (fun i o => o = 20 + 24 * i) (fun i o hi h => by subst h; exact shown_body u sp m hn' i hi) rfl) (fun _ o h => ?_)
    subst h
    refine pt_rd (fun c' hc' => ?_)
    refine pt_setdefault ?_
    refine puts_then (shown_forRange (D := .status) (fun i o => o = 24 + 24 * min n'.toNat 2 + 12 * i) (fun i o hi h => by subst h; exact shown_statusCircuit m hn' hc' i hi)
      (by show 20 + _ + 4 = _; omega)) (fun _ o h => ?_)
    exact puts_statusTail m o q (List.mem_map.2 ⟨_, hf, rfl⟩)
  | _ => cases hD

theorem puts_config (m : Bytes) {q : Path} {v : Val} (h : Tells .config m q v) : Puts false m q decodeConfig 0 := by
  have key : q = [.s "controller", .s "configuration", .s "is_celsius"] ∨ q = [.s "controller", .s "model"] := by
    generalize hD : Decoder.config = D at h
    cases h with
    | fixed _ _ _ f _ hf _ =>
      subst hD
      simp only [places, configPlaces, List.mem_singleton, Prod.mk.injEq] at hf
      exact .inl hf.1
    | model => exact .inr rfl
    | _ => cases hD
  unfold decodeConfig
  refine puts_first ?_
  unfold decodeConfigHead
  rcases key with rfl | rfl
  · refine pt_setdefault (pt_rd (fun _ _ => pt_skip (pt_setdefault (pt_setdefault ?_))))
    refine puts_then (shown_forRange (D := .config) (fun i o => o = 4 + 2 * i) (fun i o hi h => by subst h; exact shown_setpoints i m _) rfl) (fun _ o h => ?_)
    repeat pt_step
  · refine pt_setdefault (pt_rd (fun _ _ => pt_skip (pt_setdefault (pt_setdefault ?_))))
    refine puts_then (shown_forRange (D := .config) (fun i o => o = 4 + 2 * i) (fun i o hi h => by subst h; exact shown_setpoints i m _) rfl) (fun _ o h => ?_)
    repeat pt_step

theorem apart_preset (i : Int) (j : Nat) (n : String) : AllOps opU (decodePreset i j n) := by
  unfold decodePreset
  ap_step; ap_step; ap_step
  refine ap_lookup (fun v => ?_)
  refine ap_bind ?_ (fun _ => ?_)
  · unfold pumpName
    split
    · exact ap_pure
    · exact apart_nameFromCircuits _ _ _
    · exact ap_throw
  repeat ap_step

theorem puts_pump (i : Int) (m : Bytes) {q : Path} {v : Val} (h : Tells (.pump i) m q v) : Puts true m q (decodePump i) 0 := by
  obtain ⟨key, f, hf, rfl⟩ : ∃ key f, (key, f) ∈ pumpPlaces ∧ q = [.s "pump", .i i, .s key] := by
    generalize hD : Decoder.pump i = D at h
    cases h with
    | fixed _ _ _ f _ hf _ => subst hD; simp [places] at hf
    | pump j _ key f _ hf _ => cases hD; exact ⟨key, f, hf, rfl⟩
    | _ => cases hD
  unfold decodePump
  refine pt_setdefault (pt_setdefault (pt_rd (fun _ _ => pt_skip (pt_rd (fun _ _ => pt_setdefault ?_)))))
  refine puts_then (shown_blind (D := .pump i) (by unfold setPumpState; split <;> repeat ap_step) (by unfold setPumpState; split <;> trivial) _) (fun _ o h => ?_)
  refine pt_rd (fun _ _ => pt_skip ?_)
  refine pt_rd (fun _ _ => pt_skip ?_)
  refine pt_offset (pt_rd (fun _ _ => pt_skip ?_))
  refine pt_rd (fun _ _ => pt_skip ?_)
  refine pt_offset (pt_rd (fun _ _ => pt_skip ?_))
  refine pt_setdefault ?_
  refine puts_then (shown_apart (D := .pump i) (ap_loop (fun j s => apart_preset _ _ _) _ _ _) _) (fun name o _ => ?_)
  unfold decodePumpTail
  refine pt_skip ?_
  simp only [pumpPlaces, List.mem_cons, Prod.mk.injEq, List.not_mem_nil, or_false] at hf
  rcases hf with ⟨rfl, -⟩ | ⟨rfl, -⟩ | ⟨rfl, -⟩
  · exact pt_full rfl (by simp [entry]) ⟨by simp [entry], by simp [entry], trivial⟩
  · exact pt_skip (pt_full rfl (by simp [entry]) ⟨by simp [entry], trivial⟩)
  · exact pt_skip (pt_skip (pt_full' rfl (by simp [entry])))

theorem puts_version (g : String → Except PyErr Rat) (m : Bytes) : Puts false m [.s "adapter", .s "firmware"] (decodeVersion g) 0 := by
  unfold decodeVersion
  repeat pt_step
  refine puts_then (shown_blind (D := .version) (apart_floatPart _ _ _) (blind_floatPart _ _ _) _) (fun _ o h => ?_)
  refine puts_then (shown_blind (D := .version) (apart_floatPart _ _ _) (blind_floatPart _ _ _) _) (fun _ o h => ?_)
  repeat pt_step

/-- What is put by a decoder. -/
theorem Decoder.puts (f : String → Except PyErr Rat) (D : Decoder) (m : Bytes) {q : Path} {v : Val} (h : Tells D m q v) :
    ∃ s, Puts s m q (D.prog f) 0 ∧ ((∃ i, D = .pump i) → s = true) := by
  cases D with
  | status => exact ⟨false, puts_status m h, fun ⟨i, e⟩ => by cases e⟩
  | config => exact ⟨false, puts_config m h, fun ⟨i, e⟩ => by cases e⟩
  | pump i => exact ⟨true, puts_pump i m h, fun _ => rfl⟩
  | scg =>
    refine ⟨false, ?_, fun ⟨i, e⟩ => by cases e⟩
    generalize hD : Decoder.scg = D at h
    cases h with
    | fixed _ _ _ f _ hf _ => subst hD; exact puts_scg m hf
    | _ => cases hD
  | chemistry =>
    refine ⟨false, puts_chemistry m q ?_, fun ⟨i, e⟩ => by cases e⟩
    generalize hD : Decoder.chemistry = D at h
    cases h with
    | fixed _ _ _ f _ hf _ => subst hD; exact List.mem_append_left _ (List.mem_map.2 ⟨_, hf, rfl⟩)
    | chemFirmware => exact List.mem_append_right _ (by simp)
    | _ => cases hD
  | dateTime now =>
    refine ⟨false, ?_, fun ⟨i, e⟩ => by cases e⟩
    generalize hD : Decoder.dateTime now = D at h
    cases h with
    | fixed _ _ _ f _ hf _ => subst hD; exact puts_dateTime now m hf
    | _ => cases hD
  | version =>
    refine ⟨false, ?_, fun ⟨i, e⟩ => by cases e⟩
    generalize hD : Decoder.version = D at h
    cases h with
    | fixed _ _ _ f _ hf _ => subst hD; simp [places] at hf
    | firmware => exact puts_version f m
    | _ => cases hD
  | colorUpdate =>
    exfalso
    generalize hD : Decoder.colorUpdate = D at h
    cases h with
    | fixed _ _ _ f _ hf _ => subst hD; simp [places] at hf
    | _ => cases hD
  | equipment =>
    exfalso
    generalize hD : Decoder.equipment = D at h
    cases h with
    | fixed _ _ _ f _ hf _ => subst hD; simp [places] at hf
    | _ => cases hD

end SL
