import Verif.Spec.Fields
import Verif.Lemmas.Sheets
import Verif.Props.SheetProps
/-! # Every reading is stored with what its message says at the documented place -/
set_option linter.unusedVariables false
set_option maxRecDepth 20000
namespace SL
open Prog (rd rdString rdArray rdTime rdMsgString offset store setdefault lookup throw loop forRange)

/-- A reading whose place in the messages is documented. -/
def Told (p : Path) : Prop := (∃ s, sheet p = some s) ∨ ∃ id : Int, p = [.s "circuit", .i id, .s "value"]

/-- Not inside the state of a circuit. -/
def under : Path → Bool
  | .s "circuit" :: _ :: .s "value" :: _ :: _ => false
  | _ => true

/-- The value a reading stored at this path shows: the state of a circuit is the value itself. -/
def valOf : Path → Val → Option Val
  | [.s "circuit", .i _, .s "value"], v => some v
  | _, .dict kv => aget (.s "value") kv
  | _, v => some v

/-- Told readings are stored with what the message says, when the program starts at offset `o`; the result and the offset
afterwards satisfy `Q`. -/
def Shown (D : Decoder) (m : Bytes) {α : Type} : Prog α → Nat → (α → Nat → Prop) → Prop
  | .pure a, o, Q => Q a o
  | .raise _, _, _ => True
  | .num f k, o, Q => ∀ x, NumAt m o f x → Shown D m (k x) (o + f.size) Q
  | .str k, o, Q => ∀ x o', Shown D m (k x) o' Q
  | .arr k, o, Q => ∀ x o', Shown D m (k x) o' Q
  | .time k, o, Q => ∀ x, Shown D m (k x) (o + 16) Q
  | .msgStr k, o, Q => ∀ x, decodeMessageString m = .ok x → Shown D m (k x) o Q
  | .off k, o, Q => Shown D m (k o) o Q
  | .set p x k, o, Q => under p = true ∧ (∀ v, Told p → valOf p x = some v → Tells D m p v) ∧ Shown D m k o Q
  | .setdef p x k, o, Q => under p = true ∧ ¬ Told p ∧ Shown D m k o Q
  | .get p k, o, Q => ∀ v, Shown D m (k v) o Q

section
variable {D : Decoder} {m : Bytes}

theorem shown_bind {α β : Type} {p : Prog α} {k : α → Prog β} {o : Nat} {R : α → Nat → Prop} {Q : β → Nat → Prop}
    (hp : Shown D m p o R) (hk : ∀ a o', R a o' → Shown D m (k a) o' Q) : Shown D m (p.bind k) o Q := by
  induction p generalizing o with
  | pure a => exact hk a o hp
  | raise e => trivial
  | num f k' ih => exact fun x hx => ih x (hp x hx)
  | str k' ih => exact fun x o' => ih x (hp x o')
  | arr k' ih => exact fun x o' => ih x (hp x o')
  | time k' ih => exact fun x => ih x (hp x)
  | msgStr k' ih => exact fun x hx => ih x (hp x hx)
  | off k' ih => exact ih o hp
  | set q x k' ih => exact ⟨hp.1, hp.2.1, ih hp.2.2⟩
  | setdef q x k' ih => exact ⟨hp.1, hp.2.1, ih hp.2.2⟩
  | get q k' ih => exact fun v => ih v (hp v)

theorem shown_loop {σ : Type} {body : Nat → σ → Prog σ} {n start : Nat} (Inv : Nat → σ → Nat → Prop)
    (h : ∀ i s o, start ≤ i → i < start + n → Inv i s o → Shown D m (body i s) o (Inv (i + 1))) {s : σ} {o : Nat} (h0 : Inv start s o) :
    Shown D m (loop body n start s) o (Inv (start + n)) := by
  induction n generalizing start s o with
  | zero => exact h0
  | succ n ih =>
    refine shown_bind (h start s o (Nat.le_refl _) (by omega) h0) (fun s' o' h' => ?_)
    have := ih (start := start + 1) (fun i s o h1 h2 => h i s o (by omega) (by omega)) h'
    rwa [show start + 1 + n = start + (n + 1) by omega] at this

theorem shown_forRange {body : Nat → Prog Unit} {n : Nat} (Inv : Nat → Nat → Prop)
    (h : ∀ i o, i < n → Inv i o → Shown D m (body i) o (fun _ => Inv (i + 1))) {o : Nat} (h0 : Inv 0 o) :
    Shown D m (forRange n body) o (fun _ => Inv n) := by
  have := shown_loop (D := D) (m := m) (body := fun i (_ : Unit) => body i) (n := n) (start := 0) (fun i _ o => Inv i o)
    (fun i s o _ h2 h3 => h i o (by omega) h3) (s := ()) h0
  rwa [Nat.zero_add] at this

theorem shown_mono {α : Type} {p : Prog α} {o : Nat} {Q R : α → Nat → Prop} (hp : Shown D m p o Q) (h : ∀ a o, Q a o → R a o) : Shown D m p o R := by
  induction p generalizing o with
  | pure a => exact h a o hp
  | raise e => trivial
  | num f k' ih => exact fun x hx => ih x (hp x hx)
  | str k' ih => exact fun x o' => ih x (hp x o')
  | arr k' ih => exact fun x o' => ih x (hp x o')
  | time k' ih => exact fun x => ih x (hp x)
  | msgStr k' ih => exact fun x hx => ih x (hp x hx)
  | off k' ih => exact ih _ hp
  | set q x k' ih => exact ⟨hp.1, hp.2.1, ih hp.2.2⟩
  | setdef q x k' ih => exact ⟨hp.1, hp.2.1, ih hp.2.2⟩
  | get q k' ih => exact fun v => ih v (hp v)

variable {α : Type} {o : Nat} {Q : α → Nat → Prop}
theorem fi_rd {g : Fmt} {k : Int → Prog α} (h : ∀ x, NumAt m o g x → Shown D m (k x) (o + g.size) Q) : Shown D m (rd g >>= k) o Q := h
theorem fi_rdString {k : String → Prog α} (h : ∀ x o', Shown D m (k x) o' Q) : Shown D m (rdString >>= k) o Q := h
theorem fi_rdArray {k : List Int → Prog α} (h : ∀ x o', Shown D m (k x) o' Q) : Shown D m (rdArray >>= k) o Q := h
theorem fi_rdTime {k : DateTime → Prog α} (h : ∀ x, Shown D m (k x) (o + 16) Q) : Shown D m (rdTime >>= k) o Q := h
theorem fi_rdMsgString {k : String → Prog α} (h : ∀ x, decodeMessageString m = .ok x → Shown D m (k x) o Q) : Shown D m (rdMsgString >>= k) o Q := h
theorem fi_offset {k : Nat → Prog α} (h : Shown D m (k o) o Q) : Shown D m (offset >>= k) o Q := h
theorem fi_store {p : Path} {x : Val} {k : Unit → Prog α} (hu : under p = true) (h : ∀ v, Told p → valOf p x = some v → Tells D m p v) (hk : Shown D m (k ()) o Q) :
    Shown D m (store p x >>= k) o Q := ⟨hu, h, hk⟩
theorem fi_store' {p : Path} {x : Val} {Q : Unit → Nat → Prop} (hu : under p = true) (h : ∀ v, Told p → valOf p x = some v → Tells D m p v) (hk : Q () o) :
    Shown D m (store p x) o Q := ⟨hu, h, hk⟩
theorem fi_setdefault {p : Path} {x : Val} {k : Unit → Prog α} (hu : under p = true) (h : ¬ Told p) (hk : Shown D m (k ()) o Q) :
    Shown D m (setdefault p x >>= k) o Q := ⟨hu, h, hk⟩
theorem fi_lookup {p : Path} {k : Option Val → Prog α} (hk : ∀ v, Shown D m (k v) o Q) : Shown D m (lookup p >>= k) o Q := hk
theorem fi_pure {a : α} (h : Q a o) : Shown D m (pure a : Prog α) o Q := h
theorem fi_throw {e : PyErr} : Shown D m (throw (α := α) e) o Q := trivial
theorem fi_bind {β : Type} {p : Prog β} {k : β → Prog α} (R : β → Nat → Prop) (h : Shown D m p o R) (hk : ∀ a o', R a o' → Shown D m (k a) o' Q) :
    Shown D m (p >>= k) o Q := shown_bind h hk
/-- What has been read. -/
theorem fi_known {p : Path} {x v0 : Val} (hv : valOf p x = some v0) (h : Tells D m p v0) : ∀ v, Told p → valOf p x = some v → Tells D m p v := by
  intro v _ e
  rw [hv] at e
  cases e
  exact h
theorem fi_untold {p : Path} {x : Val} (h : ¬ Told p) : ∀ v, Told p → valOf p x = some v → Tells D m p v := fun v ht => absurd ht h
theorem fi_empty {p : Path} (hn : valOf p (.dict []) = none) : ∀ v, Told p → valOf p (.dict []) = some v → Tells D m p v := fun v _ h => by rw [hn] at h; cases h
end

/-- No reading is documented where anything may be stored. -/
theorem sheet_of_op {p : Path} (h : opM (.set p .null)) : sheet p = none := by
  cases hs : sheet p with
  | none => rfl
  | some s =>
    rcases h.2 s hs with ⟨-, e⟩ | ⟨kv, e, -⟩ <;> cases e

theorem untold {p : Path} (h : sheet p = none) (hc : ∀ id : Int, p ≠ [.s "circuit", .i id, .s "value"]) : ¬ Told p := by
  rintro (⟨s, h'⟩ | ⟨id, h'⟩)
  · rw [h] at h'; cases h'
  · exact hc id h'
macro "fi_nc" : tactic => `(tactic| (intro _ h; exact absurd h (by simp)))
macro "fi_untold" : tactic => `(tactic| exact untold rfl (by fi_nc))
macro "fi_unk" : tactic => `(tactic| first
  | exact untold (sheet_of_op (opM_unknown2 _ _ _ rfl)) (by fi_nc)
  | exact untold (sheet_of_op (opM_unknown3 _ _ _ _ rfl (by decide) (by decide))) (by fi_nc)
  | exact untold (sheet_of_op (opM_unknownPump _ _ _)) (by fi_nc)
  | exact untold (sheet_of_op (opM_unknownCircuit _ _ _)) (by fi_nc))

theorem show_flag {v : Int} (k : Nat) : Val.int (onOff v (2 ^ k)) = (Scale.flag k).value v := by
  have : onOff v (2 ^ k) = onOff (v.toNat : Int) (2 ^ k) := by unfold onOff; rw [Int.toNat_natCast]
  rw [this, onOff_bit]
  rfl
theorem show_pair {v : Int} (k : Nat) (h : k = 4 ∨ k = 6) (hv : v.toNat < 256) : Val.int (((v.toNat &&& (3 * 2 ^ k)) >>> k : Nat) : Int) = (Scale.pair k).value v := by
  have : ∀ n : Nat, n < 256 → (n &&& (3 * 2 ^ 4)) >>> 4 = n / 2 ^ 4 % 4 ∧ (n &&& (3 * 2 ^ 6)) >>> 6 = n / 2 ^ 6 % 4 := by decide +kernel
  rcases h with rfl | rfl
  · exact congrArg (fun n : Nat => Val.int n) (this _ hv).1
  · exact congrArg (fun n : Nat => Val.int n) (this _ hv).2
theorem numAt_byte {m : Bytes} {o : Nat} {x : Int} (h : NumAt m o .B x) : 0 ≤ x ∧ x < 256 := by
  obtain ⟨pre, bs, post, -, -, h⟩ := h
  match bs, h with
  | [a], h =>
    simp only [fieldValue, Option.some.injEq] at h
    have := a.toNat_lt
    omega
theorem show_signed {m : Bytes} {o : Nat} {x : Int} (h : NumAt m o .B x) :
    Val.flt (if x.toNat &&& 0x80 ≠ 0 then intDiv (x - 256) 100 else intDiv x 100) = Scale.byteHundredths.value x := by
  obtain ⟨h1, h2⟩ := numAt_byte h
  have : ∀ n : Nat, n < 256 → (n &&& 0x80 ≠ 0 ↔ ¬ n < 128) := by decide +kernel
  have := this x.toNat (by omega)
  simp only [Scale.value]
  by_cases hx : x < 128
  · rw [if_pos hx, if_neg (fun h => this.1 h (by omega))]
  · rw [if_neg hx, if_pos (this.2 (by omega))]

/-- A number read from the message. -/
theorem numAt_read {f : Fmt} {m : Bytes} {o o' : Nat} {x : Int} (h : getSome f m o = .ok (x, o')) : NumAt m o f x ∧ o' = o + f.size := by
  simp only [getSome, unpackFrom, unpackRaw, bind, Except.bind, pure, Except.pure] at h
  split at h
  · cases h
  rename_i v hv
  split at hv
  · cases hv
  rename_i raw hr
  split at hr
  · rename_i hl
    simp only [Except.ok.injEq] at hr hv h
    obtain ⟨rfl, rfl⟩ := Prod.mk.inj h
    subst hv
    subst hr
    refine ⟨⟨m.take o, _, (m.drop o).drop f.size, ?_, ?_, fieldValue_eq f _ ?_⟩, rfl⟩
    · rw [List.append_assoc, List.take_append_drop, List.take_append_drop]
    · rw [List.length_take]; omega
    · rw [List.length_take, List.length_drop]; omega
  · cases hr
theorem time_read {m : Bytes} {o o' : Nat} {x : DateTime} (h : getTime m o = .ok (x, o')) : o' = o + 16 := by
  simp only [getTime, bind, Except.bind, pure, Except.pure] at h
  split at h
  · cases h
  split at h
  · cases h
  · simp only [Except.ok.injEq, Prod.mk.injEq] at h
    exact h.2.symm

/-- Told readings are as known. -/
def KnownAs (K : Path → Val → Prop) (d : Val) : Prop := ∀ q, Told q → ∀ x, d.look q = some x → ∀ v, valOf q x = some v → K q v

theorem told_place {q : Path} (h : Told q) : isNode q.dropLast = true ∧ q.length ≤ 3 := by
  rcases h with ⟨s, h⟩ | ⟨id, rfl⟩
  · exact sheet_place h
  · exact ⟨rfl, Nat.le_refl 3⟩

theorem clear_told {p q : Path} (h : clear p = true) (hu : under p = true) (hq : q <+: p) (hne : q ≠ p) : ¬ Told q := by
  rintro (⟨s, h'⟩ | ⟨id, rfl⟩)
  · rw [clear_prefix h hq hne] at h'; cases h'
  · obtain ⟨r, rfl⟩ := hq
    cases r with
    | nil => exact hne rfl
    | cons a r => simp [under] at hu

/-- Running the program. -/
theorem shown_run {D : Decoder} {m : Bytes} {cid : Profile} {K : Path → Val → Prop} (hK : ∀ q v, Tells D m q v → K q v) {α : Type} {p : Prog α}
    (hp : AllOps (fun op => opOK cid op = true ∧ opM op) p) {o : Nat} {Q : α → Nat → Prop} (hs : Shown D m p o Q) {d : Val} (hd : KnownAs K d) :
    KnownAs K (p.run m o d).2 := by
  induction p generalizing o d with
  | pure a => exact hd
  | raise e => exact hd
  | num f k ih =>
    simp only [Prog.run, Prog.andThen]
    split
    · rename_i x o' hr
      obtain ⟨h1, rfl⟩ := numAt_read hr
      exact ih x (hp x) (hs x h1) hd
    · exact hd
  | str k ih =>
    simp only [Prog.run, Prog.andThen]
    split
    · rename_i x o' hr
      exact ih x (hp x) (hs x o') hd
    · exact hd
  | arr k ih =>
    simp only [Prog.run, Prog.andThen]
    split
    · rename_i x o' hr
      exact ih x (hp.2 x) (hs x o') hd
    · exact hd
  | time k ih =>
    simp only [Prog.run, Prog.andThen]
    split
    · rename_i x o' hr
      rw [time_read hr]
      exact ih x (hp x) (hs x) hd
    · exact hd
  | msgStr k ih =>
    simp only [Prog.run]
    split
    · rename_i x hr
      exact ih x (hp.2 x) (hs x hr) hd
    · exact hd
  | off k ih => exact ih o (hp o) hs hd
  | get q k ih =>
    simp only [Prog.run]
    split
    · rename_i v hr
      exact ih v (hp.2 v) (hs v) hd
    · exact hd
  | set p x k ih =>
    simp only [Prog.run]
    split
    · refine ih hp.2 hs.2.2 (fun q ht y hy v hv => ?_)
      obtain ⟨⟨hop, hc, -⟩, -⟩ := hp
      have hn : isNode p = false := by
        simp only [opOK, Bool.and_eq_true, Bool.not_eq_true', defaulted, Bool.or_eq_false_iff] at hop
        exact hop.2.2.1
      by_cases h3 : p = q
      · subst h3
        rw [look_put_same] at hy
        cases hy
        exact hK _ _ (hs.2.1 v ht hv)
      · by_cases h1 : p <+: q
        · have := isNode_prefix (told_place ht).1 (p := q.dropLast) (q := p) (by
            obtain ⟨r, rfl⟩ := h1
            have : r ≠ [] := by rintro rfl; simp at h3
            rw [List.dropLast_append_of_ne_nil this]
            exact List.prefix_append _ _)
          rw [hn] at this; cases this
        · by_cases h2 : q <+: p
          · exact absurd ht (clear_told hc hs.1 h2 (fun e => h3 e.symm))
          · rw [look_put_other x d h1 h2] at hy
            exact hd q ht y hy v hv
    · exact hd
  | setdef p x k ih =>
    simp only [Prog.run]
    split
    · refine ih hp.2 hs.2.2 (fun q ht y hy v hv => ?_)
      obtain ⟨⟨hop, hc, hsh, hx⟩, -⟩ := hp
      cases hl : Val.look p d with
      | some z => rw [putNew_of_some hl] at hy; exact hd q ht y hy v hv
      | none =>
        rw [putNew_of_none hl] at hy
        by_cases h3 : p = q
        · subst h3; exact absurd ht hs.2.1
        · by_cases h1 : p <+: q
          · obtain ⟨r, rfl⟩ := h1
            have hr : r ≠ [] := by rintro rfl; simp at h3
            rw [look_put_below] at hy
            rcases hx with rfl | hx
            · cases r with
              | nil => exact absurd rfl hr
              | cons k r => simp [Val.look, aget] at hy
            · have := (told_place ht).2
              have := List.length_pos_iff.2 hr
              rw [List.length_append] at *
              omega
          · by_cases h2 : q <+: p
            · exact absurd ht (clear_told hc hs.1 h2 (fun e => h3 e.symm))
            · rw [look_put_other x d h1 h2] at hy
              exact hd q ht y hy v hv
    · exact hd

end SL
