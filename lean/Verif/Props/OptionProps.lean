import Verif.Model.Options
import Verif.Lemmas.Sample
/-!
# C67: `parse`
-/
set_option linter.unusedVariables false

namespace SL

/-! ## Specification -/

/-- The Unicode database agrees with ASCII on ASCII characters. -/
def UnicodeDb.Ascii (U : UnicodeDb) : Prop :=
  ∀ c : Char, c.toNat < 128 →
    (U.isDigit c = true ↔ '0' ≤ c ∧ c ≤ '9') ∧
    ('0' ≤ c ∧ c ≤ '9' → U.decimal c = some (c.toNat - 48)) ∧
    U.upper c = [if 'a' ≤ c ∧ c ≤ 'z' then Char.ofNat (c.toNat - 32) else c]

/-- The number a decimal numeral writes, most significant digit first. -/
def numeral : List (Fin 10) → Nat
  | [] => 0
  | d :: ds => d.val * 10 ^ ds.length + numeral ds

/-- Its digits as characters. -/
def digitChar (d : Fin 10) : Char := Char.ofNat (48 + d.val)

/-- A text spells a member's name: letters in either case, spaces for underscores, apostrophes anywhere. -/
inductive Spells : List Char → List Char → Prop
  | done : Spells [] []
  | apostrophe {s n : List Char} : Spells s n → Spells ('\'' :: s) n
  | space {s n : List Char} : Spells s n → Spells (' ' :: s) ('_' :: n)
  | same {s n : List Char} (c : Char) : Spells s n → Spells (c :: s) (c :: n)
  | lower {s n : List Char} (c : Char) : 'A' ≤ c → c ≤ 'Z' → Spells s n → Spells (Char.ofNat (c.toNat + 32) :: s) (c :: n)

/-- What `parse` gives when the value is not recognised. -/
def Fallback (e : EnumDef) (default : Option Int) (r : Except PyErr (Option Int)) : Prop :=
  match default with
  | none => r = .ok none
  | some d => (d ∈ e.map (·.2) → r = .ok (some d)) ∧ (d ∉ e.map (·.2) → r = .error .valueError)

/-! ## Proofs -/

theorem nameOf_isSome {e : EnumDef} {v : Int} : (e.nameOf v).isSome = true ↔ v ∈ e.map (·.2) := by
  simp only [EnumDef.nameOf, Option.isSome_map, List.find?_isSome, List.mem_map, beq_iff_eq]

theorem parse_none {U : UnicodeDb} {e : EnumDef} {g : Given} (d : Option Int) (h : e.parseTry U g = none) : Fallback e d (e.parse U g d) := by
  unfold EnumDef.parse Fallback
  rw [h]
  cases d with
  | none => rfl
  | some d =>
    simp only
    refine ⟨fun hm => by rw [if_pos (nameOf_isSome.2 hm)], fun hm => by rw [if_neg (fun h => hm (nameOf_isSome.1 h))]⟩

theorem parse_some {U : UnicodeDb} {e : EnumDef} {g : Given} (d : Option Int) {v : Int} (h : e.parseTry U g = some v) :
    e.parse U g d = .ok (some v) := by
  unfold EnumDef.parse
  rw [h]

theorem member_try {e : EnumDef} {v : Int} : (v ∈ e.map (·.2) → (if (e.nameOf v).isSome then some v else none) = some v) ∧
    (v ∉ e.map (·.2) → (if (e.nameOf v).isSome then some v else none) = none) :=
  ⟨fun h => if_pos (nameOf_isSome.2 h), fun h => if_neg (fun h' => h (nameOf_isSome.1 h'))⟩

/-- **C67**, numbers: a member's number gives that member, any other number the default. -/
theorem C67_number (U : UnicodeDb) (e : EnumDef) (n : Int) (d : Option Int) :
    (n ∈ e.map (·.2) → e.parse U (.int n) d = .ok (some n)) ∧ (n ∉ e.map (·.2) → Fallback e d (e.parse U (.int n) d)) :=
  ⟨fun h => parse_some d (member_try.1 h), fun h => parse_none d (member_try.2 h)⟩

theorem digitChar_facts : ∀ d : Fin 10, (digitChar d).toNat = 48 + d.val := by decide

theorem digitChar_range : ∀ d : Fin 10, '0' ≤ digitChar d ∧ digitChar d ≤ '9' := by decide

theorem fold_numeral {U : UnicodeDb} (hU : U.Ascii) (ds : List (Fin 10)) : ∀ a : Int,
    (ds.map digitChar).foldl (fun acc c => acc.bind (fun n => (U.decimal c).map (fun d : Nat => n * 10 + (d : Int)))) (some a) =
      some (a * 10 ^ ds.length + (numeral ds : Nat)) := by
  induction ds with
  | nil => intro a; simp [numeral]
  | cons d ds ih =>
    intro a
    have hd := (hU (digitChar d) (by rw [digitChar_facts]; omega)).2.1 (digitChar_range d)
    simp only [List.map_cons, List.foldl_cons, Option.bind_some, hd, Option.map_some]
    rw [ih, digitChar_facts]
    simp only [numeral, List.length_cons, Int.pow_succ, Nat.add_sub_cancel_left]
    congr 1
    push_cast
    rw [Int.add_mul, Int.mul_assoc, Int.mul_comm 10, Int.add_assoc]

/-- **C67**, numerals (leading zeros allowed): as the number they write; longer ones than CPython converts are not
recognised. -/
theorem C67_numeral (U : UnicodeDb) (hU : U.Ascii) (e : EnumDef) (ds : List (Fin 10)) (hne : ds ≠ []) (d : Option Int) :
    ((numeral ds : Int) ∈ e.map (·.2) → ds.length ≤ 4300 → e.parse U (.text (ds.map digitChar)) d = .ok (some (numeral ds : Int))) ∧
    ((numeral ds : Int) ∉ e.map (·.2) ∨ 4300 < ds.length → Fallback e d (e.parse U (.text (ds.map digitChar)) d)) := by
  have hdig : U.isDigitStr (ds.map digitChar) = true := by
    simp only [UnicodeDb.isDigitStr, Bool.and_eq_true, Bool.not_eq_true', List.all_eq_true, List.mem_map, forall_exists_index,
      and_imp, forall_apply_eq_imp_iff₂]
    refine ⟨by cases ds <;> simp_all, fun x _ => (hU _ (by rw [digitChar_facts]; omega)).1.2 (digitChar_range x)⟩
  have hint : U.intOf (ds.map digitChar) = if 4300 < ds.length then none else some (numeral ds : Int) := by
    unfold UnicodeDb.intOf
    rw [List.length_map, fold_numeral hU]
    simp
  have htry : e.parseTry U (.text (ds.map digitChar)) =
      (if 4300 < ds.length then none else some (numeral ds : Int)).bind (fun n => if (e.nameOf n).isSome then some n else none) := by
    unfold EnumDef.parseTry
    simp only [hdig, if_true, hint]
  constructor
  · intro hm hl
    apply parse_some
    rw [htry, if_neg (by omega), Option.bind_some]
    exact member_try.1 hm
  · intro h
    apply parse_none
    rw [htry]
    split
    · rfl
    · rw [Option.bind_some]
      exact member_try.2 (h.resolve_right (by omega))

/-- Names as the enumerations have them: capitals, digits and underscores. -/
def NameChar (c : Char) : Prop := ('A' ≤ c ∧ c ≤ 'Z') ∨ ('0' ≤ c ∧ c ≤ '9') ∨ c = '_'

instance (c : Char) : Decidable (NameChar c) := by unfold NameChar; infer_instance

theorem enum_names : ∀ e ∈ slEnums, ∀ m ∈ e, (m.1.toList.all (fun c => decide (NameChar c)) && m.1.toList.any (fun c => decide ('A' ≤ c))) = true ∧
    e.valueOf m.1 = some m.2 ∧ e.nameOf m.2 = some m.1 := by decide +kernel

theorem valueOf_some {e : EnumDef} {n : String} {v : Int} (h : e.valueOf n = some v) : (n, v) ∈ e := by
  unfold EnumDef.valueOf at h
  cases hf : e.find? (fun m => m.1 == n) with
  | none => rw [hf] at h; cases h
  | some m =>
    rw [hf] at h
    simp only [Option.map_some, Option.some.injEq] at h
    have h1 := List.mem_of_find?_eq_some hf
    have h2 := List.find?_some hf
    simp only [beq_iff_eq] at h2
    rw [← h, ← h2]
    exact h1

/-- `c.upper()` on ASCII. -/
def up (c : Char) : Char := if 'a' ≤ c ∧ c ≤ 'z' then Char.ofNat (c.toNat - 32) else c

theorem all_ascii {P : Char → Prop} (h : ∀ i : Fin 128, P (Char.ofNat i.val)) : ∀ c : Char, c.toNat < 128 → P c := by
  intro c hc
  have := h ⟨c.toNat, hc⟩
  rwa [Char.ofNat_toNat] at this

theorem up_facts : ∀ c : Char, c.toNat < 128 → (NameChar (up c) → c = up c ∨ ('A' ≤ up c ∧ up c ≤ 'Z' ∧ c = Char.ofNat ((up c).toNat + 32))) ∧
    (NameChar c → up c = c) ∧ ('A' ≤ c ∧ c ≤ 'Z' → up (Char.ofNat (c.toNat + 32)) = c) :=
  all_ascii (by decide +kernel)

theorem nameChar_ascii {c : Char} (h : NameChar c) : c.toNat < 128 ∧ c ≠ ' ' ∧ c ≠ '\'' := by
  rcases h with ⟨h1, h2⟩ | ⟨h1, h2⟩ | h
  · have : c.toNat ≤ 90 := h2
    have h1 : 65 ≤ c.toNat := h1
    refine ⟨by omega, ?_, ?_⟩ <;> rintro rfl <;> exact absurd h1 (by decide)
  · have : c.toNat ≤ 57 := h2
    have h1 : 48 ≤ c.toNat := h1
    refine ⟨by omega, ?_, ?_⟩ <;> rintro rfl <;> exact absurd h1 (by decide)
  · subst h; decide

/-- The normal form of a text as a list. -/
def norm (U : UnicodeDb) (s : List Char) : List Char :=
  ((s.map (fun c => if c = ' ' then '_' else c)).filter (fun c => c != '\'')).flatMap U.upper

theorem norm_cons {U : UnicodeDb} (hU : U.Ascii) (c : Char) (hc : c.toNat < 128) (s : List Char) :
    norm U (c :: s) = if c = '\'' then norm U s else up (if c = ' ' then '_' else c) :: norm U s := by
  have hup : U.upper (if c = ' ' then '_' else c) = [up (if c = ' ' then '_' else c)] := by
    split
    · exact (hU '_' (by decide)).2.2
    · exact (hU c hc).2.2
  unfold norm
  rw [List.map_cons, List.filter_cons]
  by_cases h : c = '\''
  · subst h
    rfl
  · rw [if_neg h, if_pos, List.flatMap_cons, hup, List.singleton_append]
    split
    · rfl
    · simpa using h

theorem norm_spells {U : UnicodeDb} (hU : U.Ascii) : ∀ (s : List Char), (∀ c ∈ s, c.toNat < 128) → ∀ n : List Char, (∀ c ∈ n, NameChar c) →
    (norm U s = n ↔ Spells s n)
  | [], _, n, _ => by
    refine ⟨fun h => ?_, fun h => ?_⟩
    · cases h; exact .done
    · cases h; rfl
  | c :: s, hs, n, hn => by
    have hc := hs c (by simp)
    have ih := norm_spells hU s (fun c h => hs c (by simp [h]))
    rw [norm_cons hU c hc]
    constructor
    · intro h
      split at h
      · rename_i h1
        subst h1
        exact .apostrophe ((ih n hn).1 h)
      · rename_i h1
        cases n with
        | nil => cases h
        | cons x n =>
          simp only [List.cons.injEq] at h
          have ht := (ih n (fun c hc => hn c (by simp [hc]))).1 h.2
          split at h
          · rename_i h2
            subst h2
            have hx : x = '_' := h.1.symm.trans (by decide)
            subst hx
            exact .space ht
          · have hx := hn x (by simp)
            rw [← h.1] at hx
            rcases (up_facts c hc).1 hx with h3 | ⟨h3, h4, h5⟩
            · rw [← h.1, ← h3]
              exact .same c ht
            · rw [h.1] at h3 h4 h5
              rw [h5]
              exact .lower x h3 h4 ht
    · intro h
      cases h with
      | apostrophe h => rw [if_pos rfl]; exact (ih n hn).2 h
      | @space _ n' h =>
        rw [if_neg (by decide), if_pos rfl, (ih n' (fun c hc => hn c (by simp [hc]))).2 h]
        rfl
      | @same _ n' _ h =>
        have hx := hn c (by simp)
        obtain ⟨h0, h1, h2⟩ := nameChar_ascii hx
        rw [if_neg h2, if_neg h1, (ih n' (fun c hc => hn c (by simp [hc]))).2 h, (up_facts c hc).2.1 hx]
      | @lower _ n' x h1 h2 h =>
        have hx := hn x (by simp)
        have e := (up_facts x (nameChar_ascii hx).1).2.2 ⟨h1, h2⟩
        have k1 : Char.ofNat (x.toNat + 32) ≠ '\'' := by
          intro hh
          rw [hh] at e
          rw [← e] at h1
          exact absurd h1 (by decide)
        have k2 : Char.ofNat (x.toNat + 32) ≠ ' ' := by
          intro hh
          rw [hh] at e
          rw [← e] at h1
          exact absurd h1 (by decide)
        rw [if_neg k1, if_neg k2, (ih n' (fun c hc => hn c (by simp [hc]))).2 h, e]

theorem ascii_digits {U : UnicodeDb} (hU : U.Ascii) {s : List Char} (hs : ∀ c ∈ s, c.toNat < 128) :
    U.isDigitStr s = true ↔ ∃ ds : List (Fin 10), ds ≠ [] ∧ s = ds.map digitChar := by
  constructor
  · intro h
    simp only [UnicodeDb.isDigitStr, Bool.and_eq_true, Bool.not_eq_true', List.all_eq_true] at h
    obtain ⟨hne, hd⟩ := h
    have key : ∀ s : List Char, (∀ c ∈ s, '0' ≤ c ∧ c ≤ '9') → ∃ ds : List (Fin 10), s = ds.map digitChar := by
      intro s
      induction s with
      | nil => intro _; exact ⟨[], rfl⟩
      | cons c s ih =>
        intro h
        obtain ⟨ds, e⟩ := ih (fun c hc => h c (by simp [hc]))
        obtain ⟨h1, h2⟩ := h c (by simp)
        have h1 : 48 ≤ c.toNat := h1
        have h2 : c.toNat ≤ 57 := h2
        refine ⟨⟨c.toNat - 48, by omega⟩ :: ds, ?_⟩
        rw [List.map_cons, ← e, digitChar]
        congr 1
        have : 48 + (c.toNat - 48) = c.toNat := by omega
        simp only [this, Char.ofNat_toNat]
    obtain ⟨ds, e⟩ := key s (fun c hc => (hU c (hs c hc)).1.1 (hd c hc))
    refine ⟨ds, ?_, e⟩
    rintro rfl
    rw [e] at hne
    cases hne
  · rintro ⟨ds, hne, rfl⟩
    simp only [UnicodeDb.isDigitStr, Bool.and_eq_true, Bool.not_eq_true', List.all_eq_true, List.mem_map, forall_exists_index,
      and_imp, forall_apply_eq_imp_iff₂]
    exact ⟨by cases ds <;> simp_all, fun x _ => (hU _ (by rw [digitChar_facts]; omega)).1.2 (digitChar_range x)⟩

theorem spells_letter {s n : List Char} (h : Spells s n) : ∀ x ∈ n, 'A' ≤ x → x ≤ 'Z' ∨ x = '_' → ∃ c ∈ s, ¬ ('0' ≤ c ∧ c ≤ '9') := by
  induction h with
  | done => intro x hx; cases hx
  | apostrophe _ _ => intro _ _ _ _; exact ⟨'\'', by simp, by decide⟩
  | space _ _ => intro _ _ _ _; exact ⟨' ', by simp, by decide⟩
  | same c _ ih =>
    intro x hx h1 h2
    rcases List.mem_cons.1 hx with rfl | hx
    · refine ⟨x, by simp, fun h => ?_⟩
      have a : 65 ≤ x.toNat := h1
      have b : x.toNat ≤ 57 := h.2
      omega
    · obtain ⟨c', h3, h4⟩ := ih x hx h1 h2
      exact ⟨c', by simp [h3], h4⟩
  | lower c h3 h4 _ ih =>
    intro x hx h1 h2
    refine ⟨_, List.mem_cons_self .., fun h => ?_⟩
    have a : 65 ≤ c.toNat := h3
    have a2 : c.toNat ≤ 90 := h4
    have b : (Char.ofNat (c.toNat + 32)).toNat ≤ 57 := h.2
    have : ∀ i : Fin 26, ¬ (Char.ofNat ((65 + i.val) + 32)).toNat ≤ 57 := by decide
    apply this ⟨c.toNat - 65, by omega⟩
    have e : 65 + (c.toNat - 65) = c.toNat := by omega
    simp only [e]
    exact b

theorem enum_name_list {e : EnumDef} (he : e ∈ slEnums) {n : String} {v : Int} (hm : (n, v) ∈ e) :
    (∀ c ∈ n.toList, NameChar c) ∧ (∃ c ∈ n.toList, 'A' ≤ c) ∧ e.valueOf n = some v := by
  obtain ⟨h1, h2, _⟩ := enum_names e he (n, v) hm
  simp only [Bool.and_eq_true, List.all_eq_true, List.any_eq_true, decide_eq_true_eq] at h1
  exact ⟨h1.1, h1.2, h2⟩

/-- **C67**, names: every spelling of a member's name (any case, spaces or underscores, with or without apostrophes)
gives that member, for every enumeration of the package and whatever the default. -/
theorem C67_name (U : UnicodeDb) (hU : U.Ascii) (e : EnumDef) (he : e ∈ slEnums) (n : String) (v : Int) (hm : (n, v) ∈ e)
    (s : List Char) (hs : ∀ c ∈ s, c.toNat < 128) (h : Spells s n.toList) (d : Option Int) :
    e.parse U (.text s) d = .ok (some v) := by
  obtain ⟨h1, ⟨x, hx, hxA⟩, h3⟩ := enum_name_list he hm
  apply parse_some
  have hnd : U.isDigitStr s = false := by
    cases hb : U.isDigitStr s with
    | false => rfl
    | true =>
      simp only [UnicodeDb.isDigitStr, Bool.and_eq_true, List.all_eq_true] at hb
      have hxc : x ≤ 'Z' ∨ x = '_' := by
        rcases h1 x hx with h | h | h
        · exact .inl h.2
        · have a : 65 ≤ x.toNat := hxA
          have b : x.toNat ≤ 57 := h.2
          omega
        · exact .inr h
      obtain ⟨c, hc, hcd⟩ := spells_letter h x hx hxA hxc
      exact absurd ((hU c (hs c hc)).1.1 (hb.2 c hc)) hcd
  unfold EnumDef.parseTry
  simp only [hnd, Bool.false_eq_true, if_false]
  have e2 : U.memberName s = n := by
    have := (norm_spells hU s hs n.toList h1).2 h
    unfold UnicodeDb.memberName
    exact (congrArg String.ofList this).trans String.ofList_toList
  rw [e2, h3]

/-- **C67**, everything else: an ASCII text that is neither a numeral nor a spelling of a member's name gives the
default. -/
theorem C67_other (U : UnicodeDb) (hU : U.Ascii) (e : EnumDef) (he : e ∈ slEnums) (s : List Char) (hs : ∀ c ∈ s, c.toNat < 128)
    (hd : ∀ ds : List (Fin 10), ds ≠ [] → s ≠ ds.map digitChar) (hn : ∀ n v, (n, v) ∈ e → ¬ Spells s n.toList) (d : Option Int) :
    Fallback e d (e.parse U (.text s) d) := by
  apply parse_none
  unfold EnumDef.parseTry
  have hnd : ¬ U.isDigitStr s = true := by
    intro h
    obtain ⟨ds, h1, h2⟩ := (ascii_digits hU hs).1 h
    exact hd ds h1 h2
  simp only [hnd]
  cases hv : e.valueOf (U.memberName s) with
  | none => rfl
  | some v =>
    have hm := valueOf_some hv
    obtain ⟨h1, _, _⟩ := enum_name_list he hm
    refine absurd ((norm_spells hU s hs _ h1).1 ?_) (hn _ v hm)
    unfold UnicodeDb.memberName norm
    rw [String.toList_ofList]

/-- **C67**, the title every member shows is a spelling of its name. -/
theorem C67_title (U : UnicodeDb) (hU : U.Ascii) (e : EnumDef) (he : e ∈ slEnums) (n : String) (v : Int) (hm : (n, v) ∈ e) (d : Option Int) :
    e.parse U (.text (e.title n).toList) d = .ok (some v) := by
  have key : ∀ e ∈ slEnums, ∀ m ∈ e, ((e.title m.1).toList.all (fun c => decide (c.toNat < 128)) &&
      decide (norm sampleEnv.uni (e.title m.1).toList = m.1.toList)) = true := by decide +kernel
  have h := key e he (n, v) hm
  simp only [Bool.and_eq_true, List.all_eq_true, decide_eq_true_eq] at h
  have hs : sampleEnv.uni.Ascii := all_ascii (by decide +kernel)
  exact C67_name U hU e he n v hm _ h.1 ((norm_spells hs _ h.1 _ (enum_name_list he hm).1).1 h.2) d

/-- **C67**: with a default that is `None` or a member `parse` never raises, for any int or text (ASCII or not), and gives
the default or a member. -/
theorem C67_total (U : UnicodeDb) (e : EnumDef) (g : Given) (d : Option Int) (hd : ∀ x, d = some x → x ∈ e.map (·.2)) :
    ∃ r, e.parse U g d = .ok r ∧ (r = d ∨ ∃ v ∈ e.map (·.2), r = some v) := by
  cases ht : e.parseTry U g with
  | some v =>
    refine ⟨some v, parse_some d ht, .inr ⟨v, ?_, rfl⟩⟩
    have hn : ∀ n : Int, (if (e.nameOf n).isSome then some n else none) = some v → v ∈ e.map (·.2) := by
      intro n h
      split at h
      · rename_i h'; cases h; exact nameOf_isSome.1 h'
      · cases h
    cases g with
    | int n => exact hn n ht
    | text s =>
      unfold EnumDef.parseTry at ht
      simp only at ht
      split at ht
      · cases hi : U.intOf s with
        | none => rw [hi] at ht; cases ht
        | some n => rw [hi, Option.bind_some] at ht; exact hn n ht
      · exact List.mem_map.2 ⟨_, valueOf_some ht, rfl⟩
  | none =>
    cases d with
    | none => exact ⟨none, parse_none none ht, .inl rfl⟩
    | some x => exact ⟨some x, (parse_none (some x) ht).1 (hd x rfl), .inl rfl⟩

/-- The default default, 0, is a member of all but `STATUS_FLAG` and `STATE_FLAG`; for these two a text that is not
recognised raises `ValueError`. -/
theorem C67_default : (∀ e ∈ slEnums, (0 : Int) ∈ e.map (·.2) ∨ e = enStatusFlag ∨ e = enStateFlag) ∧
    (∀ U : UnicodeDb, U.Ascii → enStatusFlag.parse U (.text "x".toList) (some 0) = .error .valueError ∧
      enStateFlag.parse U (.text "x".toList) (some 0) = .error .valueError) := by
  refine ⟨by decide +kernel, fun U hU => ?_⟩
  have hx : ∀ c ∈ "x".toList, c.toNat < 128 := by decide
  have hd : U.isDigitStr "x".toList = false := by
    have := (hU 'x' (by decide)).1
    have h2 : U.isDigit 'x' = false := by
      cases hb : U.isDigit 'x' with
      | false => rfl
      | true => exact absurd (this.1 hb) (by decide)
    show (true && (U.isDigit 'x' && true)) = false
    rw [h2]; rfl
  have hm : U.memberName "x".toList = "X" := by
    have e : norm U ['x'] = ['X'] := by
      rw [norm_cons hU 'x' (by decide)]; rfl
    exact congrArg String.ofList e
  constructor
  · refine (parse_none (some 0) ?_).2 (by decide)
    unfold EnumDef.parseTry
    simp only [hd, Bool.false_eq_true, if_false, hm]
    decide
  · refine (parse_none (some 0) ?_).2 (by decide)
    unfold EnumDef.parseTry
    simp only [hd, Bool.false_eq_true, if_false, hm]
    decide

/-- **C67**: the values listed as parsable are, member by member, its number and its name; each of them gives its member. -/
theorem C67_parsable (U : UnicodeDb) (hU : U.Ascii) (e : EnumDef) (he : e ∈ slEnums) (d : Option Int) :
    (∀ n v, (n, v) ∈ e → toString v ∈ e.parsableValues ∧ n.toLower ∈ e.parsableValues) ∧
    ∀ t ∈ e.parsableValues, ∃ n v, (n, v) ∈ e ∧ (t = toString v ∨ t = n.toLower) ∧ e.parse U (.text t.toList) d = .ok (some v) := by
  refine ⟨fun n v hm => ?_, fun t ht => ?_⟩
  · exact ⟨List.mem_flatMap.2 ⟨_, hm, by simp⟩, List.mem_flatMap.2 ⟨_, hm, by simp⟩⟩
  · obtain ⟨⟨n, v⟩, hm, ht⟩ := List.mem_flatMap.1 ht
    have hs : sampleEnv.uni.Ascii := all_ascii (by decide +kernel)
    rcases List.mem_cons.1 ht with rfl | ht
    · refine ⟨n, v, hm, .inl rfl, ?_⟩
      have key : ∀ e ∈ slEnums, ∀ m ∈ e, (toString m.2).toList ≠ [] ∧
          (toString m.2).toList.all (fun c => decide (c.toNat < 128) && c.isDigit) = true ∧ (toString m.2).toList.length ≤ 4300 ∧
          numeral ((toString m.2).toList.map (fun c => (Fin.ofNat 10 (c.toNat - 48)))) = m.2 ∧
          ((toString m.2).toList.map (fun c => (Fin.ofNat 10 (c.toNat - 48)))).map digitChar = (toString m.2).toList := by decide +kernel
      obtain ⟨k1, k2, k3, k4, k5⟩ := key e he (n, v) hm
      have := (C67_numeral U hU e ((toString v).toList.map (fun c => (Fin.ofNat 10 (c.toNat - 48)))) (by simpa using k1) d).1
        (by rw [k4]; exact List.mem_map.2 ⟨_, hm, rfl⟩) (by simpa using k3)
      rw [k4, k5] at this
      exact this
    · rw [List.mem_singleton.1 ht]
      refine ⟨n, v, hm, .inr rfl, ?_⟩
      have key : ∀ e ∈ slEnums, ∀ m ∈ e, (m.1.toLower.toList.all (fun c => decide (c.toNat < 128)) &&
          decide (norm sampleEnv.uni m.1.toLower.toList = m.1.toList)) = true := by decide +kernel
      have h := key e he (n, v) hm
      simp only [Bool.and_eq_true, List.all_eq_true, decide_eq_true_eq] at h
      exact C67_name U hU e he n v hm _ h.1 ((norm_spells hs _ h.1 _ (enum_name_list he hm).1).1 h.2) d

/-- `parse` with the default 0 is what the gateway's setters use. -/
theorem parse_default (U : UnicodeDb) (e : EnumDef) : (∀ n, e.parse U (.int n) (some 0) = ((e.parseInt n).elim (.error .valueError) (fun v => .ok (some v)))) ∧
    ∀ s, e.parse U (.text s) (some 0) = ((e.parseStr U s).elim (.error .valueError) (fun v => .ok (some v))) := by
  constructor
  · intro n
    unfold EnumDef.parse EnumDef.parseTry EnumDef.parseInt
    by_cases h : (e.nameOf n).isSome = true
    · simp [h]
    · by_cases h0 : (e.nameOf 0).isSome = true <;> simp [h, h0]
  · intro s
    unfold EnumDef.parse EnumDef.parseTry EnumDef.parseStr
    by_cases hd : U.isDigitStr s = true
    · simp only [hd, if_true]
      cases U.intOf s with
      | none => by_cases h0 : (e.nameOf 0).isSome = true <;> simp [h0]
      | some n =>
        by_cases h : (e.nameOf n).isSome = true
        · simp [h]
        · by_cases h0 : (e.nameOf 0).isSome = true <;> simp [h, h0]
    · simp only [hd]
      cases e.valueOf (U.memberName s) with
      | none => by_cases h0 : (e.nameOf 0).isSome = true <;> simp [h0]
      | some n => simp

/-- Concrete cases: the laws hold of a host's database, a spelling with an apostrophe, a numeral with leading zeros, and a text that is
neither. -/
theorem C67_witness : sampleEnv.uni.Ascii ∧ Spells "doN't Change".toList "DONT_CHANGE".toList ∧
    enHeatMode.parse sampleEnv.uni (.text "doN't Change".toList) none = .ok (some 4) ∧
    enHeatMode.parse sampleEnv.uni (.text "003".toList) none = .ok (some 3) ∧
    enHeatMode.parse sampleEnv.uni (.text "warm".toList) none = .ok none ∧
    enHeatMode.parse sampleEnv.uni (.text "warm".toList) (some 1) = .ok (some 1) ∧
    enColorMode.parse sampleEnv.uni (.int 99) (some 0) = .ok (some 0) := by
  have hs : sampleEnv.uni.Ascii := all_ascii (by decide +kernel)
  refine ⟨hs, (norm_spells hs _ (by decide) _ (by decide)).1 (by decide +kernel), ?_⟩
  decide +kernel

end SL
