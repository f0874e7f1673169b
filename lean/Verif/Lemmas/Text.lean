import Verif.Model.Text
/-! # Codec round-trip lemmas -/
namespace SL

theorem scalar?_toNat (c : Char) : scalar? c.toNat = some c := by
  unfold scalar?
  have h : c.toNat.isValidChar := c.valid
  rw [dif_pos h]
  simp only [Option.some.injEq]
  apply Char.ext
  show UInt32.ofNatLT c.val.toNat _ = c.val
  apply UInt32.toNat.inj
  simp

theorem scalar?_eq {n : Nat} (c : Char) (h : n = c.toNat) : scalar? n = some c := by
  subst h; exact scalar?_toNat c

theorem Char.toNat_lt (c : Char) : c.toNat < 0x110000 := by
  have h : c.toNat.isValidChar := c.valid
  unfold Nat.isValidChar at h; omega

theorem Char.toNat_not_surrogate (c : Char) : c.toNat < 0xD800 ∨ 0xDFFF < c.toNat := by
  have h : c.toNat.isValidChar := c.valid
  unfold Nat.isValidChar at h; omega

theorem toNat_ofNat_lt {n : Nat} (h : n < 256) : (UInt8.ofNat n).toNat = n := by
  simp [UInt8.toNat_ofNat']; omega

theorem utf8Next_char (c : Char) (t : Bytes) :
    ∃ b0 r, utf8EncodeChar c ++ t = b0 :: r ∧ utf8Next b0 r = some (c, t) ∧ t.length ≤ r.length := by
  have hc := Char.toNat_lt c
  have hs := Char.toNat_not_surrogate c
  have key : ∀ n, n = c.toNat → scalar? n = some c := fun n h => scalar?_eq c h
  unfold utf8EncodeChar
  generalize c.toNat = n at *
  simp only
  by_cases h1 : n < 0x80
  · rw [if_pos h1]
    simp only [List.cons_append, List.nil_append]; refine ⟨_, _, rfl, ?_, by simp⟩
    unfold utf8Next
    simp only [toNat_ofNat_lt (show n < 256 by omega)]
    rw [if_pos h1, key n rfl]; rfl
  · rw [if_neg h1]
    by_cases h2 : n < 0x800
    · rw [if_pos h2]
      simp only [List.cons_append, List.nil_append]; refine ⟨_, _, rfl, ?_, by simp⟩
      unfold utf8Next
      simp only [isCont, toNat_ofNat_lt (show 0xC0 + n / 64 < 256 by omega),
        toNat_ofNat_lt (show 0x80 + n % 64 < 256 by omega)]
      rw [if_neg (by omega), if_neg (by omega), if_pos (by omega)]
      rw [if_pos (by simp; omega), key _ (by omega)]; rfl
    · rw [if_neg h2]
      by_cases h3 : n < 0x10000
      · rw [if_pos h3]
        simp only [List.cons_append, List.nil_append]; refine ⟨_, _, rfl, ?_, by simp; omega⟩
        unfold utf8Next
        simp only [isCont, toNat_ofNat_lt (show 0xE0 + n / 4096 < 256 by omega),
          toNat_ofNat_lt (show 0x80 + n / 64 % 64 < 256 by omega),
          toNat_ofNat_lt (show 0x80 + n % 64 < 256 by omega)]
        rw [if_neg (by omega), if_neg (by omega), if_neg (by omega), if_pos (by omega)]
        rw [if_pos (by simp; omega), key _ (by omega)]; rfl
      · rw [if_neg h3]
        simp only [List.cons_append, List.nil_append]; refine ⟨_, _, rfl, ?_, by simp; omega⟩
        unfold utf8Next
        simp only [isCont, toNat_ofNat_lt (show 0xF0 + n / 262144 < 256 by omega),
          toNat_ofNat_lt (show 0x80 + n / 4096 % 64 < 256 by omega),
          toNat_ofNat_lt (show 0x80 + n / 64 % 64 < 256 by omega),
          toNat_ofNat_lt (show 0x80 + n % 64 < 256 by omega)]
        rw [if_neg (by omega), if_neg (by omega), if_neg (by omega), if_neg (by omega), if_pos (by omega)]
        rw [if_pos (by simp; omega), key _ (by omega)]; rfl

theorem utf8DecodeN_encode (s : List Char) : ∀ fuel, (utf8Encode s).length ≤ fuel →
    utf8DecodeN fuel (utf8Encode s) = some s := by
  induction s with
  | nil => intro fuel _; simp [utf8Encode, utf8DecodeN]
  | cons c s ih =>
    intro fuel hf
    have e : utf8Encode (c :: s) = utf8EncodeChar c ++ utf8Encode s := by simp [utf8Encode]
    obtain ⟨b0, r, he, hn, hl⟩ := utf8Next_char c (utf8Encode s)
    rw [e, he] at hf ⊢
    simp only [List.length_cons] at hf
    cases fuel with
    | zero => omega
    | succ fuel =>
      rw [utf8DecodeN, hn]
      simp only
      rw [ih fuel (by omega)]; rfl

theorem utf8_roundtrip (s : List Char) : utf8Decode (utf8Encode s) = some s :=
  utf8DecodeN_encode s _ (Nat.le_refl _)

theorem utf8Encode_nuls (k : Nat) : utf8Encode (List.replicate k nul) = List.replicate k 0 := by
  induction k with
  | zero => rfl
  | succ k ih =>
    rw [List.replicate_succ, List.replicate_succ, ← ih]; rfl

theorem utf8_roundtrip_pad (s : List Char) (k : Nat) :
    utf8Decode (utf8Encode s ++ List.replicate k 0) = some (s ++ List.replicate k nul) := by
  rw [← utf8Encode_nuls, show utf8Encode s ++ utf8Encode (List.replicate k nul) =
    utf8Encode (s ++ List.replicate k nul) by simp [utf8Encode], utf8_roundtrip]

theorem utf16Units_units (us : List Nat) (h : ∀ u ∈ us, u < 65536) (t : Bytes) :
    utf16Units false (us.flatMap unitLE ++ t) = (utf16Units false t).map (us ++ ·) := by
  induction us with
  | nil => simp
  | cons u us ih =>
    have hu := h u (by simp)
    have e : (u :: us).flatMap unitLE ++ t =
        UInt8.ofNat (u % 256) :: UInt8.ofNat (u / 256) :: (us.flatMap unitLE ++ t) := by
      simp [unitLE]
    rw [e, utf16Units, ih (fun v hv => h v (by simp [hv]))]
    cases utf16Units false t with
    | none => rfl
    | some r =>
      simp only [Option.map_some, toNat_ofNat_lt (show u % 256 < 256 by omega),
        toNat_ofNat_lt (show u / 256 < 256 by omega)]
      simp; omega

theorem utf16EncodeChar_lt (c : Char) : ∀ u ∈ utf16EncodeChar c, u < 65536 := by
  have hc := Char.toNat_lt c
  intro u hu
  unfold utf16EncodeChar at hu
  simp only at hu
  split at hu
  · simp at hu; omega
  · simp at hu; omega

theorem utf16Next_char (c : Char) (t : List Nat) :
    ∃ u r, utf16EncodeChar c ++ t = u :: r ∧ utf16Next u r = some (c, t) ∧ t.length ≤ r.length := by
  have hc := Char.toNat_lt c
  have hs := Char.toNat_not_surrogate c
  have key : ∀ n, n = c.toNat → scalar? n = some c := fun n h => scalar?_eq c h
  unfold utf16EncodeChar
  generalize c.toNat = n at *
  simp only
  by_cases h1 : n < 0x10000
  · rw [if_pos h1]
    simp only [List.cons_append, List.nil_append]
    refine ⟨_, _, rfl, ?_, by simp⟩
    unfold utf16Next
    rw [if_neg (by omega), key n rfl]; rfl
  · rw [if_neg h1]
    simp only [List.cons_append, List.nil_append]
    refine ⟨_, _, rfl, ?_, by simp⟩
    unfold utf16Next
    rw [if_pos (by omega)]
    simp only
    rw [if_pos (by omega), key _ (by omega)]; rfl

theorem utf16CharsN_encode (s : List Char) : ∀ fuel, (s.flatMap utf16EncodeChar).length ≤ fuel →
    utf16CharsN fuel (s.flatMap utf16EncodeChar) = some s := by
  induction s with
  | nil => intro fuel _; simp [utf16CharsN]
  | cons c s ih =>
    intro fuel hf
    rw [List.flatMap_cons] at hf ⊢
    obtain ⟨b0, r, he, hn, hl⟩ := utf16Next_char c (s.flatMap utf16EncodeChar)
    rw [he] at hf ⊢
    simp only [List.length_cons] at hf
    cases fuel with
    | zero => omega
    | succ fuel =>
      rw [utf16CharsN, hn]
      simp only
      rw [ih fuel (by omega)]; rfl

theorem utf16Chars_encode (s : List Char) : utf16Chars (s.flatMap utf16EncodeChar) = some s :=
  utf16CharsN_encode s _ (Nat.le_refl _)

theorem utf16_nuls (k : Nat) : (List.replicate k nul).flatMap utf16EncodeChar = List.replicate k 0 := by
  induction k with
  | zero => rfl
  | succ k ih => rw [List.replicate_succ, List.replicate_succ, ← ih]; rfl

theorem length_flatMap_unitLE (us : List Nat) : (us.flatMap unitLE).length = 2 * us.length := by
  induction us with
  | nil => rfl
  | cons u us ih => simp only [List.flatMap_cons, List.length_append, ih, List.length_cons, unitLE, List.length_nil]; omega

theorem utf16Units_zeros (k : Nat) :
    utf16Units false (List.replicate (2 * k) 0) = some (List.replicate k 0) := by
  induction k with
  | zero => rfl
  | succ k ih =>
    have : List.replicate (2 * (k + 1)) (0 : UInt8) = 0 :: 0 :: List.replicate (2 * k) 0 := by
      rw [show 2 * (k + 1) = 2 * k + 1 + 1 by omega, List.replicate_succ, List.replicate_succ]
    rw [this, utf16Units, ih, List.replicate_succ]; simp

theorem length_utf16Encode (s : List Char) : ∃ n, (utf16Encode s).length = 2 * n := by
  refine ⟨1 + (s.flatMap utf16EncodeChar).length, ?_⟩
  unfold utf16Encode
  rw [List.length_append, length_flatMap_unitLE]; simp; omega

theorem utf16_roundtrip_pad (s : List Char) (k : Nat) :
    utf16Decode (utf16Encode s ++ List.replicate (2 * k) 0) = some (s ++ List.replicate k nul) := by
  have e : utf16Encode s ++ List.replicate (2 * k) 0 =
      0xFF :: 0xFE :: ((s.flatMap utf16EncodeChar).flatMap unitLE ++ List.replicate (2 * k) 0) := by
    simp [utf16Encode]
  rw [e]
  unfold utf16Decode
  simp only
  rw [utf16Units_units _ (by
    intro u hu
    rw [List.mem_flatMap] at hu
    obtain ⟨c, -, hc⟩ := hu
    exact utf16EncodeChar_lt c u hc), utf16Units_zeros]
  simp only [Option.map_some]
  rw [← utf16_nuls, ← List.flatMap_append, utf16Chars_encode]

theorem utf16_roundtrip (s : List Char) : utf16Decode (utf16Encode s) = some s := by
  have := utf16_roundtrip_pad s 0
  simpa using this

theorem dropWhile_nuls (lead core : List Char) (hl : ∀ c ∈ lead, c = nul)
    (hc : core.head? ≠ some nul) :
    (lead ++ core).dropWhile (· == nul) = core := by
  induction lead with
  | nil =>
    cases core with
    | nil => rfl
    | cons c cs =>
      simp only [List.head?_cons, ne_eq, Option.some.injEq] at hc
      simp [hc]
  | cons c cs ih =>
    have := hl c (by simp)
    subst this
    simp only [List.cons_append, List.dropWhile_cons, beq_self_eq_true, if_true]
    exact ih (fun d hd => hl d (by simp [hd]))

theorem stripNul_spec (lead core trail : List Char) (hl : ∀ c ∈ lead, c = nul)
    (ht : ∀ c ∈ trail, c = nul) (h1 : core.head? ≠ some nul) (h2 : core.getLast? ≠ some nul) :
    stripNul (lead ++ core ++ trail) = core := by
  unfold stripNul stripBy
  cases hcore : core with
  | nil =>
    subst hcore
    have : (lead ++ [] ++ trail).dropWhile (· == nul) = [] := by
      have := dropWhile_nuls (lead ++ trail) [] (by
        intro c hc; rw [List.mem_append] at hc; exact hc.elim (hl c) (ht c)) (by simp)
      simpa using this
    rw [this]; rfl
  | cons c cs =>
    rw [← hcore]
    rw [List.append_assoc, dropWhile_nuls lead (core ++ trail) hl (by simp [hcore] at h1 ⊢; exact h1)]
    rw [List.reverse_append, dropWhile_nuls trail.reverse core.reverse
      (by intro c hc; exact ht c (by simpa using hc)) (by rw [List.head?_reverse]; exact h2)]
    simp

end SL
