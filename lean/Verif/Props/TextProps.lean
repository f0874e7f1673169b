import Verif.Lemmas.Wire
import Verif.Lemmas.Text
/-!
# C04, C05: text fields
-/
namespace SL
open Spec

/-- Independent definition of the UTF-8 bytes of a text: Lean's own `String.toUTF8`. -/
def specUtf8 (s : String) : Bytes := s.toUTF8.data.toList

theorem utf8EncodeChar_eq_lean (c : Char) : utf8EncodeChar c = String.utf8EncodeChar c := by
  have hc := Char.toNat_lt c
  unfold utf8EncodeChar String.utf8EncodeChar
  rw [show c.val.toNat = c.toNat from rfl]
  generalize c.toNat = n at *
  simp only
  by_cases h1 : n < 0x80
  · rw [if_pos h1, if_pos (by omega)]
  · rw [if_neg h1, if_neg (show ¬ n ≤ 127 by omega)]
    by_cases h2 : n < 0x800
    · rw [if_pos h2, if_pos (show n ≤ 2047 by omega),
        show 0xC0 + n / 64 = n / 64 % 32 + 192 by omega, show 0x80 + n % 64 = n % 64 + 128 by omega]
    · rw [if_neg h2, if_neg (show ¬ n ≤ 2047 by omega)]
      by_cases h3 : n < 0x10000
      · rw [if_pos h3, if_pos (show n ≤ 65535 by omega),
          show 0xE0 + n / 4096 = n / 4096 % 16 + 224 by omega,
          show 0x80 + n / 64 % 64 = n / 64 % 64 + 128 by omega, show 0x80 + n % 64 = n % 64 + 128 by omega]
      · rw [if_neg h3, if_neg (show ¬ n ≤ 65535 by omega),
          show 0xF0 + n / 262144 = n / 262144 % 8 + 240 by omega,
          show 0x80 + n / 4096 % 64 = n / 4096 % 64 + 128 by omega,
          show 0x80 + n / 64 % 64 = n / 64 % 64 + 128 by omega, show 0x80 + n % 64 = n % 64 + 128 by omega]

theorem utf8Encode_eq_lean (s : String) : utf8Encode s.toList = specUtf8 s := by
  have h : s = String.ofList s.toList := by simp
  unfold specUtf8
  rw [h, String.toUTF8_eq_toByteArray, String.toByteArray_ofList]
  simp only [List.utf8Encode, utf8Encode, String.toList_ofList]
  rw [List.data_toByteArray]
  have : utf8EncodeChar = String.utf8EncodeChar := funext utf8EncodeChar_eq_lean
  rw [this]

theorem or_highbit {n : Nat} (h : n < 2 ^ 31) : n ||| 0x80000000 = n + 2 ^ 31 := by
  have := Nat.two_pow_add_eq_or_of_lt h 1
  rw [Nat.mul_one] at this
  rw [Nat.or_comm, show 0x80000000 = 2 ^ 31 by rfl, ← this]; omega

theorem and_highbit_lt {n : Nat} (h : n < 2 ^ 31) : n &&& 0x80000000 = 0 := by
  have h2 : (n &&& 2 ^ 31) = 0 := by
    apply Nat.eq_of_testBit_eq
    intro i
    rw [Nat.testBit_and, Nat.testBit_two_pow]
    by_cases hi : 31 = i
    · subst hi; simp [Nat.testBit_lt_two_pow h]
    · simp [hi]
  exact h2

theorem and_highbit_ge {n : Nat} (h : n < 2 ^ 31) : (n + 2 ^ 31) &&& 0x80000000 ≠ 0 := by
  intro h0
  have h1 : ((n + 2 ^ 31) &&& 2 ^ 31) = 0 := h0
  have h2 : ((n + 2 ^ 31) &&& 2 ^ 31).testBit 31 = true := by
    rw [Nat.testBit_and, Nat.testBit_two_pow, Nat.add_comm, Nat.testBit_two_pow_add_eq,
      Nat.testBit_lt_two_pow h]; rfl
  rw [h1] at h2; simp at h2

theorem and_low {n : Nat} (h : n < 2 ^ 31) : (n + 2 ^ 31) &&& 0x7FFFFFFF = n := by
  have := Nat.and_two_pow_sub_one_eq_mod (n + 2 ^ 31) 31
  rw [show 0x7FFFFFFF = 2 ^ 31 - 1 by rfl, this]; omega

/-- The bytes of a text in the chosen encoding. -/
def textBytes (utf16 : Bool) (s : List Char) : Bytes := if utf16 then utf16Encode s else utf8Encode s

/-- The length word: byte count, with the top bit set for UTF-16. -/
def lengthWord (utf16 : Bool) (n : Nat) : Nat := if utf16 then n + 2 ^ 31 else n

theorem lengthWord_lt {utf16 : Bool} {n : Nat} (h : n < 2 ^ 31) : lengthWord utf16 n < 4294967296 := by
  unfold lengthWord; split <;> omega

/-- C04 (layout): below 2 GiB the encoding is a 4-byte length word (byte count, top bit = UTF-16), the
encoded text, and zero bytes up to a multiple of 4. -/
theorem C04_text_layout (s : String) (utf16 : Bool)
    (h : (textBytes utf16 s.toList).length < 2 ^ 31) :
    encodeMessageString s utf16 = .ok
      (u32 (lengthWord utf16 (textBytes utf16 s.toList).length) ++ textBytes utf16 s.toList ++
        List.replicate (pad4 (textBytes utf16 s.toList).length) 0) := by
  unfold encodeMessageString
  have e : (if utf16 = true then utf16Encode s.toList else utf8Encode s.toList)
      = textBytes utf16 s.toList := rfl
  simp only [e, pad4_eq]
  have hl : (if utf16 = true then (textBytes utf16 s.toList).length ||| 0x80000000
      else (textBytes utf16 s.toList).length) = lengthWord utf16 (textBytes utf16 s.toList).length := by
    unfold lengthWord; split
    · exact or_highbit h
    · rfl
  rw [hl, packU_ok_nat (by have := lengthWord_lt (utf16 := utf16) h; omega), Except_bind_ok, u32_eq]
  simp [pure, Except.pure]

theorem decodeText_textBytes (utf16 : Bool) (s : List Char) :
    decodeText utf16 (textBytes utf16 s) = .ok s := by
  unfold decodeText textBytes
  cases utf16
  · simp [utf8_roundtrip]
  · simp [utf16_roundtrip]

theorem highbit_lengthWord {utf16 : Bool} {n : Nat} (h : n < 2 ^ 31) :
    decide (lengthWord utf16 n &&& 0x80000000 ≠ 0) = utf16 := by
  unfold lengthWord
  cases utf16
  · simpa using and_highbit_lt h
  · simpa using and_highbit_ge h

theorem low_lengthWord {utf16 : Bool} {n : Nat} (h : n < 2 ^ 31) :
    (if utf16 = true then lengthWord utf16 n &&& 0x7FFFFFFF else lengthWord utf16 n) = n := by
  unfold lengthWord
  cases utf16
  · simp
  · simpa using and_low h

/-- C04 (round trip): decoding an encoded text gives back the same text — any characters, NULs
included — whatever bytes follow the encoding. -/
theorem C04_text_roundtrip (s : String) (utf16 : Bool)
    (h : (textBytes utf16 s.toList).length < 2 ^ 31) :
    ∃ bs, encodeMessageString s utf16 = .ok bs ∧ bs.length % 4 = 0 ∧
      ∀ rest, decodeMessageString (bs ++ rest) = .ok s := by
  refine ⟨_, C04_text_layout s utf16 h, ?_, ?_⟩
  · simp only [List.length_append, length_u32, List.length_replicate, pad4]; omega
  · intro rest
    unfold decodeMessageString
    generalize hb : textBytes utf16 s.toList = b at *
    generalize hz : List.replicate (pad4 b.length) (0 : UInt8) = z
    have e1 : u32 (lengthWord utf16 b.length) ++ b ++ z ++ rest =
        [] ++ (u32 (lengthWord utf16 b.length) ++ (b ++ z ++ rest)) := by simp
    have e2 : u32 (lengthWord utf16 b.length) ++ b ++ z ++ rest =
        u32 (lengthWord utf16 b.length) ++ (b ++ (z ++ rest)) := by simp
    have u1 : unpackFrom .I (u32 (lengthWord utf16 b.length) ++ b ++ z ++ rest) 0
        = .ok (lengthWord utf16 b.length) := by
      rw [e1, unpackFrom_append .I [] (u32 (lengthWord utf16 b.length)) _ (off := 0) rfl rfl]
      simp only [Fmt.value, leVal_u32 (lengthWord_lt h)]
    have u2 : unpackRaw b.length (u32 (lengthWord utf16 b.length) ++ b ++ z ++ rest) 4 = .ok b := by
      rw [e2]; exact unpackRaw_append _ _ _ rfl (by simp)
    rw [u1, Except_bind_ok]
    simp only [Int.toNat_natCast, highbit_lengthWord h, low_lengthWord h]
    rw [u2, Except_bind_ok, ← hb, decodeText_textBytes, Except_bind_ok]
    simp [pure, Except.pure]

/-- C04: for UTF-8 the text bytes are the standard ones (Lean's `String.toUTF8`). -/
theorem C04_utf8_standard (s : String) : textBytes false s.toList = s.toUTF8.data.toList :=
  utf8Encode_eq_lean s

example : encodeMessageString "Pöol" false =
    .ok [5, 0, 0, 0, 0x50, 0xC3, 0xB6, 0x6F, 0x6C, 0, 0, 0] := by decide
example : encodeMessageString "a🌊" true =
    .ok [8, 0, 0, 0x80, 0xFF, 0xFE, 0x61, 0, 0x3C, 0xD8, 0x0A, 0xDF] := by decide

/-! ### C05 -/

theorem decodeText_pad (utf16 : Bool) (s : List Char) :
    ∃ k, decodeText utf16 (textBytes utf16 s ++
        List.replicate (pad4 (textBytes utf16 s).length) 0) = .ok (s ++ List.replicate k nul) := by
  unfold decodeText textBytes
  cases utf16
  · exact ⟨pad4 (utf8Encode s).length, by simp only [Bool.false_eq_true, if_false, utf8_roundtrip_pad]⟩
  · obtain ⟨n, hn⟩ := length_utf16Encode s
    obtain ⟨k, hk⟩ : ∃ k, pad4 (2 * n) = 2 * k := ⟨pad4 (2 * n) / 2, by unfold pad4; omega⟩
    exact ⟨k, by simp only [if_true, hn, hk, utf16_roundtrip_pad]⟩

/-- C05: a text encoded inside a larger buffer is read back at its offset without its leading and
trailing NULs, and the returned offset points just past the encoding (at the next field), whatever
surrounds it. -/
theorem C05_get_string (pre post : Bytes) (utf16 : Bool) (lead core trail : List Char)
    (hl : ∀ c ∈ lead, c = nul) (ht : ∀ c ∈ trail, c = nul)
    (h1 : core.head? ≠ some nul) (h2 : core.getLast? ≠ some nul)
    (h : (textBytes utf16 (lead ++ core ++ trail)).length < 2 ^ 31) (enc : Bytes)
    (henc : encodeMessageString (String.ofList (lead ++ core ++ trail)) utf16 = .ok enc) :
    getString (pre ++ enc ++ post) pre.length = .ok (String.ofList core, pre.length + enc.length) := by
  rw [C04_text_layout _ _ (by simpa using h)] at henc
  simp only [String.toList_ofList, Except.ok.injEq] at henc
  generalize hs : lead ++ core ++ trail = s at *
  obtain ⟨k, hk⟩ := decodeText_pad utf16 s
  generalize hb : textBytes utf16 s = b at *
  generalize hz : List.replicate (pad4 b.length) (0 : UInt8) = z at *
  have hzl : z.length = pad4 b.length := by rw [← hz]; simp
  subst henc
  unfold getString
  have e1 : pre ++ (u32 (lengthWord utf16 b.length) ++ b ++ z) ++ post =
      pre ++ (u32 (lengthWord utf16 b.length) ++ (b ++ z ++ post)) := by simp
  have e2 : pre ++ (u32 (lengthWord utf16 b.length) ++ b ++ z) ++ post =
      (pre ++ u32 (lengthWord utf16 b.length)) ++ ((b ++ z) ++ post) := by simp
  have u1 : unpackFrom .I (pre ++ (u32 (lengthWord utf16 b.length) ++ b ++ z) ++ post) pre.length
      = .ok (lengthWord utf16 b.length) := by
    rw [e1, unpackFrom_append .I pre (u32 (lengthWord utf16 b.length)) _ rfl rfl]
    simp only [Fmt.value, leVal_u32 (lengthWord_lt h)]
  have hp : (if b.length % 4 ≠ 0 then b.length + (4 - b.length % 4) else b.length) = (b ++ z).length := by
    rw [List.length_append, hzl]; unfold pad4; split <;> omega
  have u2 : unpackRaw (b ++ z).length (pre ++ (u32 (lengthWord utf16 b.length) ++ b ++ z) ++ post)
      (pre.length + 4) = .ok (b ++ z) := by
    rw [e2, unpackRaw_append _ _ _ rfl (by simp)]
  rw [u1, Except_bind_ok]
  simp only [Int.toNat_natCast, highbit_lengthWord h, low_lengthWord h]
  rw [hp, u2, Except_bind_ok, hk, Except_bind_ok, ← hs]
  have : stripNul (lead ++ core ++ trail ++ List.replicate k nul) = core := by
    rw [List.append_assoc]
    apply stripNul_spec lead core _ hl _ h1 h2
    intro c hc
    rw [List.mem_append] at hc
    exact hc.elim (ht c) (fun hm => (List.mem_replicate.1 hm).2)
  rw [this]
  simp only [pure, Except.pure, List.length_append, length_u32]
  congr 2; omega

/-- C05, plain case: a text that neither starts nor ends with NUL is read back unchanged. -/
theorem C05_get_string_plain (pre post : Bytes) (utf16 : Bool) (s : String)
    (h1 : s.toList.head? ≠ some nul) (h2 : s.toList.getLast? ≠ some nul)
    (h : (textBytes utf16 s.toList).length < 2 ^ 31) :
    ∃ enc, encodeMessageString s utf16 = .ok enc ∧
      getString (pre ++ enc ++ post) pre.length = .ok (s, pre.length + enc.length) := by
  refine ⟨_, C04_text_layout s utf16 h, ?_⟩
  have := C05_get_string pre post utf16 [] s.toList [] (by simp) (by simp) h1 h2 (by simpa using h)
    _ (by simpa using C04_text_layout s utf16 h)
  simpa using this

example : getString ([1, 2] ++ [5, 0, 0, 0, 0x50, 0xC3, 0xB6, 0x6F, 0x6C, 0, 0, 0] ++ [9]) 2
    = .ok ("Pöol", 14) := by decide

end SL
