import Verif.Props.TextProps
import Verif.Lemmas.TextExact
/-!
# C73: nothing but an encoded text is decoded
-/
set_option linter.unusedVariables false

namespace SL
open Spec (u32 pad4)

/-- A byte string is an encoding of a text: UTF-8 (Lean's own), or UTF-16 with a byte-order mark, or little-endian UTF-16
without one. -/
inductive EncodesText : Bool → Bytes → String → Prop
  | utf8 (s : String) : EncodesText false s.toUTF8.data.toList s
  | le (s : String) : EncodesText true ([0xFF, 0xFE] ++ utf16Body false s.toList) s
  | be (s : String) : EncodesText true ([0xFE, 0xFF] ++ utf16Body true s.toList) s
  | bare (s : String) : EncodesText true (utf16Body false s.toList) s

theorem decodeText_only {utf16 : Bool} {raw : Bytes} {s : List Char} (h : decodeText utf16 raw = .ok s) :
    EncodesText utf16 raw (String.ofList s) := by
  unfold decodeText at h
  split at h
  · rename_i s' hs
    simp only [Except.ok.injEq] at h
    subst h
    cases utf16 with
    | false =>
      simp only [Bool.false_eq_true, if_false] at hs
      have := (utf8Decode_iff _ _).1 hs
      have e : raw = (String.ofList s').toUTF8.data.toList := by
        rw [this]
        have := utf8Encode_eq_lean (String.ofList s')
        rw [String.toList_ofList] at this
        exact this
      rw [e]
      exact .utf8 _
    | true =>
      simp only [if_true] at hs
      have e : s' = (String.ofList s').toList := (String.toList_ofList).symm
      rcases utf16Decode_sound hs with h | h | h
      · rw [h, e, String.ofList_toList]; exact .le _
      · rw [h, e, String.ofList_toList]; exact .be _
      · rw [h, e, String.ofList_toList]; exact .bare _
  · cases h

theorem decodeText_error {utf16 : Bool} {raw : Bytes} {e : PyErr} (h : decodeText utf16 raw = .error e) : e = .unicodeError := by
  unfold decodeText at h
  split at h
  · cases h
  · cases h; rfl

/-- The length word says how many bytes the text takes and how it is encoded. -/
theorem word_split {n : Nat} (hn : n < 2 ^ 32) :
    ∃ utf16 m, n = lengthWord utf16 m ∧ m < 2 ^ 31 := by
  by_cases h : n < 2 ^ 31
  · exact ⟨false, n, rfl, h⟩
  · exact ⟨true, n - 2 ^ 31, by simp only [lengthWord, if_true]; omega, by omega⟩

/-- **C73**: `decodeMessageString` returns a text only for bytes that start with a length word and an encoding of that
very text of that length; in every other case it raises `struct.error` or `UnicodeDecodeError`. -/
theorem C73_text_only (d : Bytes) :
    (∃ s utf16 body rest, decodeMessageString d = .ok s ∧ d = u32 (lengthWord utf16 body.length) ++ body ++ rest ∧
      EncodesText utf16 body s) ∨ decodeMessageString d = .error .structError ∨ decodeMessageString d = .error .unicodeError := by
  unfold decodeMessageString
  cases h1 : unpackRaw 4 d 0 with
  | error e =>
    right; left
    have e1 : unpackFrom .I d 0 = .error e := by
      simp only [unpackFrom, Fmt.size, h1, Except_bind_error]
    rw [e1, Except_bind_error, unpackRaw_error h1]
  | ok raw =>
    obtain ⟨pre, post, hd, hp, hl⟩ := unpackRaw_decomp h1
    have hpre : pre = [] := List.length_eq_zero_iff.1 hp
    subst hpre
    have e1 : unpackFrom .I d 0 = .ok (leVal raw) := by
      simp only [unpackFrom, Fmt.size, h1, Except_bind_ok, Fmt.value]; rfl
    rw [e1, Except_bind_ok]
    have hlt : leVal raw < 2 ^ 32 := by
      have := leVal_lt raw
      rw [hl] at this
      exact this
    obtain ⟨utf16, m, hw, hm⟩ := word_split hlt
    simp only [Int.toNat_natCast]
    rw [hw]
    simp only [highbit_lengthWord hm, low_lengthWord hm]
    cases h2 : unpackRaw m d 4 with
    | error e =>
      right; left
      rw [Except_bind_error, unpackRaw_error h2]
    | ok body =>
      rw [Except_bind_ok]
      cases h3 : decodeText utf16 body with
      | error e =>
        right; right
        rw [Except_bind_error, decodeText_error h3]
      | ok s =>
        left
        obtain ⟨pre2, post2, hd2, hp2, hl2⟩ := unpackRaw_decomp h2
        have hr : raw = u32 (lengthWord utf16 body.length) := by
          rw [hl2, ← hw, u32_eq, ← leBytes_leVal' hl]
          rw [leVal_leBytes_of_lt]
          exact hlt
        have hpre2 : pre2 = raw := by
          have e := hd.symm.trans hd2
          simp only [List.nil_append, List.append_assoc] at e
          exact (List.append_inj e (by rw [hl, hp2])).1.symm
        refine ⟨String.ofList s, utf16, body, post2, rfl, ?_, decodeText_only h3⟩
        rw [hd2, hpre2, ← hr]
        simp

/-- The cases of C73 all occur: a text, a text cut short, and bytes that are no text (an overlong form, a lone surrogate). -/
theorem C73_witness : decodeMessageString [2, 0, 0, 0, 0xC3, 0xB6] = .ok "ö" ∧ decodeMessageString [2, 0, 0, 0, 0xC3] = .error .structError ∧
    decodeMessageString [2, 0, 0, 0, 0xC0, 0x80] = .error .unicodeError ∧
    decodeMessageString [2, 0, 0, 0x80, 0x00, 0xD8] = .error .unicodeError := by decide +kernel

end SL
