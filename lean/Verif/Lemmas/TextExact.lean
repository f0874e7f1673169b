import Verif.Lemmas.Text
/-!
# Strict decoding accepts nothing but encodings
-/
namespace SL

theorem scalar?_some {n : Nat} {c : Char} (h : scalar? n = some c) : c.toNat = n := by
  unfold scalar? at h
  split at h
  · rename_i hv
    simp only [Option.some.injEq] at h
    subst h
    rfl
  · cases h

theorem ofNat_eq {b : UInt8} {n : Nat} (h : n = b.toNat) : UInt8.ofNat n = b := by
  subst h
  simp

theorem utf8Next_sound {b0 : UInt8} {t t' : Bytes} {c : Char} (h : utf8Next b0 t = some (c, t')) :
    b0 :: t = utf8EncodeChar c ++ t' := by
  have hb : ∀ b : UInt8, b.toNat < 256 := fun b => b.toNat_lt
  unfold utf8Next at h
  simp only at h
  have h0 := hb b0
  split at h
  · rename_i hx
    simp only [Option.map_eq_some_iff, Prod.mk.injEq] at h
    obtain ⟨c', hc, rfl, rfl⟩ := h
    have e := scalar?_some hc
    simp only [utf8EncodeChar, e, hx, if_true, List.cons_append, List.nil_append, List.cons.injEq, and_true]
    exact (ofNat_eq rfl).symm
  · split at h
    · cases h
    · split at h
      · split at h
        · rename_i b1 t1
          split at h
          · rename_i hx1 hx2 hx3 hc1
            simp only [Option.map_eq_some_iff, Prod.mk.injEq] at h
            obtain ⟨c', hc, rfl, rfl⟩ := h
            have e := scalar?_some hc
            simp only [isCont, Bool.and_eq_true, decide_eq_true_eq] at hc1
            simp only [utf8EncodeChar, e]
            rw [if_neg (by omega), if_pos (by omega)]
            simp only [List.cons_append, List.nil_append, List.cons.injEq, and_true]
            exact ⟨(ofNat_eq (by omega)).symm, (ofNat_eq (by omega)).symm⟩
          · cases h
        · cases h
      · split at h
        · split at h
          · rename_i b1 b2 t2
            split at h
            · rename_i hx1 hx2 hx3 hx4 hc1
              simp only [Option.map_eq_some_iff, Prod.mk.injEq] at h
              obtain ⟨c', hc, rfl, rfl⟩ := h
              have e := scalar?_some hc
              simp only [isCont, Bool.and_eq_true, decide_eq_true_eq] at hc1
              simp only [utf8EncodeChar, e]
              rw [if_neg (by omega), if_neg (by omega), if_pos (by omega)]
              simp only [List.cons_append, List.nil_append, List.cons.injEq, and_true]
              exact ⟨(ofNat_eq (by omega)).symm, (ofNat_eq (by omega)).symm, (ofNat_eq (by omega)).symm⟩
            · cases h
          · cases h
        · split at h
          · split at h
            · rename_i b1 b2 b3 t3
              split at h
              · rename_i hx1 hx2 hx3 hx4 hx5 hc1
                simp only [Option.map_eq_some_iff, Prod.mk.injEq] at h
                obtain ⟨c', hc, rfl, rfl⟩ := h
                have e := scalar?_some hc
                simp only [isCont, Bool.and_eq_true, decide_eq_true_eq] at hc1
                simp only [utf8EncodeChar, e]
                rw [if_neg (by omega), if_neg (by omega), if_neg (by omega)]
                simp only [List.cons_append, List.nil_append, List.cons.injEq, and_true]
                exact ⟨(ofNat_eq (by omega)).symm, (ofNat_eq (by omega)).symm, (ofNat_eq (by omega)).symm, (ofNat_eq (by omega)).symm⟩
              · cases h
            · cases h
          · cases h

theorem utf8DecodeN_sound : ∀ (fuel : Nat) (bs : Bytes) (s : List Char), utf8DecodeN fuel bs = some s → bs = utf8Encode s
  | 0, [], s, h => by cases h; rfl
  | fuel + 1, [], s, h => by cases h; rfl
  | 0, b :: t, s, h => by cases h
  | fuel + 1, b :: t, s, h => by
    simp only [utf8DecodeN] at h
    split at h
    · rename_i c t' hn
      simp only [Option.map_eq_some_iff] at h
      obtain ⟨s', hs, rfl⟩ := h
      rw [utf8Next_sound hn, utf8DecodeN_sound fuel t' s' hs]
      simp [utf8Encode]
    · cases h

/-- UTF-8 decoding succeeds exactly on encodings. -/
theorem utf8Decode_iff (bs : Bytes) (s : List Char) : utf8Decode bs = some s ↔ bs = utf8Encode s :=
  ⟨utf8DecodeN_sound _ _ _, fun h => by rw [h]; exact utf8_roundtrip s⟩

/-! ## UTF-16 -/

theorem utf16Next_sound {u : Nat} {t t' : List Nat} {c : Char} (hu : u < 65536) (h : utf16Next u t = some (c, t')) :
    u :: t = utf16EncodeChar c ++ t' := by
  unfold utf16Next at h
  split at h
  · split at h
    · rename_i v t2
      split at h
      · rename_i hu hv
        simp only [Option.map_eq_some_iff, Prod.mk.injEq] at h
        obtain ⟨c', hc, rfl, rfl⟩ := h
        have e := scalar?_some hc
        simp only [utf16EncodeChar, e]
        rw [if_neg (by omega)]
        simp only [List.cons_append, List.nil_append, List.cons.injEq, and_true]
        omega
      · cases h
    · cases h
  · simp only [Option.map_eq_some_iff, Prod.mk.injEq] at h
    obtain ⟨c', hc, rfl, rfl⟩ := h
    have e := scalar?_some hc
    simp only [utf16EncodeChar, e]
    rw [if_pos (by omega)]
    rfl

theorem utf16CharsN_sound : ∀ (fuel : Nat) (us : List Nat) (s : List Char), (∀ u ∈ us, u < 65536) → utf16CharsN fuel us = some s →
    us = s.flatMap utf16EncodeChar
  | 0, [], s, _, h => by cases h; rfl
  | fuel + 1, [], s, _, h => by cases h; rfl
  | 0, b :: t, s, _, h => by cases h
  | fuel + 1, b :: t, s, hu, h => by
    simp only [utf16CharsN] at h
    split at h
    · rename_i c t' hn
      simp only [Option.map_eq_some_iff] at h
      obtain ⟨s', hs, rfl⟩ := h
      have e := utf16Next_sound (hu b (by simp)) hn
      have ht : ∀ u ∈ t', u < 65536 := fun u hm => hu u (by rw [e]; simp [hm])
      rw [e, utf16CharsN_sound fuel t' s' ht hs]
      simp
    · cases h

/-- One 16-bit unit in the given byte order. -/
def unitBytes (bigEndian : Bool) (u : Nat) : Bytes := if bigEndian then (unitLE u).reverse else unitLE u

theorem utf16Units_sound (be : Bool) : ∀ (bs : Bytes) (us : List Nat), utf16Units be bs = some us →
    bs = us.flatMap (unitBytes be) ∧ ∀ u ∈ us, u < 65536
  | [], us, h => by cases h; simp
  | [_], us, h => by cases h
  | a :: b :: t, us, h => by
    simp only [utf16Units] at h
    split at h
    · rename_i r hr
      simp only [Option.some.injEq] at h
      subst h
      obtain ⟨e, hl⟩ := utf16Units_sound be t r hr
      have ha := a.toNat_lt
      have hb := b.toNat_lt
      cases be with
      | true =>
        simp only [if_true, List.flatMap_cons, unitBytes, unitLE, List.reverse_cons, List.reverse_nil, List.nil_append,
          List.cons_append, List.cons.injEq, List.mem_cons, forall_eq_or_imp]
        refine ⟨⟨(ofNat_eq (by omega)).symm, (ofNat_eq (by omega)).symm, e⟩, by omega, hl⟩
      | false =>
        simp only [Bool.false_eq_true, if_false, List.flatMap_cons, unitBytes, unitLE, List.nil_append,
          List.cons_append, List.cons.injEq, List.mem_cons, forall_eq_or_imp]
        refine ⟨⟨(ofNat_eq (by omega)).symm, (ofNat_eq (by omega)).symm, e⟩, by omega, hl⟩
    · cases h

/-- The 16-bit encoding of a text in the given byte order, without byte-order mark. -/
def utf16Body (bigEndian : Bool) (s : List Char) : Bytes := (s.flatMap utf16EncodeChar).flatMap (unitBytes bigEndian)

/-- UTF-16 decoding succeeds only on encodings: with one of the two byte-order marks, or little-endian without. -/
theorem utf16Decode_sound {bs : Bytes} {s : List Char} (h : utf16Decode bs = some s) :
    bs = [0xFF, 0xFE] ++ utf16Body false s ∨ bs = [0xFE, 0xFF] ++ utf16Body true s ∨ bs = utf16Body false s := by
  have key : ∀ be body, (match utf16Units be body with | some us => utf16Chars us | none => none) = some s → body = utf16Body be s := by
    intro be body hb
    split at hb
    · rename_i us hus
      obtain ⟨e, hl⟩ := utf16Units_sound be body us hus
      rw [e, utf16CharsN_sound _ us s hl hb]
      rfl
    · cases hb
  have hk := key _ _ h
  split at hk
  · left; simp only at hk; rw [hk]; rfl
  · right; left; simp only at hk; rw [hk]; rfl
  · right; right; exact hk

end SL
