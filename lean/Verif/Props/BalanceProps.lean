import Verif.Model.Balance
import Verif.Lemmas.Double
import Mathlib.Data.Rat.Floor
/-!
# C68: balance classification; and what the model of double arithmetic is worth
-/
set_option linter.unusedVariables false

namespace SL

theorem tenth : intDiv 1 10 = 3602879701896397 / 36028797018963968 := by decide +kernel

theorem half : intDiv 5 10 = 1 / 2 := by decide +kernel

theorem tenth10 : intDiv 10 100 = intDiv 1 10 := by decide +kernel

theorem intDiv_neg (a : ℤ) (d : ℕ) : intDiv (-a) d = -intDiv a d := by
  unfold intDiv
  rw [Rat.mkRat_eq_div, Rat.mkRat_eq_div, ← round53_neg]
  congr 1
  push_cast
  ring

/-- Hundredths compare with hundredths as the integers do where the rounded numbers differ. -/
theorem hundredths_le {n k : ℤ} (hk : intDiv k 100 < intDiv (k + 1) 100) : intDiv n 100 ≤ intDiv k 100 ↔ n ≤ k := by
  constructor
  · intro h
    by_contra hc
    have : intDiv (k + 1) 100 ≤ intDiv n 100 := intDiv_mono 100 (by omega)
    exact absurd (hk.trans_le this) (not_lt.2 h)
  · exact intDiv_mono 100

/-- **C68**: for every double — every rational, even — exactly one of the four applies: Ideal within ±0.1 (the double), Normal within
±0.5 otherwise, Corrosive below, Scaling above. -/
theorem C68_classes (sat : ℚ) :
    (fromSaturation sat = "Ideal" ↔ |sat| ≤ 3602879701896397 / 36028797018963968) ∧
    (fromSaturation sat = "Normal" ↔ 3602879701896397 / 36028797018963968 < |sat| ∧ |sat| ≤ 1 / 2) ∧
    (fromSaturation sat = "Corrosive" ↔ sat < -(1 / 2)) ∧
    (fromSaturation sat = "Scaling" ↔ 1 / 2 < sat) := by
  unfold fromSaturation
  rw [tenth, half]
  simp only [← abs_le]
  by_cases h1 : |sat| ≤ 3602879701896397 / 36028797018963968
  · have h := abs_le.1 h1
    rw [if_pos h1]
    refine ⟨by simp [h1], ?_, ?_, ?_⟩
    · simp only [show ¬ ("Ideal" = "Normal") by decide, false_iff, not_and]; intro hh; linarith
    · simp only [show ¬ ("Ideal" = "Corrosive") by decide, false_iff, not_lt]; linarith [h.1]
    · simp only [show ¬ ("Ideal" = "Scaling") by decide, false_iff, not_lt]; linarith [h.2]
  · rw [if_neg h1]
    have h1' := not_le.1 h1
    by_cases h2 : |sat| ≤ 1 / 2
    · have h := abs_le.1 h2
      rw [if_pos h2]
      refine ⟨by simp [h1], by simp only [true_iff]; exact ⟨h1', h2⟩, ?_, ?_⟩
      · simp only [show ¬ ("Normal" = "Corrosive") by decide, false_iff, not_lt]; linarith [h.1]
      · simp only [show ¬ ("Normal" = "Scaling") by decide, false_iff, not_lt]; linarith [h.2]
    · rw [if_neg h2]
      have h2' := not_le.1 h2
      by_cases h3 : sat < -(1 / 2)
      · rw [if_pos h3]
        refine ⟨by simp [h1], ?_, by simp only [h3], ?_⟩
        · simp only [show ¬ ("Corrosive" = "Normal") by decide, false_iff, not_and]; intro hh; exact h2
        · simp only [show ¬ ("Corrosive" = "Scaling") by decide, false_iff, not_lt]; linarith
      · rw [if_neg h3]
        have h4 : 1 / 2 < sat := by
          rcases lt_abs.1 h2' with h | h
          · exact h
          · exact absurd (by linarith) h3
        refine ⟨by simp [h1], ?_, by simp only [h3, show ¬ ("Scaling" = "Corrosive") by decide], by simp only [h4]⟩
        simp only [show ¬ ("Scaling" = "Normal") by decide, false_iff, not_and]; intro hh; exact h2

/-- **C68**: of the saturation index as decoded, `n / 100` for a reported number of hundredths `n` (any integer), it is the
class of `n` hundredths: rounding to doubles moves none over a boundary. -/
theorem C68_reported (n : ℤ) :
    (fromSaturation (intDiv n 100) = "Ideal" ↔ |n| ≤ 10) ∧
    (fromSaturation (intDiv n 100) = "Normal" ↔ 10 < |n| ∧ |n| ≤ 50) ∧
    (fromSaturation (intDiv n 100) = "Corrosive" ↔ n < -50) ∧
    (fromSaturation (intDiv n 100) = "Scaling" ↔ 50 < n) := by
  have s10 : ∀ n : ℤ, intDiv n 100 ≤ 3602879701896397 / 36028797018963968 ↔ n ≤ 10 := by
    intro n
    rw [← tenth, ← tenth10]
    exact hundredths_le (by decide +kernel)
  have s50 : ∀ n : ℤ, intDiv n 100 ≤ 1 / 2 ↔ n ≤ 50 := by
    intro n
    have e : (1 / 2 : ℚ) = intDiv 50 100 := by decide +kernel
    rw [e]
    exact hundredths_le (by decide +kernel)
  have a10 : |intDiv n 100| ≤ 3602879701896397 / 36028797018963968 ↔ |n| ≤ 10 := by
    have := s10 (-n)
    rw [intDiv_neg] at this
    rw [abs_le', abs_le', s10, this]
  have a50 : |intDiv n 100| ≤ 1 / 2 ↔ |n| ≤ 50 := by
    have := s50 (-n)
    rw [intDiv_neg] at this
    rw [abs_le', abs_le', s50, this]
  obtain ⟨h1, h2, h3, h4⟩ := C68_classes (intDiv n 100)
  refine ⟨h1.trans a10, h2.trans ?_, h3.trans ?_, h4.trans ?_⟩
  · rw [← not_le, a10, a50, not_le]
  · have := s50 (-n)
    rw [intDiv_neg] at this
    constructor
    · intro h
      have : ¬ -n ≤ 50 := fun hh => absurd (this.2 hh) (by linarith)
      omega
    · intro h
      have : ¬ -intDiv n 100 ≤ 1 / 2 := fun hh => absurd (this.1 hh) (by omega)
      linarith
  · rw [← not_le, s50, not_le]

/-- **C74**: what is decoded from a reported number of hundredths is a double, and none is closer to the number reported. -/
theorem C74_nearest (n : ℤ) : IsDouble (intDiv n 100) ∧ ∀ y, IsDouble y → |(n : ℚ) / 100 - intDiv n 100| ≤ |(n : ℚ) / 100 - y| := by
  have e : intDiv n 100 = round53 ((n : ℚ) / 100) := by
    unfold intDiv
    rw [Rat.mkRat_eq_div]
    rfl
  rw [e]
  exact ⟨round53_isDouble _, round53_nearest _⟩

theorem hundredths_close (n : ℤ) (h : |n| ≤ 2 ^ 32) : |(n : ℚ) / 100 - intDiv n 100| ≤ 1 / 4096 := by
  have hd : IsDouble ((⌊(n : ℚ) / 100 * 4096⌋ : ℤ) / 4096) := by
    refine ⟨⌊(n : ℚ) / 100 * 4096⌋, -12, ?_, ?_⟩
    · have hn : |(n : ℚ)| ≤ 2 ^ 32 := by exact_mod_cast h
      obtain ⟨h1, h2⟩ := abs_le.1 hn
      rw [abs_lt]
      constructor
      · apply Int.lt_floor_iff.2
        push_cast
        linarith
      · apply Int.floor_lt.2
        push_cast
        linarith
    · rw [div_eq_mul_inv]
      norm_num
  refine ((C74_nearest n).2 _ hd).trans ?_
  have h1 := Int.floor_le ((n : ℚ) / 100 * 4096)
  have h2 := Int.lt_floor_add_one ((n : ℚ) / 100 * 4096)
  rw [abs_le]
  constructor <;> linarith

/-- **C74**: different reports (of up to 32 bits) are decoded to different numbers, in the same order. -/
theorem C74_ordered (n m : ℤ) (hn : |n| ≤ 2 ^ 32) (hm : |m| ≤ 2 ^ 32) :
    (intDiv n 100 < intDiv m 100 ↔ n < m) ∧ (intDiv n 100 = intDiv m 100 ↔ n = m) := by
  have key : ∀ n m : ℤ, |n| ≤ 2 ^ 32 → |m| ≤ 2 ^ 32 → n < m → intDiv n 100 < intDiv m 100 := by
    intro n m hn hm h
    have h1 := (abs_le.1 (hundredths_close n hn)).1
    have h2 := (abs_le.1 (hundredths_close m hm)).2
    have h3 : (n : ℚ) + 1 ≤ m := by exact_mod_cast h
    linarith
  refine ⟨⟨fun h => ?_, key n m hn hm⟩, ⟨fun h => ?_, fun h => by rw [h]⟩⟩
  · rcases lt_trichotomy n m with h1 | h1 | h1
    · exact h1
    · rw [h1] at h; exact absurd h (lt_irrefl _)
    · exact absurd (key m n hm hn h1) (not_lt.2 h.le)
  · rcases lt_trichotomy n m with h1 | h1 | h1
    · exact absurd h (key n m hn hm h1).ne
    · exact h1
    · exact absurd h (key m n hm hn h1).ne'

theorem C74_witness : intDiv 729 100 < intDiv 730 100 ∧ intDiv 729 100 ≠ 729 / 100 ∧ intDiv 725 100 = 725 / 100 := by decide +kernel

/-- The boundaries, on both sides. -/
theorem C68_witness : fromSaturation (intDiv (-10) 100) = "Ideal" ∧ fromSaturation (intDiv (-11) 100) = "Normal" ∧
    fromSaturation (intDiv 50 100) = "Normal" ∧ fromSaturation (intDiv 51 100) = "Scaling" ∧ fromSaturation (intDiv (-51) 100) = "Corrosive" := by
  decide +kernel

end SL
