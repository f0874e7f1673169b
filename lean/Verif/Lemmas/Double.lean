import Verif.Model.Float
import Mathlib.Tactic.Linarith
import Mathlib.Tactic.FieldSimp
import Mathlib.Tactic.Ring
import Mathlib.Tactic.Positivity
import Mathlib.Tactic.NormNum
import Mathlib.Algebra.Order.Field.Rat
import Mathlib.Algebra.Order.Field.Power
import Mathlib.Algebra.Order.Ring.Abs
/-!
# `round53` rounds to the nearest double
-/
set_option linter.unusedVariables false

namespace SL

/-- The doubles, apart from the limits of the exponent: at most 53 significant bits. -/
def IsDouble (x : ℚ) : Prop := ∃ (m : ℤ) (e : ℤ), |m| < 2 ^ 53 ∧ x = m * (2 : ℚ) ^ e

theorem divRoundEven_near (n d : ℕ) (hd : 0 < d) : |(n : ℚ) / d - (divRoundEven n d : ℕ)| ≤ 1 / 2 := by
  have hd' : (0 : ℚ) < d := by exact_mod_cast hd
  have hr : n % d < d := Nat.mod_lt _ hd
  have e : (n : ℚ) / d = (n / d : ℕ) + ((n % d : ℕ) : ℚ) / d := by
    have : (n : ℚ) = (d : ℚ) * (n / d : ℕ) + (n % d : ℕ) := by exact_mod_cast (Nat.div_add_mod n d).symm
    field_simp
    linarith
  have h0 : (0 : ℚ) ≤ ((n % d : ℕ) : ℚ) / d := by positivity
  rw [e]
  unfold divRoundEven
  simp only
  generalize n / d = q at *
  generalize n % d = r at *
  split
  · rename_i h
    have h' : (r : ℚ) / d ≤ 1 / 2 := by
      rw [div_le_div_iff₀ hd' (by norm_num)]
      have : (2 * r : ℚ) < d := by exact_mod_cast h
      linarith
    rw [abs_le]; constructor <;> linarith
  · rename_i h
    have h1 : (1 : ℚ) / 2 ≤ (r : ℚ) / d := by
      rw [div_le_div_iff₀ (by norm_num) hd']
      have : (d : ℚ) ≤ 2 * r := by exact_mod_cast Nat.le_of_not_lt h
      linarith
    have h2 : (r : ℚ) / d ≤ 1 := by
      rw [div_le_one hd']
      exact_mod_cast hr.le
    split
    · push_cast; rw [abs_le]; constructor <;> linarith
    · rename_i h3
      have h4 : (r : ℚ) / d = 1 / 2 := by
        have : 2 * r = d := by omega
        have : (2 * r : ℚ) = d := by exact_mod_cast this
        rw [div_eq_div_iff hd'.ne' (by norm_num)]
        linarith
      split
      · rw [h4, abs_le]; constructor <;> linarith
      · push_cast; rw [h4, abs_le]; constructor <;> linarith

/-- `2 ^ log2Ratio n d ≤ n / d < 2 ^ (log2Ratio n d + 1)`. -/
theorem log2Ratio_spec (n d : ℕ) (hn : 0 < n) (hd : 0 < d) :
    (2 : ℚ) ^ log2Ratio n d ≤ (n : ℚ) / d ∧ (n : ℚ) / d < (2 : ℚ) ^ (log2Ratio n d + 1) := by
  have hd' : (0 : ℚ) < d := by exact_mod_cast hd
  have hn1 : (2 : ℚ) ^ (n.log2 : ℤ) ≤ n := by rw [zpow_natCast]; exact_mod_cast Nat.log2_self_le hn.ne'
  have hn2 : (n : ℚ) < (2 : ℚ) ^ ((n.log2 : ℤ) + 1) := by
    have : n < 2 ^ (n.log2 + 1) := Nat.lt_log2_self
    exact_mod_cast this
  have hd1 : (2 : ℚ) ^ (d.log2 : ℤ) ≤ d := by rw [zpow_natCast]; exact_mod_cast Nat.log2_self_le hd.ne'
  have hd2 : (d : ℚ) < (2 : ℚ) ^ ((d.log2 : ℤ) + 1) := by
    have : d < 2 ^ (d.log2 + 1) := Nat.lt_log2_self
    exact_mod_cast this
  have two : (2 : ℚ) ≠ 0 := by norm_num
  -- n/d < 2^(e+1), n/d > 2^(e-1)
  have hup : (n : ℚ) / d < (2 : ℚ) ^ ((n.log2 : ℤ) - d.log2 + 1) := by
    rw [div_lt_iff₀ hd']
    calc (n : ℚ) < (2 : ℚ) ^ ((n.log2 : ℤ) + 1) := hn2
      _ = (2 : ℚ) ^ ((n.log2 : ℤ) - d.log2 + 1) * (2 : ℚ) ^ (d.log2 : ℤ) := by rw [← zpow_add₀ two]; congr 1; ring
      _ ≤ _ := by gcongr
  have hlo : (2 : ℚ) ^ ((n.log2 : ℤ) - d.log2 - 1) ≤ (n : ℚ) / d := by
    rw [le_div_iff₀ hd']
    calc (2 : ℚ) ^ ((n.log2 : ℤ) - d.log2 - 1) * d ≤ (2 : ℚ) ^ ((n.log2 : ℤ) - d.log2 - 1) * (2 : ℚ) ^ ((d.log2 : ℤ) + 1) := by gcongr
      _ = (2 : ℚ) ^ (n.log2 : ℤ) := by rw [← zpow_add₀ two]; congr 1; ring
      _ ≤ n := hn1
  unfold log2Ratio
  simp only
  generalize (n.log2 : ℤ) - d.log2 = e at *
  split
  · rename_i h0
    obtain ⟨k, rfl⟩ := Int.eq_ofNat_of_zero_le h0
    simp only [Int.toNat_natCast]
    split
    · rename_i h
      refine ⟨?_, hup⟩
      rw [le_div_iff₀ hd', zpow_natCast, mul_comm]
      exact_mod_cast h
    · rename_i h
      refine ⟨hlo, ?_⟩
      rw [div_lt_iff₀ hd', sub_add_cancel, zpow_natCast, mul_comm]
      exact_mod_cast Nat.lt_of_not_le h
  · rename_i h0
    obtain ⟨k, hk⟩ := Int.eq_ofNat_of_zero_le (show 0 ≤ -e by omega)
    have he : e = -(k : ℤ) := by omega
    subst he
    simp only [neg_neg, Int.toNat_natCast]
    split
    · rename_i h
      refine ⟨?_, hup⟩
      rw [le_div_iff₀ hd', zpow_neg, zpow_natCast, inv_mul_le_iff₀ (by positivity), mul_comm]
      exact_mod_cast h
    · rename_i h
      refine ⟨hlo, ?_⟩
      rw [div_lt_iff₀ hd', sub_add_cancel, zpow_neg, zpow_natCast, lt_inv_mul_iff₀ (by positivity), mul_comm]
      exact_mod_cast Nat.lt_of_not_le h

/-- The rounded value is an integer multiple of the unit in the last place, at most half of it away. -/
theorem roundPos_ulp (n d : ℕ) (hn : 0 < n) (hd : 0 < d) :
    ∃ m : ℕ, roundPos n d = m * (2 : ℚ) ^ (log2Ratio n d - 52) ∧ |(n : ℚ) / d - roundPos n d| ≤ (2 : ℚ) ^ (log2Ratio n d - 52) / 2 := by
  have hd' : (0 : ℚ) < d := by exact_mod_cast hd
  unfold roundPos
  simp only
  generalize log2Ratio n d = k
  split
  · rename_i h0
    obtain ⟨s, hs⟩ := Int.eq_ofNat_of_zero_le h0
    have hk : k - 52 = -(s : ℤ) := by omega
    simp only [hs, Int.toNat_natCast]
    rw [hk, zpow_neg, zpow_natCast]
    refine ⟨divRoundEven (n * 2 ^ s) d, by push_cast; rw [div_eq_mul_inv], ?_⟩
    have h := divRoundEven_near (n * 2 ^ s) d hd
    have hp : (0 : ℚ) < 2 ^ s := by positivity
    have e : (n : ℚ) / d - ((divRoundEven (n * 2 ^ s) d : ℕ) : ℚ) / ((2 ^ s : ℕ) : ℚ) =
        (((n * 2 ^ s : ℕ) : ℚ) / d - (divRoundEven (n * 2 ^ s) d : ℕ)) * (2 ^ s)⁻¹ := by
      push_cast
      field_simp
    rw [e, abs_mul, abs_of_pos (inv_pos.2 hp)]
    calc _ ≤ 1 / 2 * ((2 : ℚ) ^ s)⁻¹ := by gcongr
      _ = _ := by ring
  · rename_i h0
    obtain ⟨s, hs⟩ := Int.eq_ofNat_of_zero_le (show 0 ≤ k - 52 by omega)
    have hk : -(52 - k) = (s : ℤ) := by omega
    simp only [hk, hs, Int.toNat_natCast]
    rw [zpow_natCast]
    refine ⟨divRoundEven n (d * 2 ^ s), by push_cast; ring, ?_⟩
    have h := divRoundEven_near n (d * 2 ^ s) (by positivity)
    have hp : (0 : ℚ) < 2 ^ s := by positivity
    have e : (n : ℚ) / d - ((divRoundEven n (d * 2 ^ s) * 2 ^ s : ℕ) : ℚ) =
        ((n : ℚ) / (d * 2 ^ s : ℕ) - (divRoundEven n (d * 2 ^ s) : ℕ)) * 2 ^ s := by
      push_cast
      field_simp
    rw [e, abs_mul, abs_of_pos hp]
    calc _ ≤ 1 / 2 * (2 : ℚ) ^ s := by gcongr
      _ = _ := by ring

theorem roundPos_nearest (n d : ℕ) (hn : 0 < n) (hd : 0 < d) (y : ℚ) (hy : IsDouble y) :
    |(n : ℚ) / d - roundPos n d| ≤ |(n : ℚ) / d - y| := by
  obtain ⟨M, hM, hu⟩ := roundPos_ulp n d hn hd
  obtain ⟨hlo, _⟩ := log2Ratio_spec n d hn hd
  obtain ⟨m, e, hm, rfl⟩ := hy
  have two : (2 : ℚ) ≠ 0 := by norm_num
  generalize log2Ratio n d = k at *
  set u : ℚ := (2 : ℚ) ^ (k - 52) with hu'
  have hup : 0 < u := by positivity
  -- any integer multiple of u is at least as far away
  have key : ∀ z : ℤ, |(n : ℚ) / d - roundPos n d| ≤ |(n : ℚ) / d - z * u| := by
    intro z
    by_cases hz : z = M
    · rw [hz, hM]; simp
    · have hne : 1 ≤ |(M : ℤ) - z| := Int.one_le_abs (fun h => hz (by omega))
      have hne' : (1 : ℚ) ≤ |(M : ℚ) - z| := by exact_mod_cast hne
      have h1 : u ≤ |(M : ℚ) * u - z * u| := by
        rw [← sub_mul, abs_mul, abs_of_pos hup]
        calc u = 1 * u := by ring
          _ ≤ _ := by gcongr
      have h2 : |(M : ℚ) * u - z * u| ≤ |(n : ℚ) / d - roundPos n d| + |(n : ℚ) / d - z * u| := by
        rw [hM]
        have : (M : ℚ) * u - z * u = -((n : ℚ) / d - M * u) + ((n : ℚ) / d - z * u) := by ring
        rw [this]
        refine (abs_add_le _ _).trans ?_
        rw [abs_neg]
      linarith
  by_cases he : k - 52 ≤ e
  · obtain ⟨j, hj⟩ := Int.eq_ofNat_of_zero_le (show 0 ≤ e - (k - 52) by omega)
    have : (m : ℚ) * 2 ^ e = ((m * 2 ^ j : ℤ) : ℚ) * u := by
      have e1 : e = j + (k - 52) := by omega
      rw [e1, zpow_add₀ two, zpow_natCast]
      push_cast
      ring
    rw [this]
    exact key _
  · -- the other double is below the binade
    have hsmall : (m : ℚ) * 2 ^ e ≤ (2 : ℚ) ^ k := by
      have hm' : (m : ℚ) ≤ 2 ^ (53 : ℕ) := by
        have : m ≤ 2 ^ 53 := (le_abs_self m).trans hm.le
        exact_mod_cast this
      calc (m : ℚ) * 2 ^ e ≤ 2 ^ (53 : ℕ) * 2 ^ e := by gcongr
        _ = (2 : ℚ) ^ (53 + e) := by rw [← zpow_natCast, ← zpow_add₀ two]; rfl
        _ ≤ (2 : ℚ) ^ k := zpow_le_zpow_right₀ (by norm_num) (by omega)
    have h2 : ((2 ^ 52 : ℤ) : ℚ) * u = (2 : ℚ) ^ k := by
      have e1 : ((2 ^ 52 : ℤ) : ℚ) = (2 : ℚ) ^ (52 : ℤ) := by norm_num
      rw [hu', e1, ← zpow_add₀ two]
      congr 1
      ring
    have h3 := key (2 ^ 52)
    rw [h2] at h3
    refine h3.trans ?_
    rw [abs_of_nonneg (by linarith), abs_of_nonneg (by linarith)]
    linarith

theorem round53_pos {q : ℚ} (h : 0 < q) : round53 q = roundPos q.num.toNat q.den ∧ ((q.num.toNat : ℕ) : ℚ) / q.den = q ∧ 0 < q.num.toNat := by
  have hn : 0 < q.num := Rat.num_pos.2 h
  refine ⟨?_, ?_, by omega⟩
  · unfold round53
    rw [if_neg (by omega), if_pos hn]
  · have : ((q.num.toNat : ℕ) : ℤ) = q.num := Int.toNat_of_nonneg hn.le
    have h2 : ((q.num.toNat : ℕ) : ℚ) = (q.num : ℚ) := by exact_mod_cast this
    rw [h2]
    exact Rat.num_div_den q

theorem round53_neg {q : ℚ} : round53 (-q) = -round53 q := by
  unfold round53
  simp only [Rat.neg_num, Rat.neg_den, neg_eq_zero, neg_neg]
  by_cases h0 : q.num = 0
  · simp [h0]
  · by_cases h1 : 0 < q.num
    · have h2 : ¬ 0 < -q.num := by omega
      simp only [h0, h1, h2, if_true, if_false]
    · have h2 : 0 < -q.num := by omega
      simp only [h0, h1, h2, if_true, if_false, neg_neg]

theorem isDouble_neg {y : ℚ} (h : IsDouble y) : IsDouble (-y) := by
  obtain ⟨m, e, hm, rfl⟩ := h
  exact ⟨-m, e, by rwa [abs_neg], by push_cast; ring⟩

/-- No double is closer to `q` than `round53 q`. -/
theorem round53_nearest (q y : ℚ) (hy : IsDouble y) : |q - round53 q| ≤ |q - y| := by
  rcases lt_trichotomy q 0 with h | h | h
  · obtain ⟨h1, h2, h3⟩ := round53_pos (q := -q) (by linarith)
    have := roundPos_nearest _ (-q).den h3 (Rat.den_pos _) (-y) (isDouble_neg hy)
    rw [h2, ← h1, round53_neg] at this
    have e1 : -q - -round53 q = -(q - round53 q) := by ring
    have e2 : -q - -y = -(q - y) := by ring
    rwa [e1, e2, abs_neg, abs_neg] at this
  · subst h
    have : round53 0 = 0 := rfl
    rw [this]; simp
  · obtain ⟨h1, h2, h3⟩ := round53_pos h
    have := roundPos_nearest _ q.den h3 (Rat.den_pos _) y hy
    rwa [h2, ← h1] at this

/-- `round53 q` is a double. -/
theorem roundPos_isDouble (n d : ℕ) (hn : 0 < n) (hd : 0 < d) : IsDouble (roundPos n d) := by
  obtain ⟨M, hM, hu⟩ := roundPos_ulp n d hn hd
  obtain ⟨_, hhi⟩ := log2Ratio_spec n d hn hd
  have two : (2 : ℚ) ≠ 0 := by norm_num
  generalize log2Ratio n d = k at *
  set u : ℚ := (2 : ℚ) ^ (k - 52) with hu'
  have hup : 0 < u := by positivity
  have h2 : (2 ^ 53 : ℚ) * u = (2 : ℚ) ^ (k + 1) := by
    rw [hu', ← zpow_natCast, ← zpow_add₀ two]
    congr 1
    push_cast; ring
  have hle : (M : ℚ) < 2 ^ 53 + 1 := by
    rw [hM] at hu
    have h3 := (abs_le.1 hu).1
    have h4 : (M : ℚ) * u < (2 ^ 53 + 1) * u := by
      rw [add_mul, h2]; linarith
    exact lt_of_mul_lt_mul_right h4 hup.le
  have hle' : M ≤ 2 ^ 53 := by
    have : M < 2 ^ 53 + 1 := by exact_mod_cast hle
    omega
  rcases Nat.lt_or_eq_of_le hle' with h | h
  · exact ⟨M, k - 52, by rw [abs_of_nonneg (by omega)]; exact_mod_cast h, by rw [hM]; push_cast; rfl⟩
  · refine ⟨1, k + 1, by norm_num, ?_⟩
    rw [hM, h, ← h2]; push_cast; ring

theorem round53_isDouble (q : ℚ) : IsDouble (round53 q) := by
  rcases lt_trichotomy q 0 with h | h | h
  · obtain ⟨h1, h2, h3⟩ := round53_pos (q := -q) (by linarith)
    have := roundPos_isDouble _ (-q).den h3 (Rat.den_pos _)
    rw [← h1, round53_neg] at this
    simpa using isDouble_neg this
  · subst h
    exact ⟨0, 0, by norm_num, by norm_num [round53]⟩
  · obtain ⟨h1, h2, h3⟩ := round53_pos h
    rw [h1]
    exact roundPos_isDouble _ q.den h3 (Rat.den_pos _)

/-- Rounding keeps the order. -/
theorem round53_mono {q r : ℚ} (h : q ≤ r) : round53 q ≤ round53 r := by
  rcases eq_or_lt_of_le h with rfl | h
  · exact le_refl _
  · by_contra hc
    have hc : round53 r < round53 q := not_le.1 hc
    have h1 := round53_nearest q (round53 r) (round53_isDouble r)
    have h2 := round53_nearest r (round53 q) (round53_isDouble q)
    have a1 : (round53 r + round53 q) / 2 ≤ q := by
      by_contra hh
      have hh := not_le.1 hh
      have : |q - round53 r| < |q - round53 q| := by
        rw [abs_of_nonpos (show q - round53 q ≤ 0 by linarith)]
        rw [abs_lt]; constructor <;> linarith
      linarith
    have a2 : r ≤ (round53 r + round53 q) / 2 := by
      by_contra hh
      have hh := not_le.1 hh
      have : |r - round53 q| < |r - round53 r| := by
        rw [abs_of_nonneg (show 0 ≤ r - round53 r by linarith)]
        rw [abs_lt]; constructor <;> linarith
      linarith
    linarith

theorem intDiv_mono {a b : ℤ} (d : ℕ) (h : a ≤ b) : intDiv a d ≤ intDiv b d := by
  unfold intDiv
  apply round53_mono
  rw [Rat.mkRat_eq_div, Rat.mkRat_eq_div]
  have : (a : ℚ) ≤ b := by exact_mod_cast h
  gcongr

end SL
