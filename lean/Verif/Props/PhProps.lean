import Verif.Props.SetterProps
import Verif.Lemmas.Double
import Mathlib.Data.Rat.Floor
/-!
# C33: the pH that is sent is one the adapter accepts
-/
set_option linter.unusedVariables false

namespace SL

theorem truncRat_eq (q : ℚ) (h : 0 ≤ q) : truncRat q = ⌊q⌋ := by
  have : 0 ≤ q.num := Rat.num_nonneg.2 h
  rw [truncRat, Rat.floor_def', Int.tdiv_eq_ediv_of_nonneg this]

theorem ph_trunc {q : ℚ} (h1 : double72 ≤ q) (h2 : q ≤ double76) : 720 ≤ truncRat (fmul q 100) ∧ truncRat (fmul q 100) ≤ 760 := by
  have e1 : fmul double72 100 = 720 := by decide +kernel
  have e2 : fmul double76 100 = 760 := by decide +kernel
  have m1 : (720 : ℚ) ≤ fmul q 100 := by
    rw [← e1]; exact round53_mono (by linarith)
  have m2 : fmul q 100 ≤ (760 : ℚ) := by
    rw [← e2]; exact round53_mono (by linarith)
  rw [truncRat_eq _ (by linarith)]
  constructor
  · exact Int.le_floor.2 (by exact_mod_cast m1)
  · have : ⌊fmul q 100⌋ ≤ ⌊(760 : ℚ)⌋ := Int.floor_le_floor m2
    simpa using this

/-- **C33** Whatever pH is given (any float, not only two-digit ones) or cached, the number that is sent for it is between
720 and 760. -/
theorem C33_range (E : Env) (clientId maxRetries : Int) (es : List Ev) (ph orp ca ta cya salt : Val) (es2 : List Ev) (code : Int) (data : Bytes)
    (hm : (code, data) ∈ userAsks (actsOf E clientId maxRetries es (.setChem ph orp ca ta cya salt) es2)) :
    ∃ n o c t y l : Nat, code = 12594 ∧ data = words [0, n, o, c, t, y, l] ∧ 720 ≤ n ∧ n ≤ 760 ∧ 400 ≤ o ∧ o ≤ 800 ∧
      25 ≤ c ∧ c ≤ 800 ∧ 25 ≤ t ∧ t ≤ 800 ∧ y ≤ 201 ∧ 500 ≤ l ∧ l ≤ 6500 := by
  obtain ⟨n, o, c, t, y, l, v, q, h1, h2, -, -, ha, hb, -, hn, -, o1, o2, -, c1, c2, -, t1, t2, -, y1, y2, -, l1, l2⟩ :=
    C33_only ph orp ca ta cya salt es2 code data hm
  obtain ⟨k1, k2⟩ := ph_trunc ha hb
  rw [← hn] at k1 k2
  exact ⟨n, o, c, t, y, l, h1, h2, by omega, by omega, o1, o2, c1, c2, t1, t2, y2, l1, l2⟩

end SL
