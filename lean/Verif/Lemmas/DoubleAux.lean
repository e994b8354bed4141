import Verif.Lemmas.EndsDouble
import Verif.Props.Rounded
import Verif.Props.VtkDouble

/-!
# Auxiliary lemmas for `Props/Double.lean`
-/

set_option linter.unusedSectionVars false

namespace PySpline

open Polynomial Spec

theorem pow_error (k : ℕ) (hk : k ≤ 72) : (1 / (1 - 1 / 2 ^ 53 : ℚ)) ^ k - 1 ≤ 1 / 10 ^ 14 := by
  have h1 : (1 : ℚ) ≤ 1 / (1 - 1 / 2 ^ 53) := by norm_num
  have h2 : (1 / (1 - 1 / 2 ^ 53 : ℚ)) ^ k ≤ (1 / (1 - 1 / 2 ^ 53)) ^ 72 := pow_le_pow_right₀ h1 hk
  have h3 : (1 / (1 - 1 / 2 ^ 53 : ℚ)) ^ 72 - 1 ≤ 1 / 10 ^ 14 := by decide +kernel
  linarith

/-- The end test of `find_span` in double precision is reflexive. -/
theorem endTestFl_refl (x : ℚ) : endTestFl fl64 x x = true := by
  unfold endTestFl iscloseFl
  rw [sub_self, fl64_zero, abs_zero, decide_eq_true_eq]
  have h1 := fl64_nonneg (x := 1 / 10 ^ 6) (by positivity)
  have h2 := fl64_nonneg (x := (atolDefault : ℚ)) (by unfold atolDefault; positivity)
  have h3 := fl64_nonneg (x := fl64 (1 / 10 ^ 6) * |x|) (by positivity)
  exact fl64_nonneg (by linarith)

/-- It fires only within `1.02e-6` of the last knot `1`. -/
theorem endTestFl_one {u : ℚ} (hu : u ≤ 1) (h : endTestFl fl64 u 1 = true) : 1 - 102 / 10 ^ 8 ≤ u := by
  unfold endTestFl iscloseFl at h
  rw [decide_eq_true_eq] at h
  have e : fl64 (fl64 atolDefault + fl64 (fl64 (1 / 10 ^ 6) * |1|)) ≤ 1015 / 10 ^ 9 := by decide +kernel
  have h1 := h.trans e
  rw [show u - 1 = -(1 - u) by ring, fl64_neg, abs_neg, abs_of_nonneg (fl64_nonneg (by linarith))] at h1
  have h2 := fl64_lower (x := 1 - u) (by linarith)
  have : (1 - 1 / 2 ^ 53) * (1 - u) ≤ 1015 / 10 ^ 9 := h2.trans h1
  by_contra hc
  have : (1 - 1 / 2 ^ 53) * (102 / 10 ^ 8) ≤ (1 - 1 / 2 ^ 53) * (1 - u) :=
    mul_le_mul_of_nonneg_left (by linarith) (by norm_num)
  norm_num at *
  linarith

end PySpline
