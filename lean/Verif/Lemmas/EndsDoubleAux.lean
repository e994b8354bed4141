import Verif.Lemmas.EndsDouble
import Verif.Props.KnotsDouble
import Verif.Props.Double
import Verif.Props.SurfaceInversion

/-!
# Auxiliary lemmas for `Props/EndsDouble.lean`
-/

set_option linter.unusedSectionVars false

namespace PySpline

open Spec

theorem fl64_two_pow (a : ℕ) : fl64 (1 / 2 ^ a) = 1 / 2 ^ a ∧ fl64 (2 ^ a) = 2 ^ a := by
  have h1 := fl64_dyadic (m := 1) (by norm_num) (-(a : ℤ))
  have h2 := fl64_dyadic (m := 1) (by norm_num) (a : ℤ)
  simp only [Nat.cast_one, one_mul, zpow_neg, zpow_natCast] at h1 h2
  exact ⟨by rw [one_div]; exact h1, h2⟩

/-- The reciprocals for up to 20 uniform spans. -/
theorem uniform_recips : ∀ m < 21, 2 ≤ m →
    (let x := fl64 (vtkParam m 1); fl64 (x * fl64 (1 / x)) = 1) ∧
    (let x := fl64 (1 - vtkParam m (m - 1)); fl64 (x * fl64 (1 / x)) = 1) := by decide +kernel

end PySpline
