import Verif.Lemmas.Convergence

/-!
# Auxiliary lemmas for `Props/Singular.lean`
-/

set_option linter.unusedSectionVars false

namespace PySpline

section
variable {K : Type} [Field K] [LinearOrder K] [IsStrictOrderedRing K]

theorem Euclidean.eq_zero {nm : Num K} (hE : Euclidean nm) {l : List K} (hl : l.length = 3) (h : nm.norm l = 0) :
    l = [0, 0, 0] := by
  obtain ⟨x, y, z, rfl⟩ := List.length_eq_three.1 hl
  have := hE.sq x y z
  rw [h] at this
  have hx : x ^ 2 = 0 := by nlinarith [sq_nonneg x, sq_nonneg y, sq_nonneg z]
  have hy : y ^ 2 = 0 := by nlinarith [sq_nonneg x, sq_nonneg y, sq_nonneg z]
  have hz : z ^ 2 = 0 := by nlinarith [sq_nonneg x, sq_nonneg y, sq_nonneg z]
  rw [pow_eq_zero_iff two_ne_zero] at hx hy hz
  rw [hx, hy, hz]

/-- If both tests fail at a foot point, the derivative vanishes there. -/
theorem stationary_of_tests {nm : Num K} (hE : Euclidean nm) {d r : List K} (hd : d.length = 3)
    {eps1 eps2 : K} (h1 : 0 ≤ eps1) (h2 : 0 ≤ eps2) (t1 : ¬ decide (nm.norm r ≤ eps1) = true)
    (t2 : ¬ ratioLe |ip d r| (nm.norm d * nm.norm r) eps2 = true) (h0 : ip d r = 0) : d = [0, 0, 0] := by
  have hr0 : nm.norm r ≠ 0 := by
    intro h
    exact t1 (decide_eq_true (h.le.trans h1))
  unfold ratioLe at t2
  split at t2
  · rename_i h
    exact hE.eq_zero hd ((mul_eq_zero.1 h).resolve_right hr0)
  · rw [h0, abs_zero, zero_div] at t2
    exact absurd (decide_eq_true h2) t2

end

end PySpline
