import Verif.Lemmas.Edge

/-!
# Auxiliary lemmas for `Props/SurfaceEdges.lean`
-/

set_option linter.unusedSectionVars false

namespace PySpline

open Spec Finset Polynomial

variable {K : Type} [Field K] [LinearOrder K] [IsStrictOrderedRing K]

theorem scaledRow_false (norm : List K → K) (b : Bool) (l : List K) : scaledRow norm false b l = l := by
  simp [scaledRow]

/-- The order of summation in a partial derivative: first `u`, then `v`. -/
theorem patchDeriv_u_first (U : ℕ → K) (k p n : ℕ) (V : ℕ → K) (l q m : ℕ) (c : ℕ → K) (a b : ℕ) (u v : K) :
    patchDeriv U k p n V l q m c a b u v = ∑ j ∈ range m,
      (∑ i ∈ range n, c (i * m + j) * (deriv a (piece U k p i)).eval u) * (deriv b (piece V l q j)).eval v := by
  unfold patchDeriv
  rw [sum_comm]
  exact sum_congr rfl fun j _ => by rw [sum_mul]

theorem patchDeriv_v_first (U : ℕ → K) (k p n : ℕ) (V : ℕ → K) (l q m : ℕ) (c : ℕ → K) (a b : ℕ) (u v : K) :
    patchDeriv U k p n V l q m c a b u v = ∑ i ∈ range n,
      (∑ j ∈ range m, c (i * m + j) * (deriv b (piece V l q j)).eval v) * (deriv a (piece U k p i)).eval u := by
  unfold patchDeriv
  refine sum_congr rfl fun i _ => ?_
  rw [sum_mul]
  exact sum_congr rfl fun j _ => by ring

end PySpline
