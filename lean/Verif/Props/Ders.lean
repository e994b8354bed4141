import Verif.Lemmas.DersAux
import Verif.Lemmas.Ders
import Verif.Props.Basis

/-!
# C18, C19: `basis_function_ders`
-/

set_option linter.unusedSectionVars false

namespace PySpline

open Spec Polynomial

variable {K : Type} [Field K] [LinearOrder K] [IsStrictOrderedRing K]

/-- **C18.** On a span of positive length, for every parameter and every derivative order (also
above the degree), row `r` column `m` of the result is the `m`-th derivative of the polynomial
piece of the basis function `k - degree + r`, at the parameter. -/
theorem basis_function_ders_derivatives {U : List K} (hU : U.Pairwise (· ≤ ·)) {k p : ℕ} (u : K)
    (hp : p ≤ k) (hk : k + p < U.length) (hs : knotFn U k < knotFn U (k + 1)) (order : ℕ) :
    basisFunctionDers (k : ℤ) u p U order
      = .ok ((List.range (p + 1)).map fun r => (List.range (order + 1)).map fun m =>
          (deriv m (piece (knotFn U) k p (k - p + r))).eval u) := by
  obtain ⟨d, h1, h2, h3⟩ := basisFunctionDers_correct (monotone_knotFn hU) u hp hk hs order
  rw [h1, eq_map_range2 h2 fun r m hr hm => h3 r m (by omega) (by omega)]

/-- The pieces are the basis functions on the span, so C18 is about the basis functions. -/
theorem piece_is_basis_function {U : List K} (hU : U.Pairwise (· ≤ ·)) {k : ℕ} {u : K}
    (h1 : knotFn U k ≤ u) (h2 : u < knotFn U (k + 1)) (p i : ℕ) :
    N (knotFn U) p i u = (piece (knotFn U) k p i).eval u :=
  N_eq_piece (monotone_knotFn hU) h1 h2 p i

/-- **C19.** Column 0 is the output of `basis_functions`; every other column sums to zero. -/
theorem basis_function_ders_columns {U : List K} (hU : U.Pairwise (· ≤ ·)) {k p : ℕ} (u : K)
    (hp : p ≤ k) (hk : k + p < U.length) (hs : knotFn U k < knotFn U (k + 1)) (order : ℕ) :
    ∃ ders, basisFunctionDers (k : ℤ) u p U order = .ok ders ∧
      basisFunctions (k : ℤ) u p U = .ok (ders.map fun row => row.getD 0 0) ∧
      ∀ m, 1 ≤ m → m ≤ order → (ders.map fun row => row.getD m 0).sum = 0 := by
  refine ⟨_, basis_function_ders_derivatives hU u hp hk hs order, ?_, ?_⟩
  · rw [basis_functions_pieces hU u hp hk hs]
    congr 1
    rw [List.map_map]
    refine List.map_congr_left fun r _ => ?_
    simp [List.getD_eq_getElem?_getD, deriv]
  · intro m hm1 hm2
    rw [List.map_map]
    have e : ∀ r, (((fun row : List K => row.getD m 0) ∘ fun r => (List.range (order + 1)).map fun m =>
        (deriv m (piece (knotFn U) k p (k - p + r))).eval u) r)
        = (deriv m (piece (knotFn U) k p (k - p + r))).eval u := by
      intro r
      simp [List.getD_eq_getElem?_getD, show m < order + 1 by omega]
    rw [List.map_congr_left fun r _ => e r, sum_map_range, ← eval_finsetSum, ← deriv_sum,
      sum_pieces_range (monotone_knotFn hU) hp hs, deriv_one m hm1, eval_zero]

/-! ## Concrete cases -/

/-- Degree 2, order 3 (above the degree): not trivial, last column zero. -/
example : basisFunctionDers 3 (3/10) 2 exU 3
    = .ok [[8/25, -16/5, 16, 0], [33/50, 12/5, -32, 0], [1/50, 4/5, 16, 0]] := by
  decide +kernel

example : ∃ ders, basisFunctionDers (3 : ℕ) (3/10) 2 exU 3 = .ok ders ∧
      basisFunctions (3 : ℕ) (3/10) 2 exU = .ok (ders.map fun row => row.getD 0 0) ∧
      ∀ m, 1 ≤ m → m ≤ 3 → (ders.map fun row => row.getD m 0).sum = 0 :=
  basis_function_ders_columns exU_knotVector.mono _ (by decide) (by decide) (by decide +kernel) 3

end PySpline
