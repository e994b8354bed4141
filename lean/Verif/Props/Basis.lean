import Verif.Lemmas.BasisAux
import Verif.Lemmas.BasisFunctions
import Verif.Props.FindSpan

/-!
# C15–C17: `basis_functions`
-/

set_option linter.unusedSectionVars false

namespace PySpline

open Spec Polynomial

variable {K : Type} [Field K] [LinearOrder K] [IsStrictOrderedRing K]

/-- On a span of positive length `basis_functions` evaluates the polynomial pieces of the span,
for any parameter. -/
theorem basis_functions_pieces {U : List K} (hU : U.Pairwise (· ≤ ·)) {k p : ℕ} (u : K)
    (hp : p ≤ k) (hk : k + p < U.length) (hs : knotFn U k < knotFn U (k + 1)) :
    basisFunctions (k : ℤ) u p U
      = .ok ((List.range (p + 1)).map fun r => (piece (knotFn U) k p (k - p + r)).eval u) := by
  obtain ⟨N, h1, h2, h3⟩ := basisFunctions_piece (monotone_knotFn hU) u hp hk hs
  rw [h1, eq_map_range h2 fun r hr => h3 r (by omega)]

/-- **C15.** For a parameter in the half-open span `k`, `basis_functions` returns the values
`N_{k-p}(u), …, N_k(u)` of the Cox–de Boor recursion. -/
theorem basis_functions_cox_de_boor {U : List K} (hU : U.Pairwise (· ≤ ·)) {k p : ℕ} {u : K}
    (hp : p ≤ k) (hk : k + p < U.length) (h1 : knotFn U k ≤ u) (h2 : u < knotFn U (k + 1)) :
    basisFunctions (k : ℤ) u p U
      = .ok ((List.range (p + 1)).map fun r => N (knotFn U) p (k - p + r) u) := by
  rw [basis_functions_pieces hU u hp hk (h1.trans_lt h2)]
  simp only [N_eq_piece (monotone_knotFn hU) h1 h2]

/-- **C16.** The returned values sum to `1` for every parameter, and are non-negative on the
closed span. -/
theorem basis_functions_partition_of_unity {U : List K} (hU : U.Pairwise (· ≤ ·)) {k p : ℕ} (u : K)
    (hp : p ≤ k) (hk : k + p < U.length) (hs : knotFn U k < knotFn U (k + 1)) :
    ∃ N, basisFunctions (k : ℤ) u p U = .ok N ∧ N.length = p + 1 ∧ N.sum = 1 ∧
      (knotFn U k ≤ u → u ≤ knotFn U (k + 1) → ∀ x ∈ N, 0 ≤ x) := by
  refine ⟨_, basis_functions_pieces hU u hp hk hs, by simp, ?_, ?_⟩
  · rw [sum_map_range]
    have := congrArg (eval u) (sum_pieces_range (monotone_knotFn hU) hp hs)
    rw [eval_finsetSum] at this
    simpa using this
  · intro h1 h2 x hx
    obtain ⟨r, -, rfl⟩ := List.mem_map.1 hx
    exact piece_nonneg (monotone_knotFn hU) h1 h2 p _

/-- **C17.** For degree at least one, `basis_functions` returns exactly on spans of positive
length; otherwise its first division is by zero. -/
theorem basis_functions_finite_iff {U : List K} (hU : U.Pairwise (· ≤ ·)) {k p : ℕ} (u : K)
    (hp1 : 1 ≤ p) (hp : p ≤ k) (hk : k + p < U.length) :
    ((∃ N, basisFunctions (k : ℤ) u p U = .ok N) ↔ knotFn U k < knotFn U (k + 1)) ∧
    (¬ knotFn U k < knotFn U (k + 1) → basisFunctions (k : ℤ) u p U = .error .nonfinite) := by
  have hle : knotFn U k ≤ knotFn U (k + 1) := monotone_knotFn hU (by omega)
  have h2 : ¬ knotFn U k < knotFn U (k + 1) →
      basisFunctions (k : ℤ) u p U = .error .nonfinite := fun h =>
    basisFunctions_empty_span u hp1 (by omega) (le_antisymm hle (not_lt.1 h))
  refine ⟨⟨?_, fun h => ⟨_, basis_functions_pieces hU u hp hk h⟩⟩, h2⟩
  rintro ⟨N, hN⟩
  by_contra h
  rw [h2 h] at hN
  cases hN

/-! ## Concrete cases -/

/-- The hypotheses of C15 hold for a concrete span, and the values are not trivial. -/
example : basisFunctions 3 (3/10) 2 exU = .ok [8/25, 33/50, 1/50] ∧
    (List.range 3).map (fun r => N (knotFn exU) 2 (3 - 2 + r) (3/10)) = [8/25, 33/50, 1/50] := by
  decide +kernel

example : basisFunctions (3 : ℕ) (3/10) 2 exU
    = .ok ((List.range 3).map fun r => N (knotFn exU) 2 (3 - 2 + r) (3/10)) :=
  basis_functions_cox_de_boor exU_knotVector.mono (by decide) (by decide) (by decide +kernel)
    (by decide +kernel)

example : ∃ N, basisFunctions (3 : ℕ) (3/10) 2 exU = .ok N ∧ N.length = 3 ∧ N.sum = 1 ∧
    (knotFn exU 3 ≤ 3/10 → 3/10 ≤ knotFn exU 4 → ∀ x ∈ N, 0 ≤ x) :=
  basis_functions_partition_of_unity exU_knotVector.mono _ (by decide) (by decide)
    (by decide +kernel)

example : ¬ ∃ N, basisFunctions (4 : ℕ) (1/2 : ℚ) 2 exDouble = .ok N := by
  rw [(basis_functions_finite_iff exDouble_clamped.mono (1/2) (by decide) (by decide)
    (by decide)).1]
  decide +kernel

end PySpline
