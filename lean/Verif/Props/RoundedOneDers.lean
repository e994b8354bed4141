import Verif.Lemmas.RoundedOneDers
import Verif.Props.OneBasis
import Verif.Props.RoundedDers
import Verif.Lemmas.DoubleAux

/-!
# C182: `one_basis_function_ders` in rounded arithmetic
-/

set_option linter.unusedSectionVars false

namespace PySpline

open Polynomial Spec

section
variable {K : Type} [Field K] [LinearOrder K] [IsStrictOrderedRing K]

/-- With exact arithmetic the rounded model is the exact one. -/
theorem oneBasisFunctionDersFl_id (p : ℕ) (U : List K) (i : ℕ) (u : K) (order : ℕ) :
    oneBasisFunctionDersFl id p U i u order = oneBasisFunctionDers p U i u order := by
  have h1 : oneBasisTableFl id p U i u = oneBasisTable p U i u := by
    unfold oneBasisTableFl oneBasisTable
    simp only [pyDivFl_id, id]
  unfold oneBasisFunctionDersFl oneBasisFunctionDers oneDersStepFl
  simp only [h1, pyDivFl_id, id]

/-- **C182.** For a parameter in a span of length `h`, `one_basis_function_ders` in rounded arithmetic raises
nothing and divides by nothing that is zero.  The value is non-negative and accurate to `5 p` roundings.  The
errors of the derivatives of order `m` of any number of basis functions together are at most
`((1 / ρ) ^ (5 p - m) - 1) p (p - 1) ⋯ (p - m + 1) (2 / h) ^ m`. -/
theorem one_basis_function_ders_rounded {ρ : K} {fl : K → K} (hr : Rounding fl) (hf : Accurate ρ fl)
    {U : List K} (hU : U.Pairwise (· ≤ ·)) {n k p : ℕ} {u : K} (hn : n + p < U.length)
    (h1 : knotFn U k ≤ u) (h2 : u < knotFn U (k + 1)) {order : ℕ} (ho : order ≤ p) :
    ∃ D D' : ℕ → List K, (∀ i < n, oneBasisFunctionDers p U i u order = .ok (D i) ∧
        oneBasisFunctionDersFl fl p U i u order = .ok (D' i) ∧ (D' i).length = order + 1 ∧
        0 ≤ (D' i).getD 0 0 ∧
        |(D' i).getD 0 0 - (D i).getD 0 0| ≤ ((1 / ρ) ^ (5 * p) - 1) * (D i).getD 0 0) ∧
      ∀ m ≤ order, ∑ i ∈ Finset.range n, |(D' i).getD m 0 - (D i).getD m 0| ≤ ((1 / ρ) ^ (5 * p - m) - 1) *
        (p.descFactorial m * (2 / (knotFn U (k + 1) - knotFn U k)) ^ m) := by
  have hV := monotone_knotFn hU
  have hex : ∀ i, ∃ D D' : List K, i < n → oneBasisFunctionDers p U i u order = .ok D ∧
      oneBasisFunctionDersFl fl p U i u order = .ok D' ∧ D'.length = order + 1 ∧
      Near ρ (5 * p) (D'.getD 0 0) (D.getD 0 0) ∧
      ∀ m ≤ order, Approx (1 / ρ) (5 * p - m) (D'.getD m 0) (D.getD m 0) (absDer (knotFn U) k u m p i) := by
    intro i
    by_cases hi : i < n
    swap
    · exact ⟨[], [], fun h => absurd h hi⟩
    obtain ⟨D, e, -, hD⟩ := oneBasisFunctionDers_spec hV (p := p) (i := i) (by omega) h1 h2 ho
    obtain ⟨D', e', hl, hn, hD'⟩ := oneBasisFunctionDersFl_approx hr hf hV (p := p) (i := i) (by omega) h1 h2 ho
    refine ⟨D, D', fun _ => ⟨e, e', hl, ?_, fun m hm => ?_⟩⟩
    · rw [hD 0 (Nat.zero_le _)]; exact hn
    · rw [hD m hm]; exact hD' m hm
  choose D D' hall using hex
  refine ⟨D, D', fun i hi => ?_, fun m hm => ?_⟩
  · obtain ⟨a1, a2, a3, a4, -⟩ := hall i hi
    exact ⟨a1, a2, a3, a4.nonneg hf.pos, a4.abs_sub_le hf.pos hf.le_one⟩
  · have hg := sub_nonneg.2 (one_le_pow₀ hf.one_le (n := 5 * p - m))
    calc ∑ i ∈ Finset.range n, |(D' i).getD m 0 - (D i).getD m 0|
        ≤ ∑ i ∈ Finset.range n, ((1 / ρ) ^ (5 * p - m) - 1) * absDer (knotFn U) k u m p i :=
          Finset.sum_le_sum fun i hi => ((hall i (Finset.mem_range.1 hi)).2.2.2.2 m hm).2
      _ = ((1 / ρ) ^ (5 * p - m) - 1) * ∑ i ∈ Finset.range n, absDer (knotFn U) k u m p i := by
          rw [Finset.mul_sum]
      _ ≤ _ := mul_le_mul_of_nonneg_left (sum_absDer_le hV h1 h2 m p n) hg

/-- **C182.** Outside the support of the basis function the zeros are exact. -/
theorem one_basis_function_ders_rounded_outside {fl : K → K} {U : List K} {p i : ℕ} {u : K}
    (hi : i + p + 1 < U.length) (h : u < knotFn U i ∨ knotFn U (i + p + 1) ≤ u) (order : ℕ) :
    oneBasisFunctionDersFl fl p U i u order = .ok (List.replicate (order + 1) 0) := by
  unfold oneBasisFunctionDersFl
  dsimp only
  rw [pyGet_knot U _ i rfl (by omega), ok_bind]
  by_cases hlo : u < knotFn U i
  · rw [if_pos hlo]; rfl
  · rw [if_neg hlo, pyGet_knot U _ (i + p + 1) (by push_cast; rfl) hi, ok_bind, if_pos (h.resolve_left hlo)]; rfl

end

/-- **C182** in double precision (no overflow or underflow), for degrees up to 14: relative errors of `1e-14`. -/
theorem one_basis_function_ders_double {U : List ℚ} (hU : U.Pairwise (· ≤ ·)) {n k p : ℕ} {u : ℚ}
    (hn : n + p < U.length) (hp : p ≤ 14) (h1 : knotFn U k ≤ u) (h2 : u < knotFn U (k + 1)) {order : ℕ} (ho : order ≤ p) :
    ∃ D D' : ℕ → List ℚ, (∀ i < n, oneBasisFunctionDers p U i u order = .ok (D i) ∧
        oneBasisFunctionDersFl fl64 p U i u order = .ok (D' i) ∧
        |(D' i).getD 0 0 - (D i).getD 0 0| ≤ 1 / 10 ^ 14 * (D i).getD 0 0) ∧
      ∀ m ≤ order, ∑ i ∈ Finset.range n, |(D' i).getD m 0 - (D i).getD m 0| ≤ 1 / 10 ^ 14 *
        (p.descFactorial m * (2 / (knotFn U (k + 1) - knotFn U k)) ^ m) := by
  obtain ⟨D, D', a, b⟩ := one_basis_function_ders_rounded rounding_fl64 accurate_fl64 hU hn h1 h2 ho
  refine ⟨D, D', fun i hi => ?_, fun m hm => (b m hm).trans ?_⟩
  · obtain ⟨a1, a2, -, -, a5⟩ := a i hi
    refine ⟨a1, a2, a5.trans (mul_le_mul_of_nonneg_right (pow_error (5 * p) (by omega)) ?_)⟩
    obtain ⟨D₁, e, -, hD⟩ := oneBasisFunctionDers_spec (monotone_knotFn hU) (p := p) (i := i) (by omega) h1 h2 ho
    obtain rfl : D₁ = D i := Except.ok.inj (e.symm.trans a1)
    rw [hD 0 (Nat.zero_le _)]
    exact piece_eval_nonneg (monotone_knotFn hU) h1 h2.le p i
  · have h0 : 0 < knotFn U (k + 1) - knotFn U k := sub_pos.2 (h1.trans_lt h2)
    exact mul_le_mul_of_nonneg_right (pow_error _ (by omega)) (by positivity)

/-- **C182.** The error of a single derivative is not small relative to it: at the maximum of a quadratic basis
function the derivative is zero, but in double precision it is `-2^-55`. -/
theorem one_basis_function_ders_cancellation :
    oneBasisFunctionDers 2 [0, 1, 6, 10] 0 (4 : ℚ) 1 = .ok [2 / 3, 0] ∧
    ∃ x, oneBasisFunctionDersFl fl64 2 [0, 1, 6, 10] 0 (4 : ℚ) 1 = .ok [x, -1 / 2 ^ 55] := by
  refine ⟨by decide +kernel, 3002399751580331 / 4503599627370496, by decide +kernel⟩

example : ∃ D D' : ℕ → List ℚ, (∀ i < 4, oneBasisFunctionDers 2 [0, 0, 0, 1/3, 1, 1, 1] i (1/10) 2 = .ok (D i) ∧
      oneBasisFunctionDersFl fl64 2 [0, 0, 0, 1/3, 1, 1, 1] i (1/10) 2 = .ok (D' i) ∧
      |(D' i).getD 0 0 - (D i).getD 0 0| ≤ 1 / 10 ^ 14 * (D i).getD 0 0) ∧
    ∀ m ≤ 2, ∑ i ∈ Finset.range 4, |(D' i).getD m 0 - (D i).getD m 0| ≤ 1 / 10 ^ 14 *
      (Nat.descFactorial 2 m * (2 / (knotFn ([0, 0, 0, 1/3, 1, 1, 1] : List ℚ) 3 - knotFn [0, 0, 0, 1/3, 1, 1, 1] 2)) ^ m) :=
  one_basis_function_ders_double (by decide +kernel) (by decide) (by decide) (by decide +kernel) (by decide +kernel)
    (by decide)

example : oneBasisFunctionDersFl fl64 2 [0, 0, 0, 1/3, 1, 1, 1] 3 1 2 = .ok [0, 0, 0] :=
  one_basis_function_ders_rounded_outside (by decide) (.inr (by decide +kernel)) 2

end PySpline
