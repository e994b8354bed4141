import Verif.Lemmas.KnotValues

/-!
# Marsden's identity and local linear independence
-/

set_option linter.unusedSectionVars false

namespace PySpline

open Polynomial Spec Finset

variable {K : Type} [Field K] [LinearOrder K] [IsStrictOrderedRing K]

/-- The coefficients of `(y - u)ᵖ`: the product of `y - U[i+1], ..., y - U[i+p]`. -/
def dualPoly (U : ℕ → K) (p i : ℕ) (y : K) : K := ∏ j ∈ range p, (y - U (i + 1 + j))

theorem dualPoly_right (U : ℕ → K) (p i : ℕ) (y : K) :
    dualPoly U (p + 1) i y = dualPoly U p i y * (y - U (i + p + 1)) := by
  unfold dualPoly
  rw [prod_range_succ, show i + 1 + p = i + p + 1 by omega]

theorem dualPoly_left (U : ℕ → K) (p i : ℕ) (y : K) :
    dualPoly U (p + 1) i y = (y - U (i + 1)) * dualPoly U p (i + 1) y := by
  unfold dualPoly
  rw [prod_range_succ', mul_comm]
  congr 1
  refine prod_congr rfl fun j _ => ?_
  rw [show i + 1 + (j + 1) = i + 1 + 1 + j by omega]

theorem marsden_piece {U : ℕ → K} (hU : Monotone U) {k : ℕ} (hk : U k < U (k + 1)) (y : K) (p : ℕ)
    (hp : p ≤ k) : ∑ i ∈ range (k + 1), C (dualPoly U p i y) * piece U k p i = (C y - X) ^ p := by
  induction p with
  | zero => simp [piece, dualPoly]
  | succ p ih =>
    have key : ∀ i, C (dualPoly U p i y * (y - U (i + p + 1))) * (C (w U p i) * (X - C (U i)) * piece U k p i)
        + C ((y - U i) * dualPoly U p i y) * (C (w U p i) * (C (U (i + p + 1)) - X) * piece U k p i)
        = (C y - X) * (C (dualPoly U p i y) * piece U k p i) := by
      intro i
      by_cases h1 : k < i
      · rw [piece_eq_zero_of_lt U k p i h1]; simp
      by_cases h2 : i + p < k
      · rw [piece_eq_zero_of_gt U k p i h2]; simp
      have h : U i < U (i + p + 1) :=
        lt_of_le_of_lt (hU (by omega : i ≤ k)) (lt_of_lt_of_le hk (hU (by omega)))
      have hw : C (w U p i) * (C (U (i + p + 1)) - C (U i)) = (1 : K[X]) := by
        rw [← C_sub, ← C_mul, w, one_div_mul_cancel (sub_ne_zero.2 h.ne'), C_1]
      simp only [C_mul, C_sub]
      linear_combination (piece U k p i) * (C y - X) * C (dualPoly U p i y) * hw
    rw [pow_succ', ← ih (by omega), mul_sum]
    simp only [piece_succ, mul_add]
    rw [sum_add_distrib]
    have h0 : piece U k p 0 = 0 := piece_eq_zero_of_gt U k p 0 (by omega)
    have h1 : piece U k p (k + 1) = 0 := piece_eq_zero_of_lt U k p (k + 1) (by omega)
    have e : ∑ i ∈ range (k + 1), C (dualPoly U (p + 1) i y) *
          (C (w U p (i + 1)) * (C (U (i + p + 2)) - X) * piece U k p (i + 1))
        = ∑ i ∈ range (k + 1), C ((y - U i) * dualPoly U p i y) *
          (C (w U p i) * (C (U (i + p + 1)) - X) * piece U k p i) := by
      have := sum_range_succ' (fun i => C ((y - U i) * dualPoly U p i y) *
        (C (w U p i) * (C (U (i + p + 1)) - X) * piece U k p i)) (k + 1)
      rw [sum_range_succ] at this
      simp only [h0, h1, mul_zero, add_zero] at this
      rw [this]
      refine sum_congr rfl fun i _ => ?_
      rw [dualPoly_left, show i + 1 + p + 1 = i + p + 2 by omega]
    rw [e, ← sum_add_distrib]
    refine sum_congr rfl fun i _ => ?_
    rw [dualPoly_right, key i]

/-- On a non-empty span the `p + 1` pieces are linearly independent. -/
theorem piece_independent {U : ℕ → K} (hU : Monotone U) {k : ℕ} (hk : U k < U (k + 1)) (p : ℕ) (hp : p ≤ k)
    (c : ℕ → K) (h : ∑ i ∈ range (k + 1), C (c i) * piece U k p i = 0) : ∀ i, k ≤ i + p → i ≤ k → c i = 0 := by
  induction p generalizing c with
  | zero =>
    intro i h1 h2
    have : i = k := by omega
    subst this
    simpa [piece] using h
  | succ p ih =>
    have hd : ∑ i ∈ range (k + 1), C ((c i - c (i - 1)) * w U p i) * piece U k p i = 0 := by
      have h' := congrArg derivative h
      rw [derivative_sum, derivative_zero] at h'
      simp only [derivative_C_mul, derivative_piece hU] at h'
      have h0 : piece U k p 0 = 0 := piece_eq_zero_of_gt U k p 0 (by omega)
      have h1 : piece U k p (k + 1) = 0 := piece_eq_zero_of_lt U k p (k + 1) (by omega)
      have e : ∑ i ∈ range (k + 1), C (c i) * (C (w U p (i + 1)) * piece U k p (i + 1))
          = ∑ i ∈ range (k + 1), C (c (i - 1)) * (C (w U p i) * piece U k p i) := by
        have := sum_range_succ' (fun i => C (c (i - 1)) * (C (w U p i) * piece U k p i)) (k + 1)
        rw [sum_range_succ] at this
        simp only [h0, h1, mul_zero, add_zero] at this
        rw [this]
        simp
      have hp1 : (C ((p : K) + 1) : K[X]) ≠ 0 := by
        rw [Ne, C_eq_zero]
        positivity
      refine (mul_eq_zero.1 ?_).resolve_left hp1
      rw [← h', mul_sum]
      have : ∑ i ∈ range (k + 1), C (c i) * (C ((p : K) + 1) * (C (w U p i) * piece U k p i
          - C (w U p (i + 1)) * piece U k p (i + 1)))
          = C ((p : K) + 1) * (∑ i ∈ range (k + 1), C (c i) * (C (w U p i) * piece U k p i)
            - ∑ i ∈ range (k + 1), C (c i) * (C (w U p (i + 1)) * piece U k p (i + 1))) := by
        rw [← sum_sub_distrib, mul_sum]
        exact sum_congr rfl fun i _ => by ring
      rw [this, e, ← sum_sub_distrib, mul_sum]
      refine sum_congr rfl fun i _ => ?_
      simp only [C_mul, C_sub]
      ring
    have hstep := ih (by omega) _ hd
    have heq : ∀ i, k ≤ i + p → i ≤ k → c i = c (i - 1) := by
      intro i h1 h2
      have hlt : U i < U (i + p + 1) :=
        lt_of_le_of_lt (hU (by omega : i ≤ k)) (lt_of_lt_of_le hk (hU (by omega)))
      have hw : w U p i ≠ 0 := by
        unfold w
        exact one_div_ne_zero (sub_ne_zero.2 hlt.ne')
      exact sub_eq_zero.1 ((mul_eq_zero.1 (hstep i h1 h2)).resolve_right hw)
    have hconst : ∀ d, d ≤ p + 1 → c (k - d) = c k := by
      intro d
      induction d with
      | zero => intro _; rfl
      | succ d ihd =>
        intro hd
        rw [← ihd (by omega), heq (k - d) (by omega) (by omega), show k - d - 1 = k - (d + 1) by omega]
    have hk0 : c k = 0 := by
      have : ∑ i ∈ range (k + 1), C (c i) * piece U k (p + 1) i = C (c k) * ∑ i ∈ range (k + 1), piece U k (p + 1) i := by
        rw [mul_sum]
        refine sum_congr rfl fun i hi => ?_
        by_cases h2 : i + (p + 1) < k
        · rw [piece_eq_zero_of_gt U k (p + 1) i h2]; simp
        · have := hconst (k - i) (by omega)
          rw [show k - (k - i) = i by simp at hi; omega] at this
          rw [this]
      rw [this, sum_piece hU hk (p + 1) hp, mul_one] at h
      exact C_eq_zero.1 h
    intro i h1 h2
    have := hconst (k - i) (by omega)
    rw [show k - (k - i) = i by omega] at this
    rw [this, hk0]

end PySpline
