import Verif.Spec
import Mathlib.Tactic.Ring
import Mathlib.Tactic.Linarith
import Mathlib.Tactic.FieldSimp
import Mathlib.Tactic.LinearCombination
import Mathlib.Algebra.BigOperators.Intervals

/-!
# Facts about the polynomial pieces of the B-spline basis
-/

set_option linter.unusedSectionVars false

namespace PySpline.Spec

open Polynomial Finset

variable {K : Type} [Field K] [LinearOrder K]

/-- The reciprocal of a knot difference, `0` for equal knots. -/
def w (U : ℕ → K) (p i : ℕ) : K := 1 / (U (i + p + 1) - U i)

theorem piece_succ (U : ℕ → K) (k p i : ℕ) :
    piece U k (p + 1) i = C (w U p i) * (X - C (U i)) * piece U k p i
      + C (w U p (i + 1)) * (C (U (i + p + 2)) - X) * piece U k p (i + 1) := by
  have e : i + 1 + p + 1 = i + p + 2 := by omega
  simp only [piece, w, e]

theorem piece_eq_zero_of_lt (U : ℕ → K) (k p i : ℕ) (h : k < i) : piece U k p i = 0 := by
  induction p generalizing i with
  | zero => simp [piece, show i ≠ k by omega]
  | succ p ih => rw [piece_succ, ih i h, ih (i + 1) (by omega)]; simp

theorem piece_eq_zero_of_gt (U : ℕ → K) (k p i : ℕ) (h : i + p < k) : piece U k p i = 0 := by
  induction p generalizing i with
  | zero => simp [piece, show i ≠ k by omega]
  | succ p ih => rw [piece_succ, ih i (by omega), ih (i + 1) (by omega)]; simp

variable [IsStrictOrderedRing K]

/-- The pieces sum to one. -/
theorem sum_piece {U : ℕ → K} (hU : Monotone U) {k : ℕ} (hk : U k < U (k + 1)) (p : ℕ)
    (hp : p ≤ k) : ∑ i ∈ range (k + 1), piece U k p i = 1 := by
  induction p with
  | zero => simp [piece]
  | succ p ih =>
    have key : ∀ i, C (w U p i) * (X - C (U i)) * piece U k p i
        + C (w U p i) * (C (U (i + p + 1)) - X) * piece U k p i = piece U k p i := by
      intro i
      by_cases h1 : k < i
      · rw [piece_eq_zero_of_lt U k p i h1]; simp
      by_cases h2 : i + p < k
      · rw [piece_eq_zero_of_gt U k p i h2]; simp
      have h : U i < U (i + p + 1) :=
        lt_of_le_of_lt (hU (by omega : i ≤ k)) (lt_of_lt_of_le hk (hU (by omega)))
      have hw : C (w U p i) * (C (U (i + p + 1)) - C (U i)) = (1 : K[X]) := by
        rw [← C_sub, ← C_mul, w, one_div_mul_cancel (sub_ne_zero.2 h.ne'), C_1]
      linear_combination (piece U k p i) * hw
    rw [← ih (by omega)]
    simp only [piece_succ]
    rw [sum_add_distrib]
    have h0 : piece U k p 0 = 0 := piece_eq_zero_of_gt U k p 0 (by omega)
    have h1 : piece U k p (k + 1) = 0 := piece_eq_zero_of_lt U k p (k + 1) (by omega)
    have e : ∑ i ∈ range (k + 1), C (w U p (i + 1)) * (C (U (i + p + 2)) - X) * piece U k p (i + 1)
        = ∑ i ∈ range (k + 1), C (w U p i) * (C (U (i + p + 1)) - X) * piece U k p i := by
      have := sum_range_succ' (fun i => C (w U p i) * (C (U (i + p + 1)) - X) * piece U k p i)
        (k + 1)
      rw [sum_range_succ] at this
      simp only [h0, h1, mul_zero, add_zero] at this
      rw [this]
      refine sum_congr rfl fun i _ => ?_
      have e : i + 1 + p + 1 = i + p + 2 := by omega
      rw [e]
    rw [e, ← sum_add_distrib]
    exact sum_congr rfl fun i _ => key i

/-- The pieces are non-negative on their closed span. -/
theorem piece_nonneg {U : ℕ → K} (hU : Monotone U) {k : ℕ} {u : K} (h1 : U k ≤ u)
    (h2 : u ≤ U (k + 1)) (p i : ℕ) : 0 ≤ (piece U k p i).eval u := by
  induction p generalizing i with
  | zero => unfold piece; split <;> simp
  | succ p ih =>
    rw [piece_succ]
    simp only [eval_add, eval_mul, eval_C, eval_sub, eval_X]
    have hw : ∀ i, 0 ≤ w U p i := fun i =>
      one_div_nonneg.2 (sub_nonneg.2 (hU (by omega)))
    refine add_nonneg ?_ ?_
    · by_cases h : k < i
      · rw [piece_eq_zero_of_lt U k p i h]; simp
      · exact mul_nonneg (mul_nonneg (hw i) (sub_nonneg.2 ((hU (by omega : i ≤ k)).trans h1)))
          (ih i)
    · by_cases h : i + 1 + p < k
      · rw [piece_eq_zero_of_gt U k p (i + 1) h]; simp
      · exact mul_nonneg (mul_nonneg (hw (i + 1))
          (sub_nonneg.2 (h2.trans (hU (by omega : k + 1 ≤ i + p + 2))))) (ih (i + 1))

/-- On its span, each basis function is its polynomial piece. -/
theorem N_eq_piece {U : ℕ → K} (hU : Monotone U) {k : ℕ} {u : K} (h1 : U k ≤ u)
    (h2 : u < U (k + 1)) (p i : ℕ) : N U p i u = (piece U k p i).eval u := by
  induction p generalizing i with
  | zero =>
    unfold N piece
    by_cases h : i = k
    · subst h; simp [h1, h2]
    · rw [if_neg h, if_neg]
      · simp
      · rintro ⟨a, b⟩
        rcases lt_or_gt_of_ne h with h | h
        · exact absurd (b.trans_le ((hU (by omega : i + 1 ≤ k)).trans h1)) (lt_irrefl _)
        · exact absurd (h2.trans_le ((hU (by omega : k + 1 ≤ i)).trans a)) (lt_irrefl _)
  | succ p ih =>
    rw [piece_succ]
    simp only [N, ih, eval_add, eval_mul, eval_C, eval_sub, eval_X, w]
    have e : i + 1 + p + 1 = i + p + 2 := by omega
    rw [e]
    ring

/-- The derivative of a piece (The NURBS Book, eq. 2.7). -/
theorem derivative_piece {U : ℕ → K} (hU : Monotone U) (k p i : ℕ) :
    derivative (piece U k (p + 1) i)
      = C ((p : K) + 1) * (C (w U p i) * piece U k p i
          - C (w U p (i + 1)) * piece U k p (i + 1)) := by
  induction p generalizing i with
  | zero =>
    rw [piece_succ]
    have h0 : ∀ i, derivative (piece U k 0 i) = 0 := by
      intro i; unfold piece; split <;> simp
    simp only [derivative_add, derivative_mul, derivative_C, derivative_sub, derivative_X, h0]
    simp
    ring
  | succ p ih =>
    rw [piece_succ U k (p + 1) i]
    simp only [derivative_add, derivative_mul, derivative_C, derivative_sub, derivative_X, ih]
    have hw : C (w U p (i + 1)) * (C (w U (p + 1) i) * (C (U (i + p + 2)) - C (U i))) 
        = C (w U p (i + 1)) * (C (w U (p + 1) (i + 1)) * (C (U (i + p + 3)) - C (U (i + 1)))) := by
      rw [← C_sub, ← C_mul, ← C_sub, ← C_mul, ← C_mul, ← C_mul]
      congr 1
      have m1 : U i ≤ U (i + 1) := hU (by omega)
      have m2 : U (i + 1) ≤ U (i + p + 2) := hU (by omega)
      have m3 : U (i + p + 2) ≤ U (i + p + 3) := hU (by omega)
      have e1 : i + 1 + p + 1 = i + p + 2 := by omega
      have e2 : i + (p + 1) + 1 = i + p + 2 := by omega
      have e3 : i + 1 + (p + 1) + 1 = i + p + 3 := by omega
      unfold w
      rw [e1, e2, e3]
      rcases m2.eq_or_lt with h | h
      · simp [h]
      · rw [one_div_mul_cancel (by linarith), one_div_mul_cancel (by linarith)]
    have e3 : i + (p + 1) + 2 = i + p + 3 := by omega
    have e4 : i + 1 + p + 2 = i + p + 3 := by omega
    rw [piece_succ U k p i, piece_succ U k p (i + 1)]
    rw [e3, e4]
    push_cast
    simp only [C_add, C_1, zero_mul, zero_add, sub_zero, zero_sub, mul_one]
    linear_combination (-(C (p : K) + 1) * piece U k p (i + 1)) * hw

end PySpline.Spec
