import Verif.Lemmas.IeeeDersSurf
import Verif.Lemmas.SurfaceAux

/-!
# The size of the derivatives of a patch
-/

namespace PySpline

open Polynomial Spec

variable {K : Type} [Field K] [LinearOrder K] [IsStrictOrderedRing K]

theorem deriv_piece_abs_le {V : ℕ → K} (hV : Monotone V) {k p m r : ℕ} {u : K} (h1 : V k ≤ u)
    (h2 : u ≤ V (k + 1)) :
    |(deriv m (piece V k p (k - p + r))).eval u| ≤ p.descFactorial m * rawAbs V k p u r m := by
  unfold rawAbs
  by_cases hmp : m ≤ p
  · rw [if_pos hmp, deriv_piece hV k p _ m hmp]
    simp only [eval_mul, eval_C, eval_finsetSum]
    rw [abs_mul, fall_eq, abs_of_nonneg (Nat.cast_nonneg _)]
    refine mul_le_mul_of_nonneg_left ((Finset.abs_sum_le_sum_abs _ _).trans (Finset.sum_le_sum fun j _ => ?_))
      (Nat.cast_nonneg _)
    rw [abs_mul, abs_of_nonneg (piece_nonneg hV h1 h2 _ _)]
  · rw [if_neg hmp, deriv_piece_zero hV k p _ m (by omega)]
    simp

/-- The derivatives of a patch are at most as large as their rounding errors allow for. -/
theorem patchDeriv_abs_le {U V : ℕ → K} (hU : Monotone U) (hV : Monotone V) {k p n l q m a b : ℕ} {c : ℕ → K}
    {u v C : K} (hp : p ≤ k) (hk : k < n) (hq : q ≤ l) (hl : l < m) (hsu : U k < U (k + 1)) (hsv : V l < V (l + 1))
    (h1 : U k ≤ u) (h2 : u ≤ U (k + 1)) (h3 : V l ≤ v) (h4 : v ≤ V (l + 1)) (hC : ∀ i < n * m, |c i| ≤ C) :
    |patchDeriv U k p n V l q m c a b u v| ≤
      p.descFactorial a * (2 / (U (k + 1) - U k)) ^ a * (q.descFactorial b * (2 / (V (l + 1) - V l)) ^ b) * C := by
  have hz : ∀ (V : ℕ → K) (k p i t : ℕ) (x : K), i + p < k ∨ k < i → (deriv t (piece V k p i)).eval x = 0 := by
    rintro V k p i t x (h | h)
    · rw [piece_eq_zero_of_gt _ _ _ _ h, deriv_zero', eval_zero]
    · rw [piece_eq_zero_of_lt _ _ _ _ h, deriv_zero', eval_zero]
  have hidx : ∀ i < p + 1, ∀ j < q + 1, (k - p + i) * m + (l - q + j) < n * m := fun i hi j hj =>
    index_lt (by omega) (by omega)
  unfold patchDeriv
  rw [← sum_active2 (c := fun i j => c (i * m + j)) (f := fun i => (deriv a (piece U k p i)).eval u)
    (g := fun j => (deriv b (piece V l q j)).eval v) hp hk hq hl (fun i => hz _ _ _ _ _ _) (fun i => hz _ _ _ _ _ _)]
  refine le_trans (Finset.abs_sum_le_sum_abs _ _) (le_trans (Finset.sum_le_sum fun i _ =>
    Finset.abs_sum_le_sum_abs _ _) ?_)
  calc _ ≤ ∑ i ∈ Finset.range (p + 1), ∑ j ∈ Finset.range (q + 1),
        (p.descFactorial a * rawAbs U k p u i a) * |c ((k - p + i) * m + (l - q + j))| *
          (q.descFactorial b * rawAbs V l q v j b) := by
        refine Finset.sum_le_sum fun i _ => Finset.sum_le_sum fun j _ => ?_
        rw [abs_mul, abs_mul]
        exact mul_le_mul (mul_le_mul_of_nonneg_right (deriv_piece_abs_le hU h1 h2) (abs_nonneg _))
          (deriv_piece_abs_le hV h3 h4) (abs_nonneg _)
          (mul_nonneg (mul_nonneg (Nat.cast_nonneg _) (rawAbs_nonneg hU h1 h2)) (abs_nonneg _))
    _ ≤ _ := by
        refine sum_sum_mul_le (g := fun i j => c ((k - p + i) * m + (l - q + j)))
          (fun i _ => mul_nonneg (Nat.cast_nonneg _) (rawAbs_nonneg hU h1 h2))
          (fun j _ => mul_nonneg (Nat.cast_nonneg _) (rawAbs_nonneg hV h3 h4))
          (fun i hi j hj => hC _ (hidx i hi j hj))
          ((abs_nonneg _).trans (hC _ (hidx 0 (by omega) 0 (by omega)))) ?_ ?_
        · rw [← Finset.mul_sum]
          exact mul_le_mul_of_nonneg_left (sum_rawAbs_le hU hp hsu h1 h2) (Nat.cast_nonneg _)
        · rw [← Finset.mul_sum]
          exact mul_le_mul_of_nonneg_left (sum_rawAbs_le hV hq hsv h3 h4) (Nat.cast_nonneg _)

end PySpline
