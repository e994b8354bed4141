import Verif.Lemmas.Insertion
import Verif.Lemmas.Curve

/-!
# Repeated insertion of one knot
-/

set_option linter.unusedSectionVars false

namespace PySpline

open Finset Spec

variable {K : Type} [Field K] [LinearOrder K] [IsStrictOrderedRing K]

theorem insKnots_add (V : ℕ → K) (k : ℕ) (u : K) (r s : ℕ) :
    insKnots (insKnots V k u r) (k + r) u s = insKnots V k u (r + s) := by
  funext i
  unfold insKnots
  by_cases a : i ≤ k
  · rw [if_pos (by omega), if_pos a, if_pos a]
  by_cases b : i ≤ k + r
  · rw [if_pos b, if_neg a, if_pos b, if_neg a, if_pos (by omega)]
  by_cases c : i ≤ k + r + s
  · rw [if_neg b, if_pos c, if_neg a, if_pos (by omega)]
  · rw [if_neg b, if_neg c, if_neg (by omega), if_neg (by omega), if_neg a, if_neg (by omega)]
    congr 1
    omega

theorem boehmIter_add (V : ℕ → K) (p k : ℕ) (u : K) (c : ℕ → K) (r s : ℕ) :
    boehmIter (insKnots V k u r) p (k + r) u (boehmIter V p k u c r) s = boehmIter V p k u c (r + s) := by
  induction s with
  | zero => rfl
  | succ s ih =>
    rw [← Nat.add_assoc]
    conv_lhs => unfold boehmIter
    conv_rhs => unfold boehmIter
    rw [ih, insKnots_add, Nat.add_assoc]

/-- Only the control points that exist are used. -/
theorem boehmIter_congr {V : ℕ → K} {p k : ℕ} {u : K} {c d : ℕ → K} {M : ℕ} (hk : k < M) (h : ∀ m < M, c m = d m)
    (t : ℕ) : ∀ m < M + t, boehmIter V p k u c t m = boehmIter V p k u d t m := by
  induction t with
  | zero => exact h
  | succ t ih =>
    intro m hm
    unfold boehmIter boehm
    rw [ih (m - 1) (by omega)]
    rcases Nat.lt_or_ge m (M + t) with h' | h'
    · rw [ih m h']
    · have e : boehmA (insKnots V k u t) p (k + t) u m = 0 := by
        unfold boehmA
        rw [if_neg (by omega), if_pos (by omega)]
      rw [e, zero_mul, zero_mul]

/-- At a knot of multiplicity at least `p` (just before the span `k`) the functions with a later index vanish. -/
theorem N_eq_zero_of_run {V : ℕ → K} (hV : Monotone V) {p k : ℕ} {u : K} (h2 : u < V (k + 1))
    (hrun : ∀ j, k < j + p → j ≤ k → V j = u) (q : ℕ) : ∀ i, k < i + q → k < i + p → N V q i u = 0 := by
  induction q with
  | zero =>
    intro i hi _
    unfold N
    rw [if_neg fun h => absurd (h2.trans_le (hV (show k + 1 ≤ i by omega))) (not_lt.2 h.1)]
  | succ q ih =>
    intro i hi hip
    unfold N
    rw [ih (i + 1) (by omega) (by omega), mul_zero, add_zero]
    rcases Nat.lt_or_ge k i with h | h
    · rw [ih i (by omega) hip, mul_zero]
    · rw [hrun i hip h, sub_self, zero_div, zero_mul]

/-- At a knot of multiplicity `p` the spline is the control point in front of it. -/
theorem curve_at_run {p n k : ℕ} {U : List K} (hU : Clamped p n U) {u : K} (hpk : p ≤ k) (hk : k < n)
    (h1 : knotFn U k ≤ u) (h2 : u < knotFn U (k + 1)) (hrun : ∀ j, k < j + p → j ≤ k → knotFn U j = u) (c : ℕ → K) :
    curve (knotFn U) p n c u = c (k - p) := by
  have hV := monotone_knotFn hU.mono
  have hne : u ≠ knotFn U (n + p) := (h2.trans_le (hV (by omega))).ne
  have hz : ∀ i, i ≠ k - p → Nclosed (knotFn U) p n i u = 0 := by
    intro i hi
    unfold Nclosed
    rw [if_neg hne]
    rcases Nat.lt_or_ge k (i + p) with h | h
    · exact N_eq_zero_of_run hV h2 hrun p i h h
    · rw [N_eq_piece hV h1 h2, piece_eq_zero_of_gt _ _ _ _ (by omega), Polynomial.eval_zero]
  have hs := sum_Nclosed hU (u := u) ((hV hpk).trans h1) (h2.le.trans (hV (by omega)))
  rw [sum_eq_single (k - p) (fun i _ hi => hz i hi) fun h => absurd (mem_range.2 (by omega)) h] at hs
  unfold curve
  rw [sum_eq_single (k - p) (fun i _ hi => by rw [hz i hi, mul_zero]) fun h => absurd (mem_range.2 (by omega)) h, hs,
    mul_one]

end PySpline
