import Verif.Lemmas.Curve

/-!
# Reversing the parameter of a spline
-/

set_option linter.unusedSectionVars false

namespace PySpline

open Spec Polynomial

variable {K : Type} [Field K] [LinearOrder K] [IsStrictOrderedRing K]

/-- The knots of the reversed curve: the parameter `u` becomes `1 - u`. -/
def reverseKnots (U : List K) : List K := (U.map fun x => 1 - x).reverse

theorem knotFn_reverseKnots {U : List K} {m i : ℕ} (hlen : U.length = m + 1) (hi : i ≤ m) :
    knotFn (reverseKnots U) i = 1 - knotFn U (m - i) := by
  unfold reverseKnots
  rw [knotFn_eq (by simp; omega), knotFn_eq (by omega), List.getElem_reverse, List.getElem_map]
  simp only [List.length_map]
  congr 2
  omega

theorem clamped_reverse {p n : ℕ} {U : List K} (hU : Clamped p n U) : Clamped p n (reverseKnots U) := by
  have hlen := hU.len
  have hsz := hU.size
  have hk : ∀ i ≤ n + p, knotFn (reverseKnots U) i = 1 - knotFn U (n + p - i) := fun i hi =>
    knotFn_reverseKnots (m := n + p) hlen hi
  refine ⟨⟨by unfold reverseKnots; simp [hlen], ?_, hsz⟩, fun i hi => ?_, fun i h1 h2 => ?_⟩
  · unfold reverseKnots
    rw [List.pairwise_reverse, List.pairwise_map]
    exact hU.mono.imp fun h => by linarith
  · rw [hk i (by omega), hk 0 (by omega), hU.right (n + p - i) (by omega) (by omega), Nat.sub_zero]
  · rw [hk i h2, hk (n + p) le_rfl, hU.left (n + p - i) (by omega), Nat.sub_self]

/-- The pieces of the basis functions for reversed knots. -/
theorem piece_reverse {V W : ℕ → K} {m : ℕ} (h : ∀ i ≤ m, V i = 1 - W (m - i)) {k : ℕ} (hk : k < m) (u : K) :
    ∀ q j, j + q + 1 ≤ m → (piece V (m - 1 - k) q j).eval (1 - u) = (piece W k q (m - q - 1 - j)).eval u := by
  intro q
  induction q with
  | zero =>
    intro j hj
    unfold piece
    by_cases hjk : j = m - 1 - k
    · rw [if_pos hjk, if_pos (by omega), eval_one, eval_one]
    · rw [if_neg hjk, if_neg (by omega), eval_zero, eval_zero]
  | succ q ih =>
    intro j hj
    unfold piece
    simp only [eval_add, eval_mul, eval_C, eval_sub, eval_X]
    rw [ih j (by omega), ih (j + 1) (by omega), h j (by omega), h (j + q + 1) (by omega), h (j + q + 2) (by omega),
      h (j + 1) (by omega), show m - (q + 1) - 1 - j + q + 1 = m - (j + 1) by omega,
      show m - (q + 1) - 1 - j + q + 2 = m - j by omega, show m - (q + 1) - 1 - j + 1 = m - (j + q + 1) by omega,
      show m - (q + 1) - 1 - j = m - (j + q + 2) by omega, show m - q - 1 - j = m - (j + q + 1) by omega,
      show m - q - 1 - (j + 1) = m - (j + q + 2) by omega]
    rw [show 1 - W (m - (j + q + 1)) - (1 - W (m - j)) = W (m - j) - W (m - (j + q + 1)) by ring,
      show 1 - W (m - (j + q + 2)) - (1 - W (m - (j + 1))) = W (m - (j + 1)) - W (m - (j + q + 2)) by ring]
    ring

/-- The value of a spline is the value of the reversed spline at the reversed parameter. -/
theorem curve_reverse {p n : ℕ} {U : List K} (hU : Clamped p n U) (hp : 1 ≤ p) {u : K} (hr : Regular p n U u)
    (hr' : Regular p n (reverseKnots U) (1 - u)) (c : ℕ → K) :
    curve (knotFn (reverseKnots U)) p n (fun i => c (n - 1 - i)) (1 - u) = curve (knotFn U) p n c u := by
  have hsz := hU.size
  obtain ⟨k, -, hpk, hkn, h1, h2, h3⟩ := findSpan_regular hU.toKnotVector hr
  have hk : ∀ i ≤ n + p, knotFn (reverseKnots U) i = 1 - knotFn U (n + p - i) := fun i hi =>
    knotFn_reverseKnots (m := n + p) hU.len hi
  have e1 : knotFn (reverseKnots U) (n + p - 1 - k) = 1 - knotFn U (k + 1) := by
    rw [hk _ (by omega), show n + p - (n + p - 1 - k) = k + 1 by omega]
  have e2 : knotFn (reverseKnots U) (n + p - 1 - k + 1) = 1 - knotFn U k := by
    rw [hk _ (by omega), show n + p - (n + p - 1 - k + 1) = k by omega]
  unfold curve
  rw [← Finset.sum_range_reflect]
  refine Finset.sum_congr rfl fun i hi => ?_
  have hi := Finset.mem_range.1 hi
  beta_reduce
  rw [show n - 1 - (n - 1 - i) = i by omega, ← piece_eq_Nclosed hU hp hr hkn hpk h1 h2 h3 i hi,
    ← piece_eq_Nclosed (clamped_reverse hU) hp hr' (m := n + p - 1 - k) (by omega) (by omega) (by rw [e1]; linarith)
      (by rw [e2]; linarith) (by rw [e1, e2]; linarith) (n - 1 - i) (by omega),
    piece_reverse hk (by omega) u p (n - 1 - i) (by omega), show n + p - p - 1 - (n - 1 - i) = i by omega]

end PySpline
