import Verif.Lemmas.Refine
import Verif.Lemmas.Marsden
import Mathlib.RingTheory.Polynomial.Vieta
import Mathlib.Algebra.Polynomial.Roots
import Mathlib.Algebra.CharZero.Infinite

/-!
# C106–C108: variation diminution, monotonicity, reproduction of polynomials
-/

set_option linter.unusedSectionVars false

namespace PySpline

open Polynomial Spec

variable {K : Type} [Field K] [LinearOrder K] [IsStrictOrderedRing K]

/-- On which side of the plane `a · x = b` a point lies (positive, negative or zero). -/
def planeSide (a : ℕ → K) (b : K) (x : List K) : K :=
  a 0 * x.getD 0 0 + a 1 * x.getD 1 0 + a 2 * x.getD 2 0 - b

theorem curve_planeSide {p n : ℕ} {U : List K} (hU : Clamped p n U) (P : List (List K)) (a : ℕ → K) (b : K) {u : K}
    (h1 : knotFn U p ≤ u) (h2 : u ≤ knotFn U n) :
    planeSide a b [curve (knotFn U) p n (coord P 0) u, curve (knotFn U) p n (coord P 1) u,
      curve (knotFn U) p n (coord P 2) u] = curve (knotFn U) p n (fun i => planeSide a b (P.getD i [])) u := by
  have hs := sum_Nclosed hU h1 h2
  have e : b = ∑ i ∈ Finset.range n, b * Nclosed (knotFn U) p n i u := by
    rw [← Finset.mul_sum, hs, mul_one]
  unfold planeSide curve coord
  simp only [List.getD_cons_zero, List.getD_cons_succ]
  conv_lhs => rw [e]
  simp only [Finset.mul_sum]
  rw [← Finset.sum_add_distrib, ← Finset.sum_add_distrib, ← Finset.sum_sub_distrib]
  exact Finset.sum_congr rfl fun i _ => by ring

/-- **C106.** No plane is crossed more often by a curve than by its control polygon: if the points at
increasing parameters `t 0 < ... < t m` lie alternately on the two sides of a plane, there are control points
with indices `i 0 < ... < i m` that lie on the same sides. -/
theorem single_point_variation_diminishing {p n : ℕ} {U : List K} {P : List (List K)} (hU : Clamped p n U)
    (hp : 1 ≤ p) (hP : Shape P n 3) (a : ℕ → K) (b : K) (m : ℕ) (t : ℕ → K) (pt : ℕ → List K)
    (ht : ∀ j < m, t j < t (j + 1)) (hreg : ∀ j ≤ m, Regular p n U (t j))
    (hpt : ∀ j ≤ m, Curve.singlePoint ⟨p, P, U⟩ (t j) = .ok (pt j)) (h0 : planeSide a b (pt 0) ≠ 0)
    (halt : ∀ j < m, planeSide a b (pt j) * planeSide a b (pt (j + 1)) < 0) :
    ∃ i : ℕ → ℕ, (∀ j < m, i j < i (j + 1)) ∧
      ∀ j ≤ m, i j < n ∧ 0 < planeSide a b (P.getD (i j) []) * planeSide a b (pt j) := by
  have h01 : ∀ j ≤ m, 0 ≤ t j ∧ t j ≤ 1 := by
    intro j hj
    rw [← validateKnot_iff]
    by_contra hc
    have h := hpt j hj
    unfold Curve.singlePoint at h
    rw [if_pos (by simpa using hc)] at h
    cases h
  have hval : ∀ j ≤ m, planeSide a b (pt j) = curve (knotFn U) p n (fun i => planeSide a b (P.getD i [])) (t j) := by
    intro j hj
    have h := hpt j hj
    rw [single_point_bspline_sum hU hp hP le_rfl (h01 j hj).1 (h01 j hj).2 (hreg j hj)] at h
    rw [← Except.ok.inj h, curve_planeSide hU P a b (hreg j hj).lo (hreg j hj).hi]
  obtain ⟨i, hi, hs⟩ := curve_signs hU hp (fun i => planeSide a b (P.getD i [])) t m ht
    (by rw [← hU.left p le_rfl]; exact (hreg 0 (by omega)).lo)
    (by rw [← hU.right n le_rfl (by omega)]; exact (hreg m le_rfl).hi)
    (by rw [← hval 0 (by omega)]; exact h0)
    (fun j hj => by rw [← hval j (by omega), ← hval (j + 1) hj]; exact halt j hj)
  exact ⟨i, hi, fun j hj => by rw [hval j hj]; exact hs j hj⟩

/-- **C107.** If a coordinate of the control points does not decrease from one control point to the next, the
coordinate of the curve points does not decrease with the parameter. -/
theorem single_point_monotone {p n : ℕ} {U : List K} {P : List (List K)} (hU : Clamped p n U) (hp : 1 ≤ p)
    (hP : Shape P n 3) {k : ℕ} (hk : k < 3) (hmono : ∀ i, i + 1 < n → coord P k i ≤ coord P k (i + 1)) {s t : K}
    (hst : s ≤ t) (hs : Regular p n U s) (ht : Regular p n U t) {x y : List K}
    (hx : Curve.singlePoint ⟨p, P, U⟩ s = .ok x) (hy : Curve.singlePoint ⟨p, P, U⟩ t = .ok y) :
    x.getD k 0 ≤ y.getD k 0 := by
  have h01 : ∀ {u : K} {z : List K}, Curve.singlePoint ⟨p, P, U⟩ u = .ok z → 0 ≤ u ∧ u ≤ 1 := by
    intro u z h
    rw [← validateKnot_iff]
    by_contra hc
    unfold Curve.singlePoint at h
    rw [if_pos (by simpa using hc)] at h
    cases h
  have hm : ∀ i j, i ≤ j → j < n → coord P k i ≤ coord P k j := by
    intro i j hij
    induction j, hij using Nat.le_induction with
    | base => intro _; exact le_rfl
    | succ j _ ih => exact fun hj => (ih (by omega)).trans (hmono j hj)
  have key := curve_monotone hU hp hm (by rw [← hU.left p le_rfl]; exact hs.lo) hst
    (by rw [← hU.right n le_rfl (by omega)]; exact ht.hi)
  rw [single_point_bspline_sum hU hp hP le_rfl (h01 hx).1 (h01 hx).2 hs] at hx
  rw [single_point_bspline_sum hU hp hP le_rfl (h01 hy).1 (h01 hy).2 ht] at hy
  rw [← Except.ok.inj hx, ← Except.ok.inj hy]
  interval_cases k <;> simpa using key

/-- Marsden's identity on the closed domain. -/
theorem curve_marsden {p n : ℕ} {U : List K} (hU : Clamped p n U) (y : K) {u : K} (h1 : knotFn U p ≤ u)
    (h2 : u ≤ knotFn U n) : curve (knotFn U) p n (fun i => dualPoly (knotFn U) p i y) u = (y - u) ^ p := by
  have hV := monotone_knotFn hU.mono
  have hsz := hU.size
  rcases h2.eq_or_lt with rfl | h2
  · rw [hU.right n le_rfl (by omega), curve_last hU]
    unfold dualPoly
    rw [Finset.prod_congr rfl fun j hj => by
      rw [hU.right (n - 1 + 1 + j) (by omega) (by have := Finset.mem_range.1 hj; omega)]]
    simp
  · obtain ⟨k, k1, k2, k3, k4⟩ := exists_span h1 h2 hsz.le
    have hne : u ≠ knotFn U (n + p) := (h2.trans_le (hV (by omega))).ne
    have hm := congrArg (eval u) (marsden_piece hV (k3.trans_lt k4) y p k1)
    rw [eval_finsetSum] at hm
    simp only [eval_mul, eval_C, eval_pow, eval_sub, eval_X] at hm
    rw [← hm]
    unfold curve Nclosed
    simp only [if_neg hne]
    symm
    rw [Finset.sum_congr rfl fun i _ => by rw [← N_eq_piece hV k3 k4 p i]]
    refine Finset.sum_subset (Finset.range_subset_range.2 (by omega)) fun i _ hi => ?_
    rw [N_eq_piece hV k3 k4, piece_eq_zero_of_lt _ _ _ _ (by simp at hi; omega), eval_zero, mul_zero]

/-- The blossom of `uᵐ` at the knots `U[i+1], ..., U[i+p]`: their `m`-th elementary symmetric function divided by
the number of its terms. -/
noncomputable def powerCoeff (U : ℕ → K) (p i m : ℕ) : K :=
  ((Multiset.range p).map fun j => U (i + 1 + j)).esymm m / (p.choose m : K)

theorem curve_power {p n : ℕ} {U : List K} (hU : Clamped p n U) {m : ℕ} (hm : m ≤ p) {u : K}
    (h1 : knotFn U p ≤ u) (h2 : u ≤ knotFn U n) :
    curve (knotFn U) p n (fun i => powerCoeff (knotFn U) p i m) u = u ^ m := by
  -- both sides of Marsden's identity as polynomials in `y`
  have hpoly : ∑ i ∈ Finset.range n, C (Nclosed (knotFn U) p n i u) *
      (((Multiset.range p).map fun j => knotFn U (i + 1 + j)).map fun t => X - C t).prod = (X - C u) ^ p := by
    refine Polynomial.funext fun y => ?_
    rw [eval_finsetSum, eval_pow, eval_sub, eval_X, eval_C, ← curve_marsden hU y h1 h2]
    unfold curve
    refine Finset.sum_congr rfl fun i _ => ?_
    rw [eval_mul, eval_C, eval_multiset_prod, Multiset.map_map, Multiset.map_map, mul_comm]
    congr 1
    unfold dualPoly Finset.prod
    simp
  have hcoef := congrArg (fun f => coeff f (p - m)) hpoly
  rw [sub_eq_add_neg X (C u), ← C_neg] at hcoef
  simp only [finsetSum_coeff, coeff_C_mul, coeff_X_add_C_pow] at hcoef
  rw [Finset.sum_congr rfl fun i _ => by
    rw [Multiset.prod_X_sub_C_coeff _ (by simp : p - m ≤ _)]] at hcoef
  simp only [Multiset.card_map, Multiset.card_range, show p - (p - m) = m by omega, Nat.choose_symm hm] at hcoef
  have hch : (p.choose m : K) ≠ 0 := by
    have := Nat.choose_pos hm
    positivity
  unfold curve powerCoeff
  have hs : ((-1 : K) ^ m) * (-1) ^ m = 1 := by rw [← mul_pow]; simp
  have e : ∑ i ∈ Finset.range n, ((Multiset.range p).map fun j => knotFn U (i + 1 + j)).esymm m / (p.choose m : K)
      * Nclosed (knotFn U) p n i u = (-1) ^ m / (p.choose m : K) *
        ∑ i ∈ Finset.range n, Nclosed (knotFn U) p n i u *
          ((-1) ^ m * ((Multiset.range p).map fun j => knotFn U (i + 1 + j)).esymm m) := by
    rw [Finset.mul_sum]
    refine Finset.sum_congr rfl fun i _ => ?_
    field_simp
    linear_combination (-(((Multiset.range p).map fun j => knotFn U (i + 1 + j)).esymm m)
      * Nclosed (knotFn U) p n i u) * hs
  rw [e, hcoef, neg_pow]
  field_simp
  linear_combination u ^ m * hs

/-- **C108.** Curves reproduce polynomials: for every polynomial `f` of degree at most `p`, if coordinate `k` of control
point `i` is the blossom of `f` at `U[i+1], ..., U[i+p]`, that coordinate of `single_point(u)` is `f(u)`. -/
theorem single_point_polynomial {p n : ℕ} {U : List K} {P : List (List K)} (hU : Clamped p n U) (hp : 1 ≤ p)
    (hP : Shape P n 3) {k : ℕ} (hk : k < 3) (f : K[X]) (hf : f.natDegree ≤ p)
    (hc : ∀ i < n, coord P k i = ∑ m ∈ Finset.range (p + 1), f.coeff m * powerCoeff (knotFn U) p i m)
    {u : K} (h0 : 0 ≤ u) (h1 : u ≤ 1) (hr : Regular p n U u) :
    ∃ x, Curve.singlePoint ⟨p, P, U⟩ u = .ok x ∧ x.getD k 0 = f.eval u := by
  refine ⟨_, single_point_bspline_sum hU hp hP le_rfl h0 h1 hr, ?_⟩
  have key : curve (knotFn U) p n (coord P k) u = f.eval u := by
    rw [eval_eq_sum_range' (Nat.lt_succ_of_le hf),
      Finset.sum_congr rfl fun m hm => by
        rw [← curve_power hU (Nat.lt_succ_iff.1 (Finset.mem_range.1 hm)) hr.lo hr.hi]]
    unfold curve
    rw [Finset.sum_congr rfl fun i hi => by rw [hc i (Finset.mem_range.1 hi), Finset.sum_mul]]
    rw [Finset.sum_comm]
    refine Finset.sum_congr rfl fun l _ => ?_
    rw [Finset.mul_sum]
    exact Finset.sum_congr rfl fun i _ => by ring
  interval_cases k <;> simpa using key

/-- **C108**, linear precision: if coordinate `k` of control point `i` is the mean of `U[i+1], ..., U[i+p]` (the
Greville abscissa), that coordinate of `single_point(u)` is `u`. -/
theorem single_point_greville {p n : ℕ} {U : List K} {P : List (List K)} (hU : Clamped p n U) (hp : 1 ≤ p)
    (hP : Shape P n 3) {k : ℕ} (hk : k < 3)
    (hc : ∀ i < n, coord P k i = (∑ j ∈ Finset.range p, knotFn U (i + 1 + j)) / p) {u : K} (h0 : 0 ≤ u)
    (h1 : u ≤ 1) (hr : Regular p n U u) :
    ∃ x, Curve.singlePoint ⟨p, P, U⟩ u = .ok x ∧ x.getD k 0 = u := by
  refine ⟨_, single_point_bspline_sum hU hp hP le_rfl h0 h1 hr, ?_⟩
  have key : curve (knotFn U) p n (coord P k) u = u := by
    have h := curve_power hU hp hr.lo hr.hi
    rw [pow_one] at h
    conv_rhs => rw [← h]
    refine Finset.sum_congr rfl fun i hi => ?_
    rw [hc i (Finset.mem_range.1 hi)]
    unfold powerCoeff
    rw [Nat.choose_one_right]
    simp [Multiset.esymm, Multiset.powersetCard_one, Finset.sum]
  interval_cases k <;> simpa using key

/-! ## Concrete cases -/

/-- C106: the curve of `exP` crosses the plane `y = 1` four times; so does the control polygon. -/
example : ∃ i : ℕ → ℕ, (∀ j < 4, i j < i (j + 1)) ∧ ∀ j ≤ 4, i j < 6 ∧
    0 < planeSide (fun k => if k = 1 then 1 else 0) 1 (exP.getD (i j) []) *
      planeSide (fun k => if k = 1 then 1 else 0) 1
        (([[0, 0, 0], [32/25, 32/25, 8/25], [21/10, 17/50, 37/50], [93/25, 72/25, 2/25], [5, 0, 2]] :
          List (List ℚ)).getD j []) := by
  refine single_point_variation_diminishing exU_clamped (by decide) exP_shape _ _ 4
    (fun j => ([0, 1/5, 2/5, 4/5, 1] : List ℚ).getD j 0) _ ?_ (fun j hj => exU_regular ?_ ?_) ?_ ?_ ?_
  · intro j hj; interval_cases j <;> decide +kernel
  · interval_cases j <;> decide +kernel
  · interval_cases j <;> decide +kernel
  · intro j hj; interval_cases j <;> decide +kernel
  · decide +kernel
  · intro j hj; interval_cases j <;> decide +kernel

/-- C107: the `x` coordinates of `exP` increase. -/
example {s t : ℚ} (h0 : 0 ≤ s) (hst : s ≤ t) (h1 : t ≤ 1) {x y : List ℚ}
    (hx : Curve.singlePoint ⟨2, exP, exU⟩ s = .ok x) (hy : Curve.singlePoint ⟨2, exP, exU⟩ t = .ok y) :
    x.getD 0 0 ≤ y.getD 0 0 :=
  single_point_monotone exU_clamped (by decide) exP_shape (by decide)
    (fun i hi => by
      have : i < 5 := by omega
      interval_cases i <;> decide +kernel)
    hst (exU_regular h0 (hst.trans h1)) (exU_regular (h0.trans hst) h1) hx hy

/-- C108: the Greville abscissae of `exU` as `x` coordinates. -/
example {u : ℚ} (h0 : 0 ≤ u) (h1 : u ≤ 1) : ∃ x, Curve.singlePoint
    ⟨2, [[0, 0, 0], [1/8, 2, 0], [3/8, 0, 1], [5/8, 1, 0], [7/8, 4, 0], [1, 0, 2]], exU⟩ u = .ok x ∧ x.getD 0 0 = u :=
  single_point_greville exU_clamped (by decide) ⟨rfl, by decide +kernel⟩ (by decide)
    (fun i hi => by interval_cases i <;> decide +kernel) h0 h1 (exU_regular h0 h1)

end PySpline
