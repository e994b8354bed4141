import Verif.Lemmas.Greville
import Verif.Props.Curve
import Verif.Props.Insertion
import Verif.Props.SurfaceMore

/-!
# C162–C163: convex control polygons, control points and the curve
-/

set_option linter.unusedSectionVars false

namespace PySpline

open Spec

variable {K : Type} [Field K] [LinearOrder K] [IsStrictOrderedRing K]

/-! ## C162 -/

/-- **C162.** If the control polygon is convex in the direction `(a, b, d)`, with the control points placed
at the averages of the knots, then the curve is convex in this direction. -/
theorem single_point_convex {p n : ℕ} {U : List K} {P : List (List K)} (hU : Clamped p n U) (hp : 1 ≤ p)
    (hP : Shape P n 3) (hgap : ∀ i, i + 1 < n → knotFn U (i + 1) < knotFn U (i + p + 1)) {a b d : K} {f : List K → K}
    (hf : ∀ x, f x = a * x.getD 0 0 + b * x.getD 1 0 + d * x.getD 2 0)
    (hc : ∀ i, i + 2 < n →
      (f (P.getD (i + 1) []) - f (P.getD i [])) * (knotFn U (i + p + 2) - knotFn U (i + 2))
        ≤ (f (P.getD (i + 2) []) - f (P.getD (i + 1) [])) * (knotFn U (i + p + 1) - knotFn U (i + 1)))
    {s t w : K} (hst : s < t) (htw : t < w) (h0 : 0 ≤ s) (h1 : w ≤ 1) (rs : Regular p n U s) (rt : Regular p n U t)
    (rw' : Regular p n U w) :
    ∃ x y z, Curve.singlePoint ⟨p, P, U⟩ s = .ok x ∧ Curve.singlePoint ⟨p, P, U⟩ t = .ok y ∧
      Curve.singlePoint ⟨p, P, U⟩ w = .ok z ∧ (w - s) * f y ≤ (w - t) * f x + (t - s) * f z := by
  refine ⟨_, _, _, single_point_bspline_sum hU hp hP le_rfl h0 (by linarith) rs,
    single_point_bspline_sum hU hp hP le_rfl (by linarith) (by linarith) rt,
    single_point_bspline_sum hU hp hP le_rfl (by linarith) h1 rw', ?_⟩
  have hcoord : ∀ i, f (P.getD i []) = a * coord P 0 i + b * coord P 1 i + d * coord P 2 i := fun i => hf _
  have hcurve : ∀ u, curve (knotFn U) p n (fun i => f (P.getD i [])) u
      = a * curve (knotFn U) p n (coord P 0) u + b * curve (knotFn U) p n (coord P 1) u
        + d * curve (knotFn U) p n (coord P 2) u := by
    intro u
    unfold curve
    rw [Finset.mul_sum, Finset.mul_sum, Finset.mul_sum, ← Finset.sum_add_distrib, ← Finset.sum_add_distrib]
    exact Finset.sum_congr rfl fun i _ => by dsimp only; rw [hcoord]; ring
  have key := curve_convex hU hp hgap (c := fun i => f (P.getD i [])) hc rs.lo hst htw rw'.hi
  rw [hcurve, hcurve, hcurve] at key
  simp only [hf]
  simpa using key

private def exKnots : List ℚ := [0, 0, 0, 1/2, 1, 1, 1]

private def exPts : List (List ℚ) := [[0, 1, 0], [1, 0, 0], [3, 0, 0], [4, 1, 1]]

private theorem ex_clamped : Clamped 2 4 exKnots :=
  ⟨⟨by decide +kernel, by decide +kernel, by decide⟩, by intro i hi; interval_cases i <;> decide +kernel,
    by intro i h1 h2; interval_cases i <;> decide +kernel⟩

private theorem ex_regular {u : ℚ} (h0 : 0 ≤ u) (h1 : u ≤ 1)
    (h : |u - 1| ≤ 1 / 10 ^ 8 + 1 / 10 ^ 6 * 1 → 1 / 2 ≤ u) : Regular 2 4 exKnots u := by
  refine ⟨?_, ?_, ?_, ?_⟩
  · rw [show knotFn exKnots 2 = 0 by decide +kernel]; exact h0
  · rw [show knotFn exKnots 4 = 1 by decide +kernel]; exact h1
  · intro i a b _; interval_cases i <;> decide +kernel
  · rw [show knotFn exKnots 4 = 1 by decide +kernel, show knotFn exKnots (4 - 1) = 1 / 2 by decide +kernel, abs_one]
    exact h

/-- A quadratic curve with two spans; the second coordinate is convex. -/
example : ∃ x y z, Curve.singlePoint ⟨2, exPts, exKnots⟩ (1/4) = .ok x ∧
    Curve.singlePoint ⟨2, exPts, exKnots⟩ (1/2) = .ok y ∧ Curve.singlePoint ⟨2, exPts, exKnots⟩ (7/8) = .ok z ∧
    (7/8 - 1/4) * y.getD 1 0 ≤ (7/8 - 1/2) * x.getD 1 0 + (1/2 - 1/4) * z.getD 1 0 :=
  single_point_convex ex_clamped (by decide) ⟨by decide, by decide +kernel⟩
    (by intro i hi; have : i < 3 := by omega
        interval_cases i <;> decide +kernel) (a := 0) (b := 1) (d := 0) (f := fun x => x.getD 1 0)
    (by intro x; ring)
    (by intro i hi; have : i < 2 := by omega
        interval_cases i <;> decide +kernel)
    (by norm_num) (by norm_num) (by norm_num) (by norm_num)
    (ex_regular (by norm_num) (by norm_num) (by norm_num [abs_of_nonpos]))
    (ex_regular (by norm_num) (by norm_num) (by norm_num))
    (ex_regular (by norm_num) (by norm_num) (by norm_num))

private theorem ex_clamped1 : Clamped 1 2 ([0, 0, 1, 1] : List ℚ) :=
  ⟨⟨by decide +kernel, by decide +kernel, by decide⟩, by intro i hi; interval_cases i <;> decide +kernel,
    by intro i h1 h2; interval_cases i <;> decide +kernel⟩

private def exSurf : Surface ℚ :=
  ⟨2, 1, 4, 2, [[0, 0, 1], [0, 1, 2], [1, 0, 0], [1, 1, 0], [3, 0, 0], [3, 1, 0], [4, 0, 2], [4, 1, 1]], exKnots, [0, 0, 1, 1]⟩

/-- **C162.** A surface is convex along its `u`-lines if every column of its control net is. -/
theorem surface_point_convex_u {s : Surface K} (hs : ClampedSurface s)
    (hgap : ∀ i, i + 1 < s.numU → knotFn s.kvU (i + 1) < knotFn s.kvU (i + s.degreeU + 1)) {k : ℕ} (hk : k < 3)
    (hc : ∀ i j, i + 2 < s.numU → j < s.numV →
      (coord s.ctrlpts k ((i + 1) * s.numV + j) - coord s.ctrlpts k (i * s.numV + j))
          * (knotFn s.kvU (i + s.degreeU + 2) - knotFn s.kvU (i + 2))
        ≤ (coord s.ctrlpts k ((i + 2) * s.numV + j) - coord s.ctrlpts k ((i + 1) * s.numV + j))
          * (knotFn s.kvU (i + s.degreeU + 1) - knotFn s.kvU (i + 1)))
    {a b e v : K} (hab : a < b) (hbe : b < e) (h0 : 0 ≤ a) (h1 : e ≤ 1) (hv : 0 ≤ v ∧ v ≤ 1)
    (ra : Regular s.degreeU s.numU s.kvU a) (rb : Regular s.degreeU s.numU s.kvU b)
    (re : Regular s.degreeU s.numU s.kvU e) (rv : Regular s.degreeV s.numV s.kvV v) :
    ∃ x y z, s.singlePoint a v = .ok x ∧ s.singlePoint b v = .ok y ∧ s.singlePoint e v = .ok z ∧
      (e - a) * y.getD k 0 ≤ (e - b) * x.getD k 0 + (b - a) * z.getD k 0 := by
  refine ⟨_, _, _, surface_point_tensor_sum hs ⟨h0, by linarith⟩ hv ra rv,
    surface_point_tensor_sum hs ⟨by linarith, by linarith⟩ hv rb rv,
    surface_point_tensor_sum hs ⟨by linarith, h1⟩ hv re rv, ?_⟩
  have hV := monotone_knotFn hs.cv.mono
  have key : (e - a) * s.value k b v ≤ (e - b) * s.value k a v + (b - a) * s.value k e v := by
    rw [value_eq_curve_u, value_eq_curve_u, value_eq_curve_u]
    refine curve_convex hs.cu hs.du hgap (fun i hi => ?_) ra.lo hab hbe re.hi
    have e1 : ∀ (x y : ℕ → K), curve (knotFn s.kvV) s.degreeV s.numV x v - curve (knotFn s.kvV) s.degreeV s.numV y v
        = curve (knotFn s.kvV) s.degreeV s.numV (fun j => x j - y j) v := by
      intro x y
      unfold curve
      rw [← Finset.sum_sub_distrib]
      exact Finset.sum_congr rfl fun j _ => by ring
    rw [e1, e1]
    unfold curve
    rw [Finset.sum_mul, Finset.sum_mul]
    refine Finset.sum_le_sum fun j hj => ?_
    have := mul_le_mul_of_nonneg_right (hc i j hi (Finset.mem_range.1 hj))
      (Nclosed_nonneg hV s.degreeV s.numV j v)
    linarith
  interval_cases k <;> simpa using key

/-- **C162.** The same along the `v`-lines. -/
theorem surface_point_convex_v {s : Surface K} (hs : ClampedSurface s)
    (hgap : ∀ j, j + 1 < s.numV → knotFn s.kvV (j + 1) < knotFn s.kvV (j + s.degreeV + 1)) {k : ℕ} (hk : k < 3)
    (hc : ∀ i j, i < s.numU → j + 2 < s.numV →
      (coord s.ctrlpts k (i * s.numV + (j + 1)) - coord s.ctrlpts k (i * s.numV + j))
          * (knotFn s.kvV (j + s.degreeV + 2) - knotFn s.kvV (j + 2))
        ≤ (coord s.ctrlpts k (i * s.numV + (j + 2)) - coord s.ctrlpts k (i * s.numV + (j + 1)))
          * (knotFn s.kvV (j + s.degreeV + 1) - knotFn s.kvV (j + 1)))
    {a b e u : K} (hab : a < b) (hbe : b < e) (h0 : 0 ≤ a) (h1 : e ≤ 1) (hu : 0 ≤ u ∧ u ≤ 1)
    (ra : Regular s.degreeV s.numV s.kvV a) (rb : Regular s.degreeV s.numV s.kvV b)
    (re : Regular s.degreeV s.numV s.kvV e) (ru : Regular s.degreeU s.numU s.kvU u) :
    ∃ x y z, s.singlePoint u a = .ok x ∧ s.singlePoint u b = .ok y ∧ s.singlePoint u e = .ok z ∧
      (e - a) * y.getD k 0 ≤ (e - b) * x.getD k 0 + (b - a) * z.getD k 0 := by
  refine ⟨_, _, _, surface_point_tensor_sum hs hu ⟨h0, by linarith⟩ ru ra,
    surface_point_tensor_sum hs hu ⟨by linarith, by linarith⟩ ru rb,
    surface_point_tensor_sum hs hu ⟨by linarith, h1⟩ ru re, ?_⟩
  have hV := monotone_knotFn hs.cu.mono
  have key : (e - a) * s.value k u b ≤ (e - b) * s.value k u a + (b - a) * s.value k u e := by
    rw [value_eq_curve_v, value_eq_curve_v, value_eq_curve_v]
    refine curve_convex hs.cv hs.dv hgap (fun j hj => ?_) ra.lo hab hbe re.hi
    have e1 : ∀ (x y : ℕ → K), curve (knotFn s.kvU) s.degreeU s.numU x u - curve (knotFn s.kvU) s.degreeU s.numU y u
        = curve (knotFn s.kvU) s.degreeU s.numU (fun j => x j - y j) u := by
      intro x y
      unfold curve
      rw [← Finset.sum_sub_distrib]
      exact Finset.sum_congr rfl fun j _ => by ring
    rw [e1, e1]
    unfold curve
    rw [Finset.sum_mul, Finset.sum_mul]
    refine Finset.sum_le_sum fun i hi => ?_
    have := mul_le_mul_of_nonneg_right (hc i j (Finset.mem_range.1 hi) hj)
      (Nclosed_nonneg hV s.degreeU s.numU i u)
    linarith
  interval_cases k <;> simpa using key

/-- A surface of degrees 2 and 1 over a 4 by 2 net; the third coordinate is convex along the `u`-lines. -/
example : ∃ x y z, Surface.singlePoint exSurf (1/4) (1/3) = .ok x ∧ exSurf.singlePoint (1/2) (1/3) = .ok y ∧
    exSurf.singlePoint (7/8) (1/3) = .ok z ∧
    (7/8 - 1/4) * y.getD 2 0 ≤ (7/8 - 1/2) * x.getD 2 0 + (1/2 - 1/4) * z.getD 2 0 :=
  surface_point_convex_u (s := exSurf)
    ⟨ex_clamped, ex_clamped1, by decide, by decide, by decide, by decide +kernel⟩
    (by intro i (hi : i + 1 < 4); have : i < 3 := by omega
        interval_cases i <;> decide +kernel)
    (by decide)
    (by intro i j (hi : i + 2 < 4) (hj : j < 2); have : i < 2 := by omega
        interval_cases i <;> interval_cases j <;> decide +kernel)
    (by norm_num) (by norm_num) (by norm_num) (by norm_num) (by norm_num)
    (ex_regular (by norm_num) (by norm_num) (by norm_num [abs_of_nonpos]))
    (ex_regular (by norm_num) (by norm_num) (by norm_num))
    (ex_regular (by norm_num) (by norm_num) (by norm_num))
    ⟨by decide +kernel, by decide +kernel, by intro i (a : 1 ≤ i) (b : i < 2) _; interval_cases i; decide +kernel,
      by intro _; decide +kernel⟩

/-! ## C163 -/

/-- **C163.** If neighbouring control points differ by at most `L` times the distance of their knot averages,
then every control point is, up to `L` times the knot average's distance from `u` plus the width of the
widest window of `p + 1` spans, the point of the curve at `u`. -/
theorem control_point_near_curve {p n : ℕ} {U : List K} {P : List (List K)} (hU : Clamped p n U) (hp : 1 ≤ p)
    (hP : Shape P n 3) {k : ℕ} (hk : k < 3) {L h u : K} (hL : 0 ≤ L)
    (hc : ∀ i, i + 1 < n → |coord P k (i + 1) - coord P k i| * p ≤ L * (knotFn U (i + p + 1) - knotFn U (i + 1)))
    (hh : ∀ i < n, knotFn U (i + p + 1) - knotFn U i ≤ h) (h0 : 0 ≤ u) (h1 : u ≤ 1) (hr : Regular p n U u) :
    ∃ x, Curve.singlePoint ⟨p, P, U⟩ u = .ok x ∧ ∀ i < n,
      |coord P k i - x.getD k 0| ≤ L * (|(∑ j ∈ Finset.range p, knotFn U (i + 1 + j)) / p - u| + h) := by
  refine ⟨_, single_point_bspline_sum hU hp hP le_rfl h0 h1 hr, fun i hi => ?_⟩
  have key := coeff_near_curve hU hp hL hc hh hr.lo hr.hi hi
  unfold greville at key
  interval_cases k <;> simpa using key

/-- Inserting one new knot: the knots, the curve and the slopes. -/
theorem knot_insertion_slopes {U : List K} {P : List (List K)} {r n p : ℕ} {u : K}
    (hU : Clamped p n U) (hp : 1 ≤ p) (hP : Shape P n 3) (hlo : knotFn U p ≤ u) (hhi : u ≤ knotFn U n)
    (hnew : ∀ x ∈ U, ¬ |u - x| ≤ 1 / 10 ^ 8 + 1 / 10 ^ 5 * |x|) (hr : r ≤ p) :
    ∃ U' P', curveKnotInsertion p U P u r = .ok (U', P') ∧
      Clamped p (n + r) U' ∧ Shape P' (n + r) 3 ∧ U'.Perm (U ++ List.replicate r u) ∧
      (∀ y < 3, ∀ x, curve (knotFn U') p (n + r) (coord P' y) x = curve (knotFn U) p n (coord P y) x) ∧
      ∀ y < 3, ∀ L, (∀ i, i + 1 < n →
          |coord P y (i + 1) - coord P y i| * p ≤ L * (knotFn U (i + p + 1) - knotFn U (i + 1))) →
        ∀ i, i + 1 < n + r →
          |coord P' y (i + 1) - coord P' y i| * p ≤ L * (knotFn U' (i + p + 1) - knotFn U' (i + 1)) := by
  have hlen := hU.len
  have hend : nearEnd n u U = false := by
    have hm : knotFn U n ∈ U := by rw [knotFn_eq (by omega)]; exact List.getElem_mem _
    have := hnew _ hm
    unfold nearEnd isclose atolDefault
    rw [decide_eq_false_iff_not]
    intro hcl
    refine this (hcl.trans ?_)
    generalize knotFn U n = z
    have : 0 ≤ |z| := abs_nonneg z
    nlinarith
  obtain ⟨U', P', hret, -, shP, hperm, -, hcl⟩ :=
    knot_insertion_preserves_curve_new_knot (r := r) hU.toKnotVector hP hlo hhi hend hnew hr
  obtain ⟨hcU, hcurve⟩ := hcl hU
  refine ⟨U', P', hret, hcU, shP, hperm, hcurve, fun y hy L hc i hi => ?_⟩
  obtain ⟨k, hfs, hpk, hk, hb⟩ := find_span_on_domain hU.toKnotVector hlo hhi
  rcases hb with ⟨h1, h2⟩ | ⟨h, -⟩
  swap
  · rw [hend] at h; cases h
  have hnot : u ∉ U := fun h => hnew u h (by rw [sub_self, abs_zero]; positivity)
  have h2 : u < knotFn U (k + 1) := by
    refine lt_of_le_of_ne h2 fun e => hnot ?_
    rw [e, knotFn_eq (by omega)]
    exact List.getElem_mem _
  have h0 : U.count u = 0 := List.count_eq_zero.2 hnot
  obtain ⟨-, ⟨U'', P''⟩, hret', -, hfn, -, vP⟩ := insertion_setup (r := r) hU.toKnotVector hP hpk hk hfs h1 h2
    (fun x hx h => absurd h (hnew x hx)) (by omega)
  rw [hret] at hret'
  obtain ⟨rfl, rfl⟩ := Prod.mk.inj (Except.ok.inj hret')
  have key := boehmIter_slopes (monotone_knotFn hU.mono) hp hpk h1 h2 hk hc r i hi
  dsimp only at hfn vP
  rw [hfn]
  have e : ∀ m < n + r, coord P' y m = boehmIter (knotFn U) p k u (coord P y) r m := fun m hm => vP m hm y hy
  rw [e i (by omega), e (i + 1) hi]
  exact key

/-- Inserting a list of new knots, one call of `curve_knot_insertion` after the other; `Q` is a property that
every call keeps. -/
theorem knot_refinement {p n : ℕ} {U : List K} {P : List (List K)} {Q : ℕ → List K → List (List K) → Prop}
    (step : ∀ {n : ℕ} {U U' : List K} {P P' : List (List K)} {x : K}, Clamped p n U → Shape P n 3 → knotFn U p ≤ x →
      x ≤ knotFn U n → (∀ v ∈ U, ¬ |x - v| ≤ 1 / 10 ^ 8 + 1 / 10 ^ 5 * |v|) →
      curveKnotInsertion p U P x 1 = .ok (U', P') → Q n U P → Q (n + 1) U' P')
    (hU : Clamped p n U) (hp : 1 ≤ p)
    (hP : Shape P n 3) {xs : List K} (hin : ∀ x ∈ xs, knotFn U p ≤ x ∧ x ≤ knotFn U n)
    (hnew : ∀ x ∈ xs, ∀ v ∈ U, ¬ |x - v| ≤ 1 / 10 ^ 8 + 1 / 10 ^ 5 * |v|)
    (hsep : xs.Pairwise fun x y => ¬ |y - x| ≤ 1 / 10 ^ 8 + 1 / 10 ^ 5 * |x|) (hQ0 : Q n U P) :
    ∃ U' P', xs.foldlM (fun s x => curveKnotInsertion p s.1 s.2 x 1) (U, P) = .ok (U', P') ∧
      U'.Perm (U ++ xs) ∧ Clamped p (n + xs.length) U' ∧ Shape P' (n + xs.length) 3 ∧
      knotFn U' p = knotFn U p ∧ knotFn U' (n + xs.length) = knotFn U n ∧
      (∀ k < 3, ∀ x, curve (knotFn U') p (n + xs.length) (coord P' k) x = curve (knotFn U) p n (coord P k) x) ∧
      Q (n + xs.length) U' P' := by
  induction xs generalizing n U P with
  | nil => exact ⟨U, P, rfl, by simp, hU, hP, rfl, rfl, fun _ _ _ => rfl, hQ0⟩
  | cons x xs ih =>
    obtain ⟨V, Q', hret, hV, hQ, hperm, hcv, -⟩ := knot_insertion_slopes (r := 1) hU hp hP
      (hin x List.mem_cons_self).1 (hin x List.mem_cons_self).2 (hnew x List.mem_cons_self) hp
    have hQ1 := step hU hP (hin x List.mem_cons_self).1 (hin x List.mem_cons_self).2 (hnew x List.mem_cons_self) hret hQ0
    have hx1 := hin x List.mem_cons_self
    rw [hU.left p le_rfl, hU.right n le_rfl (by omega)] at hx1
    -- the ends of the new knot vector
    have hends : knotFn V p = knotFn U p ∧ knotFn V (n + 1) = knotFn U n := by
      have hmU := monotone_knotFn hU.mono
      have hmV := monotone_knotFn hV.mono
      have hlU := hU.len
      have hlV := hV.len
      have memU : ∀ i < n + p + 1, knotFn U i ∈ U := fun i hi => by
        rw [knotFn_eq (by omega)]; exact List.getElem_mem _
      have memV : ∀ i < n + 1 + p + 1, knotFn V i ∈ V := fun i hi => by
        rw [knotFn_eq (by omega)]; exact List.getElem_mem _
      have bU : ∀ v ∈ U, knotFn U 0 ≤ v ∧ v ≤ knotFn U (n + p) := by
        intro v hv
        obtain ⟨i, hi, rfl⟩ := List.mem_iff_getElem.1 hv
        rw [← knotFn_eq hi]
        exact ⟨hmU (by omega), hmU (by omega)⟩
      have bV : ∀ v ∈ V, knotFn V 0 ≤ v ∧ v ≤ knotFn V (n + 1 + p) := by
        intro v hv
        obtain ⟨i, hi, rfl⟩ := List.mem_iff_getElem.1 hv
        rw [← knotFn_eq hi]
        exact ⟨hmV (by omega), hmV (by omega)⟩
      have VU : ∀ v ∈ V, knotFn U 0 ≤ v ∧ v ≤ knotFn U (n + p) := by
        intro v hv
        have := hperm.mem_iff.1 hv
        rw [List.mem_append, List.mem_replicate] at this
        rcases this with h | ⟨-, rfl⟩
        · exact bU v h
        · exact hx1
      have UV : ∀ v ∈ U, knotFn V 0 ≤ v ∧ v ≤ knotFn V (n + 1 + p) := fun v hv =>
        bV v (hperm.mem_iff.2 (List.mem_append_left _ hv))
      constructor
      · rw [hV.left p le_rfl, hU.left p le_rfl]
        exact le_antisymm (UV _ (memU 0 (by omega))).1 (VU _ (memV 0 (by omega))).1
      · rw [hV.right (n + 1) le_rfl (by omega), hU.right n le_rfl (by omega)]
        exact le_antisymm (VU _ (memV (n + 1 + p) (by omega))).2 (UV _ (memU (n + p) (by omega))).2
    rw [List.pairwise_cons] at hsep
    obtain ⟨U', P', hr', hp', hU', hP', hl, hr, hcv', hs⟩ := ih hV hQ
      (fun y hy => by rw [hends.1, hends.2]; exact hin y (List.mem_cons_of_mem _ hy))
      (fun y hy v hv => by
        have := hperm.mem_iff.1 hv
        rw [List.mem_append, List.mem_replicate] at this
        rcases this with h | ⟨-, rfl⟩
        · exact hnew y (List.mem_cons_of_mem _ hy) v h
        · exact hsep.1 y hy) hsep.2 hQ1
    have en : n + 1 + xs.length = n + (x :: xs).length := by rw [List.length_cons]; omega
    rw [en] at hU' hP' hr hcv' hs
    refine ⟨U', P', ?_, ?_, hU', hP', hl.trans hends.1, hr.trans hends.2, fun k hk y => (hcv' k hk y).trans (hcv k hk y), hs⟩
    · rw [List.foldlM_cons]
      show (curveKnotInsertion p U P x 1 >>= _) = _
      rw [hret, ok_bind]
      exact hr'
    · refine hp'.trans ((List.Perm.append_right xs hperm).trans ?_)
      rw [List.append_assoc]
      rfl

/-- **C163.** Inserting any list of new knots, one call of `curve_knot_insertion` after the other, moves the
control points to the curve: their distance from it is at most `L` times the width of the widest window of
`p + 1` spans of the new knots, where `L` is the slope bound of the control points at the start. -/
theorem knot_refinement_near_curve {p n : ℕ} {U : List K} {P : List (List K)} (hU : Clamped p n U) (hp : 1 ≤ p)
    (hP : Shape P n 3) {xs : List K} (hin : ∀ x ∈ xs, knotFn U p ≤ x ∧ x ≤ knotFn U n)
    (hnew : ∀ x ∈ xs, ∀ v ∈ U, ¬ |x - v| ≤ 1 / 10 ^ 8 + 1 / 10 ^ 5 * |v|)
    (hsep : xs.Pairwise fun x y => ¬ |y - x| ≤ 1 / 10 ^ 8 + 1 / 10 ^ 5 * |x|) {k : ℕ} (hk : k < 3) {L : K} (hL : 0 ≤ L)
    (hc : ∀ i, i + 1 < n → |coord P k (i + 1) - coord P k i| * p ≤ L * (knotFn U (i + p + 1) - knotFn U (i + 1))) :
    ∃ U' P', xs.foldlM (fun s x => curveKnotInsertion p s.1 s.2 x 1) (U, P) = .ok (U', P') ∧
      U'.Perm (U ++ xs) ∧ Clamped p (n + xs.length) U' ∧ Shape P' (n + xs.length) 3 ∧
      ∀ h, (∀ i < n + xs.length, knotFn U' (i + p + 1) - knotFn U' i ≤ h) →
        ∀ u, 0 ≤ u → u ≤ 1 → Regular p n U u → ∃ x, Curve.singlePoint ⟨p, P, U⟩ u = .ok x ∧
          ∀ i < n + xs.length, |coord P' k i - x.getD k 0|
            ≤ L * (|(∑ j ∈ Finset.range p, knotFn U' (i + 1 + j)) / p - u| + h) := by
  obtain ⟨U', P', hret, hperm, hU', hP', hl, hr, hcv, hs⟩ := knot_refinement
    (Q := fun n U P => ∀ i, i + 1 < n →
      |coord P k (i + 1) - coord P k i| * p ≤ L * (knotFn U (i + p + 1) - knotFn U (i + 1)))
    (fun {n U U' P P' x} hU hP h1 h2 hnew hret hq => by
      obtain ⟨V, Q, hret', -, -, -, -, hsl⟩ := knot_insertion_slopes (r := 1) hU hp hP h1 h2 hnew hp
      rw [hret] at hret'
      obtain ⟨rfl, rfl⟩ := Prod.mk.inj (Except.ok.inj hret')
      exact hsl k hk L hq) hU hp hP hin hnew hsep hc
  refine ⟨U', P', hret, hperm, hU', hP', fun h hh u h0 h1 hreg => ?_⟩
  refine ⟨_, single_point_bspline_sum hU hp hP le_rfl h0 h1 hreg, fun i hi => ?_⟩
  have key := coeff_near_curve hU' hp hL hs hh (u := u) (by rw [hl]; exact hreg.lo) (by rw [hr]; exact hreg.hi) hi
  rw [hcv k hk] at key
  unfold greville at key
  interval_cases k <;> simpa using key

/-- Refining the curve above with three new knots: its control points are within `4` times the widest window. -/
example : ∃ U' P', [1/4, 3/4, 5/8].foldlM (fun s x => curveKnotInsertion 2 s.1 s.2 x 1) (exKnots, exPts) = .ok (U', P') ∧
    U'.Perm (exKnots ++ [1/4, 3/4, 5/8]) ∧ Clamped 2 7 U' ∧ Shape P' 7 3 ∧
    ∀ h, (∀ i < 7, knotFn U' (i + 2 + 1) - knotFn U' i ≤ h) →
      ∀ u, 0 ≤ u → u ≤ 1 → Regular 2 4 exKnots u → ∃ x, Curve.singlePoint ⟨2, exPts, exKnots⟩ u = .ok x ∧
        ∀ i < 7, |coord P' 0 i - x.getD 0 0|
          ≤ 4 * (|(∑ j ∈ Finset.range 2, knotFn U' (i + 1 + j)) / (2 : ℕ) - u| + h) :=
  knot_refinement_near_curve (n := 4) ex_clamped (by decide) ⟨by decide, by decide +kernel⟩ (xs := [1/4, 3/4, 5/8])
    (by decide +kernel) (by decide +kernel) (by decide +kernel) (by decide) (by norm_num)
    (by intro i hi; have : i < 3 := by omega
        interval_cases i <;> decide +kernel)

end PySpline
