import Verif.Props.Committed
import Verif.Props.SurfaceInversion

/-!
# C77, C91: the exception raised with the committed curve class
-/

set_option linter.unusedSectionVars false

namespace PySpline

open Spec

section
variable {K : Type} [Field K] [LinearOrder K] [IsStrictOrderedRing K]

/-- **C77.** On a clamped curve in space with evaluable parameters `curve_inversion` raises the `ValueError` of
`derivatives`, for every point in space, all tolerances and every iteration limit. -/
theorem curve_inversion_bspline_value_error (fuel : ℕ) (nm : Num K) (norm : List K → K) {p n : ℕ} {U : List K}
    {P : List (List K)} (hU : Clamped p n U) (hp1 : 1 ≤ p) (hP : Shape P n 3) (hr : AllRegular p n U)
    {point : List K} (hp : point.length = 3) (eps1 eps2 : K) (maxIter : ℤ) :
    curveInversion fuel nm (Curve.like norm ⟨p, P, U⟩) point eps1 eps2 maxIter = .error .valueError := by
  have hn : 0 < n := (Nat.zero_le _).trans_lt hU.size
  obtain ⟨k, hk, hg, -⟩ := initial_guess_curve_nearest nm (Curve.like norm ⟨p, P, U⟩) point
    (by show 0 < P.length; rw [hP.1]; exact hn) (fun k => [curve (knotFn U) p n (coord P 0)
      ((k : K) / (((2 * P.length : ℕ) : K) - 1)), curve (knotFn U) p n (coord P 1)
      ((k : K) / (((2 * P.length : ℕ) : K) - 1)), curve (knotFn U) p n (coord P 2)
      ((k : K) / (((2 * P.length : ℕ) : K) - 1))]) (by
    intro k hk
    have hm := grid_mem_unit (K := K) hk
    refine ⟨?_, by rw [hp]; rfl⟩
    exact single_point_bspline_sum hU hp1 hP le_rfl hm.1 hm.2 (hr _ hm.1 hm.2))
  have hm := grid_mem_unit (K := K) hk
  unfold curveInversion
  rw [hg, ok_bind]
  unfold curveInfo
  rw [show (Curve.like norm ⟨p, P, U⟩).ders = fun u => Curve.derivatives norm ⟨p, P, U⟩ u 2 false from rfl]
  dsimp only
  rw [curve_derivatives_value_error norm hU hP (hr _ hm.1 hm.2)]
  rfl

/-- **C77.** So does `parameterize_curve` for all non-empty spatial data. -/
theorem parameterize_curve_bspline_value_error (nm : Num K) (norm : List K → K) {p n : ℕ} {U : List K}
    {P : List (List K)} (hU : Clamped p n U) (hp1 : 1 ≤ p) (hP : Shape P n 3) (hr : AllRegular p n U)
    {data : List (List K)} (hd : data ≠ []) (h3 : ∀ row ∈ data, row.length = 3) :
    parameterizeCurve nm (Curve.like norm ⟨p, P, U⟩) data = .error .valueError := by
  obtain ⟨q, qs, rfl⟩ := List.exists_cons_of_ne_nil hd
  unfold parameterizeCurve mapPy curveInversionD
  rw [curve_inversion_bspline_value_error _ nm norm hU hp1 hP hr (h3 q (List.mem_cons_self ..))]
  rfl

/-- **C91.** `fit_curve_knot_insertion` raises `ValueError` on every clamped curve with evaluable parameters, for all
non-empty spatial data. -/
theorem fit_curve_knot_insertion_value_error {fuel : ℕ} (hf : 1 ≤ fuel) {env : FitEnv K} (h : env.Committed) {c : Curve K}
    {n : ℕ} (hU : Clamped c.degree n c.kv) (hp1 : 1 ≤ c.degree) (hP : Shape c.ctrlpts n 3)
    (hr : AllRegular c.degree n c.kv) {data : List (List K)} (hd : data ≠ []) (h3 : ∀ row ∈ data, row.length = 3)
    (numPts : ℤ) : fitCurveKnotInsertion fuel env c data numPts = .error .valueError := by
  obtain ⟨norm, hn⟩ := h
  obtain ⟨f, rfl⟩ := Nat.exists_eq_add_of_le' hf
  unfold fitCurveKnotInsertion knotFitLoop
  rw [hn, parameterize_curve_bspline_value_error _ norm hU hp1 hP hr hd h3]
  rfl

/-- **C91.** `fit_curve_fixed_ctrlpts` raises `ValueError` for all control points in space, whatever the knots of the
curve. -/
theorem fit_curve_fixed_value_error {fuel : ℕ} (hf : 1 ≤ fuel) {env : FitEnv K} (h : env.Committed) {c : Curve K}
    {n : ℕ} (hn : 1 ≤ n) (hp1 : 1 ≤ c.degree) (hP : Shape c.ctrlpts n 3)
    {data : List (List K)} (hd : data ≠ []) (h3 : ∀ row ∈ data, row.length = 3) :
    fitCurveFixed fuel env c data = .error .valueError := by
  have hrow : ∀ i < n, (c.ctrlpts.getD i []).length = 3 := fun i hi => hP.2 _ (by
    rw [List.getD_eq_getElem?_getD, List.getElem?_eq_getElem (by rw [hP.1]; exact hi)]
    exact List.getElem_mem _)
  obtain ⟨i, hc, hi, hS, -, -, hcl, hdi, h0, h1, hg⟩ := initialize_curve_points
    (s := c.ctrlpts.getD 0 []) (e := c.ctrlpts.getD (n - 1) []) (hrow 0 (by omega)) (hrow (n - 1) (by omega))
    (Nat.lt_succ_self c.degree) (by omega)
  have hreg : AllRegular c.degree (c.degree + 1) i.kv := by
    refine allRegular_of_distinct hcl hdi h0 h1 ?_
    show knotFn i.kv (c.degree + 1 - 1) ≤ _
    rw [Nat.add_sub_cancel, hcl.left _ le_rfl, h0]
    norm_num
  unfold fitCurveFixed
  rw [pyGet_nat c.ctrlpts 0 0 [] rfl (by rw [hP.1]; omega), ok_bind,
    pyGet_neg_one (n := n - 1) (by rw [hP.1]; omega) [], ok_bind, hc, ok_bind,
    fit_curve_knot_insertion_value_error hf h (c := i) (by rw [hi]; exact hcl) (by rw [hi]; exact hp1) hS
      (by rw [hi]; exact hreg) hd h3]
  rfl

end

section
variable {K : Type} [Field K] [LinearOrder K] [IsStrictOrderedRing K] [FloorRing K]

theorem Arr.rows_spatial {a : Arr K} {m : ℕ} (ha : a.shape = [m, 3]) (hl : a.data.length = m * 3) (hm : 1 ≤ m) :
    a.rows ≠ [] ∧ ∀ row ∈ a.rows, row.length = 3 := by
  unfold Arr.rows
  rw [ha]
  constructor
  · intro h0
    have := congrArg List.length h0
    rw [List.length_map, List.length_range] at this
    exact absurd this (Nat.pos_iff_ne_zero.1 hm)
  · intro row hrow
    obtain ⟨i, hi, rfl⟩ := List.mem_map.1 hrow
    have hi' := List.mem_range.1 hi
    rw [List.length_take, List.length_drop, hl]
    omega

/-- **C91.** On a `BoundaryProblem` with an initial curve in space, non-empty spatial data and the fixed method, `fit`
raises `ValueError` and changes nothing. -/
theorem boundary_fit_value_error (env : DataEnv K) (h : env.fit.Committed) (hf : 1 ≤ env.fuel) {s : Boundary K}
    {c : Curve K} {n m : ℕ} (hc : s.initCurve = some c) (hp : 1 ≤ c.degree) (hP : Shape c.ctrlpts n 3) (hn : 1 ≤ n)
    {a : Arr K} (hd : s.data = some a) (ha : a.shape = [m, 3]) (hl : a.data.length = m * 3) (hm : 1 ≤ m)
    (hfix : s.fitMethod ≠ "adaptive") : Boundary.fit env s = (.error .valueError, s) := by
  obtain ⟨h1, h2⟩ := Arr.rows_spatial ha hl hm
  have hfin : finalFit env s = .error .valueError := by
    unfold finalFit
    rw [hc, hd]
    show (if s.fitMethod = "adaptive" then knotInsertionOf env c a.rows s.numCtrl
      else fitCurveFixed env.fuel env.fit c a.rows) = _
    rw [if_neg hfix]
    exact fit_curve_fixed_value_error hf h hn hp hP h1 h2
  unfold Boundary.fit
  rw [Meth.read_bind, if_neg (by simp [hc])]
  rw [Meth.bind_ok (show (Meth.pure () : Meth (Boundary K) Unit) s = (.ok (), s) from rfl), Meth.read_bind]
  show ((Meth.lift (finalFit env s) >>= _ : Meth (Boundary K) Unit) s) = _
  rw [hfin]
  rfl

end

/-- The parabola of `Props/Parameterize.lean` as a committed curve and a point beside it. -/
example : curveInversionD exNum (Curve.like (fun l => (l.map (|·|)).sum)
    (⟨2, [[0, 0, 0], [1 / 2, 0, 0], [1, 1, 0]], [0, 0, 0, 1, 1, 1]⟩ : Curve ℚ)) [1 / 3, 1, 0] = .error .valueError := by
  decide +kernel

/-- The same from `curve_inversion_bspline_value_error`, with every norm. -/
example (nm : Num ℚ) (norm : List ℚ → ℚ) : curveInversionD nm (Curve.like norm
    (⟨2, [[0, 0, 0], [1 / 2, 0, 0], [1, 1, 0]], [0, 0, 0, 1, 1, 1]⟩ : Curve ℚ)) [1 / 3, 1, 0] = .error .valueError := by
  have hU : Clamped 2 3 ([0, 0, 0, 1, 1, 1] : List ℚ) :=
    { len := rfl, mono := by decide +kernel, size := by decide
      left := by intro i hi; interval_cases i <;> decide +kernel
      right := by intro i h1 h2; interval_cases i <;> decide +kernel }
  refine curve_inversion_bspline_value_error _ nm norm hU (by decide) ⟨rfl, by decide⟩
    (allRegular_of_distinct hU ?_ (by decide +kernel) (by decide +kernel) (by decide +kernel)) rfl _ _ _
  intro i h1 h2
  interval_cases i <;> decide +kernel

end PySpline
