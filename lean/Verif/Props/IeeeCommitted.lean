import Verif.Model.IeeeCurveDers
import Verif.Props.IeeeDers
import Verif.Props.IeeeInsertion
import Verif.Props.IeeeProblems
import Verif.Props.Geometry
import Verif.Lemmas.IeeeNewton
import Verif.Lemmas.IeeeDersSurf

/-!
# C200: the committed curve class in IEEE arithmetic
-/

set_option linter.unusedSectionVars false
set_option exponentiation.threshold 1100

namespace PySpline

open Spec Ext

section
variable {K : Type} [Field K] [LinearOrder K] [IsStrictOrderedRing K]

private theorem assignRowE_two {n : ℕ} (y z : Ext K) :
    assignRowE (zeros2E (n + 1) 3 : List (List (Ext K))) ((0 : ℕ) : ℤ) [y, z] = .error .valueError := by
  unfold assignRowE
  rw [pyGet_nat _ _ 0 [] rfl (by simp [zeros2E])]
  simp [zeros2E, List.getD_eq_getElem?_getD]

variable {rd : K → Ext K} {dot : List (Ext K) → List (Ext K) → Py (Ext K)} {nrm : List (Ext K) → Ext K}
  {point : Curve (Ext K) → Ext K → Py (List (Ext K))} {A : Arith K} {eps1 eps2 : Ext K} {maxIter : ℤ} {fuelI : ℕ}

/-- **C200.** `BSplineCurve.derivatives` never returns, whatever the arithmetic, for all curves with any entries, NaN and infinities
included, all parameters and orders. -/
theorem curve_derivatives_raises_ieee (rd : K → Ext K) (dot : List (Ext K) → List (Ext K) → Py (Ext K)) (nrm : List (Ext K) → Ext K)
    (c : Curve (Ext K)) (u : Ext K) (order : ℤ) (normalize : Bool) : Raises (c.derivativesR rd dot nrm u order normalize) := by
  unfold Curve.derivativesR
  split
  · exact ⟨_, rfl⟩
  split
  · exact ⟨_, rfl⟩
  refine Raises.of_bind fun span => Raises.of_bind fun ders => ?_
  dsimp only
  rw [forN_succ_left (by omega)]
  refine Raises.bind_left ?_
  refine Raises.of_bind fun d1 => Raises.of_bind fun col1 => Raises.of_bind fun y =>
    Raises.of_bind fun col2 => Raises.of_bind fun z => ?_
  rw [if_neg (by simp), assignRowE_two]
  exact ⟨_, rfl⟩

/-- **C200.** Nor does `curve_inversion` on such a curve, in any arithmetic. -/
theorem curve_inversion_committed_ieee (c : Curve (Ext K)) (pt : List (Ext K)) :
    Raises (curveInversionA fuelI A (c.likeR rd dot nrm point) pt eps1 eps2 maxIter) := by
  unfold curveInversionA
  refine Raises.of_bind fun u => Raises.bind_left ?_
  unfold curveInfoE
  exact Raises.bind_left (curve_derivatives_raises_ieee rd dot nrm c u 2 false)

/-- **C200.** With an inversion that never returns no boundary is fitted: every outcome of `BoundaryProblem.fit` on data that are not
empty is an exception, for both methods, all solvers, end points, degrees and numbers of control points. -/
theorem boundary_fit_raises_ieee {fuel : ℕ} {ls : ℕ → List (List (Ext K)) → List (Ext K) → Py (List (Ext K))}
    {inv : Curve (Ext K) → List (Ext K) → Py (Ext K)} (hinv : ∀ c pt, Raises (inv c pt)) {adaptive : Bool} {s e : List (Ext K)}
    {p n : ℕ} {data : List (List (Ext K))} (hd : data ≠ []) {r : Py (Fitted (Ext K))}
    (h : BoundaryFitR rd fuel ls inv adaptive s e p n data r) : Raises r := by
  have hpar : ∀ c, Raises (parameterizeCurveWithE (inv c) data) := fun c => by
    obtain ⟨x, xs, rfl⟩ := List.exists_cons_of_ne_nil hd
    unfold parameterizeCurveWithE
    refine Raises.bind_left ?_
    unfold mapPy
    exact Raises.bind_left (Raises.bind_left (hinv _ _))
  have hknot : ∀ (m : ℤ) (c : Curve (Ext K)) (res : Py (Curve (Ext K))), KnotFitR rd ls inv data m fuel c res → Raises res := by
    intro m c res hk
    cases fuel with
    | zero => exact ⟨_, hk⟩
    | succ fuel =>
      unfold KnotFitR at hk
      obtain ⟨err, he⟩ := hpar c
      rcases hk with ⟨e', -, rfl⟩ | ⟨rows, _, hr, -⟩
      · exact ⟨_, rfl⟩
      · rw [he] at hr; cases hr
  have hfixed : ∀ (c : Curve (Ext K)) (res : Py (Curve (Ext K))), FitCurveFixedR rd fuel ls inv c data res → Raises res := by
    intro c res hf
    unfold FitCurveFixedR at hf
    split at hf
    · exact ⟨_, hf⟩
    · obtain ⟨res', hk, hm⟩ := hf
      obtain ⟨err, rfl⟩ := hknot _ _ _ hk
      exact ⟨_, hm⟩
  unfold BoundaryFitR at h
  split at h
  · exact ⟨_, h⟩
  · next init _ =>
    obtain ⟨res, hres, hm⟩ := h
    have hr : Raises res := by
      split at hres
      · exact hknot _ _ _ hres
      · exact hfixed _ _ hres
    obtain ⟨err, rfl⟩ := hr
    exact ⟨_, hm⟩

/-- **C200.** So with the committed class and the inversion of the library. -/
theorem committed_never_fits_ieee {fuel : ℕ} {ls : ℕ → List (List (Ext K)) → List (Ext K) → Py (List (Ext K))} {adaptive : Bool}
    {s e : List (Ext K)} {p n : ℕ} {data : List (List (Ext K))} (hd : data ≠ []) {r : Py (Fitted (Ext K))}
    (h : BoundaryFitR rd fuel ls (fun c pt => curveInversionA fuelI A (c.likeR rd dot nrm point) pt eps1 eps2 maxIter)
      adaptive s e p n data r) : Raises r :=
  boundary_fit_raises_ieee (fun c pt => curve_inversion_committed_ieee c pt) hd h

end

/-- **C200.** In double precision the exception is the `ValueError` of the row assignment, on clamped curves of degree at most ten in
space whose knots are doubles over `[0, 1]` at least `2^-40` apart, the last interior one away from `1`, at all doubles: nothing
before it fails. -/
theorem curve_derivatives_value_error_binary64 {dot : List (Ext ℚ) → List (Ext ℚ) → Py (Ext ℚ)}
    (hdot : ∀ a b, a.length = b.length → ∃ x, dot a b = .ok x) (nrm : List (Ext ℚ) → Ext ℚ) {p n : ℕ} {U : List ℚ}
    {P : List (List ℚ)} {u : ℚ} (hU : UnitKnots p n U) (hp10 : p ≤ 10)
    (hgap : ∀ i, p ≤ i → i < n → 1 / 2 ^ 40 ≤ knotFn U (i + 1) - knotFn U i) (hlast : knotFn U (n - 1) ≤ 1 - 102 / 10 ^ 8)
    (hrep : ∀ x ∈ U, bin64 x = fin x) (hP : Shape P n 3) (h0 : 0 ≤ u) (h1 : u ≤ 1) (hu : bin64 u = fin u) (order : ℤ)
    (normalize : Bool) :
    Curve.derivativesR bin64 dot nrm (Curve.mk p P U).lift (fin u) order normalize = .error .valueError := by
  have hc := hU.toClamped
  have hlen := hc.len
  have hn1 : knotFn U n = 1 := by rw [hc.right n le_rfl (by omega), hU.one]
  have hsm : (0 : ℚ) < 1 / 2 ^ 40 := by positivity
  have hr := regular_of_distinct hc (fun i a b => by linarith [hgap i a b]) hU.zero hU.one h0 h1 (fun h => by
    rw [abs_of_nonpos (by linarith)] at h
    norm_num at h hlast
    linarith)
  obtain ⟨m, hm, hpm, hmn, hb1, hb2, hs⟩ := findSpanWith_regular
    (close := fun a b => iscloseR bin64 (fin a) (fin b) (1 / 10 ^ 6) atolDefault) hc.toKnotVector iscloseR_bin64_refl hr.lo hr.hi
    hr.simple (fun h => by rw [hn1] at h; exact hlast.trans (iscloseR_bin64_one h0 h1 h))
  rw [← findSpanR_lift] at hm
  have hV := monotone_knotFn hc.mono
  have hw : knotFn U (m + p) - knotFn U (m + 1 - p) ≤ 1 := by
    have a1 : knotFn U (m + p) ≤ knotFn U (n + p) := hV (by omega)
    have a2 : knotFn U 0 ≤ knotFn U (m + 1 - p) := hV (by omega)
    rw [hU.one] at a1
    rw [hU.zero] at a2
    linarith
  obtain ⟨D, D', -, hD', shD, -⟩ := basis_function_ders_binary64 hc.mono hp10 hpm (by omega) (hgap m hpm hmn) hb1 hb2 hrep hu hw
    (min order.toNat p)
  have hl : (Curve.mk p P U).lift.ctrlpts.length = n := (shape_lift2 hP).1
  unfold Curve.derivativesR
  split
  · rfl
  split
  · rfl
  dsimp only
  rw [hl]
  change (findSpanR bin64 n p (fin u) (lift1 U) >>= _) = _
  rw [hm, ok_bind]
  change (basisFunctionDersR bin64 (m : ℤ) (fin u) p (U.map fin) (min order.toNat p) >>= _) = _
  rw [hD', ok_bind]
  change forN 0 (min order.toNat p + 1) _ _ = _
  have hsl : Shape (pySlice (Curve.mk p P U).lift.ctrlpts ((m : ℤ) - p) ((m : ℤ) + 1)) (p + 1) 3 := by
    rw [pySlice_nat _ _ _ (m - p) (p + 1) [] (by omega) (by omega) (by rw [hl]; omega)]
    refine ⟨by simp, fun row hrow => ?_⟩
    obtain ⟨r, hr', rfl⟩ := List.mem_map.1 hrow
    have := List.mem_range.1 hr'
    exact (shape_lift2 hP).row (by omega)
  have sh' : Shape (D'.map (List.map fin)) (p + 1) (min order.toNat p + 1) := shape_lift2 shD
  rw [forN_succ_left (by omega), columnE_natCast sh' 0 (by omega), ok_bind]
  have c1 := columnE_natCast hsl 1 (by omega)
  have c2 := columnE_natCast hsl 2 (by omega)
  have hlen' : ∀ k, ((D'.map (List.map fin)).map fun row => row.getD 0 0).length
      = ((pySlice (Curve.mk p P U).lift.ctrlpts ((m : ℤ) - p) ((m : ℤ) + 1)).map fun row => row.getD k 0).length := fun k => by
    simp only [List.length_map, hsl.1, shD.1]
  obtain ⟨y, hy⟩ := hdot _ _ (hlen' 1)
  obtain ⟨z, hz⟩ := hdot _ _ (hlen' 2)
  rw [show columnE (pySlice (Curve.mk p P U).lift.ctrlpts ((m : ℤ) - (Curve.mk p P U).lift.degree) ((m : ℤ) + 1)) 1 = _ from c1,
    ok_bind, hy, ok_bind,
    show columnE (pySlice (Curve.mk p P U).lift.ctrlpts ((m : ℤ) - (Curve.mk p P U).lift.degree) ((m : ℤ) + 1)) 2 = _ from c2,
    ok_bind, hz, ok_bind, if_neg (by simp)]
  rw [assignRowE_two]
  rfl

/-! ## Concrete cases -/

/-- C200: a line of degree two in double precision, and a boundary problem on it. -/
example : Curve.derivativesR bin64 (ieeeArith bin64 (sumNormR bin64)).inner (sumNormR bin64)
      (Curve.mk 2 [[0, 0, 0], [1/2, 0, 0], [1, 0, 0]] [0, 0, 0, 1, 1, 1]).lift (fin (1 / 4)) 2 false = .error .valueError ∧
    ∀ (fuel : ℕ) (ls : ℕ → List (List (Ext ℚ)) → List (Ext ℚ) → Py (List (Ext ℚ))) (f : Fitted (Ext ℚ)),
      ¬ BoundaryFitR bin64 fuel ls (fun c pt => curveInversionA 102 (ieeeArith bin64 (sumNormR bin64))
        (c.likeR bin64 (ieeeArith bin64 (sumNormR bin64)).inner (sumNormR bin64) fun _ _ => .ok [0, 0, 0]) pt (fin (1 / 10 ^ 5))
          (fin (1 / 10 ^ 5)) 100) false [0, 0, 0] [1, 0, 0] 2 4 [[fin (1 / 3), 0, 0]] (.ok f) := by
  refine ⟨by decide +kernel, fun fuel ls f h => ?_⟩
  obtain ⟨e, he⟩ := committed_never_fits_ieee (by simp) h
  cases he

end PySpline
