import Verif.Lemmas.BroadcastAux
import Verif.Lemmas.ExtendedMore
import Verif.Lemmas.Fitting
import Mathlib.Data.List.GetD
import Verif.Props.SurfaceInversion

/-!
# C153: points with another number of coordinates
-/

set_option linter.unusedSectionVars false

namespace PySpline

section
variable {K : Type} [Field K] [LinearOrder K] [IsStrictOrderedRing K]

/-- The points and derivatives that the methods of the curve return have three coordinates. -/
structure CurveLike.Spatial (C : CurveLike K) : Prop where
  point : ∀ u q, C.singlePoint u = .ok q → q.length = 3
  ders : ∀ u d, C.ders u = .ok d → ∀ row ∈ d, row.length = 3

/-- The same for a surface. -/
structure SurfLike.Spatial (S : SurfLike K) : Prop where
  point : ∀ u v q, S.singlePoint u v = .ok q → q.length = 3

theorem curveInfo_length {C : CurveLike K} (hC : C.Spatial) {u : K} {s : CurveState K} (h : curveInfo C u = .ok s) :
    s.pt.length = 3 := by
  unfold curveInfo at h
  rcases hd : C.ders u with e | d
  · rw [hd] at h; cases h
  · rw [hd, ok_bind] at h
    rcases h0 : pyGet d 0 with e | pt
    · rw [h0] at h; cases h
    · rw [h0, ok_bind] at h
      rcases h1 : pyGet d 1 with e | du
      · rw [h1] at h; cases h
      · rw [h1, ok_bind] at h
        rcases h2 : pyGet d 2 with e | duu
        · rw [h2] at h; cases h
        · rw [h2, ok_bind] at h
          cases h
          exact hC.ders u d hd pt (pyGet_mem h0)

theorem initialGuessCurve_single (nm : Num K) {C : CurveLike K} (hC : C.Spatial) (x : K) :
    initialGuessCurve nm C [x] = initialGuessCurve nm C [x, x, x] := by
  unfold initialGuessCurve
  dsimp only
  refine bind_congr_ok fun u0 _ => ?_
  congr 1
  refine forN_congr fun i st _ _ => bind_congr_ok fun t _ => bind_congr_ok fun q hq => ?_
  rw [vsub_single_left (hC.point _ _ hq)]

theorem curveLoop_single (nm : Num K) {C : CurveLike K} (hC : C.Spatial) (x eps1 eps2 : K) (maxIter : ℤ) (fuel : ℕ) :
    ∀ (j : ℤ) (s : CurveState K), s.pt.length = 3 →
      curveLoop nm C [x] eps1 eps2 maxIter fuel j s = curveLoop nm C [x, x, x] eps1 eps2 maxIter fuel j s := by
  induction fuel with
  | zero => intros; rfl
  | succ fuel ih =>
    intro j s hs
    unfold curveLoop
    rw [vsub_single_right hs]
    refine bind_congr_ok fun r _ => bind_congr_ok fun num _ => bind_congr_ok fun d _ => bind_congr_ok fun t _ => ?_
    split
    · rfl
    refine bind_congr_ok fun s' hs' => ?_
    have e1 : curveCond1 nm C [x] eps1 t = curveCond1 nm C [x, x, x] eps1 t :=
      bind_congr_ok fun q hq => by rw [vsub_single_right (hC.point _ _ hq)]
    have e2 : curveCond2 nm [x] eps2 s' = curveCond2 nm [x, x, x] eps2 s' := by
      unfold curveCond2
      rw [vsub_single_right (curveInfo_length hC hs')]
    rw [e1, e2, ih _ _ (curveInfo_length hC hs')]

/-- **C153**, curves.  A point with one coordinate `x` is broadcast: it is treated as the point `(x, x, x)` of the
diagonal. -/
theorem curve_inversion_single (fuel : ℕ) (nm : Num K) {C : CurveLike K} (hC : C.Spatial) (x eps1 eps2 : K) (maxIter : ℤ) :
    initialGuessCurve nm C [x] = initialGuessCurve nm C [x, x, x] ∧
    curveInversion fuel nm C [x] eps1 eps2 maxIter = curveInversion fuel nm C [x, x, x] eps1 eps2 maxIter := by
  refine ⟨initialGuessCurve_single nm hC x, ?_⟩
  unfold curveInversion
  rw [initialGuessCurve_single nm hC x]
  refine bind_congr_ok fun u0 _ => bind_congr_ok fun s hs => ?_
  have e1 : curveCond1 nm C [x] eps1 u0 = curveCond1 nm C [x, x, x] eps1 u0 :=
    bind_congr_ok fun q hq => by rw [vsub_single_right (hC.point _ _ hq)]
  have e2 : curveCond2 nm [x] eps2 s = curveCond2 nm [x, x, x] eps2 s := by
    unfold curveCond2
    rw [vsub_single_right (curveInfo_length hC hs)]
  rw [e1, e2, curveLoop_single nm hC x eps1 eps2 maxIter fuel 0 s (curveInfo_length hC hs)]

/-- **C153**, curves.  For every other number of coordinates but three the call raises `ValueError`, whatever the
tolerances, if the curve can be evaluated at 0. -/
theorem curve_inversion_other (fuel : ℕ) (nm : Num K) {C : CurveLike K} (hC : C.Spatial) (hn : 0 < C.numCtrl) {q : List K}
    (h0 : C.singlePoint 0 = .ok q) {point : List K} (h1 : point.length ≠ 1) (h3 : point.length ≠ 3) (eps1 eps2 : K)
    (maxIter : ℤ) : initialGuessCurve nm C point = .error .valueError ∧
      curveInversion fuel nm C point eps1 eps2 maxIter = .error .valueError := by
  have a : initialGuessCurve nm C point = .error .valueError := by
    unfold initialGuessCurve
    dsimp only
    have g : pyGet (grid (2 * C.numCtrl) : List K) 0 = .ok 0 := by
      rw [pyGet_nat _ _ 0 (0 : K) Nat.cast_zero.symm (by rw [grid_length]; omega), grid_getD (by omega)]
      simp
    have g' : pyGet (grid (2 * C.numCtrl) : List K) ((0 : ℕ) : ℤ) = .ok 0 := g
    rw [g, ok_bind, forN_succ_left (by omega), g', ok_bind, h0, ok_bind, vsub_other (hC.point _ _ h0) h1 h3]
    rfl
  refine ⟨a, ?_⟩
  unfold curveInversion
  rw [a]
  rfl

/-- **C153.** So `parameterize_curve` does not return if a point of the data has not three coordinates: the inversion
raises, or the rows have not the four columns of the view. -/
theorem parameterize_curve_other (nm : Num K) {C : CurveLike K} {data : List (List K)}
    {point : List K} (hmem : point ∈ data) (h3 : point.length ≠ 3) : Raises (parameterizeCurve nm C data) := by
  unfold parameterizeCurve
  rcases h : mapPy (fun point => do
    let u ← curveInversionD nm C point
    .ok (point ++ [u])) data with e | rows
  · exact ⟨e, rfl⟩
  · rw [ok_bind, if_neg]
    · exact ⟨_, rfl⟩
    · intro hall
      obtain ⟨i, hi, rfl⟩ := List.mem_iff_getElem.1 hmem
      have hl := mapPy_length h
      have hr := mapPy_getD h [] [] i hi
      rw [List.getD_eq_getElem _ _ hi] at hr
      have hmem' : rows.getD i [] ∈ rows := by
        rw [List.getD_eq_getElem _ _ (by omega)]
        exact List.getElem_mem _
      have h4 := List.all_eq_true.1 hall _ hmem'
      rcases hu : curveInversionD nm C data[i] with e | u
      · rw [hu] at hr; cases hr
      · rw [hu, ok_bind] at hr
        have := (Except.ok.inj hr).symm
        rw [this] at h4
        simp at h4
        omega

theorem initialGuessSurf_single (nm : Num K) {S : SurfLike K} (hS : S.Spatial) (x : K) :
    initialGuessSurf nm S [x] = initialGuessSurf nm S [x, x, x] := by
  unfold initialGuessSurf
  dsimp only
  refine bind_congr_ok fun u0 _ => bind_congr_ok fun v0 _ => ?_
  congr 1
  refine forN_congr fun i st _ _ => forN_congr fun j st' _ _ => bind_congr_ok fun a _ => bind_congr_ok fun b _ =>
    bind_congr_ok fun q hq => ?_
  rw [vsub_single_left (hS.point _ _ _ hq)]

theorem surfStep_single (nm : Num K) {S : SurfLike K} (hS : S.Spatial) (x u v : K) (d : SurfDers K) :
    surfStep nm S [x] u v d = surfStep nm S [x, x, x] u v d :=
  bind_congr_ok fun q hq => by rw [vsub_single_right (hS.point _ _ _ hq)]

theorem surfCond1_single (nm : Num K) {S : SurfLike K} (hS : S.Spatial) (x eps1 u v : K) :
    surfCond1 nm S [x] eps1 u v = surfCond1 nm S [x, x, x] eps1 u v :=
  bind_congr_ok fun q hq => by rw [vsub_single_right (hS.point _ _ _ hq)]

theorem surfCond2_single (nm : Num K) {S : SurfLike K} (hS : S.Spatial) (x eps2 u v : K) (d : SurfDers K) :
    surfCond2 nm S [x] eps2 u v d = surfCond2 nm S [x, x, x] eps2 u v d :=
  bind_congr_ok fun q hq => by rw [vsub_single_right (hS.point _ _ _ hq)]

theorem surfLoop_single (nm : Num K) {S : SurfLike K} (hS : S.Spatial) (x eps1 eps2 : K) (maxIter : ℤ) (fuel : ℕ) :
    ∀ (j : ℤ) (u v : K) (d : SurfDers K),
      surfLoop nm S [x] eps1 eps2 maxIter fuel j u v d = surfLoop nm S [x, x, x] eps1 eps2 maxIter fuel j u v d := by
  induction fuel with
  | zero => intros; rfl
  | succ fuel ih =>
    intro j u v d
    unfold surfLoop
    simp only [surfStep_single nm hS, surfCond1_single nm hS, surfCond2_single nm hS, ih]

/-- **C153**, surfaces. -/
theorem surface_inversion_single (fuel : ℕ) (nm : Num K) {S : SurfLike K} (hS : S.Spatial) (x eps1 eps2 : K) (maxIter : ℤ) :
    initialGuessSurf nm S [x] = initialGuessSurf nm S [x, x, x] ∧
    surfaceInversion fuel nm S [x] eps1 eps2 maxIter = surfaceInversion fuel nm S [x, x, x] eps1 eps2 maxIter := by
  refine ⟨initialGuessSurf_single nm hS x, ?_⟩
  unfold surfaceInversion
  simp only [initialGuessSurf_single nm hS, surfCond1_single nm hS, surfCond2_single nm hS, surfLoop_single nm hS]

/-- **C153**, surfaces. -/
theorem surface_inversion_other (fuel : ℕ) (nm : Num K) {S : SurfLike K} (hS : S.Spatial) (hu : 0 < S.numU)
    (hv : 0 < S.numV) {q : List K} (h0 : S.singlePoint 0 0 = .ok q) {point : List K} (h1 : point.length ≠ 1)
    (h3 : point.length ≠ 3) (eps1 eps2 : K) (maxIter : ℤ) : initialGuessSurf nm S point = .error .valueError ∧
      surfaceInversion fuel nm S point eps1 eps2 maxIter = .error .valueError := by
  have a : initialGuessSurf nm S point = .error .valueError := by
    unfold initialGuessSurf
    dsimp only
    have g : ∀ n, 0 < n → pyGet (grid (2 * n) : List K) 0 = .ok 0 := fun n hn => by
      rw [pyGet_nat _ _ 0 (0 : K) Nat.cast_zero.symm (by rw [grid_length]; omega), grid_getD (by omega)]
      simp
    have g' : ∀ n, 0 < n → pyGet (grid (2 * n) : List K) ((0 : ℕ) : ℤ) = .ok 0 := g
    rw [g _ hu, ok_bind, g _ hv, ok_bind, forN_succ_left (by omega), forN_succ_left (by omega), g' _ hu, ok_bind, g' _ hv, ok_bind, h0,
      ok_bind, vsub_other (hS.point _ _ _ h0) h1 h3]
    rfl
  refine ⟨a, ?_⟩
  unfold surfaceInversion
  rw [a]
  rfl

/-- **C153**, surfaces. -/
theorem parameterize_surface_other (nm : Num K) {S : SurfLike K} {data : List (List K)}
    {point : List K} (hmem : point ∈ data) (h3 : point.length ≠ 3) : Raises (parameterizeSurface nm S data) := by
  unfold parameterizeSurface
  rcases h : mapPy (fun point => do
    let (u, v) ← surfaceInversionD nm S point
    .ok (point ++ [u, v])) data with e | rows
  · exact ⟨e, rfl⟩
  · rw [ok_bind, if_neg]
    · exact ⟨_, rfl⟩
    · intro hall
      obtain ⟨i, hi, rfl⟩ := List.mem_iff_getElem.1 hmem
      have hl := mapPy_length h
      have hr := mapPy_getD h [] [] i hi
      rw [List.getD_eq_getElem _ _ hi] at hr
      have hmem' : rows.getD i [] ∈ rows := by
        rw [List.getD_eq_getElem _ _ (by omega)]
        exact List.getElem_mem _
      have h4 := List.all_eq_true.1 hall _ hmem'
      rcases hu : surfaceInversionD nm S data[i] with e | u
      · rw [hu] at hr; cases hr
      · rw [hu, ok_bind] at hr
        have := (Except.ok.inj hr).symm
        rw [this] at h4
        simp at h4
        omega

/-- The points of every `BSplineSurface` have three coordinates. -/
theorem surface_spatial (norm : List K → K) (s : Surface K) : (s.like norm).Spatial where
  point u v q h := by
    change s.singlePoint u v = .ok q at h
    unfold Surface.singlePoint at h
    repeat' first
      | split at h
      | (obtain ⟨_, _, h⟩ := bind_eq_ok h)
    all_goals first | (rw [← Except.ok.inj h]; rfl) | exact absurd h (by simp)

/-- Those of every `BSplineCurve` too; its `derivatives` always raises (C71). -/
theorem curve_spatial (norm : List K → K) (c : Curve K) : (c.like norm).Spatial where
  point u q h := by
    change c.singlePoint u = .ok q at h
    unfold Curve.singlePoint at h
    repeat' first
      | split at h
      | (obtain ⟨_, _, h⟩ := bind_eq_ok h)
    all_goals first | (rw [← Except.ok.inj h]; rfl) | exact absurd h (by simp)
  ders u d h := by
    obtain ⟨e, he⟩ := curve_derivatives_raises norm c u 2 false
    exact absurd (he.symm.trans h) (by simp)

end

/-! ## Concrete cases -/

/-- On the flat patch `(u, v, 0)` the number `1/2` is taken for the point `(1/2, 1/2, 1/2)`. -/
example : surfaceInversion 5 exNum (exQuad.like exNum.norm) [1/2] epsDefault epsDefault 3
    = surfaceInversion 5 exNum (exQuad.like exNum.norm) [1/2, 1/2, 1/2] epsDefault epsDefault 3 :=
  (surface_inversion_single 5 exNum (surface_spatial _ _) (1/2) _ _ _).2
example : initialGuessSurf exNum (exQuad.like exNum.norm) [2/5] = .ok (2/5, 2/5) := by decide +kernel
/-- Two or four coordinates raise. -/
example : surfaceInversion 5 exNum (exQuad.like exNum.norm) [1/2, 1/2] epsDefault epsDefault 3 = .error .valueError := by
  decide +kernel
example : surfaceInversion 5 exNum (exQuad.like exNum.norm) [1/2, 1/2, 0, 0] epsDefault epsDefault 3
    = .error .valueError := by decide +kernel
/-- One column of data is found on the surface and then rejected by the view. -/
example : parameterizeSurface exNum (exQuad.like exNum.norm) [[2/5]] = .error .valueError := by decide +kernel

end PySpline
