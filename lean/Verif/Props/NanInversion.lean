import Verif.Lemmas.NanInversionAux
import Verif.Props.NanInputs

/-!
# C150: inversion of a data point with a NaN or infinite coordinate
-/

set_option linter.unusedSectionVars false

namespace PySpline

open Ext Spec

section
variable {K : Type} [Field K] [LinearOrder K] [IsStrictOrderedRing K]

/-- **C150**, curves.  A data point with a coordinate that is NaN or infinite: the initial guess is `0`
and `curve_inversion` raises `ValueError` in the first round (the Newton step is NaN). -/
theorem curve_inversion_nonfinite (nm : Num K) {C : CurveLike K} {E : CurveLike (Ext K)} (h : C.Extends E)
    {c c1 c2 : K → List K} (hC : C.Smooth c c1 c2) (hn : 0 < C.numCtrl) {point : List (Ext K)}
    (hp : point.length = 3) {i : ℕ} (hi : i < 3) (hnan : ∀ y, point.getD i 0 ≠ fin y) (eps1 eps2 : K)
    (maxIter : ℤ) (fuel : ℕ) :
    initialGuessCurveE nm E point = .ok 0 ∧
    curveInversionE (fuel + 1) nm E point (fin eps1) (fin eps2) maxIter = .error .valueError := by
  have hf := isFin_false hnan
  have hguess : initialGuessCurveE nm E point = .ok 0 := by
    unfold initialGuessCurveE gridE
    dsimp only
    rw [h.numCtrl, (Follows.get (f := fin) (grid (2 * C.numCtrl)) 0).value (pyGet_grid_zero (by omega)), ok_bind,
      forN_fix, ok_bind]
    · rfl
    · intro k _ hk
      dsimp only
      obtain ⟨g0, g1⟩ := grid_mem_unit (K := K) hk
      rw [(Follows.get (f := fin) (grid (2 * C.numCtrl)) k).value (pyGet_grid hk), ok_bind,
        (h.singlePoint _).value (hC.pt _ g0 g1), ok_bind]
      obtain ⟨-, r, hr, hl, hrf⟩ := vsubE_nonfin (hC.len _).1 hp hi hf
      rw [hr, ok_bind, (lt_fin_false (normE_nonfin nm.norm (by omega) hrf) _).1, if_neg (by simp)]
  refine ⟨hguess, ?_⟩
  obtain ⟨rest, hd⟩ := hC.ders 0 le_rfl zero_le_one
  obtain ⟨l0, l1, l2⟩ := hC.len 0
  obtain ⟨⟨r, hr, hl, hrf⟩, -⟩ := vsubE_nonfin l0 hp hi hf
  have htop := normE_nonfin nm.norm (by omega) hrf
  obtain ⟨num, hnum, hnumf⟩ := dotE_nonfin_right l1 hl hi hrf
  obtain ⟨d, hdd, hdf⟩ := dotE_nonfin_right l2 hl hi hrf
  have hinfo : curveInfoE E (fin 0) = .ok ⟨fin 0, lift1 (c 0), lift1 (c1 0), lift1 (c2 0)⟩ := by
    refine (curveInfoE_follows h 0).value (a := ⟨0, c 0, c1 0, c2 0⟩) ?_
    exact hC.info le_rfl zero_le_one
  have hpt : E.singlePoint (fin 0) = .ok (lift1 (c 0)) := (h.singlePoint 0).value (hC.pt 0 le_rfl zero_le_one)
  unfold curveInversionE
  rw [hguess, ok_bind]
  show (curveInfoE E (fin 0) >>= _) = _
  rw [hinfo, ok_bind]
  have hc1 : curveCond1E nm E point (fin eps1) (fin 0) = .ok false := by
    unfold curveCond1E
    rw [hpt, ok_bind, hr, ok_bind, (lt_fin_false htop _).2]
  have hc2 : curveCond2E nm point (fin eps2) ⟨fin 0, lift1 (c 0), lift1 (c1 0), lift1 (c2 0)⟩ = .ok false := by
    unfold curveCond2E
    dsimp only
    rw [hr, ok_bind, hnum, ok_bind, ratioE_nonfin hnumf (nonfin_of_top htop)]
  show (curveCond1E nm E point (fin eps1) (fin 0) >>= _) = _
  rw [hc1, ok_bind, if_neg (by simp), hc2, ok_bind, if_neg (by simp)]
  unfold curveLoopE
  dsimp only
  rw [hr, ok_bind, hnum, ok_bind, hdd, ok_bind, nonfin_div_nonfin hnumf (nonfin_add_left hdf _), sub_nan,
    clamp01E_nan, nan_sub, normE_nan nm.norm (map_mul_nan l1), le_nan_left, if_neg (by simp)]
  unfold curveInfoE
  rw [h.ders_nan]
  rfl

/-- **C150**, surfaces.  A data point with a coordinate that is NaN or infinite: the initial guess is
`(0, 0)` and `surface_inversion` raises `ValueError` in the first round (the Newton step is NaN). -/
theorem surface_inversion_nonfinite (nm : Num K) {S : SurfLike K} {E : SurfLike (Ext K)} (h : S.Extends E)
    {D : ℕ → ℕ → K → K → List K} (hS : S.Smooth D) (hu : 0 < S.numU) (hv : 0 < S.numV) {point : List (Ext K)}
    (hp : point.length = 3) {i : ℕ} (hi : i < 3) (hnan : ∀ y, point.getD i 0 ≠ fin y) (eps1 eps2 : K)
    (maxIter : ℤ) (fuel : ℕ) :
    initialGuessSurfE nm E point = .ok (0, 0) ∧
    surfaceInversionE (fuel + 1) nm E point (fin eps1) (fin eps2) maxIter = .error .valueError := by
  have hf := isFin_false hnan
  have hguess : initialGuessSurfE nm E point = .ok (0, 0) := by
    unfold initialGuessSurfE gridE
    dsimp only
    rw [h.numU, h.numV, (Follows.get (f := fin) (grid (2 * S.numU)) 0).value (pyGet_grid_zero (by omega)), ok_bind,
      (Follows.get (f := fin) (grid (2 * S.numV)) 0).value (pyGet_grid_zero (by omega)), ok_bind,
      forN_fix, ok_bind]
    · rfl
    · intro a _ ha
      refine forN_fix fun b _ hb => ?_
      dsimp only
      obtain ⟨g0, g1⟩ := grid_mem_unit (K := K) ha
      obtain ⟨g2, g3⟩ := grid_mem_unit (K := K) hb
      rw [(Follows.get (f := fin) (grid (2 * S.numU)) a).value (pyGet_grid ha), ok_bind,
        (Follows.get (f := fin) (grid (2 * S.numV)) b).value (pyGet_grid hb), ok_bind,
        (h.singlePoint _ _).value (hS.pt _ _ g0 g1 g2 g3), ok_bind]
      obtain ⟨-, r, hr, hl, hrf⟩ := vsubE_nonfin (hS.len 0 0 _ _) hp hi hf
      rw [hr, ok_bind, (lt_fin_false (normE_nonfin nm.norm (by omega) hrf) _).1, if_neg (by simp)]
  refine ⟨hguess, ?_⟩
  obtain ⟨rows, hd, hrows⟩ := hS.ders 0 0 le_rfl zero_le_one le_rfl zero_le_one
  obtain ⟨⟨r, hr, hl, hrf⟩, -⟩ := vsubE_nonfin (hS.len 0 0 0 0) hp hi hf
  have htop := normE_nonfin nm.norm (by omega) hrf
  have left := fun a b => dotE_nonfin_right (hS.len a b 0 0) hl hi hrf
  have right := fun a b => dotE_nonfin_left (hS.len a b 0 0) hl hi hrf
  set d : SurfDers K := ⟨D 1 0 0 0, D 0 1 0 0, D 2 0 0 0, D 0 2 0 0, D 1 1 0 0⟩ with hdd
  have hinfo : surfInfoE E (fin 0) (fin 0) = .ok d.lift := by
    refine (surfInfoE_follows h 0 0).value (a := d) ?_
    unfold surfInfo
    have get : ∀ (z : ℤ) (a b : ℕ), a ≤ 2 → b ≤ 2 → z = ((3 * a + b : ℕ) : ℤ) →
        pyGet rows z = .ok (D a b 0 0) := by
      intro z a b ha hb hz
      have hsome := hrows a ha b hb
      have hlt : 3 * a + b < rows.length := by
        by_contra hge
        rw [List.getElem?_eq_none (by omega)] at hsome
        cases hsome
      rw [pyGet_nat rows z (3 * a + b) [] hz hlt, List.getD_eq_getElem?_getD, hsome]
      rfl
    rw [hd, ok_bind, get 3 1 0 (by omega) (by omega) rfl, ok_bind, get 1 0 1 (by omega) (by omega) rfl, ok_bind,
      get 6 2 0 (by omega) (by omega) rfl, ok_bind, get 2 0 2 (by omega) (by omega) rfl, ok_bind,
      get 4 1 1 (by omega) (by omega) rfl, ok_bind]
  have hpt : E.singlePoint (fin 0) (fin 0) = .ok (lift1 (D 0 0 0 0)) :=
    (h.singlePoint 0 0).value (hS.pt 0 0 le_rfl zero_le_one le_rfl zero_le_one)
  have hc1 : surfCond1E nm E point (fin eps1) (fin 0) (fin 0) = .ok false := by
    unfold surfCond1E
    rw [hpt, ok_bind, hr, ok_bind, (lt_fin_false htop _).2]
  have hc2 : surfCond2E nm E point (fin eps2) (fin 0) (fin 0) d.lift = .ok false := by
    unfold surfCond2E
    obtain ⟨x, hx, hxf⟩ := left 1 0
    obtain ⟨y, hy, hyf⟩ := left 0 1
    show (E.singlePoint (fin 0) (fin 0) >>= _) = _
    rw [hpt, ok_bind, hr, ok_bind]
    show (dotE (lift1 (D 1 0 0 0)) r >>= fun a => dotE (lift1 (D 0 1 0 0)) r >>= _) = _
    rw [hx, ok_bind, hy, ok_bind, ratioE_nonfin hxf (nonfin_of_top htop)]
    rfl
  have hstep : surfStepE nm E point (fin 0) (fin 0) d.lift = .ok (nan, nan) := by
    unfold surfStepE
    obtain ⟨f, hF, -⟩ := right 1 0
    obtain ⟨g, hG, -⟩ := right 0 1
    obtain ⟨ruu, hruu, ruuf⟩ := right 2 0
    obtain ⟨ruv, hruv, ruvf⟩ := right 1 1
    obtain ⟨rvv, hrvv, -⟩ := right 0 2
    have huv : dotE (lift1 (D 1 0 0 0)) (lift1 (D 0 1 0 0)) = .ok (fin ((List.zipWith (· * ·) (D 1 0 0 0) (D 0 1 0 0)).sum)) := by
      refine (dotE_follows _ _).value ?_
      unfold dot
      rw [if_pos (by rw [hS.len, hS.len])]
    rw [hpt, ok_bind, hr, ok_bind]
    show (dotE r (lift1 (D 1 0 0 0)) >>= fun f => dotE r (lift1 (D 0 1 0 0)) >>= fun g =>
      dotE r (lift1 (D 2 0 0 0)) >>= fun ruu => dotE (lift1 (D 1 0 0 0)) (lift1 (D 0 1 0 0)) >>= fun uv =>
      dotE r (lift1 (D 1 1 0 0)) >>= fun ruv => dotE r (lift1 (D 0 2 0 0)) >>= _) = _
    rw [hF, ok_bind, hG, ok_bind, hruu, ok_bind, huv, ok_bind, hruv, ok_bind, hrvv, ok_bind]
    dsimp only
    rw [solve2E_nonfin (nonfin_add_right ruuf _) (nonfin_add_right ruvf _), ok_bind]
    rfl
  unfold surfaceInversionE
  rw [hguess, ok_bind]
  show (surfInfoE E (fin 0) (fin 0) >>= fun d => surfCond1E nm E point (fin eps1) (fin 0) (fin 0) >>= _) = _
  rw [hinfo, ok_bind, hc1, ok_bind, if_neg (by simp)]
  show (surfCond2E nm E point (fin eps2) (fin 0) (fin 0) d.lift >>= fun c2 => if c2 = true then _ else
    surfLoopE nm E point (fin eps1) (fin eps2) maxIter (fuel + 1) 0 (fin 0) (fin 0) d.lift) = _
  rw [hc2, ok_bind, if_neg (by simp)]
  unfold surfLoopE
  rw [hstep, ok_bind]
  dsimp only
  have hw : ∃ w, vaddE (d.lift.du.map fun x => (nan - fin 0) * x) (d.lift.dv.map fun x => (nan - fin 0) * x) = .ok w ∧
      nan ∈ w := by
    have e : ∀ l : List K, ((lift1 l).map fun x => (nan - fin 0 : Ext K) * x) = List.replicate l.length nan := by
      intro l
      refine List.eq_replicate_iff.2 ⟨by simp, fun y hy => ?_⟩
      obtain ⟨t, -, rfl⟩ := List.mem_map.1 hy
      rw [nan_sub, nan_mul]
    show ∃ w, vaddE ((lift1 (D 1 0 0 0)).map _) ((lift1 (D 0 1 0 0)).map _) = .ok w ∧ nan ∈ w
    rw [e, e, hS.len, hS.len]
    exact ⟨_, rfl, by simp [List.replicate, nan_add]⟩
  obtain ⟨w, hw, hwn⟩ := hw
  rw [hw, ok_bind, normE_nan nm.norm hwn, le_nan_left, if_neg (by simp), hinfo, ok_bind]
  unfold surfCond1E
  rw [h.singlePoint_nan _ _ (Or.inl rfl)]
  rfl

/-- **C150**, clamped B-spline surfaces of degree at least two without repeated interior knots. -/
theorem surface_inversion_nonfinite_bspline (nm : Num K) {s : Surface K} (hs : ClampedSurface s)
    (hdu : 2 ≤ s.degreeU) (hdv : 2 ≤ s.degreeV) (ru : AllRegular s.degreeU s.numU s.kvU)
    (rv : AllRegular s.degreeV s.numV s.kvV) {point : List (Ext K)} (hp : point.length = 3) {i : ℕ} (hi : i < 3)
    (hnan : ∀ y, point.getD i 0 ≠ fin y) (eps1 eps2 : K) (maxIter : ℤ) (fuel : ℕ) :
    surfaceInversionE (fuel + 1) nm (s.lift.likeE nm.norm) point (fin eps1) (fin eps2) maxIter
      = .error .valueError := by
  obtain ⟨D, hD, -⟩ := surface_smooth nm.norm hs hdu hdv ru rv
  exact (surface_inversion_nonfinite nm (surface_like_extends nm.norm s) hD
    (by have := hs.cu.size; show 0 < s.numU; omega) (by have := hs.cv.size; show 0 < s.numV; omega) hp hi hnan
    eps1 eps2 maxIter fuel).2

/-- **C150**, data sets: one data point with a coordinate that is NaN or infinite, wherever it stands
in the data, and no parameters are returned. -/
theorem parameterize_nonfinite (nm : Num K) {data : List (List (Ext K))} {point : List (Ext K)}
    (hmem : point ∈ data) (hp : point.length = 3) {i : ℕ} (hi : i < 3) (hnan : ∀ y, point.getD i 0 ≠ fin y) :
    (∀ {C : CurveLike K} {E : CurveLike (Ext K)} {c c1 c2 : K → List K}, C.Extends E → C.Smooth c c1 c2 →
      0 < C.numCtrl → ∀ us, curveParametersE nm E data ≠ .ok us) ∧
    ∀ {S : SurfLike K} {E : SurfLike (Ext K)} {D : ℕ → ℕ → K → K → List K}, S.Extends E → S.Smooth D →
      0 < S.numU → 0 < S.numV → ∀ us, surfaceParametersE nm E data ≠ .ok us :=
  ⟨fun h hC hn => mapPy_fails hmem (curve_inversion_nonfinite nm h hC hn hp hi hnan _ _ _ _).2,
    fun h hS hu hv => mapPy_fails hmem (surface_inversion_nonfinite nm h hS hu hv hp hi hnan _ _ _ _).2⟩

end

/-! ## Concrete cases -/

example : surfaceInversionE 2 exNum (exQuad.lift.likeE exNum.norm) [fin 1, nan, fin 0] (fin (1/100)) (fin (1/100)) 5
      = .error .valueError ∧
    surfaceInversionE 2 exNum (exQuad.lift.likeE exNum.norm) [fin 1, inf true, fin 0] (fin (1/100)) (fin (1/100)) 5
      = .error .valueError ∧
    initialGuessSurfE exNum (exQuad.lift.likeE exNum.norm) [fin 1, nan, fin 0] = .ok (0, 0) := by decide +kernel

/-- The straight segment `u ↦ (u, 0, 0)` as numpy evaluates it. -/
def exLineE : CurveLike (Ext ℚ) where
  numCtrl := 2
  singlePoint u := if u = nan then .error .valueError else .ok [u, 0, 0]
  ders u := if u = nan then .error .valueError else .ok [[u, 0, 0], [1, 0, 0], [0, 0, 0]]

theorem exLine_extends : exLine.Extends exLineE where
  numCtrl := rfl
  singlePoint u := Follows.ok rfl
  ders u := Follows.ok rfl
  singlePoint_nan := rfl
  ders_nan := rfl

example : curveInversionE 102 exNum exLineE [fin (1/2), 0, 0] (fin (1/100)) (fin (1/100)) 100 = .ok (fin (1/3)) ∧
    curveInversionE 102 exNum exLineE [nan, 0, 0] (fin (1/100)) (fin (1/100)) 100 = .error .valueError ∧
    curveInversionE 102 exNum exLineE [fin (1/2), inf false, 0] (fin (1/100)) (fin (1/100)) 100
      = .error .valueError := by decide +kernel

end PySpline
