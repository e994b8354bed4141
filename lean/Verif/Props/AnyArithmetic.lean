import Verif.Lemmas.AnyArithmetic
import Verif.Lemmas.NanInversionAux
import Verif.Props.NanInversion
import Verif.Rounding

/-!
# C157: the inversion functions in any arithmetic
-/

set_option linter.unusedSectionVars false

namespace PySpline

open Ext

section
variable {K : Type} [Field K] [LinearOrder K] [IsStrictOrderedRing K]

/-- The exact operations with infinities and NaN are one such arithmetic. -/
theorem curveInversionA_exact (nm : Num K) (fuel : ℕ) (C : CurveLike (Ext K)) (point : List (Ext K))
    (eps1 eps2 : Ext K) (maxIter : ℤ) :
    curveInversionA fuel (exactArith nm) C point eps1 eps2 maxIter
      = curveInversionE fuel nm C point eps1 eps2 maxIter := by
  have hg : gridA (exactArith nm) (2 * C.numCtrl) = (gridE (2 * C.numCtrl) : List (Ext K)) := by
    simp [gridA, gridE, grid, exactArith]
  have hl : ∀ (fuel : ℕ) (j : ℤ) (s : CurveState (Ext K)),
      curveLoopA (exactArith nm) C point eps1 eps2 maxIter fuel j s
        = curveLoopE nm C point eps1 eps2 maxIter fuel j s := by
    intro fuel
    induction fuel with
    | zero => intro j s; rfl
    | succ fuel ih =>
      intro j s
      unfold curveLoopA curveLoopE
      simp only [ih]
      rfl
  unfold curveInversionA curveInversionE initialGuessCurveA initialGuessCurveE
  simp only [hl, hg]
  rfl

theorem surfaceInversionA_exact (nm : Num K) (fuel : ℕ) (S : SurfLike (Ext K)) (point : List (Ext K))
    (eps1 eps2 : Ext K) (maxIter : ℤ) :
    surfaceInversionA fuel (exactArith nm) S point eps1 eps2 maxIter
      = surfaceInversionE fuel nm S point eps1 eps2 maxIter := by
  have hg : ∀ N, gridA (exactArith nm) N = (gridE N : List (Ext K)) := fun N => by
    simp [gridA, gridE, grid, exactArith]
  have hl : ∀ (fuel : ℕ) (n : ℤ) (ui vi : Ext K) (d : SurfDers (Ext K)),
      surfLoopA (exactArith nm) S point eps1 eps2 maxIter fuel n ui vi d
        = surfLoopE nm S point eps1 eps2 maxIter fuel n ui vi d := by
    intro fuel
    induction fuel with
    | zero => intro n ui vi d; rfl
    | succ fuel ih =>
      intro n ui vi d
      unfold surfLoopA surfLoopE
      simp only [ih]
      rfl
  unfold surfaceInversionA surfaceInversionE initialGuessSurfA initialGuessSurfE
  simp only [hl, hg]
  rfl

/-- The exact operations return or raise, and NaN propagates. -/
theorem exactArith_total (nm : Num K) : (exactArith nm).Total where
  inner a b := by show dotE a b ≠ _; unfold dotE; split <;> simp
  solve a b c d x y := by
    show solve2E a b c d x y ≠ _
    unfold solve2E
    split
    · dsimp only; split <;> simp
    · simp

theorem exactArith_propagates (nm : Num K) : (exactArith nm).Propagates where
  sub a := by cases a <;> rfl
  mul a := by cases a <;> rfl
  add a := by cases a <;> exact ⟨rfl, rfl⟩
  norm l h := by
    show normE nm.norm l = nan
    unfold normE
    rw [if_pos (List.any_eq_true.2 ⟨nan, h, by simp⟩)]

/-- The methods of a `BSplineCurve` and of a `BSplineSurface` raise outside `[0, 1]` (C30). -/
theorem curve_checks (norm : List K → K) (c : Curve (Ext K)) : (c.likeE norm).Checks where
  pt u q h := by
    by_contra hn
    have hv : ¬ validateKnotE u = true := fun hv => hn (validateKnotE_unit hv)
    change c.singlePointE u = _ at h
    unfold Curve.singlePointE at h
    rw [if_pos (by simpa using hv)] at h
    cases h
  ders u d h := by
    by_contra hn
    have hv : ¬ validateKnotE u = true := fun hv => hn (validateKnotE_unit hv)
    change c.derivativesE norm u 2 false = _ at h
    unfold Curve.derivativesE at h
    rw [if_pos (by simpa using hv)] at h
    cases h

theorem surface_checks (norm : List K → K) (s : Surface (Ext K)) : (s.likeE norm).Checks where
  pt u v q h := by
    by_contra hn
    change s.singlePointE u v = _ at h
    unfold Surface.singlePointE at h
    split at h
    · cases h
    rename_i hu
    split at h
    · cases h
    rename_i hv
    exact hn ⟨validateKnotE_unit (by simpa using hu), validateKnotE_unit (by simpa using hv)⟩
  ders u v d h := by
    by_contra hn
    change s.derivativesE norm u v 2 2 false = _ at h
    unfold Surface.derivativesE at h
    split at h
    · cases h
    rename_i hu
    split at h
    · cases h
    rename_i hv
    exact hn ⟨validateKnotE_unit (by simpa using hu), validateKnotE_unit (by simpa using hv)⟩

/-- **C157**, curves: whatever the arithmetic does, `curve_inversion` returns a number in `[0, 1]` or raises; it
does at most `max(1, max_iter + 2)` passes. -/
theorem curve_inversion_any (A : Arith K) {C : CurveLike (Ext K)} (hC : C.Checks) (point : List (Ext K))
    (eps1 eps2 : Ext K) (maxIter : ℤ) (fuel : ℕ) :
    (∀ u, curveInversionA fuel A C point eps1 eps2 maxIter = .ok u → UnitNum u) ∧
    (maxIter + 2 ≤ fuel → 1 ≤ fuel →
      (∀ extra, curveInversionA (fuel + extra) A C point eps1 eps2 maxIter
        = curveInversionA fuel A C point eps1 eps2 maxIter) ∧
      (A.Total → C.TotalE → curveInversionA fuel A C point eps1 eps2 maxIter ≠ .error .diverged)) := by
  refine ⟨fun u h => ?_, fun hf hf1 => ⟨fun extra => ?_, fun hA hT => ?_⟩⟩
  · unfold curveInversionA at h
    obtain ⟨u0, -, h⟩ := bind_eq_ok h
    obtain ⟨s, hs, h⟩ := bind_eq_ok h
    have hm := curveInfoE_unit hC hs
    rw [curveInfoE_u hs] at hm
    obtain ⟨c1, -, h⟩ := bind_eq_ok h
    split at h
    · cases h; exact hm
    obtain ⟨c2, -, h⟩ := bind_eq_ok h
    split at h
    · cases h; exact hm
    · exact curveLoopA_mem hC fuel 0 s u (by rw [curveInfoE_u hs]; exact hm) h
  · unfold curveInversionA
    simp only [curveLoopA_fuel (maxIter := maxIter) fuel 0 _ extra (by omega) hf1]
  · unfold curveInversionA
    refine bind_ne_diverged (initialGuessCurveA_ne_diverged hT _) fun _ _ =>
      bind_ne_diverged (curveInfoE_ne_diverged hT _) fun _ _ =>
      bind_ne_diverged (curveCond1A_ne_diverged hT _ _ _) fun _ _ => ?_
    split
    · simp
    refine bind_ne_diverged (curveCond2A_ne_diverged hA _ _ _) fun _ _ => ?_
    split
    · simp
    · exact curveLoopA_ne_diverged hA hT fuel 0 _ (by omega) hf1

/-- **C157**: whatever the arithmetic does, the parameter that `curve_inversion` returns after at least one Newton
step fails both convergence tests: the one that passed is thrown away. -/
theorem curve_inversion_any_fails_tests (A : Arith K) (C : CurveLike (Ext K)) (point : List (Ext K))
    (eps1 eps2 : Ext K) (maxIter : ℤ) (fuel : ℕ) (u0 u : Ext K) (s : CurveState (Ext K))
    (hg : initialGuessCurveA A C point = .ok u0) (hs : curveInfoE C u0 = .ok s)
    (h1 : curveCond1A A C point eps1 u0 = .ok false) (h2 : curveCond2A A point eps2 s = .ok false)
    (h : curveInversionA fuel A C point eps1 eps2 maxIter = .ok u) :
    curveCond1A A C point eps1 u = .ok false ∧
      ∃ s', curveInfoE C u = .ok s' ∧ curveCond2A A point eps2 s' = .ok false := by
  unfold curveInversionA at h
  rw [hg, ok_bind, hs, ok_bind, h1, ok_bind, if_neg (by simp), h2, ok_bind, if_neg (by simp)] at h
  have hu := curveInfoE_u hs
  rw [← hu] at hs h1
  exact curveLoopA_fails_tests fuel 0 s u hs h1 h2 h

/-- **C157**, surfaces: if NaN propagates, `surface_inversion` returns a pair of numbers in the unit square or
raises; it does at most `max(1, max_iter + 1)` passes. -/
theorem surface_inversion_any (A : Arith K) (hA : A.Propagates) {S : SurfLike (Ext K)} (hS : S.Checks)
    (hrow : ∀ u v m, S.ders u v = .ok m → ∀ row ∈ m, row ≠ []) (point : List (Ext K))
    (eps1 eps2 : Ext K) (maxIter : ℤ) (fuel : ℕ) :
    (∀ uv, surfaceInversionA fuel A S point eps1 eps2 maxIter = .ok uv → UnitNum uv.1 ∧ UnitNum uv.2) ∧
    (maxIter + 1 ≤ fuel → 1 ≤ fuel →
      (∀ extra, surfaceInversionA (fuel + extra) A S point eps1 eps2 maxIter
        = surfaceInversionA fuel A S point eps1 eps2 maxIter) ∧
      (A.Total → S.TotalE → surfaceInversionA fuel A S point eps1 eps2 maxIter ≠ .error .diverged)) := by
  refine ⟨fun uv h => ?_, fun hf hf1 => ⟨fun extra => ?_, fun hA hT => ?_⟩⟩
  · unfold surfaceInversionA at h
    obtain ⟨⟨u0, v0⟩, -, h⟩ := bind_eq_ok h
    obtain ⟨d, hd, h⟩ := bind_eq_ok h
    obtain ⟨m, hm, h1, -⟩ := surfInfoE_rows hd
    have hin := hS.ders _ _ _ hm
    obtain ⟨c1, -, h⟩ := bind_eq_ok h
    split at h
    · cases h; exact hin
    obtain ⟨c2, -, h⟩ := bind_eq_ok h
    split at h
    · cases h; exact hin
    · exact surfLoopA_mem hA hS hrow fuel 0 _ _ _ _ (hrow _ _ _ hm _ h1) h
  · unfold surfaceInversionA
    simp only [surfLoopA_fuel (maxIter := maxIter) fuel 0 _ _ _ extra (by omega) hf1]
  · unfold surfaceInversionA
    refine bind_ne_diverged (initialGuessSurfA_ne_diverged hT _) fun _ _ =>
      bind_ne_diverged (surfInfoE_ne_diverged hT _ _) fun _ _ =>
      bind_ne_diverged (surfCond1A_ne_diverged hT _ _ _ _) fun _ _ => ?_
    split
    · simp
    refine bind_ne_diverged (surfCond2A_ne_diverged hA hT _ _ _ _ _) fun _ _ => ?_
    split
    · simp
    · exact surfLoopA_ne_diverged hA hT fuel 0 _ _ _ (by omega) hf1

end

/-! ## Concrete cases -/

/-- A segment that raises outside `[0, 1]`. -/
def exLineC : CurveLike (Ext ℚ) where
  numCtrl := 2
  singlePoint u := if validateKnotE u then .ok [u, 0, 0] else .error .valueError
  ders u := if validateKnotE u then .ok [[u, 0, 0], [1, 0, 0], [0, 0, 0]] else .error .valueError

theorem exLineC_checks : exLineC.Checks where
  pt u q h := by
    by_contra hn
    have hv : ¬ validateKnotE u = true := fun hv => hn (validateKnotE_unit hv)
    change (if validateKnotE u then _ else _) = _ at h
    rw [if_neg hv] at h
    cases h
  ders u d h := by
    by_contra hn
    have hv : ¬ validateKnotE u = true := fun hv => hn (validateKnotE_unit hv)
    change (if validateKnotE u then _ else _) = _ at h
    rw [if_neg hv] at h
    cases h

/-- Double precision: the start value `2/3` is returned although the next one `1/2` has been computed; in exact
arithmetic the start value is `1/3`, because the first of two equal distances counts.  With
differences that are always NaN the call raises.  With quotients that are always infinite the parameter is clamped. -/
example : curveInversionA 102 (flArith fl64 (sumNormFl fl64)) exLineC [fin (1/2), 0, 0] (fin (1/100)) (fin (1/100)) 100
      = .ok (fin (fl64 (2/3))) ∧
    curveInversionA 102 { flArith fl64 (sumNormFl fl64) with sub := fun _ _ => nan } exLineC [fin (1/2), 0, 0]
      (fin (1/100)) (fin (1/100)) 100 = .error .valueError ∧
    curveInversionA 3 { flArith fl64 (sumNormFl fl64) with div := fun _ _ => inf false } exLineC [fin (1/2), 0, 0]
      (fin (1/100)) (fin (1/100)) 1 = .ok (fin 0) := by decide +kernel

/-- Inner products of vectors of different lengths raise. -/
example : (flArith fl64 (sumNormFl fl64)).inner [1] [1, fin 2] = .error .valueError ∧
    (flArith fl64 (sumNormFl fl64)).inner [fin (1/3), fin 3] [1, fin (1/3)] = .ok (fin (fl64 (fl64 (1/3) + 1))) := by
  decide +kernel

/-- The same for a surface.  The propagation of NaN is needed: if the norm of a vector with a NaN were 0, the NaN
returned by a singular solver would be accepted. -/
example : surfaceInversionA 6 (flArith fl64 (sumNormFl fl64)) (exQuad.lift.likeE exNum.norm) [fin (1/2), fin (1/2), 0]
      (fin (1/100)) (fin (1/100)) 5 = .ok (fin (1/2), fin (1/2)) ∧
    surfaceInversionA 6 { flArith fl64 (sumNormFl fl64) with
        norm := fun l => if l.any (fun x => decide (x = nan)) then 0 else normE (sumNormFl fl64) l
        solve := fun _ _ _ _ _ _ => .ok (nan, nan) } (exQuad.lift.likeE exNum.norm) [fin (1/2), fin (1/2), 0]
      (fin (1/100)) (fin (1/100)) 5 = .ok (nan, nan) := by decide +kernel

end PySpline
