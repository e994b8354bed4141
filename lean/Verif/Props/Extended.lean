import Verif.Lemmas.ExtendedChecks
import Verif.Props.SurfaceInversion

/-!
# C147: numpy's infinities and the exact model

The functions over `Ext K` go on after a division by zero; the functions of the exact model stop with
`Err.nonfinite`.  Unless the exact run stops in this way, both give the same result.
-/

set_option linter.unusedSectionVars false

namespace PySpline

open Ext

section
variable {K : Type} [Field K] [LinearOrder K]

/-- **C147**, `find_span` and `find_multiplicity`, which do not divide. -/
theorem find_span_extended (n p : ℕ) (u : K) (U : List K) :
    findSpanE n p (fin u) (U.map fin) = findSpan n p u U ∧
    findMultiplicityE (fin u) (U.map fin) = findMultiplicity u U := by
  refine ⟨?_, findMultiplicityE_lift u U⟩
  rw [findSpanE_follows n p u U (findSpan_finite n p u U)]
  rcases findSpan n p u U with e | a <;> rfl

/-- **C147**, the basis functions. -/
theorem basis_extended (p : ℕ) (u : K) (U : List K) :
    (∀ k, basisFunctions k u p U = .error .nonfinite ∨
      basisFunctionsE k (fin u) p (U.map fin) = (basisFunctions k u p U).map (List.map fin)) ∧
    (∀ k order, basisFunctionDers k u p U order = .error .nonfinite ∨
      basisFunctionDersE k (fin u) p (U.map fin) order
        = (basisFunctionDers k u p U order).map (List.map (List.map fin))) ∧
    (∀ i, oneBasisFunction p U i u = .error .nonfinite ∨
      oneBasisFunctionE p (U.map fin) i (fin u) = (oneBasisFunction p U i u).map fin) ∧
    ∀ i order, oneBasisFunctionDers p U i u order = .error .nonfinite ∨
      oneBasisFunctionDersE p (U.map fin) i (fin u) order
        = (oneBasisFunctionDers p U i u order).map (List.map fin) :=
  ⟨fun _ => (basisFunctionsE_follows _ _ _ _).iff, fun _ _ => (basisFunctionDersE_follows _ _ _ _ _).iff,
    fun _ => (oneBasisFunctionE_follows _ _ _ _).iff, fun _ _ => (oneBasisFunctionDersE_follows _ _ _ _ _).iff⟩

/-- **C147**, knot insertion. -/
theorem knot_insertion_extended (p : ℕ) (U : List K) (P : List (List K)) (u : K) (r : ℕ) :
    curveKnotInsertion p U P u r = .error .nonfinite ∨
    curveKnotInsertionE p (U.map fin) (P.map (List.map fin)) (fin u) r
      = (curveKnotInsertion p U P u r).map (Prod.map (List.map fin) (List.map (List.map fin))) :=
  (curveKnotInsertionE_follows p U P u r).iff

/-- **C147**, points and derivatives of curves. -/
theorem curve_extended (norm : List K → K) (c : Curve K) (u : K) :
    (c.singlePoint u = .error .nonfinite ∨ c.lift.singlePointE (fin u) = (c.singlePoint u).map (List.map fin)) ∧
    ∀ order b, c.derivatives norm u order b = .error .nonfinite ∨
      c.lift.derivativesE norm (fin u) order b = (c.derivatives norm u order b).map (List.map (List.map fin)) :=
  ⟨(singlePointE_follows c u).iff, fun order b => (derivativesE_follows norm c u order b).iff⟩

/-- **C147**, points and derivatives of surfaces. -/
theorem surface_extended (norm : List K → K) (s : Surface K) (u v : K) :
    (s.singlePoint u v = .error .nonfinite ∨
      s.lift.singlePointE (fin u) (fin v) = (s.singlePoint u v).map (List.map fin)) ∧
    ∀ a b t, s.derivatives norm u v a b t = .error .nonfinite ∨
      s.lift.derivativesE norm (fin u) (fin v) a b t
        = (s.derivatives norm u v a b t).map (List.map (List.map fin)) :=
  ⟨(surface_singlePointE_follows s u v).iff, fun a b t => (surface_derivativesE_follows norm s u v a b t).iff⟩

end

section
variable {K : Type} [Field K] [LinearOrder K] [IsStrictOrderedRing K]

/-- **C147**, the inversion of a surface. -/
theorem surface_inversion_extended (nm : Num K) (s : Surface K) (fuel : ℕ) (point : List K) (eps1 eps2 : K)
    (maxIter : ℤ) :
    surfaceInversion fuel nm (s.like nm.norm) point eps1 eps2 maxIter = .error .nonfinite ∨
    surfaceInversionE fuel nm (s.lift.likeE nm.norm) (point.map fin) (fin eps1) (fin eps2) maxIter
      = (surfaceInversion fuel nm (s.like nm.norm) point eps1 eps2 maxIter).map (Prod.map fin fin) :=
  (surfaceInversionE_follows nm (surface_like_extends nm.norm s) fuel point eps1 eps2 maxIter).iff

/-- **C147**, the inversion of any curve whose methods are evaluated as numpy evaluates them.  The
denominator of the Newton step is never `-0`, so a quotient by it has the sign of the numerator. -/
theorem curve_inversion_extended (nm : Num K) (hz : ∀ a b, nm.zeroSign a b = decide (0 < a))
    {C : CurveLike K} {E : CurveLike (Ext K)} (h : C.Extends E)
    (hrow : ∀ u ders, C.ders u = .ok ders → ∀ row ∈ ders, row ≠ []) (fuel : ℕ) (point : List K) (eps1 eps2 : K)
    (maxIter : ℤ) :
    curveInversion fuel nm C point eps1 eps2 maxIter = .error .nonfinite ∨
    curveInversionE fuel nm E (point.map fin) (fin eps1) (fin eps2) maxIter
      = (curveInversion fuel nm C point eps1 eps2 maxIter).map fin :=
  (curveInversionE_follows nm hz h hrow fuel point eps1 eps2 maxIter).iff

/-- **C147**, `normalize`, and `check_knot_vector` without exception: a constant array becomes an array
of NaNs, which is rejected. -/
theorem check_knot_vector_extended (p n : ℕ) (U : List K) :
    checkKnotVectorE p (U.map fin) n = checkKnotVector p U n ∧
    (U ≠ [] → (∀ x ∈ U, ∀ y ∈ U, x = y) → normalizeE (U.map fin) = .ok (List.replicate U.length nan)) ∧
    (¬ (∀ x ∈ U, ∀ y ∈ U, x = y) → normalizeE (U.map fin) = (normalize U).map (List.map fin)) := by
  refine ⟨?_, fun hne h => normalizeE_const hne h, fun h => ?_⟩
  · unfold checkKnotVector checkKnotVectorE
    by_cases hne : U = []
    · subst hne
      rfl
    by_cases hc : ∀ x ∈ U, ∀ y ∈ U, x = y
    · rw [normalizeE_const hne hc, normalize_degenerate.1 U hne hc, ok_bind]
      exact checkNormalizedE_zero_nan _ _ _ fun x hx => Or.inr (List.eq_of_mem_replicate hx)
    · have hN : normalize U ≠ .error .nonfinite := by
        obtain ⟨x, hx, y, hy, hxy⟩ : ∃ x ∈ U, ∃ y ∈ U, x ≠ y := by push Not at hc; exact hc
        obtain ⟨lo, hi, -, -, -, -, W, hW, -⟩ := normalize_affine hx hy hxy
        rw [hW]
        simp
      rw [normalizeE_follows U hN]
      rcases hW : normalize U with e | W
      · rw [hW] at hN
        cases e <;> first | rfl | exact absurd rfl hN
      · show checkNormalizedE p (List.map fin W) n = checkNormalized p W n
        rw [checkNormalizedE_follows p W n (checkNormalized_finite p W n)]
        rcases checkNormalized p W n with e | a <;> rfl
  · obtain ⟨x, hx, y, hy, hxy⟩ : ∃ x ∈ U, ∃ y ∈ U, x ≠ y := by push Not at h; exact h
    obtain ⟨lo, hi, -, -, -, -, W, hW, -⟩ := normalize_affine hx hy hxy
    exact normalizeE_follows U (by rw [hW]; simp)

end

/-! ## Concrete cases -/

example : findSpanE 6 2 (fin (3/10)) (exU.map fin) = .ok 3 ∧
    basisFunctionsE 3 (fin (3/10)) 2 (exU.map fin) = .ok [fin (8/25), fin (33/50), fin (1/50)] ∧
    (basisFunctions 3 (3/10) 2 exU).map (List.map fin) = .ok [fin (8/25), fin (33/50), fin (1/50)] := by
  decide +kernel

/-- The constant array: `normalize` gives NaNs, and `check_knot_vector` returns `False`. -/
example : normalizeE [fin (2 : ℚ), fin 2, fin 2, fin 2] = .ok [nan, nan, nan, nan] ∧
    checkKnotVectorE 1 [fin (2 : ℚ), fin 2, fin 2, fin 2] 2 = .ok false ∧
    checkKnotVector 1 [(2 : ℚ), 2, 2, 2] 2 = .ok false := by decide +kernel

/-- Inversion of a surface point, in both models. -/
example : surfaceInversionE 3 exNum (exQuad.lift.likeE exNum.norm) [fin (1/2), fin (1/2), fin 1]
      (fin (1/100)) (fin (1/100)) 5
    = (surfaceInversion 3 exNum (exQuad.like exNum.norm) [1/2, 1/2, 1] (1/100) (1/100) 5).map (Prod.map fin fin) ∧
    Except.isOk (surfaceInversion 3 exNum (exQuad.like exNum.norm) [1/2, 1/2, 1] (1/100) (1/100) 5) = true := by
  decide +kernel

end PySpline
