import Verif.Model.IeeeInversion
import Verif.Model.IeeeDers
import Verif.Rounding

/-!
# Curves on which the Newton iteration has no breakdown in double precision
-/

namespace PySpline.Spec

open Ext

/-- The computed norm of three numbers of moderate size is a number of moderate size. -/
def BoundedNorm (norm : List (Ext ℚ) → Ext ℚ) : Prop :=
  ∀ w : List ℚ, w.length = 3 → (∀ x ∈ w, |x| ≤ 2 ^ 502) → ∃ c, norm (w.map fin) = fin c ∧ 0 ≤ c ∧ c ≤ 2 ^ 505

/-- A point, or a derivative, of moderate size. -/
def Moderate (w : List ℚ) : Prop := w.length = 3 ∧ ∀ x ∈ w, |x| ≤ 2 ^ 500

/-- The computed difference of two points. -/
def diff64 (a b : List ℚ) : List (Ext ℚ) := List.zipWith (fun x y => bin64 (x - y)) a b

/-- At every double in `[0, 1]` the curve returns a point and the first derivatives, of moderate size; the computed speed does not
vanish; and the zeroth derivative differs from `point` unless the test for coincidence accepts the point (which is so if the two
methods return the same point, see `regular_of_same`). -/
structure RegularCurve (norm : List (Ext ℚ) → Ext ℚ) (eps1 : Ext ℚ) (point : List ℚ) (C : CurveLike (Ext ℚ)) : Prop where
  num : 1 ≤ C.numCtrl ∧ C.numCtrl ≤ 2 ^ 49
  eval : ∀ u : ℚ, bin64 u = fin u → 0 ≤ u → u ≤ 1 → ∃ q d0 d1 d2 rest,
    C.singlePoint (fin u) = .ok (q.map fin) ∧ C.ders (fin u) = .ok (d0.map fin :: d1.map fin :: d2.map fin :: rest) ∧
    Moderate q ∧ Moderate d0 ∧ Moderate d1 ∧ Moderate d2 ∧
    (∃ c, norm (d1.map fin) = fin c ∧ 1 / 2 ^ 500 ≤ c) ∧
    (le (norm (diff64 q point)) eps1 = true ∨ ∃ c, norm (diff64 d0 point) = fin c ∧ 1 / 2 ^ 500 ≤ c)

/-- At every pair of doubles in `[0, 1]` the surface returns a point and the rows of derivatives that are used, of moderate size. -/
structure ModerateSurface (S : SurfLike (Ext ℚ)) : Prop where
  numU : 1 ≤ S.numU ∧ S.numU ≤ 2 ^ 49
  numV : 1 ≤ S.numV ∧ S.numV ≤ 2 ^ 49
  eval : ∀ u v : ℚ, bin64 u = fin u → 0 ≤ u → u ≤ 1 → bin64 v = fin v → 0 ≤ v → v ≤ 1 → ∃ q d1 d2 d3 d4 d6 D,
    S.singlePoint (fin u) (fin v) = .ok (q.map fin) ∧ S.ders (fin u) (fin v) = .ok D ∧ 7 ≤ D.length ∧
    D.getD 1 [] = d1.map fin ∧ D.getD 2 [] = d2.map fin ∧ D.getD 3 [] = d3.map fin ∧ D.getD 4 [] = d4.map fin ∧
    D.getD 6 [] = d6.map fin ∧
    Moderate q ∧ Moderate d1 ∧ Moderate d2 ∧ Moderate d3 ∧ Moderate d4 ∧ Moderate d6

/-- A solver of two equations with two unknowns that raises `LinAlgError` or returns no NaN if the coefficients are numbers. -/
def NumericSolve (slv : Ext ℚ → Ext ℚ → Ext ℚ → Ext ℚ → Ext ℚ → Ext ℚ → Py (Ext ℚ × Ext ℚ)) : Prop :=
  ∀ a b c d x y : ℚ, slv (fin a) (fin b) (fin c) (fin d) (fin x) (fin y) = .error .linAlgError ∨
    ∃ s t, slv (fin a) (fin b) (fin c) (fin d) (fin x) (fin y) = .ok (s, t) ∧ s ≠ nan ∧ t ≠ nan

/-- `S` has the methods of the surface `s` in the arithmetic given by `rd`: where `single_point` and `derivatives` have results
they return one of them, and `single_point` raises `ValueError` for parameters that are not valid. -/
structure ComputesSurface {K : Type} [Field K] [LinearOrder K] (rd : K → Ext K) (s : Surface (Ext K)) (S : SurfLike (Ext K)) :
    Prop where
  numU : S.numU = s.numU
  numV : S.numV = s.numV
  point : ∀ u v, (∃ pt, s.PointR rd u v pt) → ∃ pt, S.singlePoint u v = .ok pt ∧ s.PointR rd u v pt
  ders : ∀ u v, (∃ D, s.DerivativesR rd u v 2 2 D) → ∃ D, S.ders u v = .ok D ∧ s.DerivativesR rd u v 2 2 D
  invalid : ∀ u v, validateKnotE u = false ∨ validateKnotE v = false → S.singlePoint u v = .error .valueError

end PySpline.Spec
