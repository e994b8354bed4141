import Verif.Model.IeeeDers

/-!
# Normalized derivatives in IEEE arithmetic with overflow and underflow

`BSplineSurface.derivatives` with the option `normalize` (`spline/model/bspline.py:249-319`), every
operation rounded by `rd`.  `np.linalg.norm` of a 1-D array of floats is `sqrt(x.dot(x))`; the square root
of numbers is the parameter `sq`.
-/

namespace PySpline

open Ext

section
variable {K : Type} [Field K] [LinearOrder K]

/-- `np.sqrt` (in `np.linalg.norm`, `spline/model/bspline.py:312-313`). -/
def sqrtR (sq : K → K) : Ext K → Ext K
  | fin x => if x < 0 then nan else fin (sq x)
  | inf false => inf false
  | _ => nan

/-- `np.linalg.norm(val)` (`spline/model/bspline.py:312-313`): `n` is a possible result, whatever the order
of the sum. -/
def NormR (rd : K → Ext K) (sq : K → K) (val : List (Ext K)) (n : Ext K) : Prop :=
  ∃ s, DotR rd (val.zip val) s ∧ n = sqrtR sq s

/-- `val / np.linalg.norm(val)` with the zero test around it (`spline/model/bspline.py:312-313`); the norm
of the same array is computed twice, with the same result. -/
def NormalizeRowR (rd : K → Ext K) (sq : K → K) (normalize first : Bool) (val row : List (Ext K)) : Prop :=
  ∃ n, NormR rd sq val n ∧
    row = if normalize && !(iscloseR rd n 0 rtolDefault atolDefault) && !first then
      val.map fun x => rnd rd (x / n) else val

/-- `BSplineSurface.derivatives` (`spline/model/bspline.py:249-319`): `derivs` is a possible result. -/
def Surface.DerivativesNormR (rd : K → Ext K) (sq : K → K) (s : Surface (Ext K)) (u v : Ext K)
    (orderU orderV : ℕ) (normalize : Bool) (derivs : List (List (Ext K))) : Prop :=
  ∃ D, s.DerivativesR rd u v orderU orderV D ∧ derivs.length = D.length ∧
    ∀ i < D.length, NormalizeRowR rd sq normalize (i == 0) (D.getD i []) (derivs.getD i [])

end

end PySpline
