import Verif.Model.IeeeDers
import Verif.Model.Parameterize

/-!
# `BSplineCurve.derivatives` in IEEE arithmetic with overflow and underflow

The committed method, with the function `rd` of `Model/Ieee.lean` applied to the result of every arithmetic operation.  The product
of two vectors and the norm are left open.
-/

namespace PySpline

open Ext

section
variable {K : Type} [Field K] [LinearOrder K]

/-- `BSplineCurve.derivatives` (`spline/model/bspline.py:68-109`); `dot` is `@` of two vectors, `nrm` is `np.linalg.norm`.  The row
`val` has two entries. -/
def Curve.derivativesR (rd : K → Ext K) (dot : List (Ext K) → List (Ext K) → Py (Ext K)) (nrm : List (Ext K) → Ext K)
    (c : Curve (Ext K)) (u : Ext K) (order : ℤ) (normalize : Bool) : Py (List (List (Ext K))) :=
  if validateKnotE u = false then .error .valueError
  else if order ≤ 1 then .error .valueError
  else do
    let maxOrder := min order.toNat c.degree
    let span ← findSpanR rd c.ctrlpts.length c.degree u c.kv
    let ders ← basisFunctionDersR rd span u c.degree c.kv maxOrder
    let active := pySlice c.ctrlpts (span - c.degree) (span + 1)
    let derivs : List (List (Ext K)) := zeros2E (maxOrder + 1) 3
    forN 0 (maxOrder + 1) derivs fun row derivs => do
      let d1 ← columnE ders row
      let col1 ← columnE active 1
      let y ← dot d1 col1
      let col2 ← columnE active 2
      let z ← dot d1 col2
      let val := if normalize && !(iscloseR rd (nrm [y, z]) 0 rtolDefault atolDefault) && !(row == 0)
        then [y, z].map fun x => rnd rd (x / nrm [y, z]) else [y, z]
      assignRowE derivs row val

/-- The methods of a `BSplineCurve` that the inversion calls, `point` being `single_point` (`spline/model/bspline.py:19-109`). -/
def Curve.likeR (rd : K → Ext K) (dot : List (Ext K) → List (Ext K) → Py (Ext K)) (nrm : List (Ext K) → Ext K)
    (point : Curve (Ext K) → Ext K → Py (List (Ext K))) (c : Curve (Ext K)) : CurveLike (Ext K) where
  numCtrl := c.ctrlpts.length
  singlePoint := point c
  ders u := c.derivativesR rd dot nrm u 2 false

end

end PySpline
