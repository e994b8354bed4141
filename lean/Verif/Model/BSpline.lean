import Verif.Model.Knots
import Verif.Model.Basis

/-!
# Model of `spline/model/bspline.py` and `spline/util/validation.py`

The evaluation methods as functions of the stored attributes.  The attribute setters and
`insert_knot` are in `Verif/Model/Geometry.lean`.
-/

namespace PySpline

section
variable {K : Type} [Field K] [LinearOrder K]

/-- `validate_knot` (`spline/util/validation.py:7-21`). -/
def validateKnot (u : K) : Bool := decide (0 ≤ u) && decide (u ≤ 1)

/-- The attributes of a `BSplineCurve` that evaluation reads: `_degree`, `_control_points`,
`_knot_vector` (`spline/model/base_geometry.py:42-46`). -/
structure Curve (K : Type) where
  degree : ℕ
  ctrlpts : List (List K)
  kv : List K
  deriving DecidableEq, Repr

/-- `BSplineCurve.single_point` (`spline/model/bspline.py:19-44`). -/
def Curve.singlePoint (c : Curve K) (u : K) : Py (List K) :=
  if validateKnot u = false then .error .valueError
  else do
    let span ← findSpan c.ctrlpts.length c.degree u c.kv
    let funs ← basisFunctions span u c.degree c.kv
    let active := pySlice c.ctrlpts (span - c.degree) (span + 1)
    let col0 ← column active 0
    let x ← dot funs col0
    let col1 ← column active 1
    let y ← dot funs col1
    let col2 ← column active 2
    let z ← dot funs col2
    .ok [x, y, z]

/-- `BSplineCurve.points` (`spline/model/bspline.py:46-66`) for a 1-D parameter array. -/
def Curve.points (c : Curve K) (us : List K) : Py (List (List K)) := mapPy c.singlePoint us

/-- `val / np.linalg.norm(val)` with the zero test around it
(`spline/model/bspline.py:104-105, 312-313`); `norm` is `np.linalg.norm`, `first` says whether
this is the row that is never normalized. -/
def normalizeRow (norm : List K → K) (normalize first : Bool) (val : List K) : Py (List K) :=
  if normalize && !(iscloseD (norm val) 0) && !first then mapPy (fun x => pyDiv x (norm val)) val
  else .ok val

/-- `BSplineCurve.derivatives` (`spline/model/bspline.py:68-109`).  The row `val` has the two
entries of columns 1 and 2 only, as in the code. -/
def Curve.derivatives (norm : List K → K) (c : Curve K) (u : K) (order : ℤ) (normalize : Bool) :
    Py (List (List K)) :=
  if validateKnot u = false then .error .valueError
  else if order ≤ 1 then .error .valueError
  else do
    let maxOrder := min order.toNat c.degree
    let span ← findSpan c.ctrlpts.length c.degree u c.kv
    let ders ← basisFunctionDers span u c.degree c.kv maxOrder
    let active := pySlice c.ctrlpts (span - c.degree) (span + 1)
    let derivs : List (List K) := zeros2 (maxOrder + 1) 3
    forN 0 (maxOrder + 1) derivs fun row derivs => do
      let d1 ← column ders row
      let col1 ← column active 1
      let y ← dot d1 col1
      let col2 ← column active 2
      let z ← dot d1 col2
      let val ← normalizeRow norm normalize (row == 0) [y, z]
      assignRow derivs row val

/-- The attributes of a `BSplineSurface` that evaluation reads
(`spline/model/base_geometry.py:174-182`). -/
structure Surface (K : Type) where
  degreeU : ℕ
  degreeV : ℕ
  numU : ℕ
  numV : ℕ
  ctrlpts : List (List K)
  kvU : List K
  kvV : List K
  deriving DecidableEq, Repr

/-- `np.reshape(x, (n, m))` of a 1-D array (`spline/model/bspline.py:213-215, 292-294`). -/
def reshape2 (x : List K) (n m : ℕ) : Py (List (List K)) :=
  if x.length = n * m then .ok ((List.range n).map fun i => (x.drop (i * m)).take m)
  else .error .valueError

/-- `M[a:b, c:d]` (`spline/model/bspline.py:217-221, 296-298`). -/
def slice2 (m : List (List K)) (a b c d : ℤ) : List (List K) :=
  (pySlice m a b).map fun row => pySlice row c d

/-- `v @ M` for a 1-D array and a 2-D array (with at least one row)
(`spline/model/bspline.py:217-222, 306-308`). -/
def vecMat (v : List K) (m : List (List K)) : Py (List K) :=
  if v.length = m.length then
    .ok ((List.range (m.headD []).length).map fun j =>
      (List.zipWith (· * ·) v (m.map fun row => row.getD j 0)).sum)
  else .error .valueError

/-- `bu @ M @ bv` (`spline/model/bspline.py:217-222, 306-308`). -/
def bilinear (bu : List K) (m : List (List K)) (bv : List K) : Py K := do
  let w ← vecMat bu m
  dot w bv

/-- `BSplineSurface.single_point` (`spline/model/bspline.py:182-226`). -/
def Surface.singlePoint (s : Surface K) (u v : K) : Py (List K) :=
  if validateKnot u = false then .error .valueError
  else if validateKnot v = false then .error .valueError
  else do
    let uSpan ← findSpan s.numU s.degreeU u s.kvU
    let vSpan ← findSpan s.numV s.degreeV v s.kvV
    let bu ← basisFunctions uSpan u s.degreeU s.kvU
    let bv ← basisFunctions vSpan v s.degreeV s.kvV
    let cx ← column s.ctrlpts 0
    let cy ← column s.ctrlpts 1
    let cz ← column s.ctrlpts 2
    let xa ← reshape2 cx s.numU s.numV
    let ya ← reshape2 cy s.numU s.numV
    let za ← reshape2 cz s.numU s.numV
    let x ← bilinear bu (slice2 xa (uSpan - s.degreeU) (uSpan + 1) (vSpan - s.degreeV) (vSpan + 1)) bv
    let y ← bilinear bu (slice2 ya (uSpan - s.degreeU) (uSpan + 1) (vSpan - s.degreeV) (vSpan + 1)) bv
    let z ← bilinear bu (slice2 za (uSpan - s.degreeU) (uSpan + 1) (vSpan - s.degreeV) (vSpan + 1)) bv
    .ok [x, y, z]

/-- `BSplineSurface.points` (`spline/model/bspline.py:228-247`) for a 2-D parameter array. -/
def Surface.points (s : Surface K) (uvs : List (List K)) : Py (List (List K)) :=
  mapPy (fun parameter => do
    let u ← pyGet parameter 0
    let v ← pyGet parameter 1
    s.singlePoint u v) uvs

/-- `BSplineSurface.derivatives` (`spline/model/bspline.py:249-319`) for non-negative orders. -/
def Surface.derivatives (norm : List K → K) (s : Surface K) (u v : K) (orderU orderV : ℕ)
    (normalize : Bool) : Py (List (List K)) :=
  if validateKnot u = false then .error .valueError
  else if validateKnot v = false then .error .valueError
  else do
    let maxU := min orderU s.degreeU
    let maxV := min orderV s.degreeV
    let uSpan ← findSpan s.numU s.degreeU u s.kvU
    let vSpan ← findSpan s.numV s.degreeV v s.kvV
    let du ← basisFunctionDers uSpan u s.degreeU s.kvU maxU
    let dv ← basisFunctionDers vSpan v s.degreeV s.kvV maxV
    let cx ← column s.ctrlpts 0
    let cy ← column s.ctrlpts 1
    let cz ← column s.ctrlpts 2
    let xa ← reshape2 cx s.numU s.numV
    let ya ← reshape2 cy s.numU s.numV
    let za ← reshape2 cz s.numU s.numV
    let xm := slice2 xa (uSpan - s.degreeU) (uSpan + 1) (vSpan - s.degreeV) (vSpan + 1)
    let ym := slice2 ya (uSpan - s.degreeU) (uSpan + 1) (vSpan - s.degreeV) (vSpan + 1)
    let zm := slice2 za (uSpan - s.degreeU) (uSpan + 1) (vSpan - s.degreeV) (vSpan + 1)
    let derivs : List (List K) := zeros2 ((maxU + 1) * (maxV + 1)) 3
    let (derivs, _) ← forN 0 (maxU + 1) (derivs, (0 : ℕ)) fun uRow st =>
      forN 0 (maxV + 1) st fun vRow (derivs, index) => do
        let bu ← column du uRow
        let bv ← column dv vRow
        let x ← bilinear bu xm bv
        let y ← bilinear bu ym bv
        let z ← bilinear bu zm bv
        let val ← normalizeRow norm normalize (index == 0) [x, y, z]
        let derivs ← assignRow derivs index val
        .ok (derivs, index + 1)
    .ok derivs

end

end PySpline
