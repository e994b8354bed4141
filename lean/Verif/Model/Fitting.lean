import Verif.Model.Parameterize

/-!
# Model of `fit/algorithms/fitting.py` and `fit/algorithms/initialization.py`

The functions work on spline objects whose attributes they read and assign.  Here the objects are
the records `Curve` and `Surface` and an assignment replaces a field: the property setters of the
committed classes (which reject the control points of every 3-D spline, see
`Verif/Props/Geometry.lean`) are left out, so this part of the model describes the algorithms on a
class whose setters accept what they are given.  The evaluation methods are taken from
`FitEnv.curveLike`, `FitEnv.surfLike`; with `Curve.like` they are those of the committed class.

`np.linalg.lstsq` is a parameter.  `np.linalg.cond`, whose value is only printed, and the printing
are left out.  (For an object without control points `cond` of the empty matrix raises `LinAlgError`,
where the model raises `IndexError` a little later or returns; no theorem is about such objects.)
-/

namespace PySpline

section
variable {K : Type} [Field K] [LinearOrder K]

/-- What the model does not compute: norm and signed zeros, `np.linalg.lstsq(A, b, rcond=None)[0]`
(first argument: the number of columns of `A`), and the evaluation methods
(`fit/algorithms/fitting.py:61, 300, 371`). -/
structure FitEnv (K : Type) where
  num : Num K
  lstsq : ℕ → List (List K) → List K → List K
  curveLike : Curve K → CurveLike K
  surfLike : Surface K → SurfLike K

/-- `m[:, c] = v` (`fit/algorithms/fitting.py:49, 53`). -/
def setColumn (m : List (List K)) (c : ℤ) (v : List K) : Py (List (List K)) :=
  if v.length = m.length then mapPy (fun rx : List K × K => pySet rx.1 c rx.2) (m.zip v)
  else .error .valueError

/-- `linear_fit_fixed` (`fit/algorithms/fitting.py:16-70`). -/
def linearFitFixed (lstsq : ℕ → List (List K) → List K → List K) (R : List (List K)) (Q P : List K)
    (fixed : List Bool) : Py (List K) := do
  -- 35-40
  let nfixed ← forN 0 P.length 0 fun i nfixed => do
    let f ← pyGet fixed i
    .ok (if f then nfixed + 1 else nfixed)
  if nfixed = P.length then .ok P
  else do
    -- 43-54
    let Rfree : List (List K) := zeros2 Q.length (P.length - nfixed)
    let Rfixed : List (List K) := zeros2 Q.length nfixed
    let Qfixed : List K := zeros Q.length
    let (Rfree, _, Qfixed, _, _) ← forN 0 P.length (Rfree, Rfixed, Qfixed, 0, 0)
      fun i (Rfree, Rfixed, Qfixed, (j : ℕ), (k : ℕ)) => do
        let f ← pyGet fixed i
        let col ← column R i
        if f then do
          let Rfixed ← setColumn Rfixed j col
          let p ← pyGet P i
          let Qfixed ← vadd Qfixed (col.map fun x => x * p)
          .ok (Rfree, Rfixed, Qfixed, j + 1, k)
        else do
          let Rfree ← setColumn Rfree k col
          .ok (Rfree, Rfixed, Qfixed, j, k + 1)
    -- 61
    let b ← vsub Q Qfixed
    let freeP := lstsq (P.length - nfixed) Rfree b
    -- 62-70
    let (fullP, _) ← forN 0 P.length ((zeros P.length : List K), 0) fun i (fullP, (j : ℕ)) => do
      let f ← pyGet fixed i
      if f then do
        let p ← pyGet P i
        let fullP ← pySet fullP i p
        .ok (fullP, j)
      else do
        let x ← pyGet freeP j
        let fullP ← pySet fullP i x
        .ok (fullP, j + 1)
    .ok fullP

/-- The matrix `n_mat` of `single_fit_curve` (`fit/algorithms/fitting.py:87-105`). -/
def curveMatrix (c : Curve K) (data : List (List K)) : Py (List (List K)) := do
  let evalU ← column data (-1)
  let ctrlU := c.ctrlpts.length
  let nMat : List (List K) := zeros2 data.length c.ctrlpts.length
  let (nMat, _) ← forN 0 evalU.length (nMat, 0) fun u (nMat, (row : ℕ)) => do
    let (nMat, _) ← forN 0 ctrlU (nMat, 0) fun spanU (nMat, (col : ℕ)) => do
      let x ← pyGet evalU u
      let v ← oneBasisFunction c.degree c.kv spanU x
      let nMat ← set2 nMat row col v
      .ok (nMat, col + 1)
    .ok (nMat, row + 1)
  .ok nMat

/-- The partition-of-unity check (`fit/algorithms/fitting.py:110-115, 189-194`). -/
def checkUnity (nMat : List (List K)) (num : ℕ) : Py Unit :=
  let unity := nMat.map List.sum
  let total := unity.sum
  if ¬ iscloseD total (num : K) then .error .valueError else .ok ()

/-- `np.column_stack` of three 1-D arrays of the same length
(`fit/algorithms/fitting.py:139, 228`). -/
def columnStack3 (x y z : List K) : Py (List (List K)) :=
  if x.length = y.length ∧ y.length = z.length then
    .ok ((List.range x.length).map fun i => [x.getD i 0, y.getD i 0, z.getD i 0])
  else .error .valueError

/-- The mask of `single_fit_curve` (`fit/algorithms/fitting.py:127-128`). -/
def curveMask (n : ℕ) : Py (List Bool) := do
  let fixed := List.replicate n false
  let fixed ← pySet fixed 0 true
  pySet fixed (-1) true

/-- The three calls of `linear_fit_fixed` and the stacking of their results
(`fit/algorithms/fitting.py:134-139, 223-228`). -/
def fitColumns (lstsq : ℕ → List (List K) → List K → List K) (nMat data ctrlpts : List (List K))
    (fixed : List Bool) : Py (List (List K)) := do
  let qx ← column data 0
  let px ← column ctrlpts 0
  let x ← linearFitFixed lstsq nMat qx px fixed
  let qy ← column data 1
  let py ← column ctrlpts 1
  let y ← linearFitFixed lstsq nMat qy py fixed
  let qz ← column data 2
  let pz ← column ctrlpts 2
  let z ← linearFitFixed lstsq nMat qz pz fixed
  columnStack3 x y z

/-- `single_fit_curve` (`fit/algorithms/fitting.py:73-141`): the curve after the call. -/
def singleFitCurve (lstsq : ℕ → List (List K) → List K → List K) (c : Curve K)
    (data : List (List K)) : Py (Curve K) := do
  let nMat ← curveMatrix c data
  let _ ← checkUnity nMat data.length
  let fixed ← curveMask c.ctrlpts.length
  let new ← fitColumns lstsq nMat data c.ctrlpts fixed
  .ok { c with ctrlpts := new }

/-- The matrix `n_mat` of `single_fit_surface` (`fit/algorithms/fitting.py:159-184`). -/
def surfaceMatrix (s : Surface K) (data : List (List K)) : Py (List (List K)) := do
  let evalU ← column data 3
  let evalV ← column data 4
  let nMat : List (List K) := zeros2 data.length s.ctrlpts.length
  let (nMat, _) ← forN 0 evalU.length (nMat, 0) fun pt (nMat, (row : ℕ)) => do
    let (nMat, _) ← forN 0 s.numU (nMat, 0) fun spanU st =>
      forN 0 s.numV st fun spanV (nMat, (col : ℕ)) => do
        let x ← pyGet evalU pt
        let a ← oneBasisFunction s.degreeU s.kvU spanU x
        let y ← pyGet evalV pt
        let b ← oneBasisFunction s.degreeV s.kvV spanV y
        let nMat ← set2 nMat row col (a * b)
        .ok (nMat, col + 1)
    .ok (nMat, row + 1)
  .ok nMat

/-- `l[a:b] = True` (`fit/algorithms/fitting.py:210-211`). -/
def sliceTrue (l : List Bool) (a b : ℤ) : List Bool :=
  let lo := clipBound l.length a
  let hi := clipBound l.length b
  l.mapIdx fun i x => if lo ≤ i ∧ i < hi then true else x

/-- The mask of `single_fit_surface` (`fit/algorithms/fitting.py:206-217`). -/
def surfaceMask (numU numV len : ℕ) : Py (List Bool) := do
  let fixed := List.replicate len false
  let fixed := sliceTrue fixed 0 numV
  let fixed := sliceTrue fixed (-1 * (numV : ℤ)) len
  forN 1 (numU - 1) fixed fun step fixed => do
    let start := step * numV
    let fixed ← pySet fixed start true
    pySet fixed ((start : ℤ) + numV - 1) true

/-- `single_fit_surface` (`fit/algorithms/fitting.py:144-230`): the surface after the call. -/
def singleFitSurface (lstsq : ℕ → List (List K) → List K → List K) (s : Surface K)
    (data : List (List K)) : Py (Surface K) := do
  let nMat ← surfaceMatrix s data
  let _ ← checkUnity nMat data.length
  let fixed ← surfaceMask s.numU s.numV s.ctrlpts.length
  let new ← fitColumns lstsq nMat data s.ctrlpts fixed
  .ok { s with ctrlpts := new }

/-- `initialize_curve` (`fit/algorithms/initialization.py:14-56`). -/
def initializeCurve (start fin : List K) (degree numCtrl : ℕ) : Py (Curve K) :=
  if ¬ numCtrl ≥ degree then .error .valueError
  else do
    let s0 ← pyGet start 0
    let e0 ← pyGet fin 0
    let xs ← linspace s0 e0 numCtrl
    let s1 ← pyGet start 1
    let e1 ← pyGet fin 1
    let ys ← linspace s1 e1 numCtrl
    let s2 ← pyGet start 2
    let e2 ← pyGet fin 2
    let zs ← linspace s2 e2 numCtrl
    let pts ← columnStack3 xs ys zs
    let kv ← generateUniform degree pts.length
    .ok ⟨degree, pts, kv⟩

/-- The midpoints of the knot spans (`fit/algorithms/fitting.py:314-326`). -/
def midKnots (c : Curve K) : Py (List K) := do
  let maxk : ℤ := (c.kv.length : ℤ) - c.degree - 1
  if maxk - c.degree < 0 then .error .valueError
  else do
    let knots : List K := zeros (maxk - c.degree).toNat
    let (knots, _) ← forZ c.degree maxk (knots, (0 : ℕ)) fun k (knots, index) => do
      let left ← pyGet c.kv k
      let right ← pyGet c.kv (k + 1)
      let mid := left + (right - left) / 2
      let knots ← pySet knots index mid
      .ok (knots, index + 1)
    .ok knots

/-- `BSplineCurve.insert_knot` as documented (`spline/model/bspline.py:111-128`, with line 119
converting its argument): the committed method always raises (`insert_knot_raises`). -/
def Curve.insertKnot (c : Curve K) (u : K) : Py (Curve K) :=
  if validateKnot u = false then .error .valueError
  else do
    let (kv, pts) ← curveKnotInsertion c.degree c.kv c.ctrlpts u 1
    .ok { c with ctrlpts := pts, kv := kv }

/-- The `while True` loop of `fit_curve_knot_insertion` (`fit/algorithms/fitting.py:298-334`). -/
def knotFitLoop (env : FitEnv K) (data : List (List K)) (numPts : ℤ) : ℕ → Curve K → Py (Curve K)
  | 0, _ => .error .diverged
  | fuel + 1, temp => do
    let paramData ← parameterizeCurve env.num (env.curveLike temp) data
    let temp ← singleFitCurve env.lstsq temp paramData
    if (temp.ctrlpts.length : ℤ) ≥ numPts then .ok temp
    else do
      let knots ← midKnots temp
      let temp ← forL knots temp fun u temp => temp.insertKnot u
      knotFitLoop env data numPts fuel temp

/-- `fit_curve_knot_insertion` (`fit/algorithms/fitting.py:275-334`). -/
def fitCurveKnotInsertion (fuel : ℕ) (env : FitEnv K) (c : Curve K) (data : List (List K))
    (numPts : ℤ) : Py (Curve K) :=
  knotFitLoop env data numPts fuel c

/-- `fit_curve_fixed_ctrlpts` (`fit/algorithms/fitting.py:233-272`). -/
def fitCurveFixed (fuel : ℕ) (env : FitEnv K) (c : Curve K) (data : List (List K)) :
    Py (Curve K) := do
  let first ← pyGet c.ctrlpts 0
  let last ← pyGet c.ctrlpts (-1)
  let init ← initializeCurve first last c.degree (c.degree + 1)
  let fit ← fitCurveKnotInsertion fuel env init data init.ctrlpts.length
  let paramData ← parameterizeCurve env.num (env.curveLike fit) data
  let fixed ← singleFitCurve env.lstsq c paramData
  let paramData ← parameterizeCurve env.num (env.curveLike fixed) data
  singleFitCurve env.lstsq fixed paramData

/-- `np.column_stack((a, c))` for a 2-D array and a constant column
(`fit/algorithms/fitting.py:375, 377`). -/
def appendColumn (a : List (List K)) (c : K) : List (List K) := a.map fun row => row ++ [c]

/-- `fit_surface` (`fit/algorithms/fitting.py:337-389`); `top` and `bottom` are the
`parameterized_data` of the two boundaries.  The result of `np.vstack` is overwritten. -/
def fitSurface (env : FitEnv K) (s : Surface K) (data top bottom : List (List K)) :
    Py (Surface K) := do
  let paramData ← parameterizeSurface env.num (env.surfLike s) data
  let topData := appendColumn top 1
  let botData := appendColumn bottom 0
  let stacked := paramData ++ topData ++ botData
  if ¬ stacked.all (fun row => row.length = 5) then .error .valueError
  else do
    let ordered := npSortRows [3, 4, 0, 1, 2] paramData
    singleFitSurface env.lstsq s ordered

end

end PySpline
