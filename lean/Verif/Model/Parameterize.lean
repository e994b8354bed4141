import Verif.Model.BSpline
import Mathlib.Data.List.Sort
import Mathlib.Data.List.Lex

/-!
# Model of `fit/algorithms/parameterize.py`

The functions only use the length of `control_points` and the two evaluation methods of the spline
object, so the object is a black box: `CurveLike`, `SurfLike`.

`np.linalg.norm` is a parameter.  In the quotients of the Newton steps numpy does not raise on a
zero denominator: a non-zero numerator gives an infinity whose sign is that of the (signed) zero,
which exact arithmetic does not have; it is given by the parameter `zeroSign`.
-/

namespace PySpline

section
variable {K : Type} [Field K] [LinearOrder K]

/-- What the model does not compute: the Euclidean norm and the sign of `a / ±0`
(`fit/algorithms/parameterize.py:37, 81, 92`). -/
structure Num (K : Type) where
  norm : List K → K
  zeroSign : K → K → Bool

/-- A curve as used by `parameterize.py`: `len(curve.control_points)`, `curve.single_point(u)` and
`curve.derivatives(u, 2, normalize=False)`. -/
structure CurveLike (K : Type) where
  numCtrl : ℕ
  singlePoint : K → Py (List K)
  ders : K → Py (List (List K))

/-- A surface as used by `parameterize.py`: `num_ctrlpts_u`, `num_ctrlpts_v`,
`surface.single_point(u, v)` and `surface.derivatives(u, v, 2, 2, normalize=False)`. -/
structure SurfLike (K : Type) where
  numU : ℕ
  numV : ℕ
  singlePoint : K → K → Py (List K)
  ders : K → K → Py (List (List K))

/-- The methods of a `BSplineCurve` (`spline/model/bspline.py:19-109`). -/
def Curve.like (norm : List K → K) (c : Curve K) : CurveLike K where
  numCtrl := c.ctrlpts.length
  singlePoint := c.singlePoint
  ders u := c.derivatives norm u 2 false

/-- The methods of a `BSplineSurface` (`spline/model/bspline.py:182-319`). -/
def Surface.like (norm : List K → K) (s : Surface K) : SurfLike K where
  numU := s.numU
  numV := s.numV
  singlePoint := s.singlePoint
  ders u v := s.derivatives norm u v 2 2 false

/-- `a - b` for 1-D arrays, with numpy's broadcasting of length-one arrays
(`fit/algorithms/parameterize.py:36, 76, 261`). -/
def vsub (a b : List K) : Py (List K) :=
  if a.length = b.length then .ok (List.zipWith (· - ·) a b)
  else if b.length = 1 then .ok (a.map fun x => x - b.getD 0 0)
  else if a.length = 1 then .ok (b.map fun x => a.getD 0 0 - x)
  else .error .valueError

/-- `a + b` for the rows of one 2-D array (`fit/algorithms/parameterize.py:292`). -/
def vadd (a b : List K) : Py (List K) :=
  if a.length = b.length then .ok (List.zipWith (· + ·) a b) else .error .valueError

/-- `1 / (N - 1) * np.array(list(range(0, N)))` (`fit/algorithms/parameterize.py:28, 184, 185`). -/
def grid (N : ℕ) : List K := (List.range N).map fun (k : ℕ) => 1 / ((N : K) - 1) * (k : K)

/-- The start value `min_val = 1e6` (`fit/algorithms/parameterize.py:32, 190`). -/
def hugeDist : K := 10 ^ 6

/-- `initial_guess_curve` (`fit/algorithms/parameterize.py:12-42`). -/
def initialGuessCurve (nm : Num K) (C : CurveLike K) (point : List K) : Py K := do
  let N := 2 * C.numCtrl
  let evalU : List K := grid N
  let u0 ← pyGet evalU 0
  let (_, u0) ← forN 0 N ((hugeDist : K), u0) fun u (minVal, u0) => do
    let x ← pyGet evalU u
    let q ← C.singlePoint x
    let r ← vsub point q
    let normr := nm.norm r
    if normr < minVal then .ok (normr, x) else .ok (minVal, u0)
  .ok u0

/-- `a / b <= eps` for non-negative `a`, `b`; with `b = 0` the quotient is `inf` or `nan` and the
comparison is false (`fit/algorithms/parameterize.py:81-83, 118-120, 249-254, 312-321`). -/
def ratioLe (a b eps : K) : Bool := if b = 0 then false else decide (a / b ≤ eps)

/-- The two `if` tests that keep a parameter in `[0, 1]`
(`fit/algorithms/parameterize.py:95-98, 277-289`). -/
def clamp01 (x : K) : K := if x < 0 then 0 else if x > 1 then 1 else x

/-- `uip1 = ui - num/denom` followed by the clamping
(`fit/algorithms/parameterize.py:92-98`).  `0/0` is NaN, which passes both tests and is rejected
by the next `derivatives` call (a `ValueError`). -/
def newtonStep (nm : Num K) (ui num denom : K) : Py K :=
  if denom = 0 then
    if num = 0 then .error .valueError
    else if nm.zeroSign num denom then .ok 0 else .ok 1
  else .ok (clamp01 (ui - num / denom))

/-- The local variables `ui`, `curve_pt_i`, `curve_u_i`, `curve_uu_i`
(`fit/algorithms/parameterize.py:69-73, 124-127`). -/
structure CurveState (K : Type) where
  u : K
  pt : List K
  du : List K
  duu : List K

/-- Rows 0, 1, 2 of `curve.derivatives(u, 2, normalize=False)`
(`fit/algorithms/parameterize.py:70-73, 107-110`). -/
def curveInfo (C : CurveLike K) (u : K) : Py (CurveState K) := do
  let ders ← C.ders u
  let pt ← pyGet ders 0
  let du ← pyGet ders 1
  let duu ← pyGet ders 2
  .ok ⟨u, pt, du, duu⟩

/-- First convergence test (`fit/algorithms/parameterize.py:76-77, 113-114`). -/
def curveCond1 (nm : Num K) (C : CurveLike K) (point : List K) (eps1 u : K) : Py Bool := do
  let q ← C.singlePoint u
  let r ← vsub q point
  .ok (decide (nm.norm r ≤ eps1))

/-- Second convergence test (`fit/algorithms/parameterize.py:81-83, 118-120`). -/
def curveCond2 (nm : Num K) (point : List K) (eps2 : K) (s : CurveState K) : Py Bool := do
  let r ← vsub s.pt point
  let num ← dot s.du r
  .ok (ratioLe |num| (nm.norm s.du * nm.norm r) eps2)

/-- The `while True` loop of `curve_inversion` (`fit/algorithms/parameterize.py:88-135`); it returns
the *old* iterate `ui` when a test stops it. -/
def curveLoop (nm : Num K) (C : CurveLike K) (point : List K) (eps1 eps2 : K) (maxIter : ℤ) :
    ℕ → ℤ → CurveState K → Py K
  | 0, _, _ => .error .diverged
  | fuel + 1, j, s => do
    -- 90-98
    let r ← vsub s.pt point
    let num ← dot s.du r
    let d ← dot s.duu r
    let uip1 ← newtonStep nm s.u num (d + nm.norm s.du ^ 2)
    -- 101-104
    if nm.norm (s.du.map fun i => i * (uip1 - s.u)) ≤ eps1 then .ok s.u
    else do
      -- 107-115
      let s' ← curveInfo C uip1
      let c1 ← curveCond1 nm C point eps1 uip1
      if c1 then .ok s.u
      else do
        -- 118-121
        let c2 ← curveCond2 nm point eps2 s'
        if c2 then .ok s.u
        -- 124-132
        else if j > maxIter then .ok s'.u
        else curveLoop nm C point eps1 eps2 maxIter fuel (j + 1) s'

/-- `curve_inversion` (`fit/algorithms/parameterize.py:45-135`); `fuel` bounds the number of
iterations of the loop. -/
def curveInversion (fuel : ℕ) (nm : Num K) (C : CurveLike K) (point : List K) (eps1 eps2 : K)
    (maxIter : ℤ) : Py K := do
  let u0 ← initialGuessCurve nm C point
  let s ← curveInfo C u0
  let c1 ← curveCond1 nm C point eps1 u0
  if c1 then .ok u0
  else do
    let c2 ← curveCond2 nm point eps2 s
    if c2 then .ok u0
    else curveLoop nm C point eps1 eps2 maxIter fuel 0 s

/-- The default tolerances `eps1 = eps2 = 1e-5` (`fit/algorithms/parameterize.py:45, 205`). -/
def epsDefault : K := 1 / 10 ^ 5

/-- `curve_inversion(curve, point)` with default arguments; the loop does at most
`max_iter + 2 = 102` iterations (theorem `curve_inversion_iterations`)
(`fit/algorithms/parameterize.py:45, 152`). -/
def curveInversionD (nm : Num K) (C : CurveLike K) (point : List K) : Py K :=
  curveInversion 102 nm C point epsDefault epsDefault 100

/-- Entries of a row in the order in which `np.sort(..., order=…)` compares them: the fields named
in `order` first, then the remaining ones in their own order
(`fit/algorithms/parameterize.py:160, 365`). -/
def sortKey (order : List ℕ) (row : List K) : List K := order.map fun i => row.getD i 0

/-- `np.sort(a.view(fields), order=…, axis=0)`: the rows sorted lexicographically by their keys
(`fit/algorithms/parameterize.py:160-161, 365-366`). -/
def npSortRows (order : List ℕ) (rows : List (List K)) : List (List K) :=
  rows.insertionSort fun a b => sortKey order a ≤ sortKey order b

/-- `parameterize_curve` (`fit/algorithms/parameterize.py:138-164`).  The view as four fields needs
rows of four entries; data with another number of columns is taken to raise `ValueError`
(numpy would also accept 7, 11, … columns). -/
def parameterizeCurve (nm : Num K) (C : CurveLike K) (data : List (List K)) :
    Py (List (List K)) := do
  let rows ← mapPy (fun point => do
    let u ← curveInversionD nm C point
    .ok (point ++ [u])) data
  if rows.all (fun r => r.length = 4) then .ok (npSortRows [3, 0, 1, 2] rows)
  else .error .valueError

/-! ## Surfaces -/

/-- `initial_guess_surf` (`fit/algorithms/parameterize.py:167-202`). -/
def initialGuessSurf (nm : Num K) (S : SurfLike K) (point : List K) : Py (K × K) := do
  let evalU : List K := grid (2 * S.numU)
  let evalV : List K := grid (2 * S.numV)
  let u0 ← pyGet evalU 0
  let v0 ← pyGet evalV 0
  let (_, best) ← forN 0 (2 * S.numU) ((hugeDist : K), (u0, v0)) fun u st =>
    forN 0 (2 * S.numV) st fun v (minVal, best) => do
      let x ← pyGet evalU u
      let y ← pyGet evalV v
      let q ← S.singlePoint x y
      let r ← vsub point q
      let normr := nm.norm r
      if normr < minVal then .ok (normr, (x, y)) else .ok (minVal, best)
  .ok best

/-- The derivative rows kept by `surface_inversion`
(`fit/algorithms/parameterize.py:236-241, 299-304`). -/
structure SurfDers (K : Type) where
  du : List K
  dv : List K
  duu : List K
  dvv : List K
  duv : List K

/-- Rows 3, 1, 6, 2, 4 of `surface.derivatives(u, v, 2, 2, normalize=False)`
(`fit/algorithms/parameterize.py:235-241, 298-304`). -/
def surfInfo (S : SurfLike K) (u v : K) : Py (SurfDers K) := do
  let ders ← S.ders u v
  let du ← pyGet ders 3
  let dv ← pyGet ders 1
  let duu ← pyGet ders 6
  let dvv ← pyGet ders 2
  let duv ← pyGet ders 4
  .ok ⟨du, dv, duu, dvv, duv⟩

/-- First convergence test (`fit/algorithms/parameterize.py:244-245, 307-308`). -/
def surfCond1 (nm : Num K) (S : SurfLike K) (point : List K) (eps1 u v : K) : Py Bool := do
  let q ← S.singlePoint u v
  let r ← vsub q point
  .ok (decide (nm.norm r ≤ eps1))

/-- Second convergence test (`fit/algorithms/parameterize.py:249-254, 312-321`). -/
def surfCond2 (nm : Num K) (S : SurfLike K) (point : List K) (eps2 u v : K) (d : SurfDers K) :
    Py Bool := do
  let q ← S.singlePoint u v
  let r ← vsub q point
  let a ← dot d.du r
  let b ← dot d.dv r
  .ok (ratioLe |a| (nm.norm d.du * nm.norm r) eps2 && ratioLe |b| (nm.norm d.dv * nm.norm r) eps2)

/-- The Newton step of `surface_inversion` (`fit/algorithms/parameterize.py:261-289`):
`np.linalg.inv` raises `LinAlgError` for a singular matrix. -/
def surfStep (nm : Num K) (S : SurfLike K) (point : List K) (ui vi : K) (d : SurfDers K) :
    Py (K × K) := do
  let q ← S.singlePoint ui vi
  let r ← vsub q point
  let f ← dot r d.du
  let g ← dot r d.dv
  let ruu ← dot r d.duu
  let uv ← dot d.du d.dv
  let ruv ← dot r d.duv
  let rvv ← dot r d.dvv
  let fu := nm.norm d.du ^ 2 + ruu
  let fv := uv + ruv
  let gu := uv + ruv
  let gv := nm.norm d.dv ^ 2 + rvv
  let det := fu * gv - fv * gu
  if det = 0 then .error .linAlgError
  else
    let delta0 := (gv / det) * (-1 * f) + (-fv / det) * (-1 * g)
    let delta1 := (-gu / det) * (-1 * f) + (fu / det) * (-1 * g)
    .ok (clamp01 (delta0 + ui), clamp01 (delta1 + vi))

/-- The `while True` loop of `surface_inversion` (`fit/algorithms/parameterize.py:259-340`).  Line
298 evaluates the derivatives at the *old* pair `(ui, vi)`. -/
def surfLoop (nm : Num K) (S : SurfLike K) (point : List K) (eps1 eps2 : K) (maxIter : ℤ) :
    ℕ → ℤ → K → K → SurfDers K → Py (K × K)
  | 0, _, _, _, _ => .error .diverged
  | fuel + 1, n, ui, vi, d => do
    let (uip1, vip1) ← surfStep nm S point ui vi d
    -- 292-294
    let w ← vadd (d.du.map fun x => (uip1 - ui) * x) (d.dv.map fun x => (vip1 - vi) * x)
    if nm.norm w ≤ eps1 then .ok (uip1, vip1)
    else do
      -- 298-309
      let d' ← surfInfo S ui vi
      let c1 ← surfCond1 nm S point eps1 uip1 vip1
      if c1 then .ok (uip1, vip1)
      else do
        -- 312-322
        let c2 ← surfCond2 nm S point eps2 uip1 vip1 d'
        if c2 then .ok (uip1, vip1)
        -- 325-338
        else if n ≥ maxIter then .ok (uip1, vip1)
        else surfLoop nm S point eps1 eps2 maxIter fuel (n + 1) uip1 vip1 d'

/-- `surface_inversion` (`fit/algorithms/parameterize.py:205-340`). -/
def surfaceInversion (fuel : ℕ) (nm : Num K) (S : SurfLike K) (point : List K) (eps1 eps2 : K)
    (maxIter : ℤ) : Py (K × K) := do
  let (u0, v0) ← initialGuessSurf nm S point
  let d ← surfInfo S u0 v0
  let c1 ← surfCond1 nm S point eps1 u0 v0
  if c1 then .ok (u0, v0)
  else do
    let c2 ← surfCond2 nm S point eps2 u0 v0 d
    if c2 then .ok (u0, v0)
    else surfLoop nm S point eps1 eps2 maxIter fuel 0 u0 v0 d

/-- `surface_inversion(surface, point)` with default arguments; the loop does at most
`max_iter + 1 = 101` iterations (theorem `surface_inversion_iterations`)
(`fit/algorithms/parameterize.py:205, 357`). -/
def surfaceInversionD (nm : Num K) (S : SurfLike K) (point : List K) : Py (K × K) :=
  surfaceInversion 101 nm S point epsDefault epsDefault 100

/-- `parameterize_surface` (`fit/algorithms/parameterize.py:343-369`); see `parameterizeCurve` for the
number of columns. -/
def parameterizeSurface (nm : Num K) (S : SurfLike K) (data : List (List K)) :
    Py (List (List K)) := do
  let rows ← mapPy (fun point => do
    let (u, v) ← surfaceInversionD nm S point
    .ok (point ++ [u, v])) data
  if rows.all (fun r => r.length = 5) then .ok (npSortRows [3, 4, 0, 1, 2] rows)
  else .error .valueError

end

end PySpline
