import Verif.Model.BSpline
import Verif.Model.IO
import Verif.Rounding

/-!
# The evaluation routines in rounded arithmetic

The same functions as in `Model/Knots.lean`, `Model/Basis.lean`, `Model/BSpline.lean` and
`Model/IO.lean`, with a rounding function `fl` applied to the result of every arithmetic operation.
`fl64` gives double precision (without overflow and underflow), the identity gives the exact model
(theorems `…Fl_id` in `Props/Rounded.lean`).  Comparisons are exact.
-/

namespace PySpline

section
variable {K : Type} [Field K] [LinearOrder K]

/-- `a / b` rounded (`spline/algorithms/basis.py:48`). -/
def pyDivFl (fl : K → K) (a b : K) : Py K := do
  let q ← pyDiv a b
  .ok (fl q)

/-- `normalize` (`spline/algorithms/knots.py:64-83`). -/
def normalizeFl (fl : K → K) (U : List K) : Py (List K) := do
  let maxKnot ← npMax U
  let minKnot ← npMin U
  let normalized := U.map fun x => fl (x - fl (minKnot * 1))
  let factor ← pyDivFl fl 1 (fl (maxKnot - minKnot))
  .ok (normalized.map fun x => fl (x * factor))

/-- `np.linspace(0, 1, num)` as numpy computes it: `i * (1 / (num - 1))`, the last entry set to `1`
(`spline/algorithms/knots.py:145`). -/
def linspace01Fl (fl : K → K) (num : ℤ) : Py (List K) :=
  if num < 0 then .error .valueError
  else if num = 1 then .ok [0]
  else .ok ((List.range num.toNat).map fun (i : ℕ) =>
    if i + 1 = num.toNat then 1 else fl ((i : K) * fl (1 / ((num : K) - 1))))

/-- `generate_uniform` (`spline/algorithms/knots.py:124-148`). -/
def generateUniformFl (fl : K → K) (p n : ℕ) : Py (List K) := do
  let length : ℤ := (n : ℤ) + p + 1
  let numMiddle : ℤ := length - 2 * p
  let middle ← linspace01Fl fl numMiddle
  .ok (zeros p ++ middle ++ ones p)

/-- `1 / (N - 1) * np.array(list(range(0, N)))` (`fit/algorithms/parameterize.py:28, 184, 185`). -/
def gridFl (fl : K → K) (N : ℕ) : List K :=
  (List.range N).map fun (k : ℕ) => fl (fl (1 / ((N : K) - 1)) * (k : K))

/-- `left + (right - left) / 2`, the knot inserted into a span (`fit/algorithms/fitting.py:323`). -/
def midFl (fl : K → K) (left right : K) : K := fl (left + fl (fl (right - left) / 2))

/-- `basis_functions` (`spline/algorithms/basis.py:10-54`). -/
def basisFunctionsFl (fl : K → K) (span : ℤ) (knot : K) (degree : ℕ) (U : List K) : Py (List K) := do
  let N : List K := ones (degree + 1)
  let left : List K := zeros (degree + 1)
  let right : List K := zeros (degree + 1)
  let (N, _, _) ← forN 1 (degree + 1) (N, left, right) fun j (N, left, right) => do
    let a ← pyGet U (span + 1 - j)
    let left ← pySet left j (fl (knot - a))
    let b ← pyGet U (span + j)
    let right ← pySet right j (fl (b - knot))
    let (N, saved) ← forN 0 j (N, (0 : K)) fun r (N, saved) => do
      let nr ← pyGet N r
      let rr ← pyGet right ((r : ℤ) + 1)
      let lf ← pyGet left ((j : ℤ) - r)
      let temp ← pyDivFl fl nr (fl (rr + lf))
      let N ← pySet N r (fl (saved + fl (rr * temp)))
      .ok (N, fl (lf * temp))
    let N ← pySet N j saved
    .ok (N, left, right)
  .ok N

/-- `DotFl fl l s`: the number `s` is a possible result of summing the products of the pairs in `l`,
in any order and with any bracketing; a product may also be added without being rounded first
(fused multiply-add).  numpy does not specify which of these it uses
(`spline/model/bspline.py:40-42`). -/
inductive DotFl (fl : K → K) : List (K × K) → K → Prop
  | mul (a b : K) : DotFl fl [(a, b)] (fl (a * b))
  | add {l m : List (K × K)} {s t : K} : DotFl fl l s → DotFl fl m t → DotFl fl (l ++ m) (fl (s + t))
  | fma {l : List (K × K)} {s : K} (a b : K) : DotFl fl l s → DotFl fl (l ++ [(a, b)]) (fl (s + a * b))
  | perm {l m : List (K × K)} {s : K} : l.Perm m → DotFl fl l s → DotFl fl m s

/-- `BSplineCurve.single_point` (`spline/model/bspline.py:19-44`): the point `[x, y, z]` is a possible
result.  `close` is the end test of `find_span`. -/
def Curve.PointFl (fl : K → K) (close : K → K → Bool) (c : Curve K) (u : K) (pt : List K) : Prop :=
  ∃ span funs, validateKnot u = true ∧
    findSpanWith close (spanFuel c.ctrlpts.length c.degree) c.ctrlpts.length c.degree u c.kv = .ok span ∧
    basisFunctionsFl fl span u c.degree c.kv = .ok funs ∧
    ∃ col0 col1 col2 x y z,
      column (pySlice c.ctrlpts (span - c.degree) (span + 1)) 0 = .ok col0 ∧
      column (pySlice c.ctrlpts (span - c.degree) (span + 1)) 1 = .ok col1 ∧
      column (pySlice c.ctrlpts (span - c.degree) (span + 1)) 2 = .ok col2 ∧
      funs.length = (pySlice c.ctrlpts (span - c.degree) (span + 1)).length ∧
      DotFl fl (funs.zip col0) x ∧ DotFl fl (funs.zip col1) y ∧ DotFl fl (funs.zip col2) z ∧
      pt = [x, y, z]

/-- `np.isclose(a, b, rtol, atol)` in rounded arithmetic; `rtol` and `atol` are rounded constants
(`spline/algorithms/knots.py:39, 169`). -/
def iscloseFl (fl : K → K) (a b rtol atol : K) : Bool :=
  decide (|fl (a - b)| ≤ fl (fl atol + fl (fl rtol * |b|)))

/-- The end test of `find_span` (`spline/algorithms/knots.py:38-39`). -/
def endTestFl (fl : K → K) (a b : K) : Bool := iscloseFl fl a b (1 / 10 ^ 6) atolDefault

/-- `check_knot_vector` after `normalize` (`spline/algorithms/knots.py:106-121`). -/
def checkNormalizedFl (fl : K → K) (p : ℕ) (kv : List K) (n : ℕ) : Py Bool :=
  if kv.length ≠ n + p + 1 then .ok false
  else if ¬ (pySlice kv 0 ((p : ℤ) + 1)).all (fun b => iscloseFl fl 0 b rtolDefault atolDefault) then
    .ok false
  else do
    let e ← pyGet kv (-1 * ((p : ℤ) + 1))
    if ¬ iscloseFl fl 1 e rtolDefault atolDefault then .ok false
    else do
      let previous ← pyGet kv 0
      .ok (increasingFrom previous kv)

/-- `check_knot_vector` (`spline/algorithms/knots.py:86-121`). -/
def checkKnotVectorFl (fl : K → K) (p : ℕ) (U : List K) (n : ℕ) : Py Bool :=
  match normalizeFl fl U with
  | .error .nonfinite => .ok false
  | .error e => .error e
  | .ok kv => checkNormalizedFl fl p kv n

/-- `bu @ M @ bv`: `x` is a possible result (`spline/model/bspline.py:217-222`). -/
def BilinearFl (fl : K → K) (bu : List K) (m : List (List K)) (bv : List K) (x : K) : Prop :=
  ∃ w : List K, bu.length = m.length ∧ w.length = (m.headD []).length ∧ w.length = bv.length ∧
    (∀ j < w.length, DotFl fl (bu.zip (m.map fun row => row.getD j 0)) (w.getD j 0)) ∧
    DotFl fl (w.zip bv) x

/-- `BSplineSurface.single_point` (`spline/model/bspline.py:182-226`): the point `[x, y, z]` is a
possible result. -/
def Surface.PointFl (fl : K → K) (close : K → K → Bool) (s : Surface K) (u v : K) (pt : List K) : Prop :=
  ∃ uSpan vSpan bu bv, validateKnot u = true ∧ validateKnot v = true ∧
    findSpanWith close (spanFuel s.numU s.degreeU) s.numU s.degreeU u s.kvU = .ok uSpan ∧
    findSpanWith close (spanFuel s.numV s.degreeV) s.numV s.degreeV v s.kvV = .ok vSpan ∧
    basisFunctionsFl fl uSpan u s.degreeU s.kvU = .ok bu ∧
    basisFunctionsFl fl vSpan v s.degreeV s.kvV = .ok bv ∧
    ∃ cx cy cz xa ya za x y z,
      column s.ctrlpts 0 = .ok cx ∧ column s.ctrlpts 1 = .ok cy ∧ column s.ctrlpts 2 = .ok cz ∧
      reshape2 cx s.numU s.numV = .ok xa ∧ reshape2 cy s.numU s.numV = .ok ya ∧
      reshape2 cz s.numU s.numV = .ok za ∧
      BilinearFl fl bu
        (slice2 xa (uSpan - s.degreeU) (uSpan + 1) (vSpan - s.degreeV) (vSpan + 1)) bv x ∧
      BilinearFl fl bu
        (slice2 ya (uSpan - s.degreeU) (uSpan + 1) (vSpan - s.degreeV) (vSpan + 1)) bv y ∧
      BilinearFl fl bu
        (slice2 za (uSpan - s.degreeU) (uSpan + 1) (vSpan - s.degreeV) (vSpan + 1)) bv z ∧
      pt = [x, y, z]

/-- `np.arange(start, stop, step)`: numpy computes the length as `ceil((stop - start) / step)`,
stores
`start` and `start + step`, and fills entry `i` with `start + i * delta` where `delta` is the
difference of the first two (`fit/io/text.py:207-208`). -/
def arangeFl [FloorRing K] (fl : K → K) (start stop step : K) : List K :=
  let delta := fl (fl (start + step) - start)
  (List.range ⌈fl (fl (stop - start) / step)⌉.toNat).map fun (i : ℕ) => fl (start + fl ((i : K) * delta))

/-- The sampling loop of `surf_to_vtk` (`fit/io/text.py:199-211`). -/
def vtkSamplesFl [FloorRing K] (fl : K → K) (single : K → K → Py (List K)) (nTri : ℤ) :
    Py (List (List K)) := do
  let step ← pyDivFl fl (1 : K) (nTri : K)
  let start : K := 0
  let stop : K := fl (1 + step)
  let size := pyTrunc (fl (fl (stop - start) * (nTri : K)))
  let spts : List (List K) := zeros2 (size * size).toNat 5
  let (spts, _) ← forL (arangeFl fl start stop step) (spts, (0 : ℕ)) fun u st =>
    forL (arangeFl fl start stop step) st fun v (spts, pt) => do
      let q ← single u v
      let row := q ++ [u, v]
      let _ ← (if row.length = 5 then .ok () else .error .valueError : Py Unit)
      let spts ← pySet spts pt row
      .ok (spts, pt + 1)
  .ok spts

end

end PySpline
