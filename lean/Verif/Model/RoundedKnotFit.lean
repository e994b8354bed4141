import Verif.Model.RoundedInsertion
import Verif.Model.RoundedSolve

/-!
# The curve fits with their loops in rounded arithmetic

`initialize_curve`, `fit_curve_knot_insertion` and `fit_curve_fixed_ctrlpts` as in `Model/Fitting.lean`, with a rounding
function `fl` applied to the result of every arithmetic operation.  `inv c` is `curve_inversion` on the curve `c`: its
arithmetic is left open (what it returns in any arithmetic is in `Model/AnyArithmetic.lean`).  The fits are relations as in
`Model/RoundedSolve.lean`.
-/

namespace PySpline

section
variable {K : Type} [Field K] [LinearOrder K]

/-- `np.linspace(a, b, num)` as numpy computes it: `i * ((b - a) / (num - 1)) + a`, the last entry set to `b`
(`fit/algorithms/initialization.py:43-45`). -/
def linspaceFl (fl : K → K) (a b : K) (num : ℤ) : Py (List K) :=
  if num < 0 then .error .valueError
  else if num = 1 then .ok [a]
  else .ok ((List.range num.toNat).map fun (i : ℕ) =>
    if i + 1 = num.toNat then b else fl (fl ((i : K) * fl (fl (b - a) / ((num : K) - 1))) + a))

/-- `initialize_curve` (`fit/algorithms/initialization.py:14-56`). -/
def initializeCurveFl (fl : K → K) (start fin : List K) (degree numCtrl : ℕ) : Py (Curve K) :=
  if ¬ numCtrl ≥ degree then .error .valueError
  else do
    let s0 ← pyGet start 0
    let e0 ← pyGet fin 0
    let xs ← linspaceFl fl s0 e0 numCtrl
    let s1 ← pyGet start 1
    let e1 ← pyGet fin 1
    let ys ← linspaceFl fl s1 e1 numCtrl
    let s2 ← pyGet start 2
    let e2 ← pyGet fin 2
    let zs ← linspaceFl fl s2 e2 numCtrl
    let pts ← columnStack3 xs ys zs
    let kv ← generateUniformFl fl degree pts.length
    .ok ⟨degree, pts, kv⟩

/-- The midpoints of the knot spans (`fit/algorithms/fitting.py:314-326`). -/
def midKnotsFl (fl : K → K) (c : Curve K) : Py (List K) := do
  let maxk : ℤ := (c.kv.length : ℤ) - c.degree - 1
  if maxk - c.degree < 0 then .error .valueError
  else do
    let knots : List K := zeros (maxk - c.degree).toNat
    let (knots, _) ← forZ c.degree maxk (knots, (0 : ℕ)) fun k (knots, index) => do
      let left ← pyGet c.kv k
      let right ← pyGet c.kv (k + 1)
      let knots ← pySet knots index (midFl fl left right)
      .ok (knots, index + 1)
    .ok knots

/-- `BSplineCurve.insert_knot` as documented, see `Curve.insertKnot` (`spline/model/bspline.py:111-128`). -/
def Curve.insertKnotFl (fl : K → K) (c : Curve K) (u : K) : Py (Curve K) :=
  if validateKnot u = false then .error .valueError
  else do
    let (kv, pts) ← curveKnotInsertionFl fl c.degree c.kv c.ctrlpts u 1
    .ok { c with ctrlpts := pts, kv := kv }

/-- `parameterize_curve` (`fit/algorithms/parameterize.py:136-163`) with the inversion function as a parameter. -/
def parameterizeCurveWith (inv : List K → Py K) (data : List (List K)) : Py (List (List K)) := do
  let rows ← mapPy (fun point => do
    let u ← inv point
    .ok (point ++ [u])) data
  if rows.all (fun r => r.length = 4) then .ok (npSortRows [3, 0, 1, 2] rows)
  else .error .valueError

/-- `fit_curve_knot_insertion` (`fit/algorithms/fitting.py:275-334`): `r` is a possible outcome. -/
def KnotFitFl (fl : K → K) (lstsq : ℕ → List (List K) → List K → List K) (inv : Curve K → List K → Py K)
    (data : List (List K)) (numPts : ℤ) : ℕ → Curve K → Py (Curve K) → Prop
  | 0, _, r => r = .error .diverged
  | fuel + 1, temp, r =>
    (∃ e, parameterizeCurveWith (inv temp) data = .error e ∧ r = .error e) ∨
    ∃ rows res, parameterizeCurveWith (inv temp) data = .ok rows ∧ SingleFitCurveFl fl lstsq temp rows res ∧
      match res with
      | .error e => r = .error e
      | .ok fit =>
        if (fit.ctrlpts.length : ℤ) ≥ numPts then r = .ok fit
        else match (do
            let knots ← midKnotsFl fl fit
            forL knots fit fun u temp => temp.insertKnotFl fl u) with
          | .error e => r = .error e
          | .ok next => KnotFitFl fl lstsq inv data numPts fuel next r

/-- The two last fits of `fit_curve_fixed_ctrlpts` (`fit/algorithms/fitting.py:264-270`): `r` is a possible outcome. -/
def RefitFl (fl : K → K) (lstsq : ℕ → List (List K) → List K → List K) (inv : Curve K → List K → Py K)
    (data : List (List K)) (params c : Curve K) (r : Py (Curve K)) : Prop :=
  (∃ e, parameterizeCurveWith (inv params) data = .error e ∧ r = .error e) ∨
  ∃ rows, parameterizeCurveWith (inv params) data = .ok rows ∧ SingleFitCurveFl fl lstsq c rows r

/-- `fit_curve_fixed_ctrlpts` (`fit/algorithms/fitting.py:233-272`): `r` is a possible outcome. -/
def FitCurveFixedFl (fl : K → K) (fuel : ℕ) (lstsq : ℕ → List (List K) → List K → List K)
    (inv : Curve K → List K → Py K) (c : Curve K) (data : List (List K)) (r : Py (Curve K)) : Prop :=
  match (do
      let first ← pyGet c.ctrlpts 0
      let last ← pyGet c.ctrlpts (-1)
      initializeCurveFl fl first last c.degree (c.degree + 1)) with
  | .error e => r = .error e
  | .ok init => ∃ res, KnotFitFl fl lstsq inv data init.ctrlpts.length fuel init res ∧
    match res with
    | .error e => r = .error e
    | .ok fit => ∃ res', RefitFl fl lstsq inv data fit c res' ∧
      match res' with
      | .error e => r = .error e
      | .ok fixed => RefitFl fl lstsq inv data fixed fixed r

end

end PySpline
