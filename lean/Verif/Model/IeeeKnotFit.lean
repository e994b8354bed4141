import Verif.Model.IeeeSolve

/-!
# The curve fits with their loops in IEEE arithmetic with overflow and underflow

`initialize_curve`, `fit_curve_knot_insertion` and `fit_curve_fixed_ctrlpts` as in `Model/Fitting.lean`, over `Ext K` with a
function `rd : K → Ext K` applied to every finite result (see `Model/Ieee.lean`).  `inv c` is `curve_inversion` on the curve
`c`; it may raise, and its arithmetic is left open.  The fits are relations as in `Model/IeeeSolve.lean`.
-/

namespace PySpline

open Ext

section
variable {K : Type} [Field K] [LinearOrder K]

/-- `np.linspace(a, b, num)` as numpy computes it: `i * ((b - a) / (num - 1)) + a`, or `i / (num - 1) * (b - a) + a` if the
step underflows to zero, the last entry set to `b` (`fit/algorithms/initialization.py:43-45`). -/
def linspaceR (rd : K → Ext K) (a b : Ext K) (num : ℤ) : Py (List (Ext K)) :=
  if num < 0 then .error .valueError
  else if num = 1 then .ok [a]
  else
    let delta := rnd rd (b - a)
    let div : Ext K := fin ((num : K) - 1)
    let step := rnd rd (delta / div)
    .ok ((List.range num.toNat).map fun (i : ℕ) =>
      if i + 1 = num.toNat then b
      else if eqv step 0 then rnd rd (rnd rd (rnd rd (fin (i : K) / div) * delta) + a)
      else rnd rd (rnd rd (fin (i : K) * step) + a))

/-- `np.linspace(0, 1, num)` (`spline/algorithms/knots.py:145`). -/
def linspace01R (rd : K → Ext K) (num : ℤ) : Py (List (Ext K)) :=
  if num < 0 then .error .valueError
  else if num = 1 then .ok [0]
  else .ok ((List.range num.toNat).map fun (i : ℕ) =>
    if i + 1 = num.toNat then 1 else rnd rd (fin (i : K) * rnd rd (1 / fin ((num : K) - 1))))

/-- `generate_uniform` (`spline/algorithms/knots.py:124-148`). -/
def generateUniformR (rd : K → Ext K) (p n : ℕ) : Py (List (Ext K)) := do
  let length : ℤ := (n : ℤ) + p + 1
  let numMiddle : ℤ := length - 2 * p
  let middle ← linspace01R rd numMiddle
  .ok (List.replicate p 0 ++ middle ++ List.replicate p 1)

/-- `initialize_curve` (`fit/algorithms/initialization.py:14-56`). -/
def initializeCurveR (rd : K → Ext K) (start stop : List (Ext K)) (degree numCtrl : ℕ) : Py (Curve (Ext K)) :=
  if ¬ numCtrl ≥ degree then .error .valueError
  else do
    let s0 ← pyGet start 0
    let e0 ← pyGet stop 0
    let xs ← linspaceR rd s0 e0 numCtrl
    let s1 ← pyGet start 1
    let e1 ← pyGet stop 1
    let ys ← linspaceR rd s1 e1 numCtrl
    let s2 ← pyGet start 2
    let e2 ← pyGet stop 2
    let zs ← linspaceR rd s2 e2 numCtrl
    let pts ← columnStack3E xs ys zs
    let kv ← generateUniformR rd degree pts.length
    .ok ⟨degree, pts, kv⟩

/-- `left + (right - left) / 2` (`fit/algorithms/fitting.py:323`). -/
def midR (rd : K → Ext K) (left right : Ext K) : Ext K := rnd rd (left + rnd rd (rnd rd (right - left) / fin 2))

/-- The midpoints of the knot spans (`fit/algorithms/fitting.py:314-326`). -/
def midKnotsR (rd : K → Ext K) (c : Curve (Ext K)) : Py (List (Ext K)) := do
  let maxk : ℤ := (c.kv.length : ℤ) - c.degree - 1
  if maxk - c.degree < 0 then .error .valueError
  else do
    let knots : List (Ext K) := List.replicate (maxk - c.degree).toNat 0
    let (knots, _) ← forZ c.degree maxk (knots, (0 : ℕ)) fun k (knots, index) => do
      let left ← pyGet c.kv k
      let right ← pyGet c.kv (k + 1)
      let knots ← pySet knots index (midR rd left right)
      .ok (knots, index + 1)
    .ok knots

/-- `BSplineCurve.insert_knot` as documented, see `Curve.insertKnot` (`spline/model/bspline.py:111-128`). -/
def Curve.insertKnotR (rd : K → Ext K) (c : Curve (Ext K)) (u : Ext K) : Py (Curve (Ext K)) :=
  if validateKnotE u = false then .error .valueError
  else do
    let (kv, pts) ← curveKnotInsertionR rd c.degree c.kv c.ctrlpts u 1
    .ok { c with ctrlpts := pts, kv := kv }

/-- The order in which `np.sort` puts numbers: NaN last (`fit/algorithms/parameterize.py:160`). -/
def sortLt (a b : Ext K) : Bool := lt a b || (decide (b = nan) && decide (a ≠ nan))

/-- The lexicographic order of the keys of two rows (`fit/algorithms/parameterize.py:160`). -/
def keyLe : List (Ext K) → List (Ext K) → Bool
  | [], _ => true
  | _ :: _, [] => false
  | a :: as, b :: bs => if sortLt a b then true else if sortLt b a then false else keyLe as bs

/-- `np.sort(a.view(fields), order=…, axis=0)`: the rows sorted lexicographically by their keys
(`fit/algorithms/parameterize.py:160-161`). -/
def npSortRowsE (order : List ℕ) (rows : List (List (Ext K))) : List (List (Ext K)) :=
  rows.insertionSort fun a b => keyLe (order.map fun i => a.getD i 0) (order.map fun i => b.getD i 0) = true

/-- `parameterize_curve` (`fit/algorithms/parameterize.py:136-163`) with the inversion function as a parameter. -/
def parameterizeCurveWithE (inv : List (Ext K) → Py (Ext K)) (data : List (List (Ext K))) : Py (List (List (Ext K))) := do
  let rows ← mapPy (fun point => do
    let u ← inv point
    .ok (point ++ [u])) data
  if rows.all (fun r => r.length = 4) then .ok (npSortRowsE [3, 0, 1, 2] rows)
  else .error .valueError

/-- `fit_curve_knot_insertion` (`fit/algorithms/fitting.py:275-334`): `r` is a possible outcome. -/
def KnotFitR (rd : K → Ext K) (lstsq : ℕ → List (List (Ext K)) → List (Ext K) → Py (List (Ext K)))
    (inv : Curve (Ext K) → List (Ext K) → Py (Ext K)) (data : List (List (Ext K))) (numPts : ℤ) :
    ℕ → Curve (Ext K) → Py (Curve (Ext K)) → Prop
  | 0, _, r => r = .error .diverged
  | fuel + 1, temp, r =>
    (∃ e, parameterizeCurveWithE (inv temp) data = .error e ∧ r = .error e) ∨
    ∃ rows res, parameterizeCurveWithE (inv temp) data = .ok rows ∧ SingleFitCurveR rd lstsq temp rows res ∧
      match res with
      | .error e => r = .error e
      | .ok fit =>
        if (fit.ctrlpts.length : ℤ) ≥ numPts then r = .ok fit
        else match (do
            let knots ← midKnotsR rd fit
            forL knots fit fun u temp => temp.insertKnotR rd u) with
          | .error e => r = .error e
          | .ok next => KnotFitR rd lstsq inv data numPts fuel next r

/-- The two last fits of `fit_curve_fixed_ctrlpts` (`fit/algorithms/fitting.py:264-270`): `r` is a possible outcome. -/
def RefitR (rd : K → Ext K) (lstsq : ℕ → List (List (Ext K)) → List (Ext K) → Py (List (Ext K)))
    (inv : Curve (Ext K) → List (Ext K) → Py (Ext K)) (data : List (List (Ext K))) (params c : Curve (Ext K))
    (r : Py (Curve (Ext K))) : Prop :=
  (∃ e, parameterizeCurveWithE (inv params) data = .error e ∧ r = .error e) ∨
  ∃ rows, parameterizeCurveWithE (inv params) data = .ok rows ∧ SingleFitCurveR rd lstsq c rows r

/-- `fit_curve_fixed_ctrlpts` (`fit/algorithms/fitting.py:233-272`): `r` is a possible outcome. -/
def FitCurveFixedR (rd : K → Ext K) (fuel : ℕ) (lstsq : ℕ → List (List (Ext K)) → List (Ext K) → Py (List (Ext K)))
    (inv : Curve (Ext K) → List (Ext K) → Py (Ext K)) (c : Curve (Ext K)) (data : List (List (Ext K)))
    (r : Py (Curve (Ext K))) : Prop :=
  match (do
      let first ← pyGet c.ctrlpts 0
      let last ← pyGet c.ctrlpts (-1)
      initializeCurveR rd first last c.degree (c.degree + 1)) with
  | .error e => r = .error e
  | .ok init => ∃ res, KnotFitR rd lstsq inv data init.ctrlpts.length fuel init res ∧
    match res with
    | .error e => r = .error e
    | .ok fit => ∃ res', RefitR rd lstsq inv data fit c res' ∧
      match res' with
      | .error e => r = .error e
      | .ok fixed => RefitR rd lstsq inv data fixed fixed r

end

end PySpline
