import Verif.Py

/-!
# Model of `spline/algorithms/knots.py`
-/

namespace PySpline

/-- The `while` loop of `find_span` (`spline/algorithms/knots.py:54-59`), over any linearly
ordered value type.  `fuel` bounds the number of evaluations of the loop condition.
`knot < knot_vector[mid] or knot > knot_vector[mid + 1]` is evaluated left to right with
short-circuit, as Python does.  `int((low + high) / 2)` is natural-number division. -/
def findSpanLoop {α : Type} [LinearOrder α] (knot : α) (U : List α) :
    ℕ → ℕ → ℕ → ℕ → Py ℤ
  | 0, _, _, _ => .error .diverged
  | fuel + 1, low, high, mid => do
    let a ← pyGet U (mid : ℤ)
    if knot < a then
      findSpanLoop knot U fuel low mid ((low + mid) / 2)
    else do
      let b ← pyGet U ((mid : ℤ) + 1)
      if knot > b then
        findSpanLoop knot U fuel mid high ((mid + high) / 2)
      else
        .ok (mid : ℤ)

/-- The first value of `mid` (`spline/algorithms/knots.py:43-52`): the average rounded up. -/
def findSpanMid0 (n p : ℕ) : ℕ :=
  if (p + n) % 2 = 0 then (p + n) / 2 else (p + n + 1) / 2

/-- `find_span` (`spline/algorithms/knots.py:10-61`) with the end test
`np.allclose(knot, knot_vector[num_ctrlpts], rtol)` as a parameter and with explicit fuel. -/
def findSpanWith {α : Type} [LinearOrder α] (close : α → α → Bool) (fuel : ℕ)
    (n p : ℕ) (knot : α) (U : List α) : Py ℤ := do
  let e ← pyGet U (n : ℤ)
  if close knot e then .ok ((n : ℤ) - 1)
  else findSpanLoop knot U fuel p n (findSpanMid0 n p)

/-- Fuel that is enough on the domain of the knot vector (theorems `find_span_on_domain` and
`find_span_fuel_mono`); outside it the search runs out of every fuel (`find_span_hangs_below`,
`find_span_hangs_above`).  The loop is `spline/algorithms/knots.py:54-59`. -/
def spanFuel (n p : ℕ) : ℕ := n + p + 3

section
variable {K : Type} [Field K] [LinearOrder K]

/-- `find_span(num_ctrlpts, degree, knot, knot_vector)` with the default `rtol=1e-6`
(`spline/algorithms/knots.py:10-61`); `np.allclose` has `atol=1e-8`. -/
def findSpan (n p : ℕ) (knot : K) (U : List K) : Py ℤ :=
  findSpanWith (fun a b => isclose a b (1 / 10 ^ 6) atolDefault) (spanFuel n p) n p knot U

/-- `np.max` of a non-empty array (`spline/algorithms/knots.py:77`). -/
def npMax : List K → Py K
  | [] => .error .valueError
  | x :: xs => .ok (xs.foldl max x)

/-- `np.min` of a non-empty array (`spline/algorithms/knots.py:78`). -/
def npMin : List K → Py K
  | [] => .error .valueError
  | x :: xs => .ok (xs.foldl min x)

/-- `normalize` (`spline/algorithms/knots.py:64-83`). -/
def normalize (U : List K) : Py (List K) := do
  let maxKnot ← npMax U
  let minKnot ← npMin U
  let normalized := U.map fun x => x - minKnot * 1
  let factor ← pyDiv 1 (maxKnot - minKnot)
  .ok (normalized.map fun x => x * factor)

/-- The loop `for knot in knot_vector` of `check_knot_vector`
(`spline/algorithms/knots.py:117-120`): false as soon as a knot is below the previous one. -/
def increasingFrom (previous : K) : List K → Bool
  | [] => true
  | knot :: rest => if knot < previous then false else increasingFrom knot rest

/-- The tests of `check_knot_vector` on the normalized knots
(`spline/algorithms/knots.py:106-121`).  The last-knots test looks at the single entry
`knot_vector[-1 * (degree + 1)]`, as in the code. -/
def checkNormalized (p : ℕ) (kv : List K) (n : ℕ) : Py Bool :=
  if kv.length ≠ n + p + 1 then .ok false
  else if ¬ (pySlice kv 0 ((p : ℤ) + 1)).all (fun b => iscloseD 0 b) then .ok false
  else do
    let e ← pyGet kv (-1 * ((p : ℤ) + 1))
    if ¬ iscloseD 1 e then .ok false
    else do
      let previous ← pyGet kv 0
      .ok (increasingFrom previous kv)

/-- `check_knot_vector` (`spline/algorithms/knots.py:86-121`).  For a constant array numpy's
`normalize` gives an array of NaNs, for which the test in line 107 or the one in line 110 returns
`False` (`allclose` with NaN is false; the array is not empty). -/
def checkKnotVector (p : ℕ) (U : List K) (n : ℕ) : Py Bool :=
  match normalize U with
  | .error .nonfinite => .ok false
  | .error e => .error e
  | .ok kv => checkNormalized p kv n

/-- `generate_uniform` (`spline/algorithms/knots.py:124-148`). -/
def generateUniform (p n : ℕ) : Py (List K) := do
  let length : ℤ := (n : ℤ) + p + 1
  let numMiddle : ℤ := length - 2 * p
  let middle ← linspace 0 1 numMiddle
  .ok (zeros p ++ middle ++ ones p)

/-- `find_multiplicity` (`spline/algorithms/knots.py:151-171`). -/
def findMultiplicity (knot : K) (U : List K) : ℕ :=
  U.foldl (fun mult x => if iscloseD knot x then mult + 1 else mult) 0

/-- `m[i, :] = v`: numpy copies a row of the same length, broadcasts a row of length one and
raises `ValueError` otherwise (`spline/algorithms/knots.py:228-251`). -/
def assignRow (m : List (List K)) (i : ℤ) (v : List K) : Py (List (List K)) := do
  let row ← pyGet m i
  if v.length = row.length then pySet m i v
  else if v.length = 1 then pySet m i (List.replicate row.length (v.getD 0 0))
  else .error .valueError

/-- `a * x + b * y` for rows (`spline/algorithms/knots.py:243`). -/
def rowComb (a : K) (x : List K) (b : K) (y : List K) : List K :=
  List.zipWith (fun s t => a * s + b * t) x y

/-- `curve_knot_insertion` (`spline/algorithms/knots.py:174-253`). -/
def curveKnotInsertion (p : ℕ) (U : List K) (P : List (List K)) (u : K) (r : ℕ) :
    Py (List K × List (List K)) := do
  -- 203-205
  let k ← findSpan P.length p u U
  let s : ℤ := (findMultiplicity u U : ℤ)
  -- 208-214
  let oldLen : ℤ := (P.length : ℤ) + p + 1
  let newKv : List K := zeros (U.length + r)
  let newP : List (List K) := zeros2 (P.length + r) 3
  let R : List (List K) := zeros2 (p + 1) 3
  -- 217-224
  let newKv ← forZ 0 (k + 1) newKv fun i kv => do
    let x ← pyGet U i
    pySet kv i x
  let newKv ← forZ 1 ((r : ℤ) + 1) newKv fun i kv => pySet kv (k + i) u
  let newKv ← forZ (k + 1) oldLen newKv fun i kv => do
    let x ← pyGet U i
    pySet kv (i + r) x
  -- 227-234
  let newP ← forZ 0 (k - p + 1) newP fun i m => do
    let row ← pyGet P i
    assignRow m i row
  let newP ← forZ (k - s) P.length newP fun i m => do
    let row ← pyGet P i
    assignRow m (i + r) row
  let R ← forZ 0 ((p : ℤ) - s + 1) R fun i m => do
    let row ← pyGet P (k - p + i)
    assignRow m i row
  -- 237-246
  let (newP, R) ← forZ 1 ((r : ℤ) + 1) (newP, R) fun j (newP, R) => do
    let L : ℤ := k - p + j
    let R ← forZ 0 ((p : ℤ) - j - s + 1) R fun i R => do
      let a ← pyGet U (L + i)
      let b ← pyGet U (i + k + 1)
      let alpha ← pyDiv (u - a) (b - a)
      let x ← pyGet R (i + 1)
      let y ← pyGet R i
      assignRow R i (rowComb alpha x (1 - alpha) y)
    let r0 ← pyGet R 0
    let newP ← assignRow newP L r0
    let r1 ← pyGet R ((p : ℤ) - j - s)
    let newP ← assignRow newP (k + r - j - s) r1
    .ok (newP, R)
  -- 249-251
  let L : ℤ := k - p + r
  let newP ← forZ (L + 1) (k - s) newP fun i m => do
    let row ← pyGet R (i - L)
    assignRow m i row
  .ok (newKv, newP)

end

end PySpline
