import Verif.Model.Rounded

/-!
# Knot insertion in rounded arithmetic

`find_multiplicity` and `curve_knot_insertion` with the rounding function `fl` applied to the result of every arithmetic
operation on values, as in `Model/Rounded.lean`.  Indices are integers and exact.
-/

namespace PySpline

section
variable {K : Type} [Field K] [LinearOrder K]

/-- `find_multiplicity` (`spline/algorithms/knots.py:151-171`). -/
def findMultiplicityFl (fl : K → K) (knot : K) (U : List K) : ℕ :=
  U.foldl (fun mult x => if iscloseFl fl knot x rtolDefault atolDefault then mult + 1 else mult) 0

/-- `alpha * x + (1.0 - alpha) * y` for rows (`spline/algorithms/knots.py:243`). -/
def rowCombFl (fl : K → K) (alpha : K) (x y : List K) : List K :=
  List.zipWith (fun s t => fl (fl (alpha * s) + fl (fl (1 - alpha) * t))) x y

/-- `curve_knot_insertion` (`spline/algorithms/knots.py:174-253`). -/
def curveKnotInsertionFl (fl : K → K) (p : ℕ) (U : List K) (P : List (List K)) (u : K) (r : ℕ) :
    Py (List K × List (List K)) := do
  -- 203-205
  let k ← findSpanWith (endTestFl fl) (spanFuel P.length p) P.length p u U
  let s : ℤ := (findMultiplicityFl fl u U : ℤ)
  -- 208-214
  let oldLen : ℤ := (P.length : ℤ) + p + 1
  let newKv : List K := zeros (U.length + r)
  let newP : List (List K) := zeros2 (P.length + r) 3
  let R : List (List K) := zeros2 (p + 1) 3
  -- 217-224
  let newKv ← forZ 0 (k + 1) newKv fun i kv => do
    let x ← pyGet U i
    pySet kv i x
  let newKv ← forZ 1 ((r : ℤ) + 1) newKv fun i kv => pySet kv (k + i) u
  let newKv ← forZ (k + 1) oldLen newKv fun i kv => do
    let x ← pyGet U i
    pySet kv (i + r) x
  -- 227-234
  let newP ← forZ 0 (k - p + 1) newP fun i m => do
    let row ← pyGet P i
    assignRow m i row
  let newP ← forZ (k - s) P.length newP fun i m => do
    let row ← pyGet P i
    assignRow m (i + r) row
  let R ← forZ 0 ((p : ℤ) - s + 1) R fun i m => do
    let row ← pyGet P (k - p + i)
    assignRow m i row
  -- 237-246
  let (newP, R) ← forZ 1 ((r : ℤ) + 1) (newP, R) fun j (newP, R) => do
    let L : ℤ := k - p + j
    let R ← forZ 0 ((p : ℤ) - j - s + 1) R fun i R => do
      let a ← pyGet U (L + i)
      let b ← pyGet U (i + k + 1)
      let alpha ← pyDivFl fl (fl (u - a)) (fl (b - a))
      let x ← pyGet R (i + 1)
      let y ← pyGet R i
      assignRow R i (rowCombFl fl alpha x y)
    let r0 ← pyGet R 0
    let newP ← assignRow newP L r0
    let r1 ← pyGet R ((p : ℤ) - j - s)
    let newP ← assignRow newP (k + r - j - s) r1
    .ok (newP, R)
  -- 249-251
  let L : ℤ := k - p + r
  let newP ← forZ (L + 1) (k - s) newP fun i m => do
    let row ← pyGet R (i - L)
    assignRow m i row
  .ok (newKv, newP)

end

end PySpline
