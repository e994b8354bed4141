import Verif.Ext
import Verif.Model.Parameterize

/-!
# The numerical routines with infinities and NaN

The functions of `Model/Knots.lean`, `Model/Basis.lean`, `Model/BSpline.lean` and
`Model/Parameterize.lean` over `Ext K`: a division by zero does not stop the run, as in numpy, and
every comparison with NaN is false.  Where the exact model does not divide by zero the two agree
(`Props/Extended.lean`).
-/

namespace PySpline

open Ext

section
variable {K : Type} [Field K] [LinearOrder K]

/-- `np.zeros((n, m))` (`spline/algorithms/basis.py:95`). -/
def zeros2E (n m : ℕ) : List (List (Ext K)) := List.replicate n (List.replicate m 0)

/-- `np.ones((n, m))` (`spline/algorithms/basis.py:97`). -/
def ones2E (n m : ℕ) : List (List (Ext K)) := List.replicate n (List.replicate m 1)

/-- `a / b`; numpy does not raise (`spline/algorithms/basis.py:48`). -/
def divE (a b : Ext K) : Py (Ext K) := .ok (a / b)

/-- `np.isclose(a, b)` with the default tolerances (`spline/algorithms/knots.py:169`). -/
def iscloseDE (a b : Ext K) : Bool := Ext.isclose a b (fin rtolDefault) (fin atolDefault)

/-! ## `spline/algorithms/knots.py` -/

/-- The `while` loop of `find_span` (`spline/algorithms/knots.py:54-59`). -/
def findSpanLoopE (knot : Ext K) (U : List (Ext K)) : ℕ → ℕ → ℕ → ℕ → Py ℤ
  | 0, _, _, _ => .error .diverged
  | fuel + 1, low, high, mid => do
    let a ← pyGet U (mid : ℤ)
    if lt knot a then
      findSpanLoopE knot U fuel low mid ((low + mid) / 2)
    else do
      let b ← pyGet U ((mid : ℤ) + 1)
      if lt b knot then
        findSpanLoopE knot U fuel mid high ((mid + high) / 2)
      else
        .ok (mid : ℤ)

/-- `find_span` (`spline/algorithms/knots.py:10-61`) with explicit fuel. -/
def findSpanFuelE (fuel n p : ℕ) (knot : Ext K) (U : List (Ext K)) : Py ℤ := do
  let e ← pyGet U (n : ℤ)
  if Ext.isclose knot e (fin (1 / 10 ^ 6)) (fin atolDefault) then .ok ((n : ℤ) - 1)
  else findSpanLoopE knot U fuel p n (findSpanMid0 n p)

/-- `find_span` (`spline/algorithms/knots.py:10-61`) with the fuel of `findSpan`. -/
def findSpanE (n p : ℕ) (knot : Ext K) (U : List (Ext K)) : Py ℤ :=
  findSpanFuelE (spanFuel n p) n p knot U

/-- `np.max` of a non-empty array (`spline/algorithms/knots.py:77`). -/
def npMaxE : List (Ext K) → Py (Ext K)
  | [] => .error .valueError
  | x :: xs => .ok (xs.foldl max2 x)

/-- `np.min` of a non-empty array (`spline/algorithms/knots.py:78`). -/
def npMinE : List (Ext K) → Py (Ext K)
  | [] => .error .valueError
  | x :: xs => .ok (xs.foldl min2 x)

/-- `normalize` (`spline/algorithms/knots.py:64-83`). -/
def normalizeE (U : List (Ext K)) : Py (List (Ext K)) := do
  let maxKnot ← npMaxE U
  let minKnot ← npMinE U
  let normalized := U.map fun x => x - minKnot * 1
  let factor ← divE 1 (maxKnot - minKnot)
  .ok (normalized.map fun x => x * factor)

/-- The loop of `check_knot_vector` (`spline/algorithms/knots.py:117-120`). -/
def increasingFromE (previous : Ext K) : List (Ext K) → Bool
  | [] => true
  | knot :: rest => if lt knot previous then false else increasingFromE knot rest

/-- The tests of `check_knot_vector` on the normalized knots (`spline/algorithms/knots.py:106-121`). -/
def checkNormalizedE (p : ℕ) (kv : List (Ext K)) (n : ℕ) : Py Bool :=
  if kv.length ≠ n + p + 1 then .ok false
  else if ¬ (pySlice kv 0 ((p : ℤ) + 1)).all (fun b => iscloseDE 0 b) then .ok false
  else do
    let e ← pyGet kv (-1 * ((p : ℤ) + 1))
    if ¬ iscloseDE 1 e then .ok false
    else do
      let previous ← pyGet kv 0
      .ok (increasingFromE previous kv)

/-- `check_knot_vector` (`spline/algorithms/knots.py:86-121`). -/
def checkKnotVectorE (p : ℕ) (U : List (Ext K)) (n : ℕ) : Py Bool := do
  let kv ← normalizeE U
  checkNormalizedE p kv n

/-- `find_multiplicity` (`spline/algorithms/knots.py:151-171`). -/
def findMultiplicityE (knot : Ext K) (U : List (Ext K)) : ℕ :=
  U.foldl (fun mult x => if iscloseDE knot x then mult + 1 else mult) 0

/-- `m[i, :] = v`, see `assignRow` (`spline/algorithms/knots.py:228-251`). -/
def assignRowE (m : List (List (Ext K))) (i : ℤ) (v : List (Ext K)) : Py (List (List (Ext K))) := do
  let row ← pyGet m i
  if v.length = row.length then pySet m i v
  else if v.length = 1 then pySet m i (List.replicate row.length (v.getD 0 0))
  else .error .valueError

/-- `a * x + b * y` for rows (`spline/algorithms/knots.py:243`). -/
def rowCombE (a : Ext K) (x : List (Ext K)) (b : Ext K) (y : List (Ext K)) : List (Ext K) :=
  List.zipWith (fun s t => a * s + b * t) x y

/-- `curve_knot_insertion` (`spline/algorithms/knots.py:174-253`). -/
def curveKnotInsertionE (p : ℕ) (U : List (Ext K)) (P : List (List (Ext K))) (u : Ext K) (r : ℕ) :
    Py (List (Ext K) × List (List (Ext K))) := do
  -- 203-205
  let k ← findSpanE P.length p u U
  let s : ℤ := (findMultiplicityE u U : ℤ)
  -- 208-214
  let oldLen : ℤ := (P.length : ℤ) + p + 1
  let newKv : List (Ext K) := List.replicate (U.length + r) 0
  let newP : List (List (Ext K)) := zeros2E (P.length + r) 3
  let R : List (List (Ext K)) := zeros2E (p + 1) 3
  -- 217-224
  let newKv ← forZ 0 (k + 1) newKv fun i kv => do
    let x ← pyGet U i
    pySet kv i x
  let newKv ← forZ 1 ((r : ℤ) + 1) newKv fun i kv => pySet kv (k + i) u
  let newKv ← forZ (k + 1) oldLen newKv fun i kv => do
    let x ← pyGet U i
    pySet kv (i + r) x
  -- 227-234
  let newP ← forZ 0 (k - p + 1) newP fun i m => do
    let row ← pyGet P i
    assignRowE m i row
  let newP ← forZ (k - s) P.length newP fun i m => do
    let row ← pyGet P i
    assignRowE m (i + r) row
  let R ← forZ 0 ((p : ℤ) - s + 1) R fun i m => do
    let row ← pyGet P (k - p + i)
    assignRowE m i row
  -- 237-246
  let (newP, R) ← forZ 1 ((r : ℤ) + 1) (newP, R) fun j (newP, R) => do
    let L : ℤ := k - p + j
    let R ← forZ 0 ((p : ℤ) - j - s + 1) R fun i R => do
      let a ← pyGet U (L + i)
      let b ← pyGet U (i + k + 1)
      let alpha ← divE (u - a) (b - a)
      let x ← pyGet R (i + 1)
      let y ← pyGet R i
      assignRowE R i (rowCombE alpha x (1 - alpha) y)
    let r0 ← pyGet R 0
    let newP ← assignRowE newP L r0
    let r1 ← pyGet R ((p : ℤ) - j - s)
    let newP ← assignRowE newP (k + r - j - s) r1
    .ok (newP, R)
  -- 249-251
  let L : ℤ := k - p + r
  let newP ← forZ (L + 1) (k - s) newP fun i m => do
    let row ← pyGet R (i - L)
    assignRowE m i row
  .ok (newKv, newP)

/-! ## `spline/algorithms/basis.py` -/

/-- `basis_functions` (`spline/algorithms/basis.py:10-54`). -/
def basisFunctionsE (span : ℤ) (knot : Ext K) (degree : ℕ) (U : List (Ext K)) : Py (List (Ext K)) := do
  let N : List (Ext K) := List.replicate (degree + 1) 1
  let left : List (Ext K) := List.replicate (degree + 1) 0
  let right : List (Ext K) := List.replicate (degree + 1) 0
  let (N, _, _) ← forN 1 (degree + 1) (N, left, right) fun j (N, left, right) => do
    let a ← pyGet U (span + 1 - j)
    let left ← pySet left j (knot - a)
    let b ← pyGet U (span + j)
    let right ← pySet right j (b - knot)
    let (N, saved) ← forN 0 j (N, (0 : Ext K)) fun r (N, saved) => do
      let nr ← pyGet N r
      let rr ← pyGet right ((r : ℤ) + 1)
      let lf ← pyGet left ((j : ℤ) - r)
      let temp ← divE nr (rr + lf)
      let N ← pySet N r (saved + rr * temp)
      .ok (N, lf * temp)
    let N ← pySet N j saved
    .ok (N, left, right)
  .ok N

/-- The triangle of `basis_function_ders` (`spline/algorithms/basis.py:96-116`). -/
def nduTableE (span : ℤ) (knot : Ext K) (degree : ℕ) (U : List (Ext K)) : Py (List (List (Ext K))) := do
  let ndu : List (List (Ext K)) := ones2E (degree + 1) (degree + 1)
  let ndu ← set2 ndu 0 0 (1 : Ext K)
  let left : List (Ext K) := List.replicate (degree + 1) 1
  let right : List (Ext K) := List.replicate (degree + 1) 1
  let (ndu, _, _) ← forN 1 (degree + 1) (ndu, left, right) fun j (ndu, left, right) => do
    let a ← pyGet U (span + 1 - j)
    let left ← pySet left j (knot - a)
    let b ← pyGet U (span + j)
    let right ← pySet right j (b - knot)
    let (ndu, saved) ← forN 0 j (ndu, (0 : Ext K)) fun r (ndu, saved) => do
      let rr ← pyGet right ((r : ℤ) + 1)
      let lf ← pyGet left ((j : ℤ) - r)
      let ndu ← set2 ndu j r (rr + lf)
      let x ← get2 ndu r ((j : ℤ) - 1)
      let y ← get2 ndu j r
      let temp ← divE x y
      let ndu ← set2 ndu r j (saved + rr * temp)
      .ok (ndu, lf * temp)
    let ndu ← set2 ndu j j saved
    .ok (ndu, left, right)
  .ok ndu

/-- One pass of the loop over `k` for a fixed row `r` (`spline/algorithms/basis.py:129-158`). -/
def dersStepE (degree : ℕ) (ndu : List (List (Ext K))) (r : ℕ) (k : ℕ)
    (st : List (List (Ext K)) × ℤ × ℤ × List (List (Ext K))) :
    Py (List (List (Ext K)) × ℤ × ℤ × List (List (Ext K))) := do
  let (a, s1, s2, ders) := st
  let d : Ext K := 0
  let rk : ℤ := (r : ℤ) - k
  let pk : ℤ := (degree : ℤ) - k
  let (a, d) ← (if r ≥ k then (do
      let x ← get2 a s1 0
      let y ← get2 ndu (pk + 1) rk
      let q ← divE x y
      let a ← set2 a s2 0 q
      let x ← get2 a s2 0
      let y ← get2 ndu rk pk
      .ok (a, x * y))
    else .ok (a, d))
  let j1 : ℤ := if rk ≥ -1 then 1 else -rk
  let j2 : ℤ := if (r : ℤ) - 1 ≤ pk then (k : ℤ) - 1 else (degree : ℤ) - r
  let (a, d) ← forZ j1 (j2 + 1) (a, d) fun j (a, d) => do
    let x ← get2 a s1 j
    let y ← get2 a s1 (j - 1)
    let z ← get2 ndu (pk + 1) (rk + j)
    let q ← divE (x - y) z
    let a ← set2 a s2 j q
    let x ← get2 a s2 j
    let y ← get2 ndu (rk + j) pk
    .ok (a, d + x * y)
  let (a, d) ← (if (r : ℤ) ≤ pk then (do
      let x ← get2 a s1 ((k : ℤ) - 1)
      let y ← get2 ndu (pk + 1) r
      let q ← divE (-x) y
      let a ← set2 a s2 k q
      let x ← get2 a s2 k
      let y ← get2 ndu r pk
      .ok (a, d + x * y))
    else .ok (a, d))
  let ders ← set2 ders r k d
  .ok (a, s2, s1, ders)

/-- `basis_function_ders` (`spline/algorithms/basis.py:57-167`). -/
def basisFunctionDersE (span : ℤ) (knot : Ext K) (degree : ℕ) (U : List (Ext K)) (order : ℕ) :
    Py (List (List (Ext K))) := do
  let ders : List (List (Ext K)) := zeros2E (degree + 1) (order + 1)
  let a : List (List (Ext K)) := ones2E 2 (degree + 1)
  let ndu ← nduTableE span knot degree U
  -- 119-120
  let ders ← forN 0 (degree + 1) ders fun j ders => do
    let x ← get2 ndu j degree
    set2 ders j 0 x
  -- 123-158
  let (_, ders) ← forN 0 (degree + 1) (a, ders) fun r (a, ders) => do
    let a ← set2 a 0 0 (1 : Ext K)
    let (a, _, _, ders) ← forN 1 (order + 1) (a, (0 : ℤ), (1 : ℤ), ders) (dersStepE degree ndu r)
    .ok (a, ders)
  -- 161-165
  let (ders, _) ← forN 1 (order + 1) (ders, fin (degree : K)) fun k (ders, r) => do
    let ders ← forN 0 (degree + 1) ders fun j ders => do
      let x ← get2 ders j k
      set2 ders j k (x * r)
    .ok (ders, r * (fin (degree : K) - fin (k : K)))
  .ok ders

/-- `one_basis_function` (`spline/algorithms/basis.py:170-227`). -/
def oneBasisFunctionE (degree : ℕ) (U : List (Ext K)) (i : ℕ) (knot : Ext K) : Py (Ext K) := do
  let first ← pyGet U 0
  let last ← pyGet U ((U.length : ℤ) - 1)
  if (i = 0 ∧ eqv knot first) ∨ ((i : ℤ) = (U.length : ℤ) - degree - 2 ∧ eqv knot last) then .ok 1
  else do
    let lo ← pyGet U i
    if lt knot lo then .ok 0
    else do
    let hi ← pyGet U ((i : ℤ) + degree + 1)
    if lt hi knot then .ok 0
    else do
      let N : List (Ext K) := List.replicate (i + degree + 1) 0
      let N ← forN 0 (degree + 1) N fun j N => do
        let a ← pyGet U ((i : ℤ) + j)
        let b ← pyGet U ((i : ℤ) + j + 1)
        if le a knot ∧ lt knot b then pySet N j 1 else .ok N
      let N ← forN 1 (degree + 1) N fun k N => do
        let n0 ← pyGet N 0
        let saved ← (if ¬ eqv n0 0 then (do
            let a ← pyGet U i
            let b ← pyGet U ((i : ℤ) + k)
            divE ((knot - a) * n0) (b - a))
          else .ok 0)
        let (N, _) ← forN 0 (degree - k + 1) (N, saved) fun j (N, saved) => do
          let uleft ← pyGet U ((i : ℤ) + j + 1)
          let uright ← pyGet U ((i : ℤ) + j + k + 1)
          let nj ← pyGet N ((j : ℤ) + 1)
          if eqv nj 0 then do
            let N ← pySet N j saved
            .ok (N, 0)
          else do
            let temp ← divE nj (uright - uleft)
            let N ← pySet N j (saved + (uright - knot) * temp)
            .ok (N, (knot - uleft) * temp)
        .ok N
      pyGet N 0

/-- The table of `one_basis_function_ders` (`spline/algorithms/basis.py:264-289`). -/
def oneBasisTableE (degree : ℕ) (U : List (Ext K)) (i : ℕ) (knot : Ext K) :
    Py (List (List (Ext K))) := do
  let N : List (List (Ext K)) := zeros2E (degree + 1) (degree + 1)
  let N ← forN 0 (degree + 1) N fun j N => do
    let a ← pyGet U ((i : ℤ) + j)
    let b ← pyGet U ((i : ℤ) + j + 1)
    if le a knot ∧ lt knot b then set2 N j 0 (1 : Ext K) else .ok N
  forN 1 (degree + 1) N fun k N => do
    let n0 ← get2 N 0 ((k : ℤ) - 1)
    let saved ← (if ¬ eqv n0 0 then (do
        let a ← pyGet U i
        let b ← pyGet U ((i : ℤ) + k)
        divE ((knot - a) * n0) (b - a))
      else .ok 0)
    let (N, _) ← forN 0 (degree - k + 1) (N, saved) fun j (N, saved) => do
      let uleft ← pyGet U ((i : ℤ) + j + 1)
      let uright ← pyGet U ((i : ℤ) + j + k + 1)
      let nj ← get2 N ((j : ℤ) + 1) ((k : ℤ) - 1)
      if eqv nj 0 then do
        let N ← set2 N j k saved
        .ok (N, 0)
      else do
        let temp ← divE nj (uright - uleft)
        let N ← set2 N j k (saved + (uright - knot) * temp)
        .ok (N, (knot - uleft) * temp)
    .ok N

/-- `one_basis_function_ders` (`spline/algorithms/basis.py:230-320`). -/
def oneBasisFunctionDersE (degree : ℕ) (U : List (Ext K)) (i : ℕ) (knot : Ext K) (order : ℕ) :
    Py (List (Ext K)) := do
  let ders : List (Ext K) := List.replicate (order + 1) 0
  let lo ← pyGet U i
  if lt knot lo then .ok ders
  else do
  let hi ← pyGet U ((i : ℤ) + degree + 1)
  if le hi knot then .ok ders
  else do
    let N ← oneBasisTableE degree U i knot
    let v ← get2 N 0 degree
    let ders ← pySet ders 0 v
    -- 294-318
    let ND : List (Ext K) := List.replicate (order + 1) 0
    let (ders, _) ← forN 1 (order + 1) (ders, ND) fun k (ders, ND) => do
      let ND ← forN 0 (k + 1) ND fun j ND => do
        let x ← get2 N j ((degree : ℤ) - k)
        pySet ND j x
      let ND ← forN 1 (k + 1) ND fun jj ND => do
        let nd0 ← pyGet ND 0
        let saved ← (if ¬ eqv nd0 0 then (do
            let b ← pyGet U ((i : ℤ) + degree - k + jj)
            let a ← pyGet U i
            divE nd0 (b - a))
          else .ok 0)
        let (ND, _) ← forN 0 (k - jj + 1) (ND, saved) fun j (ND, saved) => do
          let uleft ← pyGet U ((i : ℤ) + j + 1)
          let uright ← pyGet U ((i : ℤ) + j + degree - k + jj + 1)
          let nj ← pyGet ND ((j : ℤ) + 1)
          if eqv nj 0 then do
            let ND ← pySet ND j (fin ((degree : K) - k + jj) * saved)
            .ok (ND, 0)
          else do
            let temp ← divE nj (uright - uleft)
            let ND ← pySet ND j (fin ((degree : K) - k + jj) * (saved - temp))
            .ok (ND, temp)
        .ok ND
      let nd0 ← pyGet ND 0
      let ders ← pySet ders k nd0
      .ok (ders, ND)
    .ok ders

/-! ## `spline/util/validation.py`, `spline/model/bspline.py` -/

/-- `validate_knot` (`spline/util/validation.py:7-21`). -/
def validateKnotE (u : Ext K) : Bool := le 0 u && le u 1

/-- `a @ b` for 1-D arrays (`spline/model/bspline.py:40-42`). -/
def dotE (a b : List (Ext K)) : Py (Ext K) :=
  if a.length = b.length then .ok ((List.zipWith (· * ·) a b).sum) else .error .valueError

/-- Column `c` of a 2-D array (`spline/model/bspline.py:40-42`). -/
def columnE (m : List (List (Ext K))) (c : ℤ) : Py (List (Ext K)) := mapPy (fun r => pyGet r c) m

/-- `BSplineCurve.single_point` (`spline/model/bspline.py:19-44`). -/
def Curve.singlePointE (c : Curve (Ext K)) (u : Ext K) : Py (List (Ext K)) :=
  if validateKnotE u = false then .error .valueError
  else do
    let span ← findSpanE c.ctrlpts.length c.degree u c.kv
    let funs ← basisFunctionsE span u c.degree c.kv
    let active := pySlice c.ctrlpts (span - c.degree) (span + 1)
    let col0 ← columnE active 0
    let x ← dotE funs col0
    let col1 ← columnE active 1
    let y ← dotE funs col1
    let col2 ← columnE active 2
    let z ← dotE funs col2
    .ok [x, y, z]

/-- `np.linalg.norm` of a 1-D array: NaN if there is a NaN, else `inf` if there is an infinity
(`spline/model/bspline.py:104`, `fit/algorithms/parameterize.py:37`). -/
def normE (norm : List K → K) (l : List (Ext K)) : Ext K :=
  if l.any (fun x => decide (x = nan)) then nan
  else if l.all Ext.isFin then fin (norm (l.map fun x => match x with | fin y => y | _ => 0))
  else inf false

/-- `val / np.linalg.norm(val)` with the zero test around it
(`spline/model/bspline.py:104-105, 312-313`), see `normalizeRow`. -/
def normalizeRowE (norm : List K → K) (normalize first : Bool) (val : List (Ext K)) : Py (List (Ext K)) :=
  if normalize && !(iscloseDE (normE norm val) 0) && !first then
    mapPy (fun x => divE x (normE norm val)) val
  else .ok val

/-- `BSplineCurve.derivatives` (`spline/model/bspline.py:68-109`). -/
def Curve.derivativesE (norm : List K → K) (c : Curve (Ext K)) (u : Ext K) (order : ℤ)
    (normalize : Bool) : Py (List (List (Ext K))) :=
  if validateKnotE u = false then .error .valueError
  else if order ≤ 1 then .error .valueError
  else do
    let maxOrder := min order.toNat c.degree
    let span ← findSpanE c.ctrlpts.length c.degree u c.kv
    let ders ← basisFunctionDersE span u c.degree c.kv maxOrder
    let active := pySlice c.ctrlpts (span - c.degree) (span + 1)
    let derivs : List (List (Ext K)) := zeros2E (maxOrder + 1) 3
    forN 0 (maxOrder + 1) derivs fun row derivs => do
      let d1 ← columnE ders row
      let col1 ← columnE active 1
      let y ← dotE d1 col1
      let col2 ← columnE active 2
      let z ← dotE d1 col2
      let val ← normalizeRowE norm normalize (row == 0) [y, z]
      assignRowE derivs row val

/-- `np.reshape(x, (n, m))` of a 1-D array (`spline/model/bspline.py:213-215`). -/
def reshape2E (x : List (Ext K)) (n m : ℕ) : Py (List (List (Ext K))) :=
  if x.length = n * m then .ok ((List.range n).map fun i => (x.drop (i * m)).take m)
  else .error .valueError

/-- `M[a:b, c:d]` (`spline/model/bspline.py:217-221`). -/
def slice2E (m : List (List (Ext K))) (a b c d : ℤ) : List (List (Ext K)) :=
  (pySlice m a b).map fun row => pySlice row c d

/-- `v @ M` for a 1-D array and a 2-D array (with at least one row)
(`spline/model/bspline.py:217-222`). -/
def vecMatE (v : List (Ext K)) (m : List (List (Ext K))) : Py (List (Ext K)) :=
  if v.length = m.length then
    .ok ((List.range (m.headD []).length).map fun j =>
      (List.zipWith (· * ·) v (m.map fun row => row.getD j 0)).sum)
  else .error .valueError

/-- `bu @ M @ bv` (`spline/model/bspline.py:217-222`). -/
def bilinearE (bu : List (Ext K)) (m : List (List (Ext K))) (bv : List (Ext K)) : Py (Ext K) := do
  let w ← vecMatE bu m
  dotE w bv

/-- `BSplineSurface.single_point` (`spline/model/bspline.py:182-226`). -/
def Surface.singlePointE (s : Surface (Ext K)) (u v : Ext K) : Py (List (Ext K)) :=
  if validateKnotE u = false then .error .valueError
  else if validateKnotE v = false then .error .valueError
  else do
    let uSpan ← findSpanE s.numU s.degreeU u s.kvU
    let vSpan ← findSpanE s.numV s.degreeV v s.kvV
    let bu ← basisFunctionsE uSpan u s.degreeU s.kvU
    let bv ← basisFunctionsE vSpan v s.degreeV s.kvV
    let cx ← columnE s.ctrlpts 0
    let cy ← columnE s.ctrlpts 1
    let cz ← columnE s.ctrlpts 2
    let xa ← reshape2E cx s.numU s.numV
    let ya ← reshape2E cy s.numU s.numV
    let za ← reshape2E cz s.numU s.numV
    let x ← bilinearE bu (slice2E xa (uSpan - s.degreeU) (uSpan + 1) (vSpan - s.degreeV) (vSpan + 1)) bv
    let y ← bilinearE bu (slice2E ya (uSpan - s.degreeU) (uSpan + 1) (vSpan - s.degreeV) (vSpan + 1)) bv
    let z ← bilinearE bu (slice2E za (uSpan - s.degreeU) (uSpan + 1) (vSpan - s.degreeV) (vSpan + 1)) bv
    .ok [x, y, z]

/-- `BSplineSurface.derivatives` (`spline/model/bspline.py:249-319`). -/
def Surface.derivativesE (norm : List K → K) (s : Surface (Ext K)) (u v : Ext K)
    (orderU orderV : ℕ) (normalize : Bool) : Py (List (List (Ext K))) :=
  if validateKnotE u = false then .error .valueError
  else if validateKnotE v = false then .error .valueError
  else do
    let maxU := min orderU s.degreeU
    let maxV := min orderV s.degreeV
    let uSpan ← findSpanE s.numU s.degreeU u s.kvU
    let vSpan ← findSpanE s.numV s.degreeV v s.kvV
    let du ← basisFunctionDersE uSpan u s.degreeU s.kvU maxU
    let dv ← basisFunctionDersE vSpan v s.degreeV s.kvV maxV
    let cx ← columnE s.ctrlpts 0
    let cy ← columnE s.ctrlpts 1
    let cz ← columnE s.ctrlpts 2
    let xa ← reshape2E cx s.numU s.numV
    let ya ← reshape2E cy s.numU s.numV
    let za ← reshape2E cz s.numU s.numV
    let xm := slice2E xa (uSpan - s.degreeU) (uSpan + 1) (vSpan - s.degreeV) (vSpan + 1)
    let ym := slice2E ya (uSpan - s.degreeU) (uSpan + 1) (vSpan - s.degreeV) (vSpan + 1)
    let zm := slice2E za (uSpan - s.degreeU) (uSpan + 1) (vSpan - s.degreeV) (vSpan + 1)
    let derivs : List (List (Ext K)) := zeros2E ((maxU + 1) * (maxV + 1)) 3
    let (derivs, _) ← forN 0 (maxU + 1) (derivs, (0 : ℕ)) fun uRow st =>
      forN 0 (maxV + 1) st fun vRow (derivs, index) => do
        let bu ← columnE du uRow
        let bv ← columnE dv vRow
        let x ← bilinearE bu xm bv
        let y ← bilinearE bu ym bv
        let z ← bilinearE bu zm bv
        let val ← normalizeRowE norm normalize (index == 0) [x, y, z]
        let derivs ← assignRowE derivs index val
        .ok (derivs, index + 1)
    .ok derivs

/-! ## `fit/algorithms/parameterize.py` -/

/-- The methods of a `BSplineCurve` (`spline/model/bspline.py:19-109`). -/
def Curve.likeE (norm : List K → K) (c : Curve (Ext K)) : CurveLike (Ext K) where
  numCtrl := c.ctrlpts.length
  singlePoint := c.singlePointE
  ders u := c.derivativesE norm u 2 false

/-- The methods of a `BSplineSurface` (`spline/model/bspline.py:182-319`). -/
def Surface.likeE (norm : List K → K) (s : Surface (Ext K)) : SurfLike (Ext K) where
  numU := s.numU
  numV := s.numV
  singlePoint := s.singlePointE
  ders u v := s.derivativesE norm u v 2 2 false

/-- `a - b` for 1-D arrays, see `vsub` (`fit/algorithms/parameterize.py:36, 76, 261`). -/
def vsubE (a b : List (Ext K)) : Py (List (Ext K)) :=
  if a.length = b.length then .ok (List.zipWith (· - ·) a b)
  else if b.length = 1 then .ok (a.map fun x => x - b.getD 0 0)
  else if a.length = 1 then .ok (b.map fun x => a.getD 0 0 - x)
  else .error .valueError

/-- `a + b` for the rows of one 2-D array (`fit/algorithms/parameterize.py:292`). -/
def vaddE (a b : List (Ext K)) : Py (List (Ext K)) :=
  if a.length = b.length then .ok (List.zipWith (· + ·) a b) else .error .valueError

/-- The parameters at which the initial guesses look (`fit/algorithms/parameterize.py:28, 184, 185`). -/
def gridE (N : ℕ) : List (Ext K) := (grid N).map fin

/-- `initial_guess_curve` (`fit/algorithms/parameterize.py:12-42`). -/
def initialGuessCurveE (nm : Num K) (C : CurveLike (Ext K)) (point : List (Ext K)) : Py (Ext K) := do
  let N := 2 * C.numCtrl
  let evalU : List (Ext K) := gridE N
  let u0 ← pyGet evalU 0
  let (_, u0) ← forN 0 N (fin (hugeDist : K), u0) fun u (minVal, u0) => do
    let x ← pyGet evalU u
    let q ← C.singlePoint x
    let r ← vsubE point q
    let normr := normE nm.norm r
    if lt normr minVal then .ok (normr, x) else .ok (minVal, u0)
  .ok u0

/-- The tests that keep a parameter in `[0, 1]` (`fit/algorithms/parameterize.py:95-98, 277-289`);
NaN passes both. -/
def clamp01E (x : Ext K) : Ext K := if lt x 0 then 0 else if lt 1 x then 1 else x

/-- Rows 0, 1, 2 of `curve.derivatives(u, 2, normalize=False)`
(`fit/algorithms/parameterize.py:70-73, 107-110`). -/
def curveInfoE (C : CurveLike (Ext K)) (u : Ext K) : Py (CurveState (Ext K)) := do
  let ders ← C.ders u
  let pt ← pyGet ders 0
  let du ← pyGet ders 1
  let duu ← pyGet ders 2
  .ok ⟨u, pt, du, duu⟩

/-- First convergence test (`fit/algorithms/parameterize.py:76-77, 113-114`). -/
def curveCond1E (nm : Num K) (C : CurveLike (Ext K)) (point : List (Ext K)) (eps1 u : Ext K) :
    Py Bool := do
  let q ← C.singlePoint u
  let r ← vsubE q point
  .ok (le (normE nm.norm r) eps1)

/-- Second convergence test (`fit/algorithms/parameterize.py:81-83, 118-120`). -/
def curveCond2E (nm : Num K) (point : List (Ext K)) (eps2 : Ext K) (s : CurveState (Ext K)) :
    Py Bool := do
  let r ← vsubE s.pt point
  let num ← dotE s.du r
  .ok (le (Ext.abs num / (normE nm.norm s.du * normE nm.norm r)) eps2)

/-- The `while True` loop of `curve_inversion` (`fit/algorithms/parameterize.py:88-135`). -/
def curveLoopE (nm : Num K) (C : CurveLike (Ext K)) (point : List (Ext K)) (eps1 eps2 : Ext K)
    (maxIter : ℤ) : ℕ → ℤ → CurveState (Ext K) → Py (Ext K)
  | 0, _, _ => .error .diverged
  | fuel + 1, j, s => do
    -- 90-98
    let r ← vsubE s.pt point
    let num ← dotE s.du r
    let d ← dotE s.duu r
    let uip1 := clamp01E (s.u - num / (d + normE nm.norm s.du * normE nm.norm s.du))
    -- 101-104
    if le (normE nm.norm (s.du.map fun i => i * (uip1 - s.u))) eps1 then .ok s.u
    else do
      -- 107-115
      let s' ← curveInfoE C uip1
      let c1 ← curveCond1E nm C point eps1 uip1
      if c1 then .ok s.u
      else do
        -- 118-121
        let c2 ← curveCond2E nm point eps2 s'
        if c2 then .ok s.u
        -- 124-132
        else if j > maxIter then .ok s'.u
        else curveLoopE nm C point eps1 eps2 maxIter fuel (j + 1) s'

/-- `curve_inversion` (`fit/algorithms/parameterize.py:45-135`). -/
def curveInversionE (fuel : ℕ) (nm : Num K) (C : CurveLike (Ext K)) (point : List (Ext K))
    (eps1 eps2 : Ext K) (maxIter : ℤ) : Py (Ext K) := do
  let u0 ← initialGuessCurveE nm C point
  let s ← curveInfoE C u0
  let c1 ← curveCond1E nm C point eps1 u0
  if c1 then .ok u0
  else do
    let c2 ← curveCond2E nm point eps2 s
    if c2 then .ok u0
    else curveLoopE nm C point eps1 eps2 maxIter fuel 0 s

/-- `initial_guess_surf` (`fit/algorithms/parameterize.py:167-202`). -/
def initialGuessSurfE (nm : Num K) (S : SurfLike (Ext K)) (point : List (Ext K)) :
    Py (Ext K × Ext K) := do
  let evalU : List (Ext K) := gridE (2 * S.numU)
  let evalV : List (Ext K) := gridE (2 * S.numV)
  let u0 ← pyGet evalU 0
  let v0 ← pyGet evalV 0
  let (_, best) ← forN 0 (2 * S.numU) (fin (hugeDist : K), (u0, v0)) fun u st =>
    forN 0 (2 * S.numV) st fun v (minVal, best) => do
      let x ← pyGet evalU u
      let y ← pyGet evalV v
      let q ← S.singlePoint x y
      let r ← vsubE point q
      let normr := normE nm.norm r
      if lt normr minVal then .ok (normr, (x, y)) else .ok (minVal, best)
  .ok best

/-- The derivative rows kept by `surface_inversion`
(`fit/algorithms/parameterize.py:235-241, 298-304`). -/
def surfInfoE (S : SurfLike (Ext K)) (u v : Ext K) : Py (SurfDers (Ext K)) := do
  let ders ← S.ders u v
  let du ← pyGet ders 3
  let dv ← pyGet ders 1
  let duu ← pyGet ders 6
  let dvv ← pyGet ders 2
  let duv ← pyGet ders 4
  .ok ⟨du, dv, duu, dvv, duv⟩

/-- First convergence test (`fit/algorithms/parameterize.py:244-245, 307-308`). -/
def surfCond1E (nm : Num K) (S : SurfLike (Ext K)) (point : List (Ext K)) (eps1 u v : Ext K) :
    Py Bool := do
  let q ← S.singlePoint u v
  let r ← vsubE q point
  .ok (le (normE nm.norm r) eps1)

/-- Second convergence test (`fit/algorithms/parameterize.py:249-254, 312-321`). -/
def surfCond2E (nm : Num K) (S : SurfLike (Ext K)) (point : List (Ext K)) (eps2 u v : Ext K)
    (d : SurfDers (Ext K)) : Py Bool := do
  let q ← S.singlePoint u v
  let r ← vsubE q point
  let a ← dotE d.du r
  let b ← dotE d.dv r
  .ok (le (Ext.abs a / (normE nm.norm d.du * normE nm.norm r)) eps2 &&
    le (Ext.abs b / (normE nm.norm d.dv * normE nm.norm r)) eps2)

/-- `np.matmul(np.linalg.inv([[a, b], [c, d]]), [[x], [y]])`
(`fit/algorithms/parameterize.py:267-274`).  For finite numbers the exact inverse, `LinAlgError`
for a singular matrix.  If an entry is not finite LAPACK eliminates with it and does not raise:
here with the first row as pivot.  The theorems use this only when no entry is finite, where the
choice of the pivot row does not matter: the multiplier is NaN. -/
def solve2E (a b c d x y : Ext K) : Py (Ext K × Ext K) :=
  match a, b, c, d with
  | fin a, fin b, fin c, fin d =>
    let det := a * d - b * c
    if det = 0 then .error .linAlgError
    else .ok (fin (d / det) * x + fin (-b / det) * y, fin (-c / det) * x + fin (a / det) * y)
  | a, b, c, d =>
    let l := c / a
    let u22 := d - l * b
    -- the columns of the inverse
    let i21 := (0 - l * 1) / u22
    let i11 := (1 - b * i21) / a
    let i22 := (1 - l * 0) / u22
    let i12 := (0 - b * i22) / a
    .ok (i11 * x + i12 * y, i21 * x + i22 * y)

/-- The Newton step of `surface_inversion` (`fit/algorithms/parameterize.py:261-289`). -/
def surfStepE (nm : Num K) (S : SurfLike (Ext K)) (point : List (Ext K)) (ui vi : Ext K)
    (d : SurfDers (Ext K)) : Py (Ext K × Ext K) := do
  let q ← S.singlePoint ui vi
  let r ← vsubE q point
  let f ← dotE r d.du
  let g ← dotE r d.dv
  let ruu ← dotE r d.duu
  let uv ← dotE d.du d.dv
  let ruv ← dotE r d.duv
  let rvv ← dotE r d.dvv
  let fu := normE nm.norm d.du * normE nm.norm d.du + ruu
  let fv := uv + ruv
  let gu := uv + ruv
  let gv := normE nm.norm d.dv * normE nm.norm d.dv + rvv
  let (delta0, delta1) ← solve2E fu fv gu gv (-1 * f) (-1 * g)
  .ok (clamp01E (delta0 + ui), clamp01E (delta1 + vi))

/-- The `while True` loop of `surface_inversion` (`fit/algorithms/parameterize.py:259-340`). -/
def surfLoopE (nm : Num K) (S : SurfLike (Ext K)) (point : List (Ext K)) (eps1 eps2 : Ext K)
    (maxIter : ℤ) : ℕ → ℤ → Ext K → Ext K → SurfDers (Ext K) → Py (Ext K × Ext K)
  | 0, _, _, _, _ => .error .diverged
  | fuel + 1, n, ui, vi, d => do
    let (uip1, vip1) ← surfStepE nm S point ui vi d
    -- 292-294
    let w ← vaddE (d.du.map fun x => (uip1 - ui) * x) (d.dv.map fun x => (vip1 - vi) * x)
    if le (normE nm.norm w) eps1 then .ok (uip1, vip1)
    else do
      -- 298-309
      let d' ← surfInfoE S ui vi
      let c1 ← surfCond1E nm S point eps1 uip1 vip1
      if c1 then .ok (uip1, vip1)
      else do
        -- 312-322
        let c2 ← surfCond2E nm S point eps2 uip1 vip1 d'
        if c2 then .ok (uip1, vip1)
        -- 325-338
        else if n ≥ maxIter then .ok (uip1, vip1)
        else surfLoopE nm S point eps1 eps2 maxIter fuel (n + 1) uip1 vip1 d'

/-- `surface_inversion` (`fit/algorithms/parameterize.py:205-340`). -/
def surfaceInversionE (fuel : ℕ) (nm : Num K) (S : SurfLike (Ext K)) (point : List (Ext K))
    (eps1 eps2 : Ext K) (maxIter : ℤ) : Py (Ext K × Ext K) := do
  let (u0, v0) ← initialGuessSurfE nm S point
  let d ← surfInfoE S u0 v0
  let c1 ← surfCond1E nm S point eps1 u0 v0
  if c1 then .ok (u0, v0)
  else do
    let c2 ← surfCond2E nm S point eps2 u0 v0 d
    if c2 then .ok (u0, v0)
    else surfLoopE nm S point eps1 eps2 maxIter fuel 0 u0 v0 d

/-- The parameters that `parameterize_curve` computes (`fit/algorithms/parameterize.py:152`), with the
default arguments of `curve_inversion`. -/
def curveParametersE (nm : Num K) (C : CurveLike (Ext K)) (data : List (List (Ext K))) : Py (List (Ext K)) :=
  mapPy (fun point => curveInversionE 102 nm C point (fin epsDefault) (fin epsDefault) 100) data

/-- The parameters that `parameterize_surface` computes (`fit/algorithms/parameterize.py:357`), with the
default arguments of `surface_inversion`. -/
def surfaceParametersE (nm : Num K) (S : SurfLike (Ext K)) (data : List (List (Ext K))) :
    Py (List (Ext K × Ext K)) :=
  mapPy (fun point => surfaceInversionE 101 nm S point (fin epsDefault) (fin epsDefault) 100) data

end

end PySpline
