import Verif.Model.BSpline

/-!
# Integer arguments

The functions of `spline/algorithms/` and `BSplineSurface.derivatives` once more, with the degree,
the numbers of control points, the orders of derivatives, the index of a basis function and the
number of insertions as *integers* and with the keyword `rtol` of `find_span`.  In
`Verif/Model/Knots.lean`, `Verif/Model/Basis.lean` and `Verif/Model/BSpline.lean` they are natural
numbers; the theorems of `Verif/Props/Integers.lean` say that the two agree there.
-/

namespace PySpline

section
variable {K : Type} [Field K] [LinearOrder K]

/-- `np.zeros(n)`: a negative size is a `ValueError` (`spline/algorithms/basis.py:37`). -/
def zerosZ (n : ℤ) : Py (List K) := if n < 0 then .error .valueError else .ok (zeros n.toNat)
/-- `np.ones(n)` (`spline/algorithms/basis.py:34`). -/
def onesZ (n : ℤ) : Py (List K) := if n < 0 then .error .valueError else .ok (ones n.toNat)
/-- `np.zeros((n, m))` (`spline/algorithms/basis.py:95`). -/
def zeros2Z (n m : ℤ) : Py (List (List K)) :=
  if n < 0 ∨ m < 0 then .error .valueError else .ok (zeros2 n.toNat m.toNat)
/-- `np.ones((n, m))` (`spline/algorithms/basis.py:97`). -/
def ones2Z (n m : ℤ) : Py (List (List K)) :=
  if n < 0 ∨ m < 0 then .error .valueError else .ok (ones2 n.toNat m.toNat)

/-- The `while` loop of `find_span` (`spline/algorithms/knots.py:54-59`); `int((low + high) / 2)`
rounds towards zero. -/
def findSpanLoopZ {α : Type} [LinearOrder α] (knot : α) (U : List α) : ℕ → ℤ → ℤ → ℤ → Py ℤ
  | 0, _, _, _ => .error .diverged
  | fuel + 1, low, high, mid => do
    let a ← pyGet U mid
    if knot < a then findSpanLoopZ knot U fuel low mid ((low + mid).tdiv 2)
    else do
      let b ← pyGet U (mid + 1)
      if knot > b then findSpanLoopZ knot U fuel mid high ((mid + high).tdiv 2)
      else .ok mid

/-- `find_span(num_ctrlpts, degree, knot, knot_vector, rtol=rtol)`
(`spline/algorithms/knots.py:10-61`); `fuel` bounds the number of evaluations of the loop
condition. -/
def findSpanZ (fuel : ℕ) (rtol : K) (n p : ℤ) (knot : K) (U : List K) : Py ℤ := do
  let e ← pyGet U n
  if isclose knot e rtol atolDefault then .ok (n - 1)
  else
    -- 43-52
    let midSum := p + n
    let mid := if midSum % 2 = 0 then midSum.tdiv 2 else (midSum + 1).tdiv 2
    findSpanLoopZ knot U fuel p n mid

/-- `check_knot_vector` (`spline/algorithms/knots.py:86-121`).  `np.allclose` of arrays without
entries is true; for a constant array `normalize` gives NaNs, which are not close to anything and
not below each other. -/
def checkKnotVectorZ (p : ℤ) (U : List K) (n : ℤ) : Py Bool :=
  match normalize U with
  | .error .nonfinite =>
    if (U.length : ℤ) ≠ n + p + 1 then .ok false
    else do
      let z : List K ← zerosZ (p + 1)
      let first := pySlice U 0 (p + 1)
      if z.length ≠ first.length ∧ first.length ≠ 1 ∧ z.length ≠ 1 then .error .valueError
      else .ok z.isEmpty
  | .error e => .error e
  | .ok kv =>
    if (kv.length : ℤ) ≠ n + p + 1 then .ok false
    else do
      let z : List K ← zerosZ (p + 1)
      let first := pySlice kv 0 (p + 1)
      -- 107: arrays of different lengths are broadcast or cannot be compared
      if z.length ≠ first.length ∧ first.length ≠ 1 ∧ z.length ≠ 1 then .error .valueError
      else if ¬ (first.all fun b => iscloseD 0 b) then .ok false
      else do
        let e ← pyGet kv (-1 * (p + 1))
        if ¬ (iscloseD 1 e ∨ z = []) then .ok false
        else do
          let previous ← pyGet kv 0
          .ok (increasingFrom previous kv)

/-- `generate_uniform` (`spline/algorithms/knots.py:124-148`). -/
def generateUniformZ (p n : ℤ) : Py (List K) := do
  let length : ℤ := n + p + 1
  let numMiddle : ℤ := length - 2 * p
  let middle ← linspace 0 1 numMiddle
  let a ← zerosZ p
  let b ← onesZ p
  .ok (a ++ middle ++ b)

/-- `basis_functions` (`spline/algorithms/basis.py:10-54`): for a negative degree the loops are
empty and only the allocations remain. -/
def basisFunctionsZ (span : ℤ) (knot : K) (degree : ℤ) (U : List K) : Py (List K) :=
  if 0 ≤ degree then basisFunctions span knot degree.toNat U
  else onesZ (degree + 1)

/-- `basis_function_ders` (`spline/algorithms/basis.py:57-167`) for every order. -/
def basisFunctionDersZ (span : ℤ) (knot : K) (degree : ℤ) (U : List K) (order : ℤ) :
    Py (List (List K)) := do
  -- 87-95
  let ders : List (List K) ← zeros2Z (degree + 1) (order + 1)
  let ndu : List (List K) ← ones2Z (degree + 1) (degree + 1)
  let _ ← set2 ndu 0 0 1
  -- from here on `degree` is not negative
  let p := degree.toNat
  let ndu ← nduTable span knot p U
  -- 119-120
  let ders ← forN 0 (p + 1) ders fun j ders => do
    let x ← get2 ndu j p
    set2 ders j 0 x
  -- 123-158
  let a : List (List K) := ones2 2 (p + 1)
  let (_, ders) ← forN 0 (p + 1) (a, ders) fun r (a, ders) => do
    let a ← set2 a 0 0 (1 : K)
    let (a, _, _, ders) ← forN 1 (order + 1).toNat (a, (0 : ℤ), (1 : ℤ), ders) (dersStep p ndu r)
    .ok (a, ders)
  -- 161-165
  let (ders, _) ← forN 1 (order + 1).toNat (ders, (p : K)) fun k (ders, r) => do
    let ders ← forN 0 (p + 1) ders fun j ders => do
      let x ← get2 ders j k
      set2 ders j k (x * r)
    .ok (ders, r * ((p : K) - (k : K)))
  .ok ders

/-- `one_basis_function` (`spline/algorithms/basis.py:170-227`) for every index of the basis
function. -/
def oneBasisFunctionZ (degree : ℕ) (U : List K) (i : ℤ) (knot : K) : Py K := do
  let first ← pyGet U 0
  let last ← pyGet U ((U.length : ℤ) - 1)
  if (i = 0 ∧ knot = first) ∨ (i = (U.length : ℤ) - degree - 2 ∧ knot = last) then .ok 1
  else do
    let lo ← pyGet U i
    if knot < lo then .ok 0
    else do
    let hi ← pyGet U (i + degree + 1)
    if knot > hi then .ok 0
    else do
      -- 203-207
      let N : List K ← zerosZ (i + degree + 1)
      let N ← forN 0 (degree + 1) N fun j N => do
        let a ← pyGet U (i + j)
        let b ← pyGet U (i + j + 1)
        if a ≤ knot ∧ knot < b then pySet N j 1 else .ok N
      -- 210-225
      let N ← forN 1 (degree + 1) N fun k N => do
        let n0 ← pyGet N 0
        let saved ← (if n0 ≠ 0 then (do
            let a ← pyGet U i
            let b ← pyGet U (i + k)
            pyDiv ((knot - a) * n0) (b - a))
          else .ok 0)
        let (N, _) ← forN 0 (degree - k + 1) (N, saved) fun j (N, saved) => do
          let uleft ← pyGet U (i + j + 1)
          let uright ← pyGet U (i + j + k + 1)
          let nj ← pyGet N ((j : ℤ) + 1)
          if nj = 0 then do
            let N ← pySet N j saved
            .ok (N, 0)
          else do
            let temp ← pyDiv nj (uright - uleft)
            let N ← pySet N j (saved + (uright - knot) * temp)
            .ok (N, (knot - uleft) * temp)
        .ok N
      pyGet N 0

/-- The table-building part of `one_basis_function_ders`
(`spline/algorithms/basis.py:264-289`). -/
def oneBasisTableZ (degree : ℕ) (U : List K) (i : ℤ) (knot : K) : Py (List (List K)) := do
  let N : List (List K) := zeros2 (degree + 1) (degree + 1)
  let N ← forN 0 (degree + 1) N fun j N => do
    let a ← pyGet U (i + j)
    let b ← pyGet U (i + j + 1)
    if a ≤ knot ∧ knot < b then set2 N j 0 (1 : K) else .ok N
  forN 1 (degree + 1) N fun k N => do
    let n0 ← get2 N 0 ((k : ℤ) - 1)
    let saved ← (if n0 ≠ 0 then (do
        let a ← pyGet U i
        let b ← pyGet U (i + k)
        pyDiv ((knot - a) * n0) (b - a))
      else .ok 0)
    let (N, _) ← forN 0 (degree - k + 1) (N, saved) fun j (N, saved) => do
      let uleft ← pyGet U (i + j + 1)
      let uright ← pyGet U (i + j + k + 1)
      let nj ← get2 N ((j : ℤ) + 1) ((k : ℤ) - 1)
      if nj = 0 then do
        let N ← set2 N j k saved
        .ok (N, 0)
      else do
        let temp ← pyDiv nj (uright - uleft)
        let N ← set2 N j k (saved + (uright - knot) * temp)
        .ok (N, (knot - uleft) * temp)
    .ok N

/-- `one_basis_function_ders` (`spline/algorithms/basis.py:230-320`) for every index of the basis
function and every order. -/
def oneBasisFunctionDersZ (degree : ℕ) (U : List K) (i : ℤ) (knot : K) (order : ℤ) :
    Py (List K) := do
  let ders : List K ← zerosZ (order + 1)
  let lo ← pyGet U i
  if knot < lo then .ok ders
  else do
  let hi ← pyGet U (i + degree + 1)
  if knot ≥ hi then .ok ders
  else do
    let N ← oneBasisTableZ degree U i knot
    let v ← get2 N 0 degree
    let ders ← pySet ders 0 v
    -- 294-318
    let ND : List K := zeros (order + 1).toNat
    let (ders, _) ← forN 1 (order + 1).toNat (ders, ND) fun k (ders, ND) => do
      let ND ← forN 0 (k + 1) ND fun j ND => do
        let x ← get2 N j ((degree : ℤ) - k)
        pySet ND j x
      let ND ← forN 1 (k + 1) ND fun jj ND => do
        let nd0 ← pyGet ND 0
        let saved ← (if nd0 ≠ 0 then (do
            let b ← pyGet U (i + degree - k + jj)
            let a ← pyGet U i
            pyDiv nd0 (b - a))
          else .ok 0)
        let (ND, _) ← forN 0 (k - jj + 1) (ND, saved) fun j (ND, saved) => do
          let uleft ← pyGet U (i + j + 1)
          let uright ← pyGet U (i + j + degree - k + jj + 1)
          let nj ← pyGet ND ((j : ℤ) + 1)
          if nj = 0 then do
            let ND ← pySet ND j (((degree : K) - k + jj) * saved)
            .ok (ND, 0)
          else do
            let temp ← pyDiv nj (uright - uleft)
            let ND ← pySet ND j (((degree : K) - k + jj) * (saved - temp))
            .ok (ND, temp)
        .ok ND
      let nd0 ← pyGet ND 0
      let ders ← pySet ders k nd0
      .ok (ders, ND)
    .ok ders

/-- `curve_knot_insertion` (`spline/algorithms/knots.py:174-253`) for every number of insertions. -/
def curveKnotInsertionZ (p : ℕ) (U : List K) (P : List (List K)) (u : K) (r : ℤ) :
    Py (List K × List (List K)) := do
  -- 203-205
  let k ← findSpan P.length p u U
  let s : ℤ := (findMultiplicity u U : ℤ)
  -- 208-214
  let oldLen : ℤ := (P.length : ℤ) + p + 1
  let newKv : List K ← zerosZ (U.length + r)
  let newP : List (List K) ← zeros2Z (P.length + r) 3
  let R : List (List K) := zeros2 (p + 1) 3
  -- 217-224
  let newKv ← forZ 0 (k + 1) newKv fun i kv => do
    let x ← pyGet U i
    pySet kv i x
  let newKv ← forZ 1 (r + 1) newKv fun i kv => pySet kv (k + i) u
  let newKv ← forZ (k + 1) oldLen newKv fun i kv => do
    let x ← pyGet U i
    pySet kv (i + r) x
  -- 227-234
  let newP ← forZ 0 (k - p + 1) newP fun i m => do
    let row ← pyGet P i
    assignRow m i row
  let newP ← forZ (k - s) P.length newP fun i m => do
    let row ← pyGet P i
    assignRow m (i + r) row
  let R ← forZ 0 ((p : ℤ) - s + 1) R fun i m => do
    let row ← pyGet P (k - p + i)
    assignRow m i row
  -- 237-246
  let (newP, R) ← forZ 1 (r + 1) (newP, R) fun j (newP, R) => do
    let L : ℤ := k - p + j
    let R ← forZ 0 ((p : ℤ) - j - s + 1) R fun i R => do
      let a ← pyGet U (L + i)
      let b ← pyGet U (i + k + 1)
      let alpha ← pyDiv (u - a) (b - a)
      let x ← pyGet R (i + 1)
      let y ← pyGet R i
      assignRow R i (rowComb alpha x (1 - alpha) y)
    let r0 ← pyGet R 0
    let newP ← assignRow newP L r0
    let r1 ← pyGet R ((p : ℤ) - j - s)
    let newP ← assignRow newP (k + r - j - s) r1
    .ok (newP, R)
  -- 249-251
  let L : ℤ := k - p + r
  let newP ← forZ (L + 1) (k - s) newP fun i m => do
    let row ← pyGet R (i - L)
    assignRow m i row
  .ok (newKv, newP)

/-- `BSplineSurface.derivatives` (`spline/model/bspline.py:249-319`) for every pair of orders. -/
def Surface.derivativesZ (norm : List K → K) (s : Surface K) (u v : K) (orderU orderV : ℤ)
    (normalize : Bool) : Py (List (List K)) :=
  if validateKnot u = false then .error .valueError
  else if validateKnot v = false then .error .valueError
  else do
    let maxU := min orderU s.degreeU
    let maxV := min orderV s.degreeV
    let uSpan ← findSpan s.numU s.degreeU u s.kvU
    let vSpan ← findSpan s.numV s.degreeV v s.kvV
    let du ← basisFunctionDersZ uSpan u s.degreeU s.kvU maxU
    let dv ← basisFunctionDersZ vSpan v s.degreeV s.kvV maxV
    let cx ← column s.ctrlpts 0
    let cy ← column s.ctrlpts 1
    let cz ← column s.ctrlpts 2
    let xa ← reshape2 cx s.numU s.numV
    let ya ← reshape2 cy s.numU s.numV
    let za ← reshape2 cz s.numU s.numV
    let xm := slice2 xa (uSpan - s.degreeU) (uSpan + 1) (vSpan - s.degreeV) (vSpan + 1)
    let ym := slice2 ya (uSpan - s.degreeU) (uSpan + 1) (vSpan - s.degreeV) (vSpan + 1)
    let zm := slice2 za (uSpan - s.degreeU) (uSpan + 1) (vSpan - s.degreeV) (vSpan + 1)
    let derivs : List (List K) ← zeros2Z ((maxU + 1) * (maxV + 1)) 3
    let (derivs, _) ← forN 0 (maxU + 1).toNat (derivs, (0 : ℕ)) fun uRow st =>
      forN 0 (maxV + 1).toNat st fun vRow (derivs, index) => do
        let bu ← column du uRow
        let bv ← column dv vRow
        let x ← bilinear bu xm bv
        let y ← bilinear bu ym bv
        let z ← bilinear bu zm bv
        let val ← normalizeRow norm normalize (index == 0) [x, y, z]
        let derivs ← assignRow derivs index val
        .ok (derivs, index + 1)
    .ok derivs

end

end PySpline
