import Verif.Py

/-!
# Model of `spline/algorithms/basis.py`

`knot_span` is an integer index, `degree` and `deriv_order` are natural numbers.
-/

namespace PySpline

variable {K : Type} [Field K] [LinearOrder K]

/-- `basis_functions` (`spline/algorithms/basis.py:10-54`). -/
def basisFunctions (span : ℤ) (knot : K) (degree : ℕ) (U : List K) : Py (List K) := do
  let N : List K := ones (degree + 1)
  let left : List K := zeros (degree + 1)
  let right : List K := zeros (degree + 1)
  let (N, _, _) ← forN 1 (degree + 1) (N, left, right) fun j (N, left, right) => do
    let a ← pyGet U (span + 1 - j)
    let left ← pySet left j (knot - a)
    let b ← pyGet U (span + j)
    let right ← pySet right j (b - knot)
    let (N, saved) ← forN 0 j (N, (0 : K)) fun r (N, saved) => do
      let nr ← pyGet N r
      let rr ← pyGet right ((r : ℤ) + 1)
      let lf ← pyGet left ((j : ℤ) - r)
      let temp ← pyDiv nr (rr + lf)
      let N ← pySet N r (saved + rr * temp)
      .ok (N, lf * temp)
    let N ← pySet N j saved
    .ok (N, left, right)
  .ok N

/-- The triangle-building loop of `basis_function_ders`
(`spline/algorithms/basis.py:96-116`): the array `ndu` with the basis function values of all
degrees in the upper triangle and the knot differences in the lower one. -/
def nduTable (span : ℤ) (knot : K) (degree : ℕ) (U : List K) : Py (List (List K)) := do
  let ndu : List (List K) := ones2 (degree + 1) (degree + 1)
  let ndu ← set2 ndu 0 0 (1 : K)
  let left : List K := ones (degree + 1)
  let right : List K := ones (degree + 1)
  let (ndu, _, _) ← forN 1 (degree + 1) (ndu, left, right) fun j (ndu, left, right) => do
    let a ← pyGet U (span + 1 - j)
    let left ← pySet left j (knot - a)
    let b ← pyGet U (span + j)
    let right ← pySet right j (b - knot)
    let (ndu, saved) ← forN 0 j (ndu, (0 : K)) fun r (ndu, saved) => do
      let rr ← pyGet right ((r : ℤ) + 1)
      let lf ← pyGet left ((j : ℤ) - r)
      let ndu ← set2 ndu j r (rr + lf)
      let x ← get2 ndu r ((j : ℤ) - 1)
      let y ← get2 ndu j r
      let temp ← pyDiv x y
      let ndu ← set2 ndu r j (saved + rr * temp)
      .ok (ndu, lf * temp)
    let ndu ← set2 ndu j j saved
    .ok (ndu, left, right)
  .ok ndu

/-- One pass of the loop over `k` for a fixed row `r` (`spline/algorithms/basis.py:129-158`).
The state is `(a, s1, s2, ders)`. -/
def dersStep (degree : ℕ) (ndu : List (List K)) (r : ℕ) (k : ℕ)
    (st : List (List K) × ℤ × ℤ × List (List K)) :
    Py (List (List K) × ℤ × ℤ × List (List K)) := do
  let (a, s1, s2, ders) := st
  let d : K := 0
  let rk : ℤ := (r : ℤ) - k
  let pk : ℤ := (degree : ℤ) - k
  let (a, d) ← (if r ≥ k then (do
      let x ← get2 a s1 0
      let y ← get2 ndu (pk + 1) rk
      let q ← pyDiv x y
      let a ← set2 a s2 0 q
      let x ← get2 a s2 0
      let y ← get2 ndu rk pk
      .ok (a, x * y))
    else .ok (a, d))
  let j1 : ℤ := if rk ≥ -1 then 1 else -rk
  let j2 : ℤ := if (r : ℤ) - 1 ≤ pk then (k : ℤ) - 1 else (degree : ℤ) - r
  let (a, d) ← forZ j1 (j2 + 1) (a, d) fun j (a, d) => do
    let x ← get2 a s1 j
    let y ← get2 a s1 (j - 1)
    let z ← get2 ndu (pk + 1) (rk + j)
    let q ← pyDiv (x - y) z
    let a ← set2 a s2 j q
    let x ← get2 a s2 j
    let y ← get2 ndu (rk + j) pk
    .ok (a, d + x * y)
  let (a, d) ← (if (r : ℤ) ≤ pk then (do
      let x ← get2 a s1 ((k : ℤ) - 1)
      let y ← get2 ndu (pk + 1) r
      let q ← pyDiv (-x) y
      let a ← set2 a s2 k q
      let x ← get2 a s2 k
      let y ← get2 ndu r pk
      .ok (a, d + x * y))
    else .ok (a, d))
  let ders ← set2 ders r k d
  .ok (a, s2, s1, ders)

/-- `basis_function_ders` (`spline/algorithms/basis.py:57-167`).  The array `a` is allocated
once and keeps old entries from one row to the next, as in the code. -/
def basisFunctionDers (span : ℤ) (knot : K) (degree : ℕ) (U : List K) (order : ℕ) :
    Py (List (List K)) := do
  let ders : List (List K) := zeros2 (degree + 1) (order + 1)
  let a : List (List K) := ones2 2 (degree + 1)
  let ndu ← nduTable span knot degree U
  -- 119-120
  let ders ← forN 0 (degree + 1) ders fun j ders => do
    let x ← get2 ndu j degree
    set2 ders j 0 x
  -- 123-158
  let (_, ders) ← forN 0 (degree + 1) (a, ders) fun r (a, ders) => do
    let a ← set2 a 0 0 (1 : K)
    let (a, _, _, ders) ← forN 1 (order + 1) (a, (0 : ℤ), (1 : ℤ), ders) (dersStep degree ndu r)
    .ok (a, ders)
  -- 161-165
  let (ders, _) ← forN 1 (order + 1) (ders, (degree : K)) fun k (ders, r) => do
    let ders ← forN 0 (degree + 1) ders fun j ders => do
      let x ← get2 ders j k
      set2 ders j k (x * r)
    .ok (ders, r * ((degree : K) - (k : K)))
  .ok ders

/-- `one_basis_function` (`spline/algorithms/basis.py:170-227`); `i` is the argument
`knot_span`, the index of the basis function. -/
def oneBasisFunction (degree : ℕ) (U : List K) (i : ℕ) (knot : K) : Py K := do
  -- 194-196.  Both ends are read first here; Python reads them only when the index test before
  -- succeeds.  This differs only for an empty array, where line 199 raises the same error.
  let first ← pyGet U 0
  let last ← pyGet U ((U.length : ℤ) - 1)
  if (i = 0 ∧ knot = first) ∨ ((i : ℤ) = (U.length : ℤ) - degree - 2 ∧ knot = last) then .ok 1
  else do
    -- 199-200, `or` short-circuits: the second knot is read only when the first test fails
    let lo ← pyGet U i
    if knot < lo then .ok 0
    else do
    let hi ← pyGet U ((i : ℤ) + degree + 1)
    if knot > hi then .ok 0
    else do
      -- 203-207
      let N : List K := zeros (i + degree + 1)
      let N ← forN 0 (degree + 1) N fun j N => do
        let a ← pyGet U ((i : ℤ) + j)
        let b ← pyGet U ((i : ℤ) + j + 1)
        if a ≤ knot ∧ knot < b then pySet N j 1 else .ok N
      -- 210-225
      let N ← forN 1 (degree + 1) N fun k N => do
        let n0 ← pyGet N 0
        let saved ← (if n0 ≠ 0 then (do
            let a ← pyGet U i
            let b ← pyGet U ((i : ℤ) + k)
            pyDiv ((knot - a) * n0) (b - a))
          else .ok 0)
        let (N, _) ← forN 0 (degree - k + 1) (N, saved) fun j (N, saved) => do
          let uleft ← pyGet U ((i : ℤ) + j + 1)
          let uright ← pyGet U ((i : ℤ) + j + k + 1)
          let nj ← pyGet N ((j : ℤ) + 1)
          if nj = 0 then do
            let N ← pySet N j saved
            .ok (N, 0)
          else do
            let temp ← pyDiv nj (uright - uleft)
            let N ← pySet N j (saved + (uright - knot) * temp)
            .ok (N, (knot - uleft) * temp)
        .ok N
      pyGet N 0

/-- The table-building part of `one_basis_function_ders`
(`spline/algorithms/basis.py:264-289`). -/
def oneBasisTable (degree : ℕ) (U : List K) (i : ℕ) (knot : K) : Py (List (List K)) := do
  let N : List (List K) := zeros2 (degree + 1) (degree + 1)
  let N ← forN 0 (degree + 1) N fun j N => do
    let a ← pyGet U ((i : ℤ) + j)
    let b ← pyGet U ((i : ℤ) + j + 1)
    if a ≤ knot ∧ knot < b then set2 N j 0 (1 : K) else .ok N
  forN 1 (degree + 1) N fun k N => do
    let n0 ← get2 N 0 ((k : ℤ) - 1)
    let saved ← (if n0 ≠ 0 then (do
        let a ← pyGet U i
        let b ← pyGet U ((i : ℤ) + k)
        pyDiv ((knot - a) * n0) (b - a))
      else .ok 0)
    let (N, _) ← forN 0 (degree - k + 1) (N, saved) fun j (N, saved) => do
      let uleft ← pyGet U ((i : ℤ) + j + 1)
      let uright ← pyGet U ((i : ℤ) + j + k + 1)
      let nj ← get2 N ((j : ℤ) + 1) ((k : ℤ) - 1)
      if nj = 0 then do
        let N ← set2 N j k saved
        .ok (N, 0)
      else do
        let temp ← pyDiv nj (uright - uleft)
        let N ← set2 N j k (saved + (uright - knot) * temp)
        .ok (N, (knot - uleft) * temp)
    .ok N

/-- `one_basis_function_ders` (`spline/algorithms/basis.py:230-320`); `i` is the argument
`knot_span`, the index of the basis function. -/
def oneBasisFunctionDers (degree : ℕ) (U : List K) (i : ℕ) (knot : K) (order : ℕ) :
    Py (List K) := do
  let ders : List K := zeros (order + 1)
  -- 261-262, `or` short-circuits
  let lo ← pyGet U i
  if knot < lo then .ok ders
  else do
  let hi ← pyGet U ((i : ℤ) + degree + 1)
  if knot ≥ hi then .ok ders
  else do
    let N ← oneBasisTable degree U i knot
    let v ← get2 N 0 degree
    let ders ← pySet ders 0 v
    -- 294-318
    let ND : List K := zeros (order + 1)
    let (ders, _) ← forN 1 (order + 1) (ders, ND) fun k (ders, ND) => do
      let ND ← forN 0 (k + 1) ND fun j ND => do
        let x ← get2 N j ((degree : ℤ) - k)
        pySet ND j x
      let ND ← forN 1 (k + 1) ND fun jj ND => do
        let nd0 ← pyGet ND 0
        let saved ← (if nd0 ≠ 0 then (do
            let b ← pyGet U ((i : ℤ) + degree - k + jj)
            let a ← pyGet U i
            pyDiv nd0 (b - a))
          else .ok 0)
        let (ND, _) ← forN 0 (k - jj + 1) (ND, saved) fun j (ND, saved) => do
          let uleft ← pyGet U ((i : ℤ) + j + 1)
          let uright ← pyGet U ((i : ℤ) + j + degree - k + jj + 1)
          let nj ← pyGet ND ((j : ℤ) + 1)
          if nj = 0 then do
            let ND ← pySet ND j (((degree : K) - k + jj) * saved)
            .ok (ND, 0)
          else do
            let temp ← pyDiv nj (uright - uleft)
            let ND ← pySet ND j (((degree : K) - k + jj) * (saved - temp))
            .ok (ND, temp)
        .ok ND
      let nd0 ← pyGet ND 0
      let ders ← pySet ders k nd0
      .ok (ders, ND)
    .ok ders

end PySpline
