import Verif.Model.RoundedFit

/-!
# `one_basis_function_ders` in rounded arithmetic

As `Model/Basis.lean`, with every operation on floats followed by the rounding function `fl`.
-/

namespace PySpline

section
variable {K : Type} [Field K] [LinearOrder K]

/-- The table-building part of `one_basis_function_ders` (`spline/algorithms/basis.py:264-289`). -/
def oneBasisTableFl (fl : K → K) (degree : ℕ) (U : List K) (i : ℕ) (knot : K) : Py (List (List K)) := do
  let N : List (List K) := zeros2 (degree + 1) (degree + 1)
  let N ← forN 0 (degree + 1) N fun j N => do
    let a ← pyGet U ((i : ℤ) + j)
    let b ← pyGet U ((i : ℤ) + j + 1)
    if a ≤ knot ∧ knot < b then set2 N j 0 (1 : K) else .ok N
  forN 1 (degree + 1) N fun k N => do
    let n0 ← get2 N 0 ((k : ℤ) - 1)
    let saved ← (if n0 ≠ 0 then (do
        let a ← pyGet U i
        let b ← pyGet U ((i : ℤ) + k)
        pyDivFl fl (fl (fl (knot - a) * n0)) (fl (b - a)))
      else .ok 0)
    let (N, _) ← forN 0 (degree - k + 1) (N, saved) fun j (N, saved) => do
      let uleft ← pyGet U ((i : ℤ) + j + 1)
      let uright ← pyGet U ((i : ℤ) + j + k + 1)
      let nj ← get2 N ((j : ℤ) + 1) ((k : ℤ) - 1)
      if nj = 0 then do
        let N ← set2 N j k saved
        .ok (N, 0)
      else do
        let temp ← pyDivFl fl nj (fl (uright - uleft))
        let N ← set2 N j k (fl (saved + fl (fl (uright - knot) * temp)))
        .ok (N, fl (fl (knot - uleft) * temp))
    .ok N

/-- The body of the loop over the orders in `one_basis_function_ders`
(`spline/algorithms/basis.py:297-318`); the integer factor is a machine number. -/
def oneDersStepFl (fl : K → K) (degree : ℕ) (U : List K) (i : ℕ) (N : List (List K)) (k : ℕ) :
    List K × List K → Py (List K × List K) := fun (ders, ND) => do
  let ND ← forN 0 (k + 1) ND fun j ND => do
    let x ← get2 N j ((degree : ℤ) - k)
    pySet ND j x
  let ND ← forN 1 (k + 1) ND fun jj ND => do
    let nd0 ← pyGet ND 0
    let saved ← (if nd0 ≠ 0 then (do
        let b ← pyGet U ((i : ℤ) + degree - k + jj)
        let a ← pyGet U i
        pyDivFl fl nd0 (fl (b - a)))
      else .ok 0)
    let (ND, _) ← forN 0 (k - jj + 1) (ND, saved) fun j (ND, saved) => do
      let uleft ← pyGet U ((i : ℤ) + j + 1)
      let uright ← pyGet U ((i : ℤ) + j + degree - k + jj + 1)
      let nj ← pyGet ND ((j : ℤ) + 1)
      if nj = 0 then do
        let ND ← pySet ND j (fl (((degree : K) - k + jj) * saved))
        .ok (ND, 0)
      else do
        let temp ← pyDivFl fl nj (fl (uright - uleft))
        let ND ← pySet ND j (fl (((degree : K) - k + jj) * fl (saved - temp)))
        .ok (ND, temp)
    .ok ND
  let nd0 ← pyGet ND 0
  let ders ← pySet ders k nd0
  .ok (ders, ND)

/-- `one_basis_function_ders` (`spline/algorithms/basis.py:230-320`); `i` is the argument `knot_span`,
the index of the basis function. -/
def oneBasisFunctionDersFl (fl : K → K) (degree : ℕ) (U : List K) (i : ℕ) (knot : K) (order : ℕ) :
    Py (List K) := do
  let ders : List K := zeros (order + 1)
  -- 261-262, `or` short-circuits
  let lo ← pyGet U i
  if knot < lo then .ok ders
  else do
  let hi ← pyGet U ((i : ℤ) + degree + 1)
  if knot ≥ hi then .ok ders
  else do
    let N ← oneBasisTableFl fl degree U i knot
    let v ← get2 N 0 degree
    let ders ← pySet ders 0 v
    -- 294-318
    let ND : List K := zeros (order + 1)
    let (ders, _) ← forN 1 (order + 1) (ders, ND) (oneDersStepFl fl degree U i N)
    .ok ders

end

end PySpline
