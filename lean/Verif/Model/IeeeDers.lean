import Verif.Model.Ieee

/-!
# Derivatives in IEEE arithmetic with overflow and underflow

`basis_function_ders` and `BSplineSurface.derivatives` with the function `rd` of `Model/Ieee.lean`
applied to the result of every arithmetic operation.  A change of sign is exact.  With `rd = fin` these
are the functions of `Model/Extended.lean`, with `rd = fin ∘ fl` those of `Model/RoundedDers.lean`
(`Props/IeeeDers.lean`).
-/

namespace PySpline

open Ext

section
variable {K : Type} [Field K] [LinearOrder K]

/-- The basis function triangle (`spline/algorithms/basis.py:96-116`). -/
def nduTableR (rd : K → Ext K) (span : ℤ) (knot : Ext K) (degree : ℕ) (U : List (Ext K)) :
    Py (List (List (Ext K))) := do
  let ndu : List (List (Ext K)) := ones2E (degree + 1) (degree + 1)
  let ndu ← set2 ndu 0 0 (1 : Ext K)
  let left : List (Ext K) := List.replicate (degree + 1) 1
  let right : List (Ext K) := List.replicate (degree + 1) 1
  let (ndu, _, _) ← forN 1 (degree + 1) (ndu, left, right) fun j (ndu, left, right) => do
    let a ← pyGet U (span + 1 - j)
    let left ← pySet left j (rnd rd (knot - a))
    let b ← pyGet U (span + j)
    let right ← pySet right j (rnd rd (b - knot))
    let (ndu, saved) ← forN 0 j (ndu, (0 : Ext K)) fun r (ndu, saved) => do
      let rr ← pyGet right ((r : ℤ) + 1)
      let lf ← pyGet left ((j : ℤ) - r)
      let ndu ← set2 ndu j r (rnd rd (rr + lf))
      let x ← get2 ndu r ((j : ℤ) - 1)
      let y ← get2 ndu j r
      let temp := rnd rd (x / y)
      let ndu ← set2 ndu r j (rnd rd (saved + rnd rd (rr * temp)))
      .ok (ndu, rnd rd (lf * temp))
    let ndu ← set2 ndu j j saved
    .ok (ndu, left, right)
  .ok ndu

/-- One derivative order in one row (`spline/algorithms/basis.py:129-158`). -/
def dersStepR (rd : K → Ext K) (degree : ℕ) (ndu : List (List (Ext K))) (r : ℕ) (k : ℕ)
    (st : List (List (Ext K)) × ℤ × ℤ × List (List (Ext K))) :
    Py (List (List (Ext K)) × ℤ × ℤ × List (List (Ext K))) := do
  let (a, s1, s2, ders) := st
  let d : Ext K := 0
  let rk : ℤ := (r : ℤ) - k
  let pk : ℤ := (degree : ℤ) - k
  let (a, d) ← (if r ≥ k then (do
      let x ← get2 a s1 0
      let y ← get2 ndu (pk + 1) rk
      let a ← set2 a s2 0 (rnd rd (x / y))
      let x ← get2 a s2 0
      let y ← get2 ndu rk pk
      .ok (a, rnd rd (x * y)))
    else .ok (a, d))
  let j1 : ℤ := if rk ≥ -1 then 1 else -rk
  let j2 : ℤ := if (r : ℤ) - 1 ≤ pk then (k : ℤ) - 1 else (degree : ℤ) - r
  let (a, d) ← forZ j1 (j2 + 1) (a, d) fun j (a, d) => do
    let x ← get2 a s1 j
    let y ← get2 a s1 (j - 1)
    let z ← get2 ndu (pk + 1) (rk + j)
    let a ← set2 a s2 j (rnd rd (rnd rd (x - y) / z))
    let x ← get2 a s2 j
    let y ← get2 ndu (rk + j) pk
    .ok (a, rnd rd (d + rnd rd (x * y)))
  let (a, d) ← (if (r : ℤ) ≤ pk then (do
      let x ← get2 a s1 ((k : ℤ) - 1)
      let y ← get2 ndu (pk + 1) r
      let a ← set2 a s2 k (rnd rd (-x / y))
      let x ← get2 a s2 k
      let y ← get2 ndu r pk
      .ok (a, rnd rd (d + rnd rd (x * y))))
    else .ok (a, d))
  let ders ← set2 ders r k d
  .ok (a, s2, s1, ders)

/-- `basis_function_ders` (`spline/algorithms/basis.py:57-167`).  The factor `r` of lines 161-165 is a
Python integer, so `r *= degree - k` is exact; it is rounded when a float is multiplied by it. -/
def basisFunctionDersR (rd : K → Ext K) (span : ℤ) (knot : Ext K) (degree : ℕ) (U : List (Ext K))
    (order : ℕ) : Py (List (List (Ext K))) := do
  let ders : List (List (Ext K)) := zeros2E (degree + 1) (order + 1)
  let a : List (List (Ext K)) := ones2E 2 (degree + 1)
  let ndu ← nduTableR rd span knot degree U
  -- 119-120
  let ders ← forN 0 (degree + 1) ders fun j ders => do
    let x ← get2 ndu j degree
    set2 ders j 0 x
  -- 123-158
  let (_, ders) ← forN 0 (degree + 1) (a, ders) fun r (a, ders) => do
    let a ← set2 a 0 0 (1 : Ext K)
    let (a, _, _, ders) ← forN 1 (order + 1) (a, (0 : ℤ), (1 : ℤ), ders) (dersStepR rd degree ndu r)
    .ok (a, ders)
  -- 161-165
  let (ders, _) ← forN 1 (order + 1) (ders, (degree : K)) fun k (ders, r) => do
    let ders ← forN 0 (degree + 1) ders fun j ders => do
      let x ← get2 ders j k
      set2 ders j k (rnd rd (x * rd r))
    .ok (ders, r * ((degree : K) - (k : K)))
  .ok ders

/-- `BSplineSurface.derivatives` with `normalize=False` (`spline/model/bspline.py:249-319`): `derivs` is
a possible result.  Row `uRow * (max_order_v + 1) + vRow` holds the mixed derivative of orders `uRow`
and `vRow`. -/
def Surface.DerivativesR (rd : K → Ext K) (s : Surface (Ext K)) (u v : Ext K) (orderU orderV : ℕ)
    (derivs : List (List (Ext K))) : Prop :=
  ∃ uSpan vSpan du dv, validateKnotE u = true ∧ validateKnotE v = true ∧
    findSpanR rd s.numU s.degreeU u s.kvU = .ok uSpan ∧
    findSpanR rd s.numV s.degreeV v s.kvV = .ok vSpan ∧
    basisFunctionDersR rd uSpan u s.degreeU s.kvU (min orderU s.degreeU) = .ok du ∧
    basisFunctionDersR rd vSpan v s.degreeV s.kvV (min orderV s.degreeV) = .ok dv ∧
    ∃ cx cy cz xa ya za,
      columnE s.ctrlpts 0 = .ok cx ∧ columnE s.ctrlpts 1 = .ok cy ∧ columnE s.ctrlpts 2 = .ok cz ∧
      reshape2E cx s.numU s.numV = .ok xa ∧ reshape2E cy s.numU s.numV = .ok ya ∧
      reshape2E cz s.numU s.numV = .ok za ∧
      derivs.length = (min orderU s.degreeU + 1) * (min orderV s.degreeV + 1) ∧
      ∀ uRow ≤ min orderU s.degreeU, ∀ vRow ≤ min orderV s.degreeV, ∃ bu bv x y z,
        columnE du uRow = .ok bu ∧ columnE dv vRow = .ok bv ∧
        BilinearR rd bu
          (slice2E xa (uSpan - s.degreeU) (uSpan + 1) (vSpan - s.degreeV) (vSpan + 1)) bv x ∧
        BilinearR rd bu
          (slice2E ya (uSpan - s.degreeU) (uSpan + 1) (vSpan - s.degreeV) (vSpan + 1)) bv y ∧
        BilinearR rd bu
          (slice2E za (uSpan - s.degreeU) (uSpan + 1) (vSpan - s.degreeV) (vSpan + 1)) bv z ∧
        derivs.getD (uRow * (min orderV s.degreeV + 1) + vRow) [] = [x, y, z]

end

end PySpline
