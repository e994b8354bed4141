import Verif.Model.Rounded

/-!
# Derivatives in rounded arithmetic

`basis_function_ders` and `BSplineSurface.derivatives` as in `Model/Basis.lean` and
`Model/BSpline.lean`, with a rounding function `fl` applied to the result of every arithmetic
operation.  A change of sign is exact.
-/

namespace PySpline

section
variable {K : Type} [Field K] [LinearOrder K]

/-- The basis function triangle (`spline/algorithms/basis.py:96-116`). -/
def nduTableFl (fl : K → K) (span : ℤ) (knot : K) (degree : ℕ) (U : List K) : Py (List (List K)) := do
  let ndu : List (List K) := ones2 (degree + 1) (degree + 1)
  let ndu ← set2 ndu 0 0 (1 : K)
  let left : List K := ones (degree + 1)
  let right : List K := ones (degree + 1)
  let (ndu, _, _) ← forN 1 (degree + 1) (ndu, left, right) fun j (ndu, left, right) => do
    let a ← pyGet U (span + 1 - j)
    let left ← pySet left j (fl (knot - a))
    let b ← pyGet U (span + j)
    let right ← pySet right j (fl (b - knot))
    let (ndu, saved) ← forN 0 j (ndu, (0 : K)) fun r (ndu, saved) => do
      let rr ← pyGet right ((r : ℤ) + 1)
      let lf ← pyGet left ((j : ℤ) - r)
      let ndu ← set2 ndu j r (fl (rr + lf))
      let x ← get2 ndu r ((j : ℤ) - 1)
      let y ← get2 ndu j r
      let temp ← pyDivFl fl x y
      let ndu ← set2 ndu r j (fl (saved + fl (rr * temp)))
      .ok (ndu, fl (lf * temp))
    let ndu ← set2 ndu j j saved
    .ok (ndu, left, right)
  .ok ndu

/-- One derivative order in one row (`spline/algorithms/basis.py:129-158`). -/
def dersStepFl (fl : K → K) (degree : ℕ) (ndu : List (List K)) (r : ℕ) (k : ℕ)
    (st : List (List K) × ℤ × ℤ × List (List K)) :
    Py (List (List K) × ℤ × ℤ × List (List K)) := do
  let (a, s1, s2, ders) := st
  let d : K := 0
  let rk : ℤ := (r : ℤ) - k
  let pk : ℤ := (degree : ℤ) - k
  let (a, d) ← (if r ≥ k then (do
      let x ← get2 a s1 0
      let y ← get2 ndu (pk + 1) rk
      let q ← pyDivFl fl x y
      let a ← set2 a s2 0 q
      let x ← get2 a s2 0
      let y ← get2 ndu rk pk
      .ok (a, fl (x * y)))
    else .ok (a, d))
  let j1 : ℤ := if rk ≥ -1 then 1 else -rk
  let j2 : ℤ := if (r : ℤ) - 1 ≤ pk then (k : ℤ) - 1 else (degree : ℤ) - r
  let (a, d) ← forZ j1 (j2 + 1) (a, d) fun j (a, d) => do
    let x ← get2 a s1 j
    let y ← get2 a s1 (j - 1)
    let z ← get2 ndu (pk + 1) (rk + j)
    let q ← pyDivFl fl (fl (x - y)) z
    let a ← set2 a s2 j q
    let x ← get2 a s2 j
    let y ← get2 ndu (rk + j) pk
    .ok (a, fl (d + fl (x * y)))
  let (a, d) ← (if (r : ℤ) ≤ pk then (do
      let x ← get2 a s1 ((k : ℤ) - 1)
      let y ← get2 ndu (pk + 1) r
      let q ← pyDivFl fl (-x) y
      let a ← set2 a s2 k q
      let x ← get2 a s2 k
      let y ← get2 ndu r pk
      .ok (a, fl (d + fl (x * y))))
    else .ok (a, d))
  let ders ← set2 ders r k d
  .ok (a, s2, s1, ders)

/-- `basis_function_ders` (`spline/algorithms/basis.py:57-167`).  The factor `r` of lines 161-165 is a
Python integer, so `r *= degree - k` is exact; it is rounded when a float is multiplied by it. -/
def basisFunctionDersFl (fl : K → K) (span : ℤ) (knot : K) (degree : ℕ) (U : List K) (order : ℕ) :
    Py (List (List K)) := do
  let ders : List (List K) := zeros2 (degree + 1) (order + 1)
  let a : List (List K) := ones2 2 (degree + 1)
  let ndu ← nduTableFl fl span knot degree U
  -- 119-120
  let ders ← forN 0 (degree + 1) ders fun j ders => do
    let x ← get2 ndu j degree
    set2 ders j 0 x
  -- 123-158
  let (_, ders) ← forN 0 (degree + 1) (a, ders) fun r (a, ders) => do
    let a ← set2 a 0 0 (1 : K)
    let (a, _, _, ders) ← forN 1 (order + 1) (a, (0 : ℤ), (1 : ℤ), ders) (dersStepFl fl degree ndu r)
    .ok (a, ders)
  -- 161-165
  let (ders, _) ← forN 1 (order + 1) (ders, (degree : K)) fun k (ders, r) => do
    let ders ← forN 0 (degree + 1) ders fun j ders => do
      let x ← get2 ders j k
      set2 ders j k (fl (x * fl r))
    .ok (ders, r * ((degree : K) - (k : K)))
  .ok ders

/-- `BSplineSurface.derivatives` with `normalize=False` (`spline/model/bspline.py:249-319`): `derivs` is
a possible result.  Row `uRow * (max_order_v + 1) + vRow` holds the mixed derivative of orders `uRow`
and `vRow`. -/
def Surface.DerivativesFl (fl : K → K) (close : K → K → Bool) (s : Surface K) (u v : K)
    (orderU orderV : ℕ) (derivs : List (List K)) : Prop :=
  ∃ uSpan vSpan du dv, validateKnot u = true ∧ validateKnot v = true ∧
    findSpanWith close (spanFuel s.numU s.degreeU) s.numU s.degreeU u s.kvU = .ok uSpan ∧
    findSpanWith close (spanFuel s.numV s.degreeV) s.numV s.degreeV v s.kvV = .ok vSpan ∧
    basisFunctionDersFl fl uSpan u s.degreeU s.kvU (min orderU s.degreeU) = .ok du ∧
    basisFunctionDersFl fl vSpan v s.degreeV s.kvV (min orderV s.degreeV) = .ok dv ∧
    ∃ cx cy cz xa ya za,
      column s.ctrlpts 0 = .ok cx ∧ column s.ctrlpts 1 = .ok cy ∧ column s.ctrlpts 2 = .ok cz ∧
      reshape2 cx s.numU s.numV = .ok xa ∧ reshape2 cy s.numU s.numV = .ok ya ∧
      reshape2 cz s.numU s.numV = .ok za ∧
      derivs.length = (min orderU s.degreeU + 1) * (min orderV s.degreeV + 1) ∧
      ∀ uRow ≤ min orderU s.degreeU, ∀ vRow ≤ min orderV s.degreeV, ∃ bu bv x y z,
        column du uRow = .ok bu ∧ column dv vRow = .ok bv ∧
        BilinearFl fl bu
          (slice2 xa (uSpan - s.degreeU) (uSpan + 1) (vSpan - s.degreeV) (vSpan + 1)) bv x ∧
        BilinearFl fl bu
          (slice2 ya (uSpan - s.degreeU) (uSpan + 1) (vSpan - s.degreeV) (vSpan + 1)) bv y ∧
        BilinearFl fl bu
          (slice2 za (uSpan - s.degreeU) (uSpan + 1) (vSpan - s.degreeV) (vSpan + 1)) bv z ∧
        derivs.getD (uRow * (min orderV s.degreeV + 1) + vRow) [] = [x, y, z]

end

end PySpline
