import Verif.Model.Rounded

/-!
# The matrix of the fits in rounded arithmetic

`one_basis_function`, the matrices of `single_fit_curve` and `single_fit_surface` and the
partition-of-unity check as in `Model/Basis.lean` and `Model/Fitting.lean`, with a rounding function
`fl` applied to the result of every arithmetic operation.  The order in which `np.sum` adds is left
open.
-/

namespace PySpline

section
variable {K : Type} [Field K] [LinearOrder K]

/-- `one_basis_function` (`spline/algorithms/basis.py:170-227`). -/
def oneBasisFunctionFl (fl : K → K) (degree : ℕ) (U : List K) (i : ℕ) (knot : K) : Py K := do
  -- 194-196
  let first ← pyGet U 0
  let last ← pyGet U ((U.length : ℤ) - 1)
  if (i = 0 ∧ knot = first) ∨ ((i : ℤ) = (U.length : ℤ) - degree - 2 ∧ knot = last) then .ok 1
  else do
    -- 199-200
    let lo ← pyGet U i
    if knot < lo then .ok 0
    else do
    let hi ← pyGet U ((i : ℤ) + degree + 1)
    if knot > hi then .ok 0
    else do
      -- 203-207
      let N : List K := zeros (i + degree + 1)
      let N ← forN 0 (degree + 1) N fun j N => do
        let a ← pyGet U ((i : ℤ) + j)
        let b ← pyGet U ((i : ℤ) + j + 1)
        if a ≤ knot ∧ knot < b then pySet N j 1 else .ok N
      -- 210-225
      let N ← forN 1 (degree + 1) N fun k N => do
        let n0 ← pyGet N 0
        let saved ← (if n0 ≠ 0 then (do
            let a ← pyGet U i
            let b ← pyGet U ((i : ℤ) + k)
            pyDivFl fl (fl (fl (knot - a) * n0)) (fl (b - a)))
          else .ok 0)
        let (N, _) ← forN 0 (degree - k + 1) (N, saved) fun j (N, saved) => do
          let uleft ← pyGet U ((i : ℤ) + j + 1)
          let uright ← pyGet U ((i : ℤ) + j + k + 1)
          let nj ← pyGet N ((j : ℤ) + 1)
          if nj = 0 then do
            let N ← pySet N j saved
            .ok (N, 0)
          else do
            let temp ← pyDivFl fl nj (fl (uright - uleft))
            let N ← pySet N j (fl (saved + fl (fl (uright - knot) * temp)))
            .ok (N, fl (fl (knot - uleft) * temp))
        .ok N
      pyGet N 0

/-- The matrix `n_mat` of `single_fit_curve` (`fit/algorithms/fitting.py:87-105`). -/
def curveMatrixFl (fl : K → K) (c : Curve K) (data : List (List K)) : Py (List (List K)) := do
  let evalU ← column data (-1)
  let ctrlU := c.ctrlpts.length
  let nMat : List (List K) := zeros2 data.length c.ctrlpts.length
  let (nMat, _) ← forN 0 evalU.length (nMat, 0) fun u (nMat, (row : ℕ)) => do
    let (nMat, _) ← forN 0 ctrlU (nMat, 0) fun spanU (nMat, (col : ℕ)) => do
      let x ← pyGet evalU u
      let v ← oneBasisFunctionFl fl c.degree c.kv spanU x
      let nMat ← set2 nMat row col v
      .ok (nMat, col + 1)
    .ok (nMat, row + 1)
  .ok nMat

/-- The matrix `n_mat` of `single_fit_surface` (`fit/algorithms/fitting.py:159-184`). -/
def surfaceMatrixFl (fl : K → K) (s : Surface K) (data : List (List K)) : Py (List (List K)) := do
  let evalU ← column data 3
  let evalV ← column data 4
  let nMat : List (List K) := zeros2 data.length s.ctrlpts.length
  let (nMat, _) ← forN 0 evalU.length (nMat, 0) fun pt (nMat, (row : ℕ)) => do
    let (nMat, _) ← forN 0 s.numU (nMat, 0) fun spanU st =>
      forN 0 s.numV st fun spanV (nMat, (col : ℕ)) => do
        let x ← pyGet evalU pt
        let a ← oneBasisFunctionFl fl s.degreeU s.kvU spanU x
        let y ← pyGet evalV pt
        let b ← oneBasisFunctionFl fl s.degreeV s.kvV spanV y
        let nMat ← set2 nMat row col (fl (a * b))
        .ok (nMat, col + 1)
    .ok (nMat, row + 1)
  .ok nMat

/-- `SumFl fl l s`: the number `s` is a possible result of `np.sum` of the entries of `l`, added in
any order and with any bracketing (`fit/algorithms/fitting.py:110, 113`). -/
inductive SumFl (fl : K → K) : List K → K → Prop
  | nil : SumFl fl [] 0
  | one (a : K) : SumFl fl [a] a
  | add {l m : List K} {s t : K} : l ≠ [] → m ≠ [] → SumFl fl l s → SumFl fl m t →
      SumFl fl (l ++ m) (fl (s + t))
  | perm {l m : List K} {s : K} : l.Perm m → SumFl fl l s → SumFl fl m s

/-- The partition-of-unity check (`fit/algorithms/fitting.py:110-115, 189-194`): `r` is a possible
outcome. -/
def CheckUnityFl (fl : K → K) (nMat : List (List K)) (num : ℕ) (r : Py Unit) : Prop :=
  ∃ (unity : List K) (total : K), List.Forall₂ (SumFl fl) nMat unity ∧ SumFl fl unity total ∧
    r = if ¬ iscloseFl fl total (num : K) rtolDefault atolDefault then .error .valueError else .ok ()

end

end PySpline
