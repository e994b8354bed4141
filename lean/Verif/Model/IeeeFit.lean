import Verif.Model.Ieee

/-!
# The matrix of the fits in IEEE arithmetic with overflow and underflow

`one_basis_function`, the matrices of `single_fit_curve` and `single_fit_surface` and the
partition-of-unity check as in `Model/Basis.lean` and `Model/Fitting.lean`, over `Ext K` with a function
`rd : K → Ext K` applied to every finite result (see `Model/Ieee.lean`).  The order in which `np.sum`
adds is left open.
-/

namespace PySpline

open Ext

section
variable {K : Type} [Field K] [LinearOrder K]

/-- `one_basis_function` (`spline/algorithms/basis.py:170-227`). -/
def oneBasisFunctionR (rd : K → Ext K) (degree : ℕ) (U : List (Ext K)) (i : ℕ) (knot : Ext K) : Py (Ext K) := do
  -- 194-196
  let first ← pyGet U 0
  let last ← pyGet U ((U.length : ℤ) - 1)
  if (i = 0 ∧ eqv knot first) ∨ ((i : ℤ) = (U.length : ℤ) - degree - 2 ∧ eqv knot last) then .ok 1
  else do
    -- 199-200
    let lo ← pyGet U i
    if lt knot lo then .ok 0
    else do
    let hi ← pyGet U ((i : ℤ) + degree + 1)
    if lt hi knot then .ok 0
    else do
      -- 203-207
      let N : List (Ext K) := List.replicate (i + degree + 1) 0
      let N ← forN 0 (degree + 1) N fun j N => do
        let a ← pyGet U ((i : ℤ) + j)
        let b ← pyGet U ((i : ℤ) + j + 1)
        if le a knot ∧ lt knot b then pySet N j 1 else .ok N
      -- 210-225
      let N ← forN 1 (degree + 1) N fun k N => do
        let n0 ← pyGet N 0
        let saved ← (if ¬ eqv n0 0 then (do
            let a ← pyGet U i
            let b ← pyGet U ((i : ℤ) + k)
            .ok (rnd rd (rnd rd (rnd rd (knot - a) * n0) / rnd rd (b - a))))
          else .ok 0)
        let (N, _) ← forN 0 (degree - k + 1) (N, saved) fun j (N, saved) => do
          let uleft ← pyGet U ((i : ℤ) + j + 1)
          let uright ← pyGet U ((i : ℤ) + j + k + 1)
          let nj ← pyGet N ((j : ℤ) + 1)
          if eqv nj 0 then do
            let N ← pySet N j saved
            .ok (N, 0)
          else do
            let temp := rnd rd (nj / rnd rd (uright - uleft))
            let N ← pySet N j (rnd rd (saved + rnd rd (rnd rd (uright - knot) * temp)))
            .ok (N, rnd rd (rnd rd (knot - uleft) * temp))
        .ok N
      pyGet N 0

/-- The matrix `n_mat` of `single_fit_curve` (`fit/algorithms/fitting.py:87-105`). -/
def curveMatrixR (rd : K → Ext K) (c : Curve (Ext K)) (data : List (List (Ext K))) : Py (List (List (Ext K))) := do
  let evalU ← columnE data (-1)
  let ctrlU := c.ctrlpts.length
  let nMat : List (List (Ext K)) := zeros2E data.length c.ctrlpts.length
  let (nMat, _) ← forN 0 evalU.length (nMat, 0) fun u (nMat, (row : ℕ)) => do
    let (nMat, _) ← forN 0 ctrlU (nMat, 0) fun spanU (nMat, (col : ℕ)) => do
      let x ← pyGet evalU u
      let v ← oneBasisFunctionR rd c.degree c.kv spanU x
      let nMat ← set2 nMat row col v
      .ok (nMat, col + 1)
    .ok (nMat, row + 1)
  .ok nMat

/-- The matrix `n_mat` of `single_fit_surface` (`fit/algorithms/fitting.py:159-184`). -/
def surfaceMatrixR (rd : K → Ext K) (s : Surface (Ext K)) (data : List (List (Ext K))) :
    Py (List (List (Ext K))) := do
  let evalU ← columnE data 3
  let evalV ← columnE data 4
  let nMat : List (List (Ext K)) := zeros2E data.length s.ctrlpts.length
  let (nMat, _) ← forN 0 evalU.length (nMat, 0) fun pt (nMat, (row : ℕ)) => do
    let (nMat, _) ← forN 0 s.numU (nMat, 0) fun spanU st =>
      forN 0 s.numV st fun spanV (nMat, (col : ℕ)) => do
        let x ← pyGet evalU pt
        let a ← oneBasisFunctionR rd s.degreeU s.kvU spanU x
        let y ← pyGet evalV pt
        let b ← oneBasisFunctionR rd s.degreeV s.kvV spanV y
        let nMat ← set2 nMat row col (rnd rd (a * b))
        .ok (nMat, col + 1)
    .ok (nMat, row + 1)
  .ok nMat

/-- `SumR rd l s`: the number `s` is a possible result of `np.sum` of the entries of `l`, added in any
order and with any bracketing (`fit/algorithms/fitting.py:110, 113`). -/
inductive SumR (rd : K → Ext K) : List (Ext K) → Ext K → Prop
  | nil : SumR rd [] 0
  | one (a : Ext K) : SumR rd [a] a
  | add {l m : List (Ext K)} {s t : Ext K} : l ≠ [] → m ≠ [] → SumR rd l s → SumR rd m t →
      SumR rd (l ++ m) (rnd rd (s + t))
  | perm {l m : List (Ext K)} {s : Ext K} : l.Perm m → SumR rd l s → SumR rd m s

/-- The partition-of-unity check (`fit/algorithms/fitting.py:110-115, 189-194`): `r` is a possible
outcome.  The number of data points is turned into a float. -/
def CheckUnityR (rd : K → Ext K) (nMat : List (List (Ext K))) (num : ℕ) (r : Py Unit) : Prop :=
  ∃ (unity : List (Ext K)) (total : Ext K), List.Forall₂ (SumR rd) nMat unity ∧ SumR rd unity total ∧
    r = if ¬ iscloseR rd total (rd num) rtolDefault atolDefault then .error .valueError else .ok ()

end

end PySpline
