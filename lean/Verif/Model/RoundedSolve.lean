import Verif.Model.RoundedFit
import Verif.Model.Fitting

/-!
# Complete fits in rounded arithmetic

`linear_fit_fixed`, `single_fit_curve` and `single_fit_surface` as in `Model/Fitting.lean`, with a rounding function
`fl` applied to the result of every arithmetic operation.  The solver `np.linalg.lstsq` is a parameter, and the order in
which the partition-of-unity check adds is left open, so the fits are relations.
-/

namespace PySpline

section
variable {K : Type} [Field K] [LinearOrder K]

/-- `linear_fit_fixed` (`fit/algorithms/fitting.py:16-70`). -/
def linearFitFixedFl (fl : K → K) (lstsq : ℕ → List (List K) → List K → List K) (R : List (List K)) (Q P : List K)
    (fixed : List Bool) : Py (List K) := do
  -- 35-40
  let nfixed ← forN 0 P.length 0 fun i nfixed => do
    let f ← pyGet fixed i
    .ok (if f then nfixed + 1 else nfixed)
  if nfixed = P.length then .ok P
  else do
    -- 43-54
    let Rfree : List (List K) := zeros2 Q.length (P.length - nfixed)
    let Rfixed : List (List K) := zeros2 Q.length nfixed
    let Qfixed : List K := zeros Q.length
    let (Rfree, _, Qfixed, _, _) ← forN 0 P.length (Rfree, Rfixed, Qfixed, 0, 0)
      fun i (Rfree, Rfixed, Qfixed, (j : ℕ), (k : ℕ)) => do
        let f ← pyGet fixed i
        let col ← column R i
        if f then do
          let Rfixed ← setColumn Rfixed j col
          let p ← pyGet P i
          let sum ← vadd Qfixed (col.map fun x => fl (x * p))
          .ok (Rfree, Rfixed, sum.map fl, j + 1, k)
        else do
          let Rfree ← setColumn Rfree k col
          .ok (Rfree, Rfixed, Qfixed, j, k + 1)
    -- 61
    let b ← vsub Q Qfixed
    let freeP := lstsq (P.length - nfixed) Rfree (b.map fl)
    -- 62-70
    let (fullP, _) ← forN 0 P.length ((zeros P.length : List K), 0) fun i (fullP, (j : ℕ)) => do
      let f ← pyGet fixed i
      if f then do
        let p ← pyGet P i
        let fullP ← pySet fullP i p
        .ok (fullP, j)
      else do
        let x ← pyGet freeP j
        let fullP ← pySet fullP i x
        .ok (fullP, j + 1)
    .ok fullP

/-- The three calls of `linear_fit_fixed` and the stacking of their results
(`fit/algorithms/fitting.py:134-139, 223-228`). -/
def fitColumnsFl (fl : K → K) (lstsq : ℕ → List (List K) → List K → List K) (nMat data ctrlpts : List (List K))
    (fixed : List Bool) : Py (List (List K)) := do
  let qx ← column data 0
  let px ← column ctrlpts 0
  let x ← linearFitFixedFl fl lstsq nMat qx px fixed
  let qy ← column data 1
  let py ← column ctrlpts 1
  let y ← linearFitFixedFl fl lstsq nMat qy py fixed
  let qz ← column data 2
  let pz ← column ctrlpts 2
  let z ← linearFitFixedFl fl lstsq nMat qz pz fixed
  columnStack3 x y z

/-- `single_fit_curve` (`fit/algorithms/fitting.py:73-141`): `r` is a possible outcome. -/
def SingleFitCurveFl (fl : K → K) (lstsq : ℕ → List (List K) → List K → List K) (c : Curve K) (data : List (List K))
    (r : Py (Curve K)) : Prop :=
  (∃ e, curveMatrixFl fl c data = .error e ∧ r = .error e) ∨
  ∃ nMat check, curveMatrixFl fl c data = .ok nMat ∧ CheckUnityFl fl nMat data.length check ∧
    r = do
      let _ ← check
      let fixed ← curveMask c.ctrlpts.length
      let new ← fitColumnsFl fl lstsq nMat data c.ctrlpts fixed
      .ok { c with ctrlpts := new }

/-- `single_fit_surface` (`fit/algorithms/fitting.py:144-230`): `r` is a possible outcome. -/
def SingleFitSurfaceFl (fl : K → K) (lstsq : ℕ → List (List K) → List K → List K) (s : Surface K)
    (data : List (List K)) (r : Py (Surface K)) : Prop :=
  (∃ e, surfaceMatrixFl fl s data = .error e ∧ r = .error e) ∨
  ∃ nMat check, surfaceMatrixFl fl s data = .ok nMat ∧ CheckUnityFl fl nMat data.length check ∧
    r = do
      let _ ← check
      let fixed ← surfaceMask s.numU s.numV s.ctrlpts.length
      let new ← fitColumnsFl fl lstsq nMat data s.ctrlpts fixed
      .ok { s with ctrlpts := new }

end

end PySpline
