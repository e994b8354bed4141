import Verif.Model.IeeeFit
import Verif.Model.Fitting

/-!
# Complete fits in IEEE arithmetic with overflow and underflow

`linear_fit_fixed`, `single_fit_curve` and `single_fit_surface` as in `Model/Fitting.lean`, over `Ext K` with a function
`rd : K → Ext K` applied to every finite result (see `Model/Ieee.lean`).  The solver `np.linalg.lstsq` is a parameter; it
may raise, as it does on infinities and NaN.  The order in which the partition-of-unity check adds is left open, so the
fits are relations.
-/

namespace PySpline

open Ext

section
variable {K : Type} [Field K] [LinearOrder K]

/-- `m[:, c] = v` (`fit/algorithms/fitting.py:49, 53`). -/
def setColumnE (m : List (List (Ext K))) (c : ℤ) (v : List (Ext K)) : Py (List (List (Ext K))) :=
  if v.length = m.length then mapPy (fun rx : List (Ext K) × Ext K => pySet rx.1 c rx.2) (m.zip v)
  else .error .valueError

/-- `linear_fit_fixed` (`fit/algorithms/fitting.py:16-70`). -/
def linearFitFixedR (rd : K → Ext K) (lstsq : ℕ → List (List (Ext K)) → List (Ext K) → Py (List (Ext K)))
    (R : List (List (Ext K))) (Q P : List (Ext K)) (fixed : List Bool) : Py (List (Ext K)) := do
  -- 35-40
  let nfixed ← forN 0 P.length 0 fun i nfixed => do
    let f ← pyGet fixed i
    .ok (if f then nfixed + 1 else nfixed)
  if nfixed = P.length then .ok P
  else do
    -- 43-54
    let Rfree : List (List (Ext K)) := zeros2E Q.length (P.length - nfixed)
    let Rfixed : List (List (Ext K)) := zeros2E Q.length nfixed
    let Qfixed : List (Ext K) := List.replicate Q.length 0
    let (Rfree, _, Qfixed, _, _) ← forN 0 P.length (Rfree, Rfixed, Qfixed, 0, 0)
      fun i (Rfree, Rfixed, Qfixed, (j : ℕ), (k : ℕ)) => do
        let f ← pyGet fixed i
        let col ← columnE R i
        if f then do
          let Rfixed ← setColumnE Rfixed j col
          let p ← pyGet P i
          let sum ← vaddE Qfixed (col.map fun x => rnd rd (x * p))
          .ok (Rfree, Rfixed, sum.map (rnd rd), j + 1, k)
        else do
          let Rfree ← setColumnE Rfree k col
          .ok (Rfree, Rfixed, Qfixed, j, k + 1)
    -- 61
    let b ← vsubE Q Qfixed
    let freeP ← lstsq (P.length - nfixed) Rfree (b.map (rnd rd))
    -- 62-70
    let (fullP, _) ← forN 0 P.length ((List.replicate P.length 0 : List (Ext K)), 0) fun i (fullP, (j : ℕ)) => do
      let f ← pyGet fixed i
      if f then do
        let p ← pyGet P i
        let fullP ← pySet fullP i p
        .ok (fullP, j)
      else do
        let x ← pyGet freeP j
        let fullP ← pySet fullP i x
        .ok (fullP, j + 1)
    .ok fullP

/-- `np.column_stack((x, y, z))` (`fit/algorithms/fitting.py:139, 228`). -/
def columnStack3E (x y z : List (Ext K)) : Py (List (List (Ext K))) :=
  if x.length = y.length ∧ y.length = z.length then
    .ok ((List.range x.length).map fun i => [x.getD i 0, y.getD i 0, z.getD i 0])
  else .error .valueError

/-- The three calls of `linear_fit_fixed` and the stacking of their results
(`fit/algorithms/fitting.py:134-139, 223-228`). -/
def fitColumnsR (rd : K → Ext K) (lstsq : ℕ → List (List (Ext K)) → List (Ext K) → Py (List (Ext K)))
    (nMat data ctrlpts : List (List (Ext K))) (fixed : List Bool) : Py (List (List (Ext K))) := do
  let qx ← columnE data 0
  let px ← columnE ctrlpts 0
  let x ← linearFitFixedR rd lstsq nMat qx px fixed
  let qy ← columnE data 1
  let py ← columnE ctrlpts 1
  let y ← linearFitFixedR rd lstsq nMat qy py fixed
  let qz ← columnE data 2
  let pz ← columnE ctrlpts 2
  let z ← linearFitFixedR rd lstsq nMat qz pz fixed
  columnStack3E x y z

/-- `single_fit_curve` (`fit/algorithms/fitting.py:73-141`): `r` is a possible outcome. -/
def SingleFitCurveR (rd : K → Ext K) (lstsq : ℕ → List (List (Ext K)) → List (Ext K) → Py (List (Ext K)))
    (c : Curve (Ext K)) (data : List (List (Ext K))) (r : Py (Curve (Ext K))) : Prop :=
  (∃ e, curveMatrixR rd c data = .error e ∧ r = .error e) ∨
  ∃ nMat check, curveMatrixR rd c data = .ok nMat ∧ CheckUnityR rd nMat data.length check ∧
    r = do
      let _ ← check
      let fixed ← curveMask c.ctrlpts.length
      let new ← fitColumnsR rd lstsq nMat data c.ctrlpts fixed
      .ok { c with ctrlpts := new }

/-- `single_fit_surface` (`fit/algorithms/fitting.py:144-230`): `r` is a possible outcome. -/
def SingleFitSurfaceR (rd : K → Ext K) (lstsq : ℕ → List (List (Ext K)) → List (Ext K) → Py (List (Ext K)))
    (s : Surface (Ext K)) (data : List (List (Ext K))) (r : Py (Surface (Ext K))) : Prop :=
  (∃ e, surfaceMatrixR rd s data = .error e ∧ r = .error e) ∨
  ∃ nMat check, surfaceMatrixR rd s data = .ok nMat ∧ CheckUnityR rd nMat data.length check ∧
    r = do
      let _ ← check
      let fixed ← surfaceMask s.numU s.numV s.ctrlpts.length
      let new ← fitColumnsR rd lstsq nMat data s.ctrlpts fixed
      .ok { s with ctrlpts := new }

end

end PySpline
