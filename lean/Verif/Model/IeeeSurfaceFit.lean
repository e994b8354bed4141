import Verif.Model.IeeeKnotFit
import Verif.Model.Data

/-!
# The initial surface and `fit_surface` in IEEE arithmetic with overflow and underflow

`set_init_surface` and `fit_surface` as in `Model/Data.lean` and `Model/Fitting.lean`, over `Ext K` with a function
`rd : K → Ext K` applied to every finite result (see `Model/Ieee.lean`).  `inv` is `surface_inversion` on the surface; it may
raise, and its arithmetic is left open (`Model/AnyArithmetic.lean`).
-/

namespace PySpline

open Ext

section
variable {K : Type} [Field K] [LinearOrder K]

/-- The control points of `set_init_surface` (`fit/model/base_data.py:577-587`).  The quotient `vpt / (num - 1)` is one of
Python integers: it raises for `num = 1`. -/
def ruledNetR (rd : K → Ext K) (top bottom : List (List (Ext K))) (numU numV : ℕ) : Py (List (List (Ext K))) := do
  let net : List (List (Ext K)) := zeros2E (numU * numV) 3
  let (net, _) ← forN 0 numU (net, (0 : ℕ)) fun upt st => do
    let t ← pyGet top upt
    let b ← pyGet bottom upt
    let delta ← vsubE t b
    let delta := delta.map (rnd rd)
    forN 0 numV st fun vpt (net, ctrlpt) => do
      let b ← pyGet bottom upt
      let f ← pyDiv (vpt : K) ((numV : K) - 1)
      let row ← vaddE b (delta.map fun x => rnd rd (rd f * x))
      let row := row.map (rnd rd)
      let _ ← (if row.length = 3 then .ok () else .error .valueError : Py Unit)
      let net ← pySet net ctrlpt row
      .ok (net, ctrlpt + 1)
  .ok net

/-- The computation of `set_init_surface` (`fit/model/base_data.py:556-595`), see `ruledSurface`. -/
def ruledSurfaceR (rd : K → Ext K) (top bottom : Option (Fitted (Ext K))) (degree numCtrl : Option ℤ) :
    Py (Surface (Ext K)) := do
  let t ← attrOf top
  let b ← attrOf bottom
  if t.degree ≠ b.degree then .error .valueError
  else if t.numCtrl ≠ b.numCtrl then .error .valueError
  else do
    let degU ← intOf b.degree
    let degV ← intOf degree
    let numU ← intOf b.numCtrl
    let numV ← intOf numCtrl
    let net ← ruledNetR rd t.fitCurve.ctrlpts b.fitCurve.ctrlpts numU.toNat numV.toNat
    let kvV ← generateUniformR rd degV.toNat numV.toNat
    .ok { degreeU := degU.toNat, degreeV := degV.toNat, numU := numU.toNat, numV := numV.toNat
          ctrlpts := net, kvU := b.fitCurve.kv, kvV := kvV }

/-- `parameterize_surface` (`fit/algorithms/parameterize.py:343-369`) with the inversion function as a parameter. -/
def parameterizeSurfaceWithE (inv : List (Ext K) → Py (Ext K × Ext K)) (data : List (List (Ext K))) :
    Py (List (List (Ext K))) := do
  let rows ← mapPy (fun point => do
    let (u, v) ← inv point
    .ok (point ++ [u, v])) data
  if rows.all (fun r => r.length = 5) then .ok (npSortRowsE [3, 4, 0, 1, 2] rows)
  else .error .valueError

/-- `fit_surface` (`fit/algorithms/fitting.py:337-389`): `r` is a possible outcome.  The rows of the two boundaries get the
parameters one and zero; the result of `np.vstack` is overwritten. -/
def FitSurfaceR (rd : K → Ext K) (lstsq : ℕ → List (List (Ext K)) → List (Ext K) → Py (List (Ext K)))
    (inv : List (Ext K) → Py (Ext K × Ext K)) (s : Surface (Ext K)) (data top bottom : List (List (Ext K)))
    (r : Py (Surface (Ext K))) : Prop :=
  match parameterizeSurfaceWithE inv data with
  | .error e => r = .error e
  | .ok paramData =>
    if ¬ (paramData ++ (top.map fun row => row ++ [1]) ++ bottom.map fun row => row ++ [0]).all
        (fun row => row.length = 5) then
      r = .error .valueError
    else SingleFitSurfaceR rd lstsq s (npSortRowsE [3, 4, 0, 1, 2] paramData) r

end

end PySpline
