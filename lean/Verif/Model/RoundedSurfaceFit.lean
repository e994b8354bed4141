import Verif.Model.RoundedSolve
import Verif.Model.Data

/-!
# The initial surface and `fit_surface` in rounded arithmetic

`set_init_surface` and `fit_surface` as in `Model/Data.lean` and `Model/Fitting.lean`, with a rounding function `fl` applied
to the result of every arithmetic operation.  `inv` is `surface_inversion` on the initial surface: its arithmetic is left
open (what it returns in any arithmetic is in `Model/AnyArithmetic.lean`).
-/

namespace PySpline

section
variable {K : Type} [Field K] [LinearOrder K]

/-- The control points of `set_init_surface` (`fit/model/base_data.py:577-587`), see `ruledNet`. -/
def ruledNetFl (fl : K → K) (top bottom : List (List K)) (numU numV : ℕ) : Py (List (List K)) := do
  let net : List (List K) := zeros2 (numU * numV) 3
  let (net, _) ← forN 0 numU (net, (0 : ℕ)) fun upt st => do
    let t ← pyGet top upt
    let b ← pyGet bottom upt
    let delta ← vsub t b
    let delta := delta.map fl
    forN 0 numV st fun vpt (net, ctrlpt) => do
      let b ← pyGet bottom upt
      let f ← pyDiv (vpt : K) ((numV : K) - 1)
      let row ← vadd b (delta.map fun x => fl (fl f * x))
      let row := row.map fl
      let _ ← (if row.length = 3 then .ok () else .error .valueError : Py Unit)
      let net ← pySet net ctrlpt row
      .ok (net, ctrlpt + 1)
  .ok net

/-- The computation of `set_init_surface` (`fit/model/base_data.py:556-595`), see `ruledSurface`. -/
def ruledSurfaceFl (fl : K → K) (top bottom : Option (Fitted K)) (degree numCtrl : Option ℤ) : Py (Surface K) := do
  let t ← attrOf top
  let b ← attrOf bottom
  if t.degree ≠ b.degree then .error .valueError
  else if t.numCtrl ≠ b.numCtrl then .error .valueError
  else do
    let degU ← intOf b.degree
    let degV ← intOf degree
    let numU ← intOf b.numCtrl
    let numV ← intOf numCtrl
    let net ← ruledNetFl fl t.fitCurve.ctrlpts b.fitCurve.ctrlpts numU.toNat numV.toNat
    let kvV ← generateUniformFl fl degV.toNat numV.toNat
    .ok { degreeU := degU.toNat, degreeV := degV.toNat, numU := numU.toNat, numV := numV.toNat
          ctrlpts := net, kvU := b.fitCurve.kv, kvV := kvV }

/-- `parameterize_surface` (`fit/algorithms/parameterize.py:343-369`) with the inversion function as a parameter. -/
def parameterizeSurfaceWith (inv : List K → Py (K × K)) (data : List (List K)) : Py (List (List K)) := do
  let rows ← mapPy (fun point => do
    let (u, v) ← inv point
    .ok (point ++ [u, v])) data
  if rows.all (fun r => r.length = 5) then .ok (npSortRows [3, 4, 0, 1, 2] rows)
  else .error .valueError

/-- `fit_surface` (`fit/algorithms/fitting.py:337-389`), see `fitSurface`: `r` is a possible outcome. -/
def FitSurfaceFl (fl : K → K) (lstsq : ℕ → List (List K) → List K → List K) (inv : List K → Py (K × K)) (s : Surface K)
    (data top bottom : List (List K)) (r : Py (Surface K)) : Prop :=
  match parameterizeSurfaceWith inv data with
  | .error e => r = .error e
  | .ok paramData =>
    if ¬ (paramData ++ appendColumn top 1 ++ appendColumn bottom 0).all (fun row => row.length = 5) then
      r = .error .valueError
    else SingleFitSurfaceFl fl lstsq s (npSortRows [3, 4, 0, 1, 2] paramData) r

end

end PySpline
