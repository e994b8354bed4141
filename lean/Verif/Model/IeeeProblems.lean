import Verif.Model.IeeeSurfaceFit

/-!
# The problem objects in IEEE arithmetic with overflow and underflow

`BoundaryProblem.fit` and `InteriorProblem.fit` as in `Model/Data.lean`, over `Ext K` with a function `rd : K → Ext K` applied to
every finite result (see `Model/Ieee.lean`).  Simplified: the attributes have been set, so none of them is `None`, and `fit` is
called on an object that has not been fitted and whose initial curve or surface has not been set.
-/

namespace PySpline

open Ext

section
variable {K : Type} [Field K] [LinearOrder K]

/-- What `fit` of a boundary problem does with the fitted curve: the number of control points is set, by a setter that
refuses three, and the data are parameterized on the fitted curve (`fit/model/base_data.py:346-355, 237-240, 310-314`). -/
def boundaryFinishE (inv : Curve (Ext K) → List (Ext K) → Py (Ext K)) (degree : ℕ) (data : List (List (Ext K)))
    (final : Curve (Ext K)) : Py (Fitted (Ext K)) :=
  let num : ℤ := (final.kv.length : ℤ) - degree - 1
  if num ≤ 3 then .error .valueError
  else do
    let pd ← parameterizeCurveWithE (inv final) data
    .ok ⟨some degree, some num, final, some pd⟩

/-- `BoundaryProblem.fit` (`fit/model/base_data.py:325-355`) with `set_init_curve` (278-288): `r` is a possible outcome, the
attributes of the object that an interior problem uses. -/
def BoundaryFitR (rd : K → Ext K) (fuel : ℕ) (lstsq : ℕ → List (List (Ext K)) → List (Ext K) → Py (List (Ext K)))
    (inv : Curve (Ext K) → List (Ext K) → Py (Ext K)) (adaptive : Bool) (start stop : List (Ext K)) (degree numCtrl : ℕ)
    (data : List (List (Ext K))) (r : Py (Fitted (Ext K))) : Prop :=
  match initializeCurveR rd start stop degree (if adaptive then degree + 1 else numCtrl) with
  | .error e => r = .error e
  | .ok init => ∃ res,
    (if adaptive then KnotFitR rd lstsq inv data numCtrl fuel init res else FitCurveFixedR rd fuel lstsq inv init data res) ∧
    match res with
    | .error e => r = .error e
    | .ok final => r = boundaryFinishE inv degree data final

/-- `fit_surface` called with the two boundaries, whose parameterized data are read after the data have been parameterized
(`fit/algorithms/fitting.py:360-372`); `len(None)` is a `TypeError`. -/
def FitSurfaceOfR (rd : K → Ext K) (lstsq : ℕ → List (List (Ext K)) → List (Ext K) → Py (List (Ext K)))
    (inv : List (Ext K) → Py (Ext K × Ext K)) (s : Surface (Ext K)) (data : List (List (Ext K))) (top bottom : Fitted (Ext K))
    (r : Py (Surface (Ext K))) : Prop :=
  match top.paramData, bottom.paramData with
  | some t, some b => FitSurfaceR rd lstsq inv s data t b r
  | _, _ => r = (do
    let _ ← parameterizeSurfaceWithE inv data
    .error .typeError)

/-- `InteriorProblem.fit` (`fit/model/base_data.py:632-655`) with `set_init_surface` (556-595): `r` is a possible outcome, the
fitted surface and the data parameterized on it. -/
def InteriorFitR (rd : K → Ext K) (lstsq : ℕ → List (List (Ext K)) → List (Ext K) → Py (List (Ext K)))
    (inv : Surface (Ext K) → List (Ext K) → Py (Ext K × Ext K)) (top bottom : Fitted (Ext K)) (degree numCtrl : ℕ)
    (data : List (List (Ext K))) (r : Py (Surface (Ext K) × List (List (Ext K)))) : Prop :=
  match ruledSurfaceR rd (some top) (some bottom) (some degree) (some numCtrl) with
  | .error e => r = .error e
  | .ok init => ∃ res, FitSurfaceOfR rd lstsq (inv init) init data top bottom res ∧
    match res with
    | .error e => r = .error e
    | .ok final => r = (do
      let pd ← parameterizeSurfaceWithE (inv final) data
      .ok (final, pd))

end

end PySpline
