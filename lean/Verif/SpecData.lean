import Verif.Model.Data

/-!
# Vocabulary for the statements about the problem objects
-/

namespace PySpline

section
variable {K : Type} [Field K] [LinearOrder K]

/-- The states a `BoundaryProblem` can be in. -/
structure BoundaryInv (s : Boundary K) : Prop where
  data : ∀ a, s.data = some a → ∃ m, a.shape = [m, 2] ∨ a.shape = [m, 3]
  start : ∀ a, s.start = some a → a.shape = [2] ∨ a.shape = [3]
  fin : ∀ a, s.fin = some a → a.shape = [2] ∨ a.shape = [3]
  numCtrl : ∀ n, s.numCtrl = some n → 3 < n
  fitMethod : s.fitMethod = "fixed" ∨ s.fitMethod = "adaptive"
  degree : ∀ d, s.degree = some d → 0 ≤ d

/-- The assignments to properties. -/
def BOp.isAssignment : BOp K → Bool
  | .degree _ | .data _ | .start _ | .fin _ | .numCtrl _ | .fitMethod _ => true
  | _ => false

/-- The states an `InteriorProblem` can be in. -/
structure InteriorInv (s : Interior K) : Prop where
  top : s.top = none
  bottom : s.bottom = none
  initSurface : s.initSurface = none
  paramData : s.paramData = none
  fitSurface : s.fitSurface = none

/-- The calls that are supposed to compute something. -/
def IOp.isAction : IOp K → Bool
  | .degree _ | .data _ | .numCtrl _ => false
  | _ => true

end

end PySpline
