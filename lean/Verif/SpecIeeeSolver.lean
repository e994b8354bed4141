import Verif.SpecSolver
import Verif.Ext

/-!
# What is assumed of the least-squares solver in IEEE arithmetic
-/

namespace PySpline.Spec

open Ext

variable {K : Type} [Field K] [LinearOrder K]

/-- A backward stable solver in IEEE arithmetic.  On systems of stored numbers of size at most `M` it does what a backward
stable solver does, as long as no entry of the solution is larger than `M`; nothing is said of other systems, in particular
of those with infinities and NaN. -/
def IeeeSolver (rd : K → Ext K) (M ε : K) (lstsq : ℕ → List (List (Ext K)) → List (Ext K) → Py (List (Ext K))) : Prop :=
  ∃ ls, BackwardStable ε ls ∧ ∀ (n : ℕ) (A : List (List K)) (b : List K),
    (∀ row ∈ A, ∀ x ∈ row, rd x = fin x ∧ |x| ≤ M) → (∀ x ∈ b, rd x = fin x ∧ |x| ≤ M) → (∀ x ∈ ls n A b, |x| ≤ M) →
    lstsq n (A.map (List.map fin)) (b.map fin) = .ok ((ls n A b).map fin)

end PySpline.Spec
