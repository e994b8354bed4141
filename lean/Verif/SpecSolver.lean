import Verif.Spec

/-!
# What is assumed of an inexact least-squares solver
-/

namespace PySpline.Spec

variable {K : Type} [Field K] [LinearOrder K]

/-- All that termination, the counts, the knots and the fixed control points of a fit need of the solver: a solution has as
many entries as there are unknowns.  Every solver has this property, however inaccurate its solutions are. -/
def SolverLength (lstsq : ℕ → List (List K) → List K → List K) : Prop :=
  ∀ n A b, A.length = b.length → (∀ row ∈ A, row.length = n) → (lstsq n A b).length = n

/-- A backward stable solver: its result solves exactly a least-squares problem whose matrix and right-hand side differ
from the given ones by at most `ε` times their size.  (The size is the sum of the absolute values, which is at least the
Frobenius norm; the solver may choose a different problem for every input.) -/
structure BackwardStable (ε : K) (lstsq : ℕ → List (List K) → List K → List K) : Prop where
  length : ∀ n A b, A.length = b.length → (∀ row ∈ A, row.length = n) → (lstsq n A b).length = n
  solves : ∀ n A b, A.length = b.length → (∀ row ∈ A, row.length = n) → ∃ (A' : List (List K)) (b' : List K),
    A'.length = b.length ∧ (∀ row ∈ A', row.length = n) ∧ b'.length = b.length ∧
    (∀ r < b.length, ∀ i < n, |(A'.getD r []).getD i 0 - (A.getD r []).getD i 0|
      ≤ ε * ∑ r ∈ Finset.range b.length, ∑ i ∈ Finset.range n, |(A.getD r []).getD i 0|) ∧
    (∀ r < b.length, |b'.getD r 0 - b.getD r 0| ≤ ε * ∑ r ∈ Finset.range b.length, |b.getD r 0|) ∧
    ∀ x : ℕ → K, sqResid A' n (fun i => (lstsq n A b).getD i 0) b' ≤ sqResid A' n x b'

end PySpline.Spec
