import Verif.SpecSolver
import Verif.Ext
import Verif.Model.BSpline

/-!
# What the fits in IEEE arithmetic need of the solver
-/

namespace PySpline.Spec

open Ext

variable {K : Type} [Field K] [LinearOrder K]

/-- A solver that on every system of stored numbers of size at most `M` returns as many stored numbers as there are
unknowns, of size at most `X`, or raises an exception of the class `E`.  Nothing is said of how good they are, nor of
systems with infinities and NaN. -/
def TameSolver (rd : K → Ext K) (M X : K) (E : Err → Prop)
    (lstsq : ℕ → List (List (Ext K)) → List (Ext K) → Py (List (Ext K))) : Prop :=
  ∀ (n : ℕ) (A : List (List K)) (b : List K), A.length = b.length → (∀ row ∈ A, row.length = n) →
    (∀ row ∈ A, ∀ x ∈ row, rd x = fin x ∧ |x| ≤ M) → (∀ x ∈ b, rd x = fin x ∧ |x| ≤ M) →
    (∃ e, E e ∧ lstsq n (A.map (List.map fin)) (b.map fin) = .error e) ∨
    ∃ x : List K, lstsq n (A.map (List.map fin)) (b.map fin) = .ok (x.map fin) ∧ x.length = n ∧
      ∀ y ∈ x, rd y = fin y ∧ |y| ≤ X

/-- The solver, but with the exception `e` wherever it does not return as many stored numbers of size at most `X` as there are
unknowns. -/
noncomputable def guarded (rd : K → Ext K) (X : K) (e : Err)
    (lstsq : ℕ → List (List (Ext K)) → List (Ext K) → Py (List (Ext K))) :
    ℕ → List (List (Ext K)) → List (Ext K) → Py (List (Ext K)) := fun n A b =>
  open Classical in
  if ∃ x : List K, lstsq n A b = .ok (x.map fin) ∧ x.length = n ∧ ∀ y ∈ x, rd y = fin y ∧ |y| ≤ X then lstsq n A b
  else .error e

/-- A curve of stored numbers with control points of size at most `X`. -/
structure StoredCurve (rd : K → Ext K) (X : K) (c : Curve K) : Prop where
  knots : ∀ x ∈ c.kv, rd x = fin x
  pts : ∀ row ∈ c.ctrlpts, ∀ x ∈ row, rd x = fin x ∧ |x| ≤ X

/-- A surface of stored numbers with control points of size at most `X`. -/
structure StoredSurface (rd : K → Ext K) (X : K) (s : Surface K) : Prop where
  knotsU : ∀ x ∈ s.kvU, rd x = fin x
  knotsV : ∀ x ∈ s.kvV, rd x = fin x
  pts : ∀ row ∈ s.ctrlpts, ∀ x ∈ row, rd x = fin x ∧ |x| ≤ X

end PySpline.Spec
