import Verif.SpecIeeeKnotFit
import Verif.Model.Data

/-!
# What the problem objects in IEEE arithmetic need and return
-/

namespace PySpline.Spec

open Ext

variable {K : Type} [Field K] [LinearOrder K]

/-- A `curve_inversion` that returns a stored number in `[0, 1]` or raises an exception of the class `E`. -/
def TameCurveInversion (rd : K → Ext K) (E : Err → Prop) (inv : Curve (Ext K) → List (Ext K) → Py (Ext K)) : Prop :=
  ∀ c pt, (∃ e, E e ∧ inv c pt = .error e) ∨ ∃ u, inv c pt = .ok (fin u) ∧ rd u = fin u ∧ 0 ≤ u ∧ u ≤ 1

/-- A `surface_inversion` that returns two such numbers or raises an exception of the class `E`. -/
def TameSurfaceInversion (rd : K → Ext K) (E : Err → Prop) (inv : Surface (Ext K) → List (Ext K) → Py (Ext K × Ext K)) : Prop :=
  ∀ s pt, (∃ e, E e ∧ inv s pt = .error e) ∨
    ∃ u v, inv s pt = .ok (fin u, fin v) ∧ (rd u = fin u ∧ 0 ≤ u ∧ u ≤ 1) ∧ rd v = fin v ∧ 0 ≤ v ∧ v ≤ 1

/-- A fitted boundary without infinities and NaN, of degree `p` with `n` control points `P` of size at most `X` from `s` to `e`
and a clamped knot vector `U` over `[0, 1]` with interior knots at least `δ` apart; its `m` parameterized data are stored
numbers with parameters in `[0, 1]`. -/
structure StoredBoundary (rd : K → Ext K) (X δ : K) (p n m : ℕ) (s e : List K) (P : List (List K)) (U : List K)
    (f : Fitted (Ext K)) : Prop where
  degree : f.degree = some (p : ℤ)
  num : f.numCtrl = some (n : ℤ)
  curve : f.fitCurve = ⟨p, P.map (List.map fin), U.map fin⟩
  stored : StoredCurve rd X ⟨p, P, U⟩
  shape : Shape P n 3
  start : P.getD 0 [] = s
  stop : P.getD (n - 1) [] = e
  clamped : Clamped p n U
  zero : knotFn U 0 = 0
  one : knotFn U (n + p) = 1
  gap : ∀ i, p ≤ i → i < n → δ ≤ knotFn U (i + 1) - knotFn U i
  data : ∃ rows : List (List K), f.paramData = some (rows.map (List.map fin)) ∧ Shape rows m 4 ∧
    (∀ row ∈ rows, ∀ x ∈ row, rd x = fin x) ∧ ∀ row ∈ rows, 0 ≤ row.getD 3 0 ∧ row.getD 3 0 ≤ 1

end PySpline.Spec
