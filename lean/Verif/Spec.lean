import Mathlib.Algebra.Polynomial.Eval.Defs
import Mathlib.Algebra.Polynomial.Derivative
import Mathlib.Algebra.BigOperators.Group.Finset.Basic
import Mathlib.Algebra.Order.Field.Basic

/-!
# Specification

Textbook definitions, independent of the model of the code.  A knot vector is a function
`U : ℕ → K`; `knotFn` turns an array into one.
-/

namespace PySpline.Spec

open Polynomial

variable {K : Type} [Field K] [LinearOrder K]

/-- The knots of an array as a function of the index.  Beyond the end the last knot is
repeated; the basis functions `N_{i,p}` with `i + p + 1 < U.length` do not look there. -/
def knotFn (U : List K) : ℕ → K := fun i => U.getD i (U.getLastD 0)

/-- The B-spline basis functions by the Cox–de Boor recursion (The NURBS Book, eq. 2.5):
`N U p i u` is `N_{i,p}(u)`.  Lean's `x / 0 = 0` is the convention `0/0 := 0` of that book. -/
def N (U : ℕ → K) : ℕ → ℕ → K → K
  | 0, i, u => if U i ≤ u ∧ u < U (i + 1) then 1 else 0
  | p + 1, i, u =>
      (u - U i) / (U (i + p + 1) - U i) * N U p i u
      + (U (i + p + 2) - u) / (U (i + p + 2) - U (i + 1)) * N U p (i + 1) u

/-- The polynomial that `N_{i,p}` is on the knot span `[U k, U (k+1))`: the same recursion,
started with `1` on span `k` and `0` on all others. -/
noncomputable def piece (U : ℕ → K) (k : ℕ) : ℕ → ℕ → K[X]
  | 0, i => if i = k then 1 else 0
  | p + 1, i =>
      C (1 / (U (i + p + 1) - U i)) * (X - C (U i)) * piece U k p i
      + C (1 / (U (i + p + 2) - U (i + 1))) * (C (U (i + p + 2)) - X) * piece U k p (i + 1)

/-- The basis functions of a clamped knot vector for `n` control points, closed at the right end
of the domain: at the last knot the last function is `1` and the others are `0` (the limit from
the left when the last span is not empty). -/
def Nclosed (U : ℕ → K) (p n i : ℕ) (u : K) : K :=
  if u = U (n + p) then (if i + 1 = n then 1 else 0) else N U p i u

/-- The `m`-th derivative of a polynomial. -/
noncomputable def deriv (m : ℕ) (f : K[X]) : K[X] := (derivative^[m]) f

/-- The B-spline function with coefficients `c` (one coordinate of the control points). -/
def spline (U : ℕ → K) (p n : ℕ) (c : ℕ → K) (u : K) : K :=
  ∑ i ∈ Finset.range n, c i * N U p i u

/-- The same on the closed domain of a clamped knot vector. -/
def curve (U : ℕ → K) (p n : ℕ) (c : ℕ → K) (u : K) : K :=
  ∑ i ∈ Finset.range n, c i * Nclosed U p n i u

/-- The tensor-product B-spline function with `n * m` coefficients stored row by row: coefficient
`(i, j)` is entry `i * m + j`. -/
def surface (U : ℕ → K) (p n : ℕ) (V : ℕ → K) (q m : ℕ) (c : ℕ → K) (u v : K) : K :=
  ∑ i ∈ Finset.range n, ∑ j ∈ Finset.range m,
    c (i * m + j) * Nclosed U p n i u * Nclosed V q m j v

/-- The mixed partial derivative `∂ᵃ/∂uᵃ ∂ᵇ/∂vᵇ` of the polynomial that the tensor-product function
is on the patch of spans `(k, l)`. -/
noncomputable def patchDeriv (U : ℕ → K) (k p n : ℕ) (V : ℕ → K) (l q m : ℕ) (c : ℕ → K)
    (a b : ℕ) (u v : K) : K :=
  ∑ i ∈ Finset.range n, ∑ j ∈ Finset.range m,
    c (i * m + j) * (deriv a (piece U k p i)).eval u * (deriv b (piece V l q j)).eval v

/-- One coordinate of the rows of a 2-D array, as a function of the row index. -/
def coord (P : List (List K)) (c : ℕ) : ℕ → K := fun i => (P.getD i []).getD c 0

/-- The squared residual `‖A x - b‖²` of a system with unknowns `x 0, ..., x (n-1)`. -/
def sqResid (A : List (List K)) (n : ℕ) (x : ℕ → K) (b : List K) : K :=
  ∑ r ∈ Finset.range b.length,
    (∑ i ∈ Finset.range n, (A.getD r []).getD i 0 * x i - b.getD r 0) ^ 2

/-- `lstsq n A b` solves the least-squares problem `A x ≈ b` for every matrix `A` with `n` columns. -/
structure IsLstsq (lstsq : ℕ → List (List K) → List K → List K) : Prop where
  length : ∀ n A b, A.length = b.length → (∀ row ∈ A, row.length = n) → (lstsq n A b).length = n
  least : ∀ n A b, A.length = b.length → (∀ row ∈ A, row.length = n) → ∀ x : ℕ → K,
    sqResid A n (fun i => (lstsq n A b).getD i 0) b ≤ sqResid A n x b

/-- A least-squares solver that returns, among all solutions, the one of least norm (as documented for
`np.linalg.lstsq`). -/
structure IsMinNormLstsq (lstsq : ℕ → List (List K) → List K → List K) : Prop extends IsLstsq lstsq where
  norm : ∀ n A b, A.length = b.length → (∀ row ∈ A, row.length = n) → ∀ x : ℕ → K,
    sqResid A n x b ≤ sqResid A n (fun i => (lstsq n A b).getD i 0) b →
    ∑ i ∈ Finset.range n, (lstsq n A b).getD i 0 ^ 2 ≤ ∑ i ∈ Finset.range n, x i ^ 2

/-- A non-decreasing knot array of the right length for `n` control points, degree `p`. -/
structure KnotVector (p n : ℕ) (U : List K) : Prop where
  len : U.length = n + p + 1
  mono : U.Pairwise (· ≤ ·)
  size : p < n

/-- A clamped knot array: the first `p+1` knots are equal, the last `p+1` knots are equal. -/
structure Clamped (p n : ℕ) (U : List K) : Prop extends KnotVector p n U where
  left : ∀ i ≤ p, knotFn U i = knotFn U 0
  right : ∀ i, n ≤ i → i ≤ n + p → knotFn U i = knotFn U (n + p)

/-- The knots that bound spans of the domain, `U[p] < U[p+1] < ... < U[n]`, are distinct. -/
def DistinctInterior (p n : ℕ) (U : List K) : Prop :=
  ∀ i, p ≤ i → i < n → knotFn U i < knotFn U (i + 1)

/-- A parameter at which a curve with these knots can be evaluated: it is in the domain, it is not
a repeated interior knot (an end knot of multiplicity above `p + 1` counts as repeated), and if it
is so close to the last knot that `find_span` takes it for the last knot, it is in the last span. -/
structure Regular (p n : ℕ) (U : List K) (u : K) : Prop where
  lo : knotFn U p ≤ u
  hi : u ≤ knotFn U n
  simple : ∀ i, p ≤ i → i < n → u = knotFn U i → knotFn U i < knotFn U (i + 1)
  last : |u - knotFn U n| ≤ 1 / 10 ^ 8 + 1 / 10 ^ 6 * |knotFn U n| → knotFn U (n - 1) ≤ u

end PySpline.Spec
