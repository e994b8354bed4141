import Verif.Model.AnyArithmetic
import Verif.Model.Ieee

/-!
# An IEEE arithmetic for the inversion functions

One of the arithmetics that `Model/AnyArithmetic.lean` leaves open: every operation rounded with overflow and underflow, the
sums of `np.inner` from the left to the right, `np.linalg.inv` by Cramer's rule with the exact solution rounded once.
-/

namespace PySpline

open Ext

variable {K : Type} [Field K] [LinearOrder K]

/-- The operations in `fit/algorithms/parameterize.py:28-135, 184-340`, each rounded by `rd`; `norm` is
`np.linalg.norm` of a vector.  The quotient `1 / (N - 1)` of the grid is one of Python integers. -/
def ieeeArith (rd : K → Ext K) (norm : List (Ext K) → Ext K) : Arith K where
  add a b := rnd rd (a + b)
  sub a b := rnd rd (a - b)
  mul a b := rnd rd (a * b)
  div a b := rnd rd (a / b)
  norm := norm
  absNorm := Ext.abs
  inner a b :=
    if a.length = b.length then
      .ok ((List.zipWith (fun x y => rnd rd (x * y)) a b).foldl (fun s t => rnd rd (s + t)) 0)
    else .error .valueError
  solve a b c d x y := do
    let (s, t) ← solve2E a b c d x y
    .ok (rnd rd s, rnd rd t)
  gridPoint N k := rnd rd (rd (1 / ((N : K) - 1)) * fin (k : K))

/-- The sum of the absolute values, from the left to the right, in place of `np.linalg.norm`
(`fit/algorithms/parameterize.py:36`). -/
def sumNormR (rd : K → Ext K) (l : List (Ext K)) : Ext K := l.foldl (fun s x => rnd rd (s + Ext.abs x)) 0

end PySpline
