import Verif.Model.Extended

/-!
# The inversion functions in an arbitrary arithmetic

`fit/algorithms/parameterize.py` once more, with nothing assumed about the results of the arithmetic
operations: `Arith` collects them as unspecified functions on the numbers, the infinities and NaN.
What remains is the control flow, the comparisons (`lt`, `le`: exact, false for NaN) and the constants
`0.0` and `1.0`.  Every deterministic implementation is an instance: the exact numbers of
`Model/Extended.lean` (theorems `curveInversionA_exact`, `surfaceInversionA_exact`), and double
precision with its overflow, underflow and signed zeros, whatever the order of the sums in
`np.inner`, `np.linalg.norm` and `np.linalg.inv`.
-/

namespace PySpline

open Ext

section
variable {K : Type} [Field K] [LinearOrder K]

/-- The operations of an arithmetic.  `norm` is `np.linalg.norm` of a vector, `absNorm` that of a
number, `inner` is `np.inner`, `solve a b c d x y` is
`np.matmul(np.linalg.inv([[a, b], [c, d]]), [[x], [y]])`, and `gridPoint N k` is entry `k` of
`1 / (N - 1) * np.array(list(range(0, N)))`.  They are the operations in
`fit/algorithms/parameterize.py:28-135, 184-340`. -/
structure Arith (K : Type) where
  add : Ext K → Ext K → Ext K
  sub : Ext K → Ext K → Ext K
  mul : Ext K → Ext K → Ext K
  div : Ext K → Ext K → Ext K
  norm : List (Ext K) → Ext K
  absNorm : Ext K → Ext K
  inner : List (Ext K) → List (Ext K) → Py (Ext K)
  solve : Ext K → Ext K → Ext K → Ext K → Ext K → Ext K → Py (Ext K × Ext K)
  gridPoint : ℕ → ℕ → Ext K

/-- `a - b` for 1-D arrays, see `vsub` (`fit/algorithms/parameterize.py:36, 76, 261`). -/
def vsubA (A : Arith K) (a b : List (Ext K)) : Py (List (Ext K)) :=
  if a.length = b.length then .ok (List.zipWith A.sub a b)
  else if b.length = 1 then .ok (a.map fun x => A.sub x (b.getD 0 0))
  else if a.length = 1 then .ok (b.map fun x => A.sub (a.getD 0 0) x)
  else .error .valueError

/-- `a + b` for the rows of one 2-D array (`fit/algorithms/parameterize.py:292`). -/
def vaddA (A : Arith K) (a b : List (Ext K)) : Py (List (Ext K)) :=
  if a.length = b.length then .ok (List.zipWith A.add a b) else .error .valueError

/-- The parameters at which the initial guesses look (`fit/algorithms/parameterize.py:28, 184, 185`). -/
def gridA (A : Arith K) (N : ℕ) : List (Ext K) := (List.range N).map (A.gridPoint N)

/-- `initial_guess_curve` (`fit/algorithms/parameterize.py:12-42`). -/
def initialGuessCurveA (A : Arith K) (C : CurveLike (Ext K)) (point : List (Ext K)) : Py (Ext K) := do
  let N := 2 * C.numCtrl
  let evalU : List (Ext K) := gridA A N
  let u0 ← pyGet evalU 0
  let (_, u0) ← forN 0 N (fin (hugeDist : K), u0) fun u (minVal, u0) => do
    let x ← pyGet evalU u
    let q ← C.singlePoint x
    let r ← vsubA A point q
    let normr := A.norm r
    if lt normr minVal then .ok (normr, x) else .ok (minVal, u0)
  .ok u0

/-- First convergence test (`fit/algorithms/parameterize.py:76-77, 113-114`). -/
def curveCond1A (A : Arith K) (C : CurveLike (Ext K)) (point : List (Ext K)) (eps1 u : Ext K) :
    Py Bool := do
  let q ← C.singlePoint u
  let r ← vsubA A q point
  .ok (le (A.norm r) eps1)

/-- Second convergence test (`fit/algorithms/parameterize.py:81-83, 118-120`). -/
def curveCond2A (A : Arith K) (point : List (Ext K)) (eps2 : Ext K) (s : CurveState (Ext K)) :
    Py Bool := do
  let r ← vsubA A s.pt point
  let num ← A.inner s.du r
  .ok (le (A.div (A.absNorm num) (A.mul (A.norm s.du) (A.norm r))) eps2)

/-- The `while True` loop of `curve_inversion` (`fit/algorithms/parameterize.py:88-135`). -/
def curveLoopA (A : Arith K) (C : CurveLike (Ext K)) (point : List (Ext K)) (eps1 eps2 : Ext K)
    (maxIter : ℤ) : ℕ → ℤ → CurveState (Ext K) → Py (Ext K)
  | 0, _, _ => .error .diverged
  | fuel + 1, j, s => do
    -- 90-98
    let r ← vsubA A s.pt point
    let num ← A.inner s.du r
    let d ← A.inner s.duu r
    let uip1 := clamp01E (A.sub s.u (A.div num (A.add d (A.mul (A.norm s.du) (A.norm s.du)))))
    -- 101-104
    if le (A.norm (s.du.map fun i => A.mul i (A.sub uip1 s.u))) eps1 then .ok s.u
    else do
      -- 107-115
      let s' ← curveInfoE C uip1
      let c1 ← curveCond1A A C point eps1 uip1
      if c1 then .ok s.u
      else do
        -- 118-121
        let c2 ← curveCond2A A point eps2 s'
        if c2 then .ok s.u
        -- 124-132
        else if j > maxIter then .ok s'.u
        else curveLoopA A C point eps1 eps2 maxIter fuel (j + 1) s'

/-- `curve_inversion` (`fit/algorithms/parameterize.py:45-135`). -/
def curveInversionA (fuel : ℕ) (A : Arith K) (C : CurveLike (Ext K)) (point : List (Ext K))
    (eps1 eps2 : Ext K) (maxIter : ℤ) : Py (Ext K) := do
  let u0 ← initialGuessCurveA A C point
  let s ← curveInfoE C u0
  let c1 ← curveCond1A A C point eps1 u0
  if c1 then .ok u0
  else do
    let c2 ← curveCond2A A point eps2 s
    if c2 then .ok u0
    else curveLoopA A C point eps1 eps2 maxIter fuel 0 s

/-- `initial_guess_surf` (`fit/algorithms/parameterize.py:167-202`). -/
def initialGuessSurfA (A : Arith K) (S : SurfLike (Ext K)) (point : List (Ext K)) :
    Py (Ext K × Ext K) := do
  let evalU : List (Ext K) := gridA A (2 * S.numU)
  let evalV : List (Ext K) := gridA A (2 * S.numV)
  let u0 ← pyGet evalU 0
  let v0 ← pyGet evalV 0
  let (_, best) ← forN 0 (2 * S.numU) (fin (hugeDist : K), (u0, v0)) fun u st =>
    forN 0 (2 * S.numV) st fun v (minVal, best) => do
      let x ← pyGet evalU u
      let y ← pyGet evalV v
      let q ← S.singlePoint x y
      let r ← vsubA A point q
      let normr := A.norm r
      if lt normr minVal then .ok (normr, (x, y)) else .ok (minVal, best)
  .ok best

/-- First convergence test (`fit/algorithms/parameterize.py:244-245, 307-308`). -/
def surfCond1A (A : Arith K) (S : SurfLike (Ext K)) (point : List (Ext K)) (eps1 u v : Ext K) :
    Py Bool := do
  let q ← S.singlePoint u v
  let r ← vsubA A q point
  .ok (le (A.norm r) eps1)

/-- Second convergence test (`fit/algorithms/parameterize.py:249-254, 312-321`). -/
def surfCond2A (A : Arith K) (S : SurfLike (Ext K)) (point : List (Ext K)) (eps2 u v : Ext K)
    (d : SurfDers (Ext K)) : Py Bool := do
  let q ← S.singlePoint u v
  let r ← vsubA A q point
  let a ← A.inner d.du r
  let b ← A.inner d.dv r
  .ok (le (A.div (A.absNorm a) (A.mul (A.norm d.du) (A.norm r))) eps2 &&
    le (A.div (A.absNorm b) (A.mul (A.norm d.dv) (A.norm r))) eps2)

/-- The Newton step of `surface_inversion` (`fit/algorithms/parameterize.py:261-289`). -/
def surfStepA (A : Arith K) (S : SurfLike (Ext K)) (point : List (Ext K)) (ui vi : Ext K)
    (d : SurfDers (Ext K)) : Py (Ext K × Ext K) := do
  let q ← S.singlePoint ui vi
  let r ← vsubA A q point
  let f ← A.inner r d.du
  let g ← A.inner r d.dv
  let ruu ← A.inner r d.duu
  let uv ← A.inner d.du d.dv
  let ruv ← A.inner r d.duv
  let rvv ← A.inner r d.dvv
  let fu := A.add (A.mul (A.norm d.du) (A.norm d.du)) ruu
  let fv := A.add uv ruv
  let gu := A.add uv ruv
  let gv := A.add (A.mul (A.norm d.dv) (A.norm d.dv)) rvv
  let (delta0, delta1) ← A.solve fu fv gu gv (A.mul (-1) f) (A.mul (-1) g)
  .ok (clamp01E (A.add delta0 ui), clamp01E (A.add delta1 vi))

/-- The `while True` loop of `surface_inversion` (`fit/algorithms/parameterize.py:259-340`). -/
def surfLoopA (A : Arith K) (S : SurfLike (Ext K)) (point : List (Ext K)) (eps1 eps2 : Ext K)
    (maxIter : ℤ) : ℕ → ℤ → Ext K → Ext K → SurfDers (Ext K) → Py (Ext K × Ext K)
  | 0, _, _, _, _ => .error .diverged
  | fuel + 1, n, ui, vi, d => do
    let (uip1, vip1) ← surfStepA A S point ui vi d
    -- 292-294
    let w ← vaddA A (d.du.map fun x => A.mul (A.sub uip1 ui) x) (d.dv.map fun x => A.mul (A.sub vip1 vi) x)
    if le (A.norm w) eps1 then .ok (uip1, vip1)
    else do
      -- 298-309
      let d' ← surfInfoE S ui vi
      let c1 ← surfCond1A A S point eps1 uip1 vip1
      if c1 then .ok (uip1, vip1)
      else do
        -- 312-322
        let c2 ← surfCond2A A S point eps2 uip1 vip1 d'
        if c2 then .ok (uip1, vip1)
        -- 325-338
        else if n ≥ maxIter then .ok (uip1, vip1)
        else surfLoopA A S point eps1 eps2 maxIter fuel (n + 1) uip1 vip1 d'

/-- `surface_inversion` (`fit/algorithms/parameterize.py:205-340`). -/
def surfaceInversionA (fuel : ℕ) (A : Arith K) (S : SurfLike (Ext K)) (point : List (Ext K))
    (eps1 eps2 : Ext K) (maxIter : ℤ) : Py (Ext K × Ext K) := do
  let (u0, v0) ← initialGuessSurfA A S point
  let d ← surfInfoE S u0 v0
  let c1 ← surfCond1A A S point eps1 u0 v0
  if c1 then .ok (u0, v0)
  else do
    let c2 ← surfCond2A A S point eps2 u0 v0 d
    if c2 then .ok (u0, v0)
    else surfLoopA A S point eps1 eps2 maxIter fuel 0 u0 v0 d

/-- The operations of `Model/Extended.lean`: exact on numbers, infinities and NaN as in IEEE 754. -/
def exactArith (nm : Num K) : Arith K where
  add := (· + ·)
  sub := (· - ·)
  mul := (· * ·)
  div := (· / ·)
  norm := normE nm.norm
  absNorm := Ext.abs
  inner := dotE
  solve := solve2E
  gridPoint N k := fin (1 / ((N : K) - 1) * (k : K))

/-- A number is rounded, infinities and NaN remain. -/
def roundE (fl : K → K) : Ext K → Ext K
  | fin x => fin (fl x)
  | x => x

/-- Rounded operations, sums from the left to the right; the norm of a vector is computed by `norm`. -/
def flArith (fl : K → K) (norm : List K → K) : Arith K where
  add a b := roundE fl (a + b)
  sub a b := roundE fl (a - b)
  mul a b := roundE fl (a * b)
  div a b := roundE fl (a / b)
  norm := normE norm
  absNorm := Ext.abs
  inner a b :=
    if a.length = b.length then
      .ok ((List.zipWith (fun x y => roundE fl (x * y)) a b).foldl (fun s t => roundE fl (s + t)) 0)
    else .error .valueError
  solve a b c d x y := do
    let (s, t) ← solve2E a b c d x y
    .ok (roundE fl s, roundE fl t)
  gridPoint N k := fin (fl (fl (1 / ((N : K) - 1)) * (k : K)))

/-- The sum of the absolute values, added from the left to the right. -/
def sumNormFl (fl : K → K) (l : List K) : K := l.foldl (fun s x => fl (s + |x|)) 0

end

end PySpline
