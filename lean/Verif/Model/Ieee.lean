import Verif.Model.Extended
import Verif.Rounding

/-!
# The evaluation routines in IEEE arithmetic with overflow and underflow

The functions of `Model/Knots.lean`, `Model/Basis.lean` and `Model/BSpline.lean` over `Ext K` with a
function `rd : K → Ext K` applied to every finite result: it rounds, and may return an infinity.
`bin64` gives double precision with gradual underflow and overflow; the sign of zero is left out.
It could matter only in `normalize` of an array of zeros of both signs, where the result is NaN either
way; the other divisors `right[r+1] + left[j-r]` are not `-0`, as `U - u` and `u - U'` cannot both be.
With `rd = fin` these are the functions of
`Model/Extended.lean`, with `rd = fin ∘ fl` those of `Model/Rounded.lean` (`Props/Ieee.lean`).
-/

namespace PySpline

open Ext

/-! ## Double precision -/

/-- The distance of neighbouring doubles near a positive number: `2 ^ (e - 52)`, at least
`2 ^ -1074`. -/
def ulp64 (x : ℚ) : ℚ := 2 ^ (max (expo x) (-1022) - 52)

/-- Rounding of a positive number to the nearest multiple of `ulp64`, ties to even. -/
def fl64sPos (x : ℚ) : ℚ := roundEven (x / ulp64 x) * ulp64 x

/-- Round to nearest with 53 significant bits and gradual underflow, but unbounded above. -/
def fl64s (x : ℚ) : ℚ := if 0 < x then fl64sPos x else if x < 0 then -fl64sPos (-x) else 0

/-- Rounding to double precision: what rounds to `2 ^ 1024` or more is an infinity. -/
def bin64 (x : ℚ) : Ext ℚ :=
  if |fl64s x| < 2 ^ 1024 then fin (fl64s x) else inf (decide (x < 0))

section
variable {K : Type} [Field K] [LinearOrder K]

/-- The stored result of an operation (`spline/algorithms/basis.py:48`). -/
def rnd (rd : K → Ext K) : Ext K → Ext K
  | fin x => rd x
  | e => e

/-- `np.isclose(a, b, rtol, atol)` (`spline/algorithms/knots.py:39, 169`). -/
def iscloseR (rd : K → Ext K) (a b : Ext K) (rtol atol : K) : Bool :=
  if a.isFin && b.isFin then
    le (Ext.abs (rnd rd (a - b))) (rnd rd (rd atol + rnd rd (rd rtol * Ext.abs b)))
  else eqv a b

/-! ## `spline/algorithms/knots.py` -/

/-- `find_span` (`spline/algorithms/knots.py:10-61`); the loop only compares. -/
def findSpanR (rd : K → Ext K) (n p : ℕ) (knot : Ext K) (U : List (Ext K)) : Py ℤ := do
  let e ← pyGet U (n : ℤ)
  if iscloseR rd knot e (1 / 10 ^ 6) atolDefault then .ok ((n : ℤ) - 1)
  else findSpanLoopE knot U (spanFuel n p) p n (findSpanMid0 n p)

/-- `normalize` (`spline/algorithms/knots.py:64-83`). -/
def normalizeR (rd : K → Ext K) (U : List (Ext K)) : Py (List (Ext K)) := do
  let maxKnot ← npMaxE U
  let minKnot ← npMinE U
  let normalized := U.map fun x => rnd rd (x - rnd rd (minKnot * 1))
  let factor := rnd rd (1 / rnd rd (maxKnot - minKnot))
  .ok (normalized.map fun x => rnd rd (x * factor))

/-- The tests of `check_knot_vector` on the normalized knots (`spline/algorithms/knots.py:106-121`). -/
def checkNormalizedR (rd : K → Ext K) (p : ℕ) (kv : List (Ext K)) (n : ℕ) : Py Bool :=
  if kv.length ≠ n + p + 1 then .ok false
  else if ¬ (pySlice kv 0 ((p : ℤ) + 1)).all (fun b => iscloseR rd 0 b rtolDefault atolDefault) then
    .ok false
  else do
    let e ← pyGet kv (-1 * ((p : ℤ) + 1))
    if ¬ iscloseR rd 1 e rtolDefault atolDefault then .ok false
    else do
      let previous ← pyGet kv 0
      .ok (increasingFromE previous kv)

/-- `check_knot_vector` (`spline/algorithms/knots.py:86-121`). -/
def checkKnotVectorR (rd : K → Ext K) (p : ℕ) (U : List (Ext K)) (n : ℕ) : Py Bool := do
  let kv ← normalizeR rd U
  checkNormalizedR rd p kv n

/-- `find_multiplicity` (`spline/algorithms/knots.py:151-171`). -/
def findMultiplicityR (rd : K → Ext K) (knot : Ext K) (U : List (Ext K)) : ℕ :=
  U.foldl (fun mult x => if iscloseR rd knot x rtolDefault atolDefault then mult + 1 else mult) 0

/-- `alpha * x + (1.0 - alpha) * y` for rows (`spline/algorithms/knots.py:243`). -/
def rowCombR (rd : K → Ext K) (alpha : Ext K) (x y : List (Ext K)) : List (Ext K) :=
  List.zipWith (fun s t => rnd rd (rnd rd (alpha * s) + rnd rd (rnd rd (1 - alpha) * t))) x y

/-- `curve_knot_insertion` (`spline/algorithms/knots.py:174-253`). -/
def curveKnotInsertionR (rd : K → Ext K) (p : ℕ) (U : List (Ext K)) (P : List (List (Ext K))) (u : Ext K) (r : ℕ) :
    Py (List (Ext K) × List (List (Ext K))) := do
  -- 203-205
  let k ← findSpanR rd P.length p u U
  let s : ℤ := (findMultiplicityR rd u U : ℤ)
  -- 208-214
  let oldLen : ℤ := (P.length : ℤ) + p + 1
  let newKv : List (Ext K) := List.replicate (U.length + r) 0
  let newP : List (List (Ext K)) := zeros2E (P.length + r) 3
  let R : List (List (Ext K)) := zeros2E (p + 1) 3
  -- 217-224
  let newKv ← forZ 0 (k + 1) newKv fun i kv => do
    let x ← pyGet U i
    pySet kv i x
  let newKv ← forZ 1 ((r : ℤ) + 1) newKv fun i kv => pySet kv (k + i) u
  let newKv ← forZ (k + 1) oldLen newKv fun i kv => do
    let x ← pyGet U i
    pySet kv (i + r) x
  -- 227-234
  let newP ← forZ 0 (k - p + 1) newP fun i m => do
    let row ← pyGet P i
    assignRowE m i row
  let newP ← forZ (k - s) P.length newP fun i m => do
    let row ← pyGet P i
    assignRowE m (i + r) row
  let R ← forZ 0 ((p : ℤ) - s + 1) R fun i m => do
    let row ← pyGet P (k - p + i)
    assignRowE m i row
  -- 237-246
  let (newP, R) ← forZ 1 ((r : ℤ) + 1) (newP, R) fun j (newP, R) => do
    let L : ℤ := k - p + j
    let R ← forZ 0 ((p : ℤ) - j - s + 1) R fun i R => do
      let a ← pyGet U (L + i)
      let b ← pyGet U (i + k + 1)
      let alpha := rnd rd (rnd rd (u - a) / rnd rd (b - a))
      let x ← pyGet R (i + 1)
      let y ← pyGet R i
      assignRowE R i (rowCombR rd alpha x y)
    let r0 ← pyGet R 0
    let newP ← assignRowE newP L r0
    let r1 ← pyGet R ((p : ℤ) - j - s)
    let newP ← assignRowE newP (k + r - j - s) r1
    .ok (newP, R)
  -- 249-251
  let L : ℤ := k - p + r
  let newP ← forZ (L + 1) (k - s) newP fun i m => do
    let row ← pyGet R (i - L)
    assignRowE m i row
  .ok (newKv, newP)

/-! ## `spline/algorithms/basis.py` -/

/-- `basis_functions` (`spline/algorithms/basis.py:10-54`). -/
def basisFunctionsR (rd : K → Ext K) (span : ℤ) (knot : Ext K) (degree : ℕ) (U : List (Ext K)) :
    Py (List (Ext K)) := do
  let N : List (Ext K) := List.replicate (degree + 1) 1
  let left : List (Ext K) := List.replicate (degree + 1) 0
  let right : List (Ext K) := List.replicate (degree + 1) 0
  let (N, _, _) ← forN 1 (degree + 1) (N, left, right) fun j (N, left, right) => do
    let a ← pyGet U (span + 1 - j)
    let left ← pySet left j (rnd rd (knot - a))
    let b ← pyGet U (span + j)
    let right ← pySet right j (rnd rd (b - knot))
    let (N, saved) ← forN 0 j (N, (0 : Ext K)) fun r (N, saved) => do
      let nr ← pyGet N r
      let rr ← pyGet right ((r : ℤ) + 1)
      let lf ← pyGet left ((j : ℤ) - r)
      let temp := rnd rd (nr / rnd rd (rr + lf))
      let N ← pySet N r (rnd rd (saved + rnd rd (rr * temp)))
      .ok (N, rnd rd (lf * temp))
    let N ← pySet N j saved
    .ok (N, left, right)
  .ok N

/-! ## `spline/model/bspline.py` -/

/-- `DotR rd l s`: the number `s` is a possible result of summing the products of the pairs in `l`,
in any order and with any bracketing, fused multiply-add allowed; see `DotFl`
(`spline/model/bspline.py:40-42`). -/
inductive DotR (rd : K → Ext K) : List (Ext K × Ext K) → Ext K → Prop
  | mul (a b : Ext K) : DotR rd [(a, b)] (rnd rd (a * b))
  | add {l m : List (Ext K × Ext K)} {s t : Ext K} : DotR rd l s → DotR rd m t →
      DotR rd (l ++ m) (rnd rd (s + t))
  | fma {l : List (Ext K × Ext K)} {s : Ext K} (a b : Ext K) : DotR rd l s →
      DotR rd (l ++ [(a, b)]) (rnd rd (s + a * b))
  | perm {l m : List (Ext K × Ext K)} {s : Ext K} : l.Perm m → DotR rd l s → DotR rd m s

/-- `BSplineCurve.single_point` (`spline/model/bspline.py:19-44`): the point `[x, y, z]` is a possible
result. -/
def Curve.PointR (rd : K → Ext K) (c : Curve (Ext K)) (u : Ext K) (pt : List (Ext K)) : Prop :=
  ∃ span funs, validateKnotE u = true ∧
    findSpanR rd c.ctrlpts.length c.degree u c.kv = .ok span ∧
    basisFunctionsR rd span u c.degree c.kv = .ok funs ∧
    ∃ col0 col1 col2 x y z,
      columnE (pySlice c.ctrlpts (span - c.degree) (span + 1)) 0 = .ok col0 ∧
      columnE (pySlice c.ctrlpts (span - c.degree) (span + 1)) 1 = .ok col1 ∧
      columnE (pySlice c.ctrlpts (span - c.degree) (span + 1)) 2 = .ok col2 ∧
      funs.length = (pySlice c.ctrlpts (span - c.degree) (span + 1)).length ∧
      DotR rd (funs.zip col0) x ∧ DotR rd (funs.zip col1) y ∧ DotR rd (funs.zip col2) z ∧
      pt = [x, y, z]

/-- `bu @ M @ bv`: `x` is a possible result (`spline/model/bspline.py:217-222`). -/
def BilinearR (rd : K → Ext K) (bu : List (Ext K)) (m : List (List (Ext K))) (bv : List (Ext K))
    (x : Ext K) : Prop :=
  ∃ w : List (Ext K), bu.length = m.length ∧ w.length = (m.headD []).length ∧ w.length = bv.length ∧
    (∀ j < w.length, DotR rd (bu.zip (m.map fun row => row.getD j 0)) (w.getD j 0)) ∧
    DotR rd (w.zip bv) x

/-- `BSplineSurface.single_point` (`spline/model/bspline.py:182-226`): the point `[x, y, z]` is a
possible result. -/
def Surface.PointR (rd : K → Ext K) (s : Surface (Ext K)) (u v : Ext K) (pt : List (Ext K)) : Prop :=
  ∃ uSpan vSpan bu bv, validateKnotE u = true ∧ validateKnotE v = true ∧
    findSpanR rd s.numU s.degreeU u s.kvU = .ok uSpan ∧
    findSpanR rd s.numV s.degreeV v s.kvV = .ok vSpan ∧
    basisFunctionsR rd uSpan u s.degreeU s.kvU = .ok bu ∧
    basisFunctionsR rd vSpan v s.degreeV s.kvV = .ok bv ∧
    ∃ cx cy cz xa ya za x y z,
      columnE s.ctrlpts 0 = .ok cx ∧ columnE s.ctrlpts 1 = .ok cy ∧ columnE s.ctrlpts 2 = .ok cz ∧
      reshape2E cx s.numU s.numV = .ok xa ∧ reshape2E cy s.numU s.numV = .ok ya ∧
      reshape2E cz s.numU s.numV = .ok za ∧
      BilinearR rd bu
        (slice2E xa (uSpan - s.degreeU) (uSpan + 1) (vSpan - s.degreeV) (vSpan + 1)) bv x ∧
      BilinearR rd bu
        (slice2E ya (uSpan - s.degreeU) (uSpan + 1) (vSpan - s.degreeV) (vSpan + 1)) bv y ∧
      BilinearR rd bu
        (slice2E za (uSpan - s.degreeU) (uSpan + 1) (vSpan - s.degreeV) (vSpan + 1)) bv z ∧
      pt = [x, y, z]

end

end PySpline
