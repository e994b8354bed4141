import Verif.Py

/-!
# Numbers with infinities and NaN

`Ext K` adds the two infinities and NaN to the exact numbers.  The operations follow IEEE 754, the
zero being `+0`: a quotient by zero is an infinity with the sign of the numerator, or NaN.
-/

namespace PySpline

/-- A number, an infinity (`true`: `-inf`), or NaN. -/
inductive Ext (K : Type)
  | fin (x : K)
  | inf (neg : Bool)
  | nan
  deriving DecidableEq, Repr

namespace Ext
variable {K : Type} [Field K] [LinearOrder K]

instance : Zero (Ext K) := ⟨fin 0⟩
instance : One (Ext K) := ⟨fin 1⟩

/-- `-a` -/
protected def neg : Ext K → Ext K
  | fin x => fin (-x)
  | inf s => inf (!s)
  | nan => nan

/-- `a + b` -/
protected def add : Ext K → Ext K → Ext K
  | fin x, fin y => fin (x + y)
  | fin _, inf s => inf s
  | inf s, fin _ => inf s
  | inf s, inf t => if s = t then inf s else nan
  | nan, _ => nan
  | _, nan => nan

/-- `a - b` -/
protected def sub : Ext K → Ext K → Ext K
  | fin x, fin y => fin (x - y)
  | fin _, inf s => inf (!s)
  | inf s, fin _ => inf s
  | inf s, inf t => if s = t then nan else inf s
  | nan, _ => nan
  | _, nan => nan

/-- `a * b` -/
protected def mul : Ext K → Ext K → Ext K
  | fin x, fin y => fin (x * y)
  | fin x, inf s => if x = 0 then nan else inf (decide (x < 0) ^^ s)
  | inf s, fin x => if x = 0 then nan else inf (decide (x < 0) ^^ s)
  | inf s, inf t => inf (s ^^ t)
  | nan, _ => nan
  | _, nan => nan

/-- `a / b` in numpy: division by zero does not raise. -/
protected def div : Ext K → Ext K → Ext K
  | fin x, fin y =>
    if y = 0 then (if x = 0 then nan else inf (decide (x < 0))) else fin (x / y)
  | fin _, inf _ => fin 0
  | inf s, fin y => inf (decide (y < 0) ^^ s)
  | inf _, inf _ => nan
  | nan, _ => nan
  | _, nan => nan

instance : Neg (Ext K) := ⟨Ext.neg⟩
instance : Add (Ext K) := ⟨Ext.add⟩
instance : Mul (Ext K) := ⟨Ext.mul⟩
instance : Sub (Ext K) := ⟨Ext.sub⟩
instance : Div (Ext K) := ⟨Ext.div⟩

/-- `a < b`; false when one of them is NaN. -/
def lt : Ext K → Ext K → Bool
  | fin x, fin y => decide (x < y)
  | fin _, inf s => !s
  | inf s, fin _ => s
  | inf s, inf t => s && !t
  | nan, _ => false
  | _, nan => false

/-- `a == b`; false when one of them is NaN. -/
def eqv : Ext K → Ext K → Bool
  | fin x, fin y => decide (x = y)
  | inf s, inf t => s == t
  | _, _ => false

/-- `a <= b` -/
def le (a b : Ext K) : Bool := lt a b || eqv a b

/-- `abs(a)` -/
def abs : Ext K → Ext K
  | fin x => fin |x|
  | inf _ => inf false
  | nan => nan

/-- `np.isfinite(a)` -/
def isFin : Ext K → Bool
  | fin _ => true
  | _ => false

/-- `max(a, b)` as `np.max` uses it: NaN wins. -/
def max2 (a b : Ext K) : Ext K :=
  if a = nan then nan else if b = nan then nan else if lt a b then b else a

/-- `min(a, b)` as `np.min` uses it: NaN wins. -/
def min2 (a b : Ext K) : Ext K :=
  if a = nan then nan else if b = nan then nan else if lt b a then b else a

/-- `np.isclose(a, b, rtol, atol)`: the tolerance test for finite numbers, equality otherwise. -/
def isclose (a b rtol atol : Ext K) : Bool :=
  if a.isFin && b.isFin then le (abs (a - b)) (atol + rtol * abs b) else eqv a b

end Ext

end PySpline
