import Verif.Model.MemoryData
import Verif.SpecMemory

/-!
# What a `BoundaryProblem` in memory looks like and which arrays it has computed itself
-/

namespace PySpline

section
variable {K : Type}

/-- What the getters of a problem object show: the contents of its arrays and curves. -/
def ProblemMem.view (w : ProblemMem K) : Boundary K where
  degree := w.self.degree
  data := w.self.data.map fun d => ⟨[(w.mem.mat d.1).length, d.2], (w.mem.mat d.1).flatten⟩
  start := w.self.start.map fun r => ⟨[(w.mem.vec r).length], w.mem.vec r⟩
  fin := w.self.fin.map fun r => ⟨[(w.mem.vec r).length], w.mem.vec r⟩
  numCtrl := w.self.numCtrl
  fitMethod := w.self.fitMethod
  initCurve := w.self.initCurve.map w.mem.curve
  paramData := w.self.paramData.map w.mem.mat
  fitCurve := w.self.fitCurve.map w.mem.curve

/-- What the attributes refer to exists, and the rows of the data are equally long. -/
structure ProblemMem.Good (w : ProblemMem K) : Prop where
  data : ∀ r c, w.self.data = some (r, c) → r < w.mem.mats.length ∧ ∀ row ∈ w.mem.mat r, row.length = c
  start : ∀ r, w.self.start = some r → r < w.mem.vecs.length
  fin : ∀ r, w.self.fin = some r → r < w.mem.vecs.length
  initCurve : ∀ c, w.self.initCurve = some c → LiveCurve w.mem c
  paramData : ∀ r, w.self.paramData = some r → r < w.mem.mats.length
  fitCurve : ∀ c, w.self.fitCurve = some c → LiveCurve w.mem c

/-- The 1-D array `r` is part of what the problem has computed: the knot vector of one of its curves. -/
def ProblemMem.ComputedVec (w : ProblemMem K) (r : Ref) : Prop :=
  ∃ c, (w.self.initCurve = some c ∨ w.self.fitCurve = some c) ∧ (w.mem.curveObj c).kv = r

/-- The 2-D array `r` is part of what the problem has computed: the control points of one of its curves or the data
with their parameters. -/
def ProblemMem.ComputedMat (w : ProblemMem K) (r : Ref) : Prop :=
  (∃ c, (w.self.initCurve = some c ∨ w.self.fitCurve = some c) ∧ (w.mem.curveObj c).ctrl = r) ∨
    w.self.paramData = some r

/-- From `w` to `w'` no array and no curve has been changed, and no array that was there before has become part of what
the problem has computed. -/
structure ProblemMem.Keeps (w w' : ProblemMem K) : Prop where
  good : w'.Good
  mem : Unwritten w.mem w'.mem
  vec : ∀ r < w.mem.vecs.length, w'.ComputedVec r → w.ComputedVec r
  mat : ∀ r < w.mem.mats.length, w'.ComputedMat r → w.ComputedMat r

/-- The array passed exists, with as many columns as it claims; other values give arrays with as many entries as their
shape says. -/
def Arg.Ok (m : Mem K) : Arg K → Prop
  | .vec r => r < m.vecs.length
  | .mat r c => r < m.mats.length ∧ ∀ row ∈ m.mat r, row.length = c
  | .val v => ∀ a, v = .arr a ∨ v = .seq (.ok a) → a.data.length = a.shape.prod

/-- The same for the calls. -/
def ProblemOp.Ok (m : Mem K) : ProblemOp K → Prop
  | .data v | .start v | .fin v => v.Ok m
  | _ => True

/-- The same call with what its argument looks like. -/
def ProblemOp.value (m : Mem K) : ProblemOp K → BOp K
  | .degree v => .degree v
  | .data v => .data (v.value m)
  | .start v => .start (v.value m)
  | .fin v => .fin (v.value m)
  | .numCtrl v => .numCtrl v
  | .fitMethod v => .fitMethod v
  | .setInitCurve => .setInitCurve
  | .parameterize => .parameterize
  | .fit => .fit

end

end PySpline
