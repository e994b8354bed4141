import Verif.Model.Data
import Verif.Model.Memory

/-!
# Model of `BoundaryProblem` with its arrays and curves in memory

`Verif/Model/Data.lean` gives the attributes of a `BoundaryProblem` (`fit/model/base_data.py:87-404`)
values.  Here they are references into the memory of `Verif/Model/Memory.lean`: the setters of `data`,
`start` and `end` store an array they are given, the curves are objects, and the methods are the
functions on the memory.  `save` and `load` are left out: they store no array.
-/

namespace PySpline

/-- The attributes of a `BoundaryProblem`: numbers, or places in memory.  With the array of the data
goes the number of its columns, which an array without rows has too
(`fit/model/base_data.py:92-101`). -/
structure ProblemRefs where
  degree : Option ℤ
  data : Option (Ref × ℕ)
  start : Option Ref
  fin : Option Ref
  numCtrl : Option ℤ
  fitMethod : String
  initCurve : Option Ref
  paramData : Option Ref
  fitCurve : Option Ref
  deriving DecidableEq, Repr

/-- A problem object and the memory (`fit/model/base_data.py:87-404`). -/
structure ProblemMem (K : Type) where
  self : ProblemRefs
  mem : Mem K
  deriving DecidableEq, Repr

/-- `BoundaryProblem.__init__` (`fit/model/base_data.py:92-101`). -/
def ProblemRefs.new : ProblemRefs := ⟨none, none, none, none, none, "fixed", none, none, none⟩

/-- Arguments of the setters of `data`, `start` and `end`: an array of the caller with one or two axes, or any
other value.  Lists belong to the latter, and so do arrays that the caller does not keep
(`fit/model/base_data.py:139-147, 169-177, 199-207`). -/
inductive Arg (K : Type)
  | vec (r : Ref) | mat (r : Ref) (cols : ℕ) | val (v : Val K)

section
variable {K : Type} [Field K] [LinearOrder K]

/-- What an argument looks like at the time of the call (`fit/model/base_data.py:139-147`). -/
def Arg.value (m : Mem K) : Arg K → Val K
  | .vec r => .arr ⟨[(m.vec r).length], m.vec r⟩
  | .mat r c => .arr ⟨[(m.mat r).length, c], (m.mat r).flatten⟩
  | .val v => v

/-- A function that works on the memory (`fit/model/base_data.py:278-355`). -/
def onMem {α : Type} (e : Eff K α) : Meth (ProblemMem K) α :=
  Meth.zoom ProblemMem.mem (fun m w => { w with mem := m }) e

/-- The array that is stored as 2-D data: the one that was passed, or the new one that `np.array` has made
(`fit/model/base_data.py:142-147, 157`).  Line 143 makes it before the checks; as nobody sees it when they fail, it
is made here when it is stored. -/
def storeMat (v : Arg K) (a : Arr K) : Meth (ProblemMem K) Ref :=
  match v with
  | .mat r _ => Meth.pure r
  | _ => onMem (mnew a.rows)

/-- The array that is stored as an end point (`fit/model/base_data.py:172-177, 187, 202-207, 217`). -/
def storeVec (v : Arg K) (a : Arr K) : Meth (ProblemMem K) Ref :=
  match v with
  | .vec r => Meth.pure r
  | _ => onMem (vnew a.data)

/-- Assignments to attributes (`fit/model/base_data.py:92-101`). -/
def assignRefs (f : ProblemRefs → ProblemRefs) : Meth (ProblemMem K) Unit :=
  Meth.assign fun w => { w with self := f w.self }

/-- `data.setter` (`fit/model/base_data.py:139-157`). -/
def setDataMem (v : Arg K) : Meth (ProblemMem K) Unit := do
  let w ← Meth.read id
  let a ← Meth.lift (v.value w.mem).toArray
  if a.shape.length ≠ 2 then Meth.raise .valueError
  else do
    let last ← Meth.lift (pyGet a.shape (-1))
    if ¬ (last = 2 ∨ last = 3) then Meth.raise .valueError
    else do
      let r ← storeMat v a
      assignRefs fun s => { s with data := some (r, last) }

/-- `start.setter` (`fit/model/base_data.py:169-187`). -/
def setStartMem (v : Arg K) : Meth (ProblemMem K) Unit := do
  let w ← Meth.read id
  let a ← Meth.lift (v.value w.mem).toArray
  if a.shape.length ≠ 1 then Meth.raise .valueError
  else do
    let len ← Meth.lift (pyGet a.shape 0)
    if ¬ (len = 2 ∨ len = 3) then Meth.raise .valueError
    else do
      let r ← storeVec v a
      assignRefs fun s => { s with start := some r }

/-- `end.setter` (`fit/model/base_data.py:199-217`). -/
def setEndMem (v : Arg K) : Meth (ProblemMem K) Unit := do
  let w ← Meth.read id
  let a ← Meth.lift (v.value w.mem).toArray
  if a.shape.length ≠ 1 then Meth.raise .valueError
  else do
    let len ← Meth.lift (pyGet a.shape 0)
    if ¬ (len = 2 ∨ len = 3) then Meth.raise .valueError
    else do
      let r ← storeVec v a
      assignRefs fun s => { s with fin := some r }

/-- The coordinates of an end point that may be `None` (`fit/algorithms/initialization.py:43-45`). -/
def pointOfMem : Option Ref → Eff K (List K)
  | none => liftPy (.error .typeError)
  | some r => vread r

/-- `initialize_curve` called with attributes that may be `None`, see `initCurveOf`
(`fit/algorithms/initialization.py:14-56`). -/
def initCurveOfMem (start fin : Option Ref) (degree numCtrl : Option ℤ) : Eff K Ref := do
  let d ← liftPy (match degree with | none => .error .typeError | some d => .ok d : Py ℤ)
  let n ← liftPy (match numCtrl with | none => .error .typeError | some n => .ok n : Py ℤ)
  if ¬ n ≥ d then liftPy (.error .valueError)
  else do
    let s ← pointOfMem start
    let e ← pointOfMem fin
    initializeCurveMem s e d.toNat n.toNat

/-- `set_init_curve` (`fit/model/base_data.py:278-288`). -/
def setInitCurveMem : Meth (ProblemMem K) Unit := do
  let w ← Meth.read id
  let s := w.self
  let c ← onMem (if s.fitMethod = "adaptive" then
      initCurveOfMem s.start s.fin s.degree (s.degree.map (· + 1))
    else initCurveOfMem s.start s.fin s.degree s.numCtrl)
  assignRefs fun s => { s with initCurve := some c }

/-- The array of the data; iterating over `None` is a `TypeError` (`fit/algorithms/parameterize.py:152`). -/
def dataRef : Option (Ref × ℕ) → Py Ref
  | none => .error .typeError
  | some d => .ok d.1

/-- A curve attribute that is `None`: its methods are missing (`fit/model/base_data.py:302-314, 340-344`). -/
def curveRef : Option Ref → Py Ref
  | none => .error .attributeError
  | some c => .ok c

/-- `parameterize` (`fit/model/base_data.py:302-314`). -/
def parameterizeMem (env : DataEnv K) : Meth (ProblemMem K) Unit := do
  let w ← Meth.read id
  let c ← (if w.self.initCurve = none ∧ w.self.fitCurve = none then do
      setInitCurveMem
      let w ← Meth.read id
      Meth.lift (curveRef w.self.initCurve)
    else if w.self.fitCurve = none then Meth.lift (curveRef w.self.initCurve)
    else Meth.lift (curveRef w.self.fitCurve))
  let w ← Meth.read id
  let d ← Meth.lift (dataRef w.self.data)
  let pd ← onMem (parameterizeCurveMem env.fit c d)
  assignRefs fun s => { s with paramData := some pd }

/-- `fit_curve_knot_insertion` with `num_pts` possibly `None`, see `knotInsertionOf`
(`fit/algorithms/fitting.py:275-334`). -/
def knotInsertionOfMem (env : DataEnv K) (o data : Ref) : Option ℤ → Eff K Ref
  | some n => fitCurveKnotInsertionMem env.fuel env.fit o data n
  | none => do
    let obj ← getCurveObj o
    let temp ← newCurve ⟨obj.degree, obj.ctrl, obj.kv⟩
    let pd ← parameterizeCurveMem env.fit temp data
    singleFitCurveMem env.fit.lstsq temp pd
    liftPy (.error .typeError)

/-- The fitting call in `fit` (`fit/model/base_data.py:340-344`). -/
def finalFitMem (env : DataEnv K) (s : ProblemRefs) : Eff K Ref := do
  let c ← liftPy (curveRef s.initCurve)
  let d ← liftPy (dataRef s.data)
  if s.fitMethod = "adaptive" then knotInsertionOfMem env c d s.numCtrl
  else fitCurveFixedMem env.fuel env.fit c d

variable [FloorRing K]

/-- `degree.setter` (`fit/model/base_data.py:116-127`). -/
def setDegreeMem (env : DataEnv K) (v : Val K) : Meth (ProblemMem K) Unit := do
  let b ← Meth.lift v.leZero
  if b then Meth.raise .valueError
  else do
    let z ← Meth.lift (v.toInt env.fmt.parseInt)
    assignRefs fun s => { s with degree := some z }

/-- `num_ctrlpts.setter` (`fit/model/base_data.py:229-242`). -/
def setNumCtrlMem (env : DataEnv K) (v : Val K) : Meth (ProblemMem K) Unit := do
  let z ← Meth.lift (v.toInt env.fmt.parseInt)
  if z ≤ 3 then Meth.raise .valueError
  else assignRefs fun s => { s with numCtrl := some z }

omit [Field K] [LinearOrder K] [FloorRing K] in
/-- `fit_method.setter` (`fit/model/base_data.py:256-265`). -/
def setFitMethodMem (v : Val K) : Meth (ProblemMem K) Unit :=
  match v with
  | .str m => if ¬ (m = "fixed" ∨ m = "adaptive") then Meth.raise .valueError
      else assignRefs fun s => { s with fitMethod := m }
  | _ => Meth.raise .typeError

/-- `fit` (`fit/model/base_data.py:325-355`). -/
def fitMem (env : DataEnv K) : Meth (ProblemMem K) Unit := do
  let w ← Meth.read id
  let _ ← (if w.self.initCurve = none then setInitCurveMem else Meth.pure ())
  let w ← Meth.read id
  let final ← onMem (finalFitMem env w.self)
  let d ← Meth.lift (match w.self.degree with | none => .error .typeError | some d => .ok d : Py ℤ)
  let kv ← onMem (do
    let obj ← getCurveObj final
    vread obj.kv)
  let num : ℤ := (kv.length : ℤ) - d - 1
  assignRefs fun s => { s with fitCurve := some final }
  setNumCtrlMem env (.int num)
  parameterizeMem env

/-- The calls on a `BoundaryProblem` (`fit/model/base_data.py:106-355`). -/
inductive ProblemOp (K : Type)
  | degree (v : Val K) | data (v : Arg K) | start (v : Arg K) | fin (v : Arg K)
  | numCtrl (v : Val K) | fitMethod (v : Val K)
  | setInitCurve | parameterize | fit

/-- One call (`fit/model/base_data.py:106-355`). -/
def ProblemOp.run (env : DataEnv K) : ProblemOp K → Meth (ProblemMem K) Unit
  | .degree v => setDegreeMem env v
  | .data v => setDataMem v
  | .start v => setStartMem v
  | .fin v => setEndMem v
  | .numCtrl v => setNumCtrlMem env v
  | .fitMethod v => setFitMethodMem v
  | .setInitCurve => setInitCurveMem
  | .parameterize => parameterizeMem env
  | .fit => fitMem env

/-- Calls in sequence, exceptions caught by the caller (`fit/model/base_data.py:87-355`). -/
def ProblemMem.history (env : DataEnv K) (w : ProblemMem K) (ops : List (ProblemOp K)) : ProblemMem K :=
  ops.foldl (fun w op => (op.run env w).2) w

end

end PySpline
