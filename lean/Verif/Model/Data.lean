import Verif.Model.Fitting
import Verif.Model.Vtk

/-!
# Model of `fit/model/base_data.py`

Attribute states are records, method calls are `Meth`s: what a method has assigned before it raises
stays assigned.  Python arguments are values `Val`.

The curve and surface objects that `fit` builds are those of `Verif/Model/Fitting.lean` (setters
left out, evaluation methods and least-squares solver are parameters).
-/

namespace PySpline

section
variable {K : Type} [Field K] [LinearOrder K]

/-- Python values passed to the setters.  `arr` : a numpy array of finite floats.  `seq r` : a list
or tuple for which `np.array` gives `r`.  `other` : an object that is none of these, cannot be
compared with `0` and not be converted to an int
(`fit/model/base_data.py:117, 140, 170, 200, 230, 257`). -/
inductive Val (K : Type)
  | none | int (z : ℤ) | float (x : K) | nan | inf (positive : Bool) | str (s : String)
  | arr (a : Arr K) | seq (r : Py (Arr K)) | other
  deriving DecidableEq

/-- `x <= 0`; for an array the truth value of the comparison exists only for one entry
(`fit/model/base_data.py:118, 439`). -/
def Val.leZero : Val K → Py Bool
  | .none => .error .typeError
  | .int z => .ok (decide (z ≤ 0))
  | .float x => .ok (decide (x ≤ 0))
  | .nan => .ok false
  | .inf p => .ok (!p)
  | .str _ => .error .typeError
  | .arr ⟨_, [x]⟩ => .ok (decide (x ≤ 0))
  | .arr _ => .error .valueError
  | .seq _ => .error .typeError
  | .other => .error .typeError

/-- `int(x)`; the value of `int` on strings is a parameter
(`fit/model/base_data.py:120-125, 232-237`). -/
def Val.toInt [FloorRing K] (parseInt : Text → Py ℤ) : Val K → Py ℤ
  | .none => .error .typeError
  | .int z => .ok z
  | .float x => .ok (pyTrunc x)
  | .nan => .error .valueError
  | .inf _ => .error .overflowError
  | .str s => parseInt s.toList
  | .arr ⟨_, [x]⟩ => .ok (pyTrunc x)
  | .arr _ => .error .typeError
  | .seq _ => .error .typeError
  | .other => .error .typeError

/-- `np.array(x)` unless `x` is an array already; scalars and other objects give arrays without
axes (`fit/model/base_data.py:142-147, 172-177`). -/
def Val.toArray : Val K → Py (Arr K)
  | .arr a => .ok a
  | .seq r => r
  | .float x => .ok ⟨[], [x]⟩
  | _ => .ok ⟨[], [0]⟩

/-- The rows of a 2-D array.  They are iterated over in `fit/algorithms/parameterize.py:152, 357`.
-/
def Arr.rows (a : Arr K) : List (List K) :=
  match a.shape with
  | [m, c] => (List.range m).map fun i => (a.data.drop (i * c)).take c
  | _ => []

/-! ## `Data` and `Boundary` -/

/-- Instance attributes of a `Boundary` object; `none` means *missing*
(`fit/model/base_data.py:31-32, 49, 74, 84`). -/
structure BoundaryObj (K : Type) where
  dimension : ℤ
  data : Option (Arr K)
  fin : Option (Arr K)
  start : Option (Arr K)
  deriving DecidableEq

/-- The names under which something can be read from a `Boundary` object
(`fit/model/base_data.py:20-84`). -/
def boundaryAttrs : List String :=
  ["_dimension", "_data", "_end", "_start", "dimension", "data", "end", "start", "_dimension_message"]

/-- `x.shape(-1)`: an array has a `shape`, which is a tuple and cannot be called
(`fit/model/base_data.py:47, 72, 82`). -/
def callShape : Val K → Py ℤ
  | .arr _ => .error .typeError
  | _ => .error .attributeError

/-- `data.setter` (`fit/model/base_data.py:45-49`). -/
def BoundaryObj.setData (v : Val K) : Meth (BoundaryObj K) Unit := do
  let n ← Meth.lift (callShape v)
  let o ← Meth.read id
  if n ≠ o.dimension then Meth.raise .valueError
  else do
    let a ← Meth.lift v.toArray
    Meth.assign fun o => { o with data := some a }

/-- `end.setter` (`fit/model/base_data.py:70-74`). -/
def BoundaryObj.setEnd (v : Val K) : Meth (BoundaryObj K) Unit := do
  let n ← Meth.lift (callShape v)
  let o ← Meth.read id
  if n ≠ o.dimension then Meth.raise .valueError
  else do
    let a ← Meth.lift v.toArray
    Meth.assign fun o => { o with fin := some a }

/-- `start.setter` (`fit/model/base_data.py:80-84`). -/
def BoundaryObj.setStart (v : Val K) : Meth (BoundaryObj K) Unit := do
  let n ← Meth.lift (callShape v)
  let o ← Meth.read id
  if n ≠ o.dimension then Meth.raise .valueError
  else do
    let a ← Meth.lift v.toArray
    Meth.assign fun o => { o with start := some a }

/-! ## `BoundaryProblem` -/

/-- The attributes of a `BoundaryProblem` (`fit/model/base_data.py:92-101`); `none` is `None`. -/
structure Boundary (K : Type) where
  degree : Option ℤ
  data : Option (Arr K)
  start : Option (Arr K)
  fin : Option (Arr K)
  numCtrl : Option ℤ
  fitMethod : String
  initCurve : Option (Curve K)
  paramData : Option (List (List K))
  fitCurve : Option (Curve K)
  deriving DecidableEq

/-- `BoundaryProblem.__init__` (`fit/model/base_data.py:92-101`). -/
def Boundary.new : Boundary K := ⟨none, none, none, none, none, "fixed", none, none, none⟩

/-- What is not computed by the model: see `FitEnv`, `Fmt` and `surfToVtk`; `fuel` bounds the knot insertion loop
(`fit/model/base_data.py:325-404, 632-723`). -/
structure DataEnv (K : Type) where
  fit : FitEnv K
  fmt : Fmt K
  fuel : ℕ
  delaunay : List (List K) → Py (List (List ℕ))
  writeMesh : String → Mesh K → Meth FS Unit

section
variable [FloorRing K]

/-- `degree.setter` (`fit/model/base_data.py:116-127`). -/
def Boundary.setDegree (env : DataEnv K) (v : Val K) : Meth (Boundary K) Unit := do
  let b ← Meth.lift v.leZero
  if b then Meth.raise .valueError
  else do
    let z ← Meth.lift (v.toInt env.fmt.parseInt)
    Meth.assign fun s => { s with degree := some z }

/-- `data.setter` (`fit/model/base_data.py:139-157`). -/
def Boundary.setData (v : Val K) : Meth (Boundary K) Unit := do
  let a ← Meth.lift v.toArray
  if a.shape.length ≠ 2 then Meth.raise .valueError
  else do
    let last ← Meth.lift (pyGet a.shape (-1))
    if ¬ (last = 2 ∨ last = 3) then Meth.raise .valueError
    else Meth.assign fun s => { s with data := some a }

/-- `start.setter` (`fit/model/base_data.py:169-187`). -/
def Boundary.setStart (v : Val K) : Meth (Boundary K) Unit := do
  let a ← Meth.lift v.toArray
  if a.shape.length ≠ 1 then Meth.raise .valueError
  else do
    let len ← Meth.lift (pyGet a.shape 0)
    if ¬ (len = 2 ∨ len = 3) then Meth.raise .valueError
    else Meth.assign fun s => { s with start := some a }

/-- `end.setter` (`fit/model/base_data.py:199-217`). -/
def Boundary.setEnd (v : Val K) : Meth (Boundary K) Unit := do
  let a ← Meth.lift v.toArray
  if a.shape.length ≠ 1 then Meth.raise .valueError
  else do
    let len ← Meth.lift (pyGet a.shape 0)
    if ¬ (len = 2 ∨ len = 3) then Meth.raise .valueError
    else Meth.assign fun s => { s with fin := some a }

/-- `num_ctrlpts.setter` (`fit/model/base_data.py:229-242`). -/
def Boundary.setNumCtrl (env : DataEnv K) (v : Val K) : Meth (Boundary K) Unit := do
  let z ← Meth.lift (v.toInt env.fmt.parseInt)
  if z ≤ 3 then Meth.raise .valueError
  else Meth.assign fun s => { s with numCtrl := some z }

/-- `fit_method.setter` (`fit/model/base_data.py:256-265`). -/
def Boundary.setFitMethod (v : Val K) : Meth (Boundary K) Unit :=
  match v with
  | .str m => if ¬ (m = "fixed" ∨ m = "adaptive") then Meth.raise .valueError
      else Meth.assign fun s => { s with fitMethod := m }
  | _ => Meth.raise .typeError

/-- A point attribute that may be `None` (`None[0]` is a `TypeError`)
(`fit/algorithms/initialization.py:43-45`). -/
def pointOf : Option (Arr K) → Py (List K)
  | none => .error .typeError
  | some a => .ok a.data

/-- `initialize_curve` called with attributes that may be `None`: comparing `None` with an int
(`fit/algorithms/initialization.py:33`) and indexing it (43) are `TypeError`s.  Degrees are never
negative (`boundary_invariant`). -/
def initCurveOf (start fin : Option (Arr K)) (degree numCtrl : Option ℤ) : Py (Curve K) := do
  let d ← (match degree with | none => .error .typeError | some d => .ok d : Py ℤ)
  let n ← (match numCtrl with | none => .error .typeError | some n => .ok n : Py ℤ)
  if ¬ n ≥ d then .error .valueError
  else do
    let s ← pointOf start
    let e ← pointOf fin
    initializeCurve s e d.toNat n.toNat

/-- `set_init_curve` (`fit/model/base_data.py:278-288`). -/
def Boundary.setInitCurve : Meth (Boundary K) Unit := do
  let s ← Meth.read id
  let curve ← Meth.lift (if s.fitMethod = "adaptive" then
      initCurveOf s.start s.fin s.degree (s.degree.map (· + 1))
    else initCurveOf s.start s.fin s.degree s.numCtrl)
  Meth.assign fun s => { s with initCurve := some curve }

/-- The rows of the data; iterating over `None` is a `TypeError`
(`fit/algorithms/parameterize.py:152`). -/
def rowsOf : Option (Arr K) → Py (List (List K))
  | none => .error .typeError
  | some a => .ok a.rows

/-- A curve attribute that is `None`: its methods are missing
(`fit/model/base_data.py:302-314, 340-344`). -/
def curveOf : Option (Curve K) → Py (Curve K)
  | none => .error .attributeError
  | some c => .ok c

/-- `parameterize` (`fit/model/base_data.py:302-314`). -/
def Boundary.parameterize (env : DataEnv K) : Meth (Boundary K) Unit := do
  let s ← Meth.read id
  let c ← (if s.initCurve = none ∧ s.fitCurve = none then do
      Boundary.setInitCurve
      let s ← Meth.read id
      Meth.lift (curveOf s.initCurve)
    else if s.fitCurve = none then Meth.lift (curveOf s.initCurve)
    else Meth.lift (curveOf s.fitCurve))
  let s ← Meth.read id
  let rows ← Meth.lift (rowsOf s.data)
  let pd ← Meth.lift (parameterizeCurve env.fit.num (env.fit.curveLike c) rows)
  Meth.assign fun s => { s with paramData := some pd }

/-- `fit_curve_knot_insertion` with `num_pts` possibly `None`: the comparison in
`fit/algorithms/fitting.py:306` is a `TypeError` then. -/
def knotInsertionOf (env : DataEnv K) (c : Curve K) (rows : List (List K)) :
    Option ℤ → Py (Curve K)
  | some n => fitCurveKnotInsertion env.fuel env.fit c rows n
  | none => do
    let pd ← parameterizeCurve env.fit.num (env.fit.curveLike c) rows
    let _ ← singleFitCurve env.fit.lstsq c pd
    .error .typeError

/-- The fitting call in `fit` (`fit/model/base_data.py:340-344`). -/
def finalFit (env : DataEnv K) (s : Boundary K) : Py (Curve K) := do
  let c ← curveOf s.initCurve
  let rows ← rowsOf s.data
  if s.fitMethod = "adaptive" then knotInsertionOf env c rows s.numCtrl
  else fitCurveFixed env.fuel env.fit c rows

/-- `fit` (`fit/model/base_data.py:325-355`). -/
def Boundary.fit (env : DataEnv K) : Meth (Boundary K) Unit := do
  let s ← Meth.read id
  let _ ← (if s.initCurve = none then Boundary.setInitCurve else Meth.pure ())
  let s ← Meth.read id
  let final ← Meth.lift (finalFit env s)
  let d ← Meth.lift (match s.degree with | none => .error .typeError | some d => .ok d : Py ℤ)
  let num : ℤ := (final.kv.length : ℤ) - d - 1
  Meth.assign fun s => { s with fitCurve := some final }
  Boundary.setNumCtrl env (.int num)
  Boundary.parameterize env

/-- A problem object together with the file system (`fit/model/base_data.py:87-404`). -/
structure BWorld (K : Type) where
  self : Boundary K
  fs : FS

/-- A method that does not touch files (`fit/model/base_data.py:106-355`). -/
def BWorld.obj {α : Type} (m : Meth (Boundary K) α) : Meth (BWorld K) α :=
  Meth.zoom BWorld.self (fun s w => { w with self := s }) m

/-- A function that only touches files (`fit/model/base_data.py:380, 404`). -/
def BWorld.files {α : Type} (m : Meth FS α) : Meth (BWorld K) α :=
  Meth.zoom BWorld.fs (fun s w => { w with fs := s }) m

/-- `save` (`fit/model/base_data.py:357-380`); `name` is a string. -/
def Boundary.save (env : DataEnv K) (name : String) : Meth (BWorld K) Unit := do
  let s ← Meth.read BWorld.self
  match s.fitCurve with
  | none => Meth.raise .valueError
  | some c => BWorld.files (writeCurve env.fmt c name)

/-- `load` (`fit/model/base_data.py:382-404`): the object that `read_curve_from_txt` is to fill
(`fit/io/text.py:84-86`) is `self._fit_curve`, which is `None`. -/
def Boundary.load (env : DataEnv K) (name : String) : Meth (BWorld K) Unit := do
  let s ← Meth.read BWorld.self
  match s.fitCurve with
  | some _ => Meth.raise .valueError
  | none => do
    let _ ← BWorld.files (readCurve env.fmt name)
    Meth.raise .attributeError

/-- The public calls on a `BoundaryProblem` (`fit/model/base_data.py:106-404`). -/
inductive BOp (K : Type)
  | degree (v : Val K) | data (v : Val K) | start (v : Val K) | fin (v : Val K)
  | numCtrl (v : Val K) | fitMethod (v : Val K)
  | setInitCurve | parameterize | fit | save (name : String) | load (name : String)

/-- One call (`fit/model/base_data.py:106-404`). -/
def BOp.run (env : DataEnv K) : BOp K → Meth (BWorld K) Unit
  | .degree v => BWorld.obj (Boundary.setDegree env v)
  | .data v => BWorld.obj (Boundary.setData v)
  | .start v => BWorld.obj (Boundary.setStart v)
  | .fin v => BWorld.obj (Boundary.setEnd v)
  | .numCtrl v => BWorld.obj (Boundary.setNumCtrl env v)
  | .fitMethod v => BWorld.obj (Boundary.setFitMethod v)
  | .setInitCurve => BWorld.obj Boundary.setInitCurve
  | .parameterize => BWorld.obj (Boundary.parameterize env)
  | .fit => BWorld.obj (Boundary.fit env)
  | .save name => Boundary.save env name
  | .load name => Boundary.load env name

/-- A history: calls in sequence, exceptions caught by the caller; files may change between the
calls (`fit/model/base_data.py:87-404`). -/
def Boundary.history (env : DataEnv K) (w : BWorld K) (ops : List (BOp K × FS)) : BWorld K :=
  ops.foldl (fun w o => (o.1.run env { w with fs := o.2 }).2) w

/-! ## `InteriorProblem` -/

/-- What `InteriorProblem` reads from a boundary object (`fit/model/base_data.py:562-592`,
`fit/algorithms/fitting.py:374, 376`). -/
structure Fitted (K : Type) where
  degree : Option ℤ
  numCtrl : Option ℤ
  fitCurve : Curve K
  paramData : Option (List (List K))
  deriving DecidableEq

/-- The attributes of an `InteriorProblem` (`fit/model/base_data.py:412-420`). -/
structure Interior (K : Type) where
  degree : Option ℤ
  data : Option (Arr K)
  numCtrl : Option ℤ
  top : Option (Fitted K)
  bottom : Option (Fitted K)
  initSurface : Option (Surface K)
  paramData : Option (List (List K))
  fitSurface : Option (Surface K)
  deriving DecidableEq

/-- `InteriorProblem.__init__` (`fit/model/base_data.py:412-420`). -/
def Interior.new : Interior K := ⟨none, none, none, none, none, none, none, none⟩

/-- `degree.setter` (`fit/model/base_data.py:437-448`). -/
def Interior.setDegree (env : DataEnv K) (v : Val K) : Meth (Interior K) Unit := do
  let b ← Meth.lift v.leZero
  if b then Meth.raise .valueError
  else do
    let z ← Meth.lift (v.toInt env.fmt.parseInt)
    Meth.assign fun s => { s with degree := some z }

/-- `data.setter` (`fit/model/base_data.py:460-478`). -/
def Interior.setData (v : Val K) : Meth (Interior K) Unit := do
  let a ← Meth.lift v.toArray
  if a.shape.length ≠ 2 then Meth.raise .valueError
  else do
    let last ← Meth.lift (pyGet a.shape (-1))
    if ¬ (last = 2 ∨ last = 3) then Meth.raise .valueError
    else Meth.assign fun s => { s with data := some a }

/-- `num_ctrlpts.setter` (`fit/model/base_data.py:490-503`). -/
def Interior.setNumCtrl (env : DataEnv K) (v : Val K) : Meth (Interior K) Unit := do
  let z ← Meth.lift (v.toInt env.fmt.parseInt)
  if z < 3 then Meth.raise .valueError
  else Meth.assign fun s => { s with numCtrl := some z }

/-- Arguments of the boundary setters: a `Boundary` object, a `BoundaryProblem` (which is not a
`Boundary`), or something else (`fit/model/base_data.py:516, 537`). -/
inductive BoundaryArg (K : Type)
  | boundary (b : BoundaryObj K) | problem (b : Boundary K) | other

/-- `boundary.fit_curve` (`fit/model/base_data.py:521, 542`). -/
def BoundaryArg.fitCurve : BoundaryArg K → Py (Option (Curve K))
  | .boundary _ => if "fit_curve" ∈ boundaryAttrs then .ok none else .error .attributeError
  | .problem b => .ok b.fitCurve
  | .other => .error .attributeError

/-- `isinstance(boundary, Boundary)` (`fit/model/base_data.py:518, 539`). -/
def BoundaryArg.isBoundary : BoundaryArg K → Bool
  | .boundary _ => true
  | _ => false

/-- The attributes read later from an accepted boundary (`fit/model/base_data.py:524, 545`). -/
def BoundaryArg.fitted (a : BoundaryArg K) (c : Curve K) : Fitted K :=
  match a with
  | .problem b => ⟨b.degree, b.numCtrl, c, b.paramData⟩
  | _ => ⟨none, none, c, none⟩

/-- `top_boundary.setter` (`fit/model/base_data.py:515-524`). -/
def Interior.setTop (a : BoundaryArg K) : Meth (Interior K) Unit :=
  if ¬ a.isBoundary then Meth.raise .typeError
  else do
    let c ← Meth.lift a.fitCurve
    match c with
    | none => Meth.raise .valueError
    | some c => Meth.assign fun s => { s with top := some (a.fitted c) }

/-- `bottom_boundary.setter` (`fit/model/base_data.py:536-545`). -/
def Interior.setBottom (a : BoundaryArg K) : Meth (Interior K) Unit :=
  if ¬ a.isBoundary then Meth.raise .typeError
  else do
    let c ← Meth.lift a.fitCurve
    match c with
    | none => Meth.raise .valueError
    | some c => Meth.assign fun s => { s with bottom := some (a.fitted c) }

/-- Lines 577-587 of `set_init_surface` (`fit/model/base_data.py:556-595`): the control net. -/
def ruledNet (top bottom : List (List K)) (numU numV : ℕ) : Py (List (List K)) := do
  let net : List (List K) := zeros2 (numU * numV) 3
  let (net, _) ← forN 0 numU (net, (0 : ℕ)) fun upt st => do
    let t ← pyGet top upt
    let b ← pyGet bottom upt
    let delta ← vsub t b
    forN 0 numV st fun vpt (net, ctrlpt) => do
      let b ← pyGet bottom upt
      let f ← pyDiv (vpt : K) ((numV : K) - 1)
      let row ← vadd b (delta.map fun x => f * x)
      let _ ← (if row.length = 3 then .ok () else .error .valueError : Py Unit)
      let net ← pySet net ctrlpt row
      .ok (net, ctrlpt + 1)
  .ok net

/-- `x.attr` where `x` may be `None` (`fit/model/base_data.py:562`). -/
def attrOf {α : Type} : Option α → Py α
  | none => .error .attributeError
  | some a => .ok a

/-- An attribute used as a number; `None` is a `TypeError` (`fit/model/base_data.py:571-578`). -/
def intOf : Option ℤ → Py ℤ
  | none => .error .typeError
  | some z => .ok z

/-- The computation of `set_init_surface` (`fit/model/base_data.py:556-595`). -/
def ruledSurface (top bottom : Option (Fitted K)) (degree numCtrl : Option ℤ) : Py (Surface K) := do
  let t ← attrOf top
  let b ← attrOf bottom
  if t.degree ≠ b.degree then .error .valueError
  else if t.numCtrl ≠ b.numCtrl then .error .valueError
  else do
    let degU ← intOf b.degree
    let degV ← intOf degree
    let numU ← intOf b.numCtrl
    let numV ← intOf numCtrl
    let net ← ruledNet t.fitCurve.ctrlpts b.fitCurve.ctrlpts numU.toNat numV.toNat
    let kvV ← generateUniform degV.toNat numV.toNat
    .ok { degreeU := degU.toNat, degreeV := degV.toNat, numU := numU.toNat, numV := numV.toNat
          ctrlpts := net, kvU := b.fitCurve.kv, kvV := kvV }

/-- `set_init_surface` (`fit/model/base_data.py:556-595`). -/
def Interior.setInitSurface : Meth (Interior K) Unit := do
  let s ← Meth.read id
  let surf ← Meth.lift (ruledSurface s.top s.bottom s.degree s.numCtrl)
  Meth.assign fun s => { s with initSurface := some surf }

/-- `parameterize` (`fit/model/base_data.py:609-621`). -/
def Interior.parameterize (env : DataEnv K) : Meth (Interior K) Unit := do
  let s ← Meth.read id
  let surf ← (if s.initSurface = none ∧ s.fitSurface = none then do
      Interior.setInitSurface
      let s ← Meth.read id
      Meth.lift (attrOf s.initSurface)
    else if s.fitSurface = none then Meth.lift (attrOf s.initSurface)
    else Meth.lift (attrOf s.fitSurface))
  let s ← Meth.read id
  let rows ← Meth.lift (rowsOf s.data)
  let pd ← Meth.lift (parameterizeSurface env.fit.num (env.fit.surfLike surf) rows)
  Meth.assign fun s => { s with paramData := some pd }

/-- `fit_surface` called with the two boundaries (`fit/algorithms/fitting.py:337-389`): their
parameterized data are read after the data have been parameterized. -/
def fitSurfaceOf (env : FitEnv K) (surf : Surface K) (rows : List (List K))
    (top bottom : Option (Fitted K)) : Py (Surface K) := do
  let _ ← parameterizeSurface env.num (env.surfLike surf) rows
  let t ← attrOf top
  let tp ← (match t.paramData with | none => .error .typeError | some r => .ok r :
    Py (List (List K)))
  let b ← attrOf bottom
  let bp ← (match b.paramData with | none => .error .typeError | some r => .ok r :
    Py (List (List K)))
  PySpline.fitSurface env surf rows tp bp

/-- `fit` (`fit/model/base_data.py:632-654`). -/
def Interior.fit (env : DataEnv K) : Meth (Interior K) Unit := do
  let s ← Meth.read id
  let _ ← (if s.initSurface = none then Interior.setInitSurface else Meth.pure ())
  let s ← Meth.read id
  let surf ← Meth.lift (attrOf s.initSurface)
  let rows ← Meth.lift (rowsOf s.data)
  let final ← Meth.lift (fitSurfaceOf env.fit surf rows s.top s.bottom)
  Meth.assign fun s => { s with fitSurface := some final }
  Interior.parameterize env

/-- An interior problem together with the file system (`fit/model/base_data.py:407-723`). -/
structure IWorld (K : Type) where
  self : Interior K
  fs : FS

/-- A method that does not touch files (`fit/model/base_data.py:425-654`). -/
def IWorld.obj {α : Type} (m : Meth (Interior K) α) : Meth (IWorld K) α :=
  Meth.zoom IWorld.self (fun s w => { w with self := s }) m

/-- A function that only touches files (`fit/model/base_data.py:679, 703`). -/
def IWorld.files {α : Type} (m : Meth FS α) : Meth (IWorld K) α :=
  Meth.zoom IWorld.fs (fun s w => { w with fs := s }) m

/-- `save` (`fit/model/base_data.py:656-679`). -/
def Interior.save (env : DataEnv K) (name : String) : Meth (IWorld K) Unit := do
  let s ← Meth.read IWorld.self
  match s.fitSurface with
  | none => Meth.raise .valueError
  | some c => IWorld.files (writeSurface env.fmt c name)

/-- `load` (`fit/model/base_data.py:681-703`): it calls the reader for *curves*, with `None` as the
object to fill. -/
def Interior.load (env : DataEnv K) (name : String) : Meth (IWorld K) Unit := do
  let s ← Meth.read IWorld.self
  match s.fitSurface with
  | some _ => Meth.raise .valueError
  | none => do
    let _ ← IWorld.files (readCurve env.fmt name)
    Meth.raise .attributeError

/-- `vtk` (`fit/model/base_data.py:705-723`); `n_tri` has its default value (`fit/io/text.py:187`). -/
def Interior.vtk (env : DataEnv K) (name : String) : Meth (IWorld K) Unit := do
  let s ← Meth.read IWorld.self
  IWorld.files (surfToVtk env.delaunay env.writeMesh (fun u v => do
    let surf ← attrOf s.fitSurface
    surf.singlePoint u v) name 100)

/-- The public calls on an `InteriorProblem` (`fit/model/base_data.py:425-723`). -/
inductive IOp (K : Type)
  | degree (v : Val K) | data (v : Val K) | numCtrl (v : Val K)
  | top (a : BoundaryArg K) | bottom (a : BoundaryArg K)
  | setInitSurface | parameterize | fit | save (name : String) | load (name : String)
  | vtk (name : String)

/-- One call (`fit/model/base_data.py:425-723`). -/
def IOp.run (env : DataEnv K) : IOp K → Meth (IWorld K) Unit
  | .degree v => IWorld.obj (Interior.setDegree env v)
  | .data v => IWorld.obj (Interior.setData v)
  | .numCtrl v => IWorld.obj (Interior.setNumCtrl env v)
  | .top a => IWorld.obj (Interior.setTop a)
  | .bottom a => IWorld.obj (Interior.setBottom a)
  | .setInitSurface => IWorld.obj Interior.setInitSurface
  | .parameterize => IWorld.obj (Interior.parameterize env)
  | .fit => IWorld.obj (Interior.fit env)
  | .save name => Interior.save env name
  | .load name => Interior.load env name
  | .vtk name => Interior.vtk env name

/-- A history: calls in sequence, exceptions caught by the caller; files may change between the
calls (`fit/model/base_data.py:407-723`). -/
def Interior.history (env : DataEnv K) (w : IWorld K) (ops : List (IOp K × FS)) : IWorld K :=
  ops.foldl (fun w o => (o.1.run env { w with fs := o.2 }).2) w

end

end

end PySpline
