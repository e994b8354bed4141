import Verif.Model.BSpline

/-!
# Model of `spline/model/base_geometry.py` and the object part of `spline/model/bspline.py`

Objects are records of instance attributes.  An attribute that no statement has assigned yet is
*missing* (reading it is an `AttributeError`), which is different from `None`.

The class statement in the file is indented so that the surface methods belong to `SplineCurve`:
the `__init__` of lines 174-182 and the `control_points` property of lines 230-245 replace the
earlier ones.  The model follows the committed text.  The missing `import abc` (a `NameError` on
import) is ignored: the model describes the file with that one line added.
-/

namespace PySpline

section
variable {K : Type} [Field K] [LinearOrder K]

/-- A numpy array: its shape and its entries in row-major order.  Control points and knot vectors
are arrays (`spline/model/base_geometry.py:36-39`). -/
structure Arr (K : Type) where
  shape : List ℕ
  data : List K
  deriving DecidableEq, Repr

/-- Argument of the `control_points` setter: an object without a `shape` attribute or an array
(`spline/model/base_geometry.py:235, 242`). -/
inductive CtrlArg (K : Type)
  | noShape
  | arr (a : Arr K)
  deriving DecidableEq, Repr

/-- Keyword arguments of the constructor; `degree` is accepted and never read by the
`__init__` in force (`spline/model/base_geometry.py:174-182, 18-19`). -/
structure Kwargs where
  degree : Option ℤ := none
  degreeU : Option ℤ := none
  degreeV : Option ℤ := none
  dimension : Option ℤ := none

/-- Instance attributes.  For `degree`, `kv` (`_degree`, `_knot_vector`) and `instCtrl`,
`instKv` (`__dict__` entries under the property names) `none` means *missing*; for the others
`none` is Python's `None` (`spline/model/base_geometry.py:19, 56, 84, 174-182`). -/
structure Obj (K : Type) where
  degree : Option ℤ
  kv : Option (List K)
  degreeU : Option ℤ
  degreeV : Option ℤ
  numU : Option ℤ
  numV : Option ℤ
  ctrl : Option (Arr K)
  kvU : Option (List K)
  kvV : Option (List K)
  dimension : ℤ
  instCtrl : Option (CtrlArg K)
  instKv : Option (Arr K)
  deriving DecidableEq, Repr

/-- The attributes `control_points` and `knot_vector` of the class `BSplineCurve`:
`none` while they are the inherited properties, `some a` after
`cls.control_points = a` (`spline/model/bspline.py:154-155`). -/
structure ClassState (K : Type) where
  ctrl : Option (Arr K)
  kv : Option (Arr K)
  deriving DecidableEq, Repr

/-- The class as defined by the source text (`spline/model/base_geometry.py:58-84, 230-245`). -/
def ClassState.fresh : ClassState K := ⟨none, none⟩

/-- `BSplineCurve(**kwargs)` (`spline/model/base_geometry.py:174-182, 18-19`). -/
def Obj.init (k : Kwargs) : Obj K :=
  { degree := none, kv := none, degreeU := k.degreeU, degreeV := k.degreeV, numU := none,
    numV := none, ctrl := none, kvU := none, kvV := none, dimension := k.dimension.getD 0,
    instCtrl := none, instKv := none }

/-- `degree` getter (`spline/model/base_geometry.py:48-50`). -/
def Obj.getDegree (o : Obj K) : Py ℤ :=
  match o.degree with
  | none => .error .attributeError
  | some d => .ok d

/-- `degree` setter (`spline/model/base_geometry.py:52-56`). -/
def Obj.setDegree (o : Obj K) (d : ℤ) : Py (Obj K) :=
  if d < 1 then .error .valueError else .ok { o with degree := some d }

/-- `degree_u` setter (`spline/model/base_geometry.py:188-192`). -/
def Obj.setDegreeU (o : Obj K) (d : ℤ) : Py (Obj K) :=
  if d < 1 then .error .valueError else .ok { o with degreeU := some d }

/-- `degree_v` setter (`spline/model/base_geometry.py:198-202`). -/
def Obj.setDegreeV (o : Obj K) (d : ℤ) : Py (Obj K) :=
  if d < 1 then .error .valueError else .ok { o with degreeV := some d }

/-- `num_ctrlpts_u` setter (`spline/model/base_geometry.py:208-215`); `None + 1` is a
`TypeError`. -/
def Obj.setNumU (o : Obj K) (num : ℤ) : Py (Obj K) :=
  match o.degreeU with
  | none => .error .typeError
  | some d => if num < d + 1 then .error .valueError else .ok { o with numU := some num }

/-- `num_ctrlpts_v` setter (`spline/model/base_geometry.py:221-228`). -/
def Obj.setNumV (o : Obj K) (num : ℤ) : Py (Obj K) :=
  match o.degreeV with
  | none => .error .typeError
  | some d => if num < d + 1 then .error .valueError else .ok { o with numV := some num }

/-- The property setter of `control_points` (`spline/model/base_geometry.py:234-245`), with the
`not … != …` of line 242. -/
def Obj.propSetCtrl (o : Obj K) (x : CtrlArg K) : Py (Obj K) :=
  match o.degreeU with
  | none => .error .valueError
  | some _ =>
    match o.degreeV with
    | none => .error .valueError
    | some _ =>
      match x with
      | .noShape => .error .attributeError
      | .arr a => do
        let last ← pyGet a.shape (-1)
        if ¬ ((last : ℤ) ≠ o.dimension) then .error .valueError
        else .ok { o with ctrl := some a }

/-- `curve.control_points = x`: the property setter while the class has the property, otherwise
an instance attribute under that name (`spline/model/bspline.py:127, 154`). -/
def Obj.setCtrl (c : ClassState K) (o : Obj K) (x : CtrlArg K) : Py (Obj K) :=
  match c.ctrl with
  | none => o.propSetCtrl x
  | some _ => .ok { o with instCtrl := some x }

/-- `curve.control_points` as an expression; `none` is Python's `None`
(`spline/model/bspline.py:169`, `spline/model/base_geometry.py:230-232`). -/
def Obj.getCtrl (c : ClassState K) (o : Obj K) : Option (CtrlArg K) :=
  match c.ctrl with
  | none => o.ctrl.map .arr
  | some a => match o.instCtrl with
    | some b => some b
    | none => some (.arr a)

/-- `BSplineCurve._check_knot_vector` (`spline/model/bspline.py:173-176`). -/
def Obj.checkKv (o : Obj K) (kv : List K) : Py Bool := do
  let d ← o.getDegree
  match o.ctrl with
  | none => .error .typeError
  | some a => checkKnotVector d.toNat kv (a.shape.headD 0)

/-- The property setter of `knot_vector` (`spline/model/base_geometry.py:75-84`); a rejected knot
vector is ignored silently. -/
def Obj.setKv (o : Obj K) (kv : List K) : Py (Obj K) :=
  match o.degree with
  | none => .error .attributeError
  | some _ =>
    match o.ctrl with
    | none => .error .valueError
    | some _ => do
      let good ← o.checkKv kv
      if good then .ok { o with kv := some kv } else .ok o

/-- `curve.knot_vector = kv`: the property setter while the class has the property, otherwise an
instance attribute under that name (`spline/model/bspline.py:128, 155`). -/
def Obj.assignKv (c : ClassState K) (o : Obj K) (kv : List K) : Py (Obj K) :=
  match c.kv with
  | none => o.setKv kv
  | some _ => .ok { o with instKv := some ⟨[kv.length], kv⟩ }

/-- `curve.knot_vector` as an expression; without the class attribute it is the property of
`spline/model/base_geometry.py:71-73`, which reads `_knot_vector`. -/
def Obj.getKv (c : ClassState K) (o : Obj K) : Py (Arr K) :=
  match c.kv, o.instKv, o.kv with
  | some _, some b, _ => .ok b
  | some a, none, _ => .ok a
  | none, _, some k => .ok ⟨[k.length], k⟩
  | none, _, none => .error .attributeError

/-- Names under which `__init__` and the setters store instance attributes
(`spline/model/base_geometry.py:19, 56, 84, 174-182`). -/
def storedNames : List String :=
  ["_dimension", "_degree", "_knot_vector", "_degree_u", "_degree_v", "_num_control_points_u",
   "_num_control_points_v", "_control_points", "_knot_vector_u", "_knot_vector_v"]

/-- `self.name` for a name that is neither a method nor a property: an `AttributeError` when no
statement stores an attribute under that name (`spline/model/base_geometry.py:259, 277`). -/
def readAttr (name : String) : Py Unit :=
  if name ∈ storedNames then .ok () else .error .attributeError

/-- `knot_vector_u` setter (`spline/model/base_geometry.py:251-263`).  Line 259 reads
`_num_ctrlpts_u`; the setter of line 215 stores `_num_control_points_u`.  Line 262 calls the
one-argument `_check_knot_vector` of `bspline.py:173` with `direction=`, a `TypeError`. -/
def Obj.setKvU (o : Obj K) (_kv : List K) : Py (Obj K) :=
  match o.degreeU with
  | none => .error .valueError
  | some _ =>
    match o.ctrl with
    | none => .error .valueError
    | some _ => do
      let _ ← readAttr "_num_ctrlpts_u"
      .error .typeError

/-- `knot_vector_v` setter (`spline/model/base_geometry.py:269-281`). -/
def Obj.setKvV (o : Obj K) (_kv : List K) : Py (Obj K) :=
  match o.degreeV with
  | none => .error .valueError
  | some _ =>
    match o.ctrl with
    | none => .error .valueError
    | some _ => do
      let _ ← readAttr "_num_ctrlpts_v"
      .error .typeError

/-! ## Local variables -/

/-- The local variables of a running function: `none` is a name that is assigned somewhere in
the body but not yet (`spline/model/bspline.py:111-128`). -/
abbrev Frame (K : Type) := List (String × Option K)

/-- Reading a local variable (`spline/model/bspline.py:119`). -/
def readLocal (f : Frame K) (name : String) : Py K :=
  match f.lookup name with
  | none => .error .nameError
  | some none => .error .unboundLocalError
  | some (some v) => .ok v

/-- The frame on entry of a function with one positional parameter: the parameter is bound, the
other names assigned in the body are local and unbound (`spline/model/bspline.py:111`). -/
def enterFrame (param : String) (assigned : List String) (arg : K) : Frame K :=
  (param, some arg) :: (assigned.filter (· ≠ param)).map fun s => (s, none)

/-- `BSplineCurve.insert_knot` (`spline/model/bspline.py:111-128`): the parameter is `knot_val`,
the names assigned in the body are `knot`, `new_knot_vector`, `new_control_points`. -/
def Obj.insertKnot (c : ClassState K) (o : Obj K) (arg : K) : Py (Obj K) := do
  let f := enterFrame "knot_val" ["knot", "new_knot_vector", "new_control_points"] arg
  -- 119: `knot = float(knot)`
  let knot ← readLocal f "knot"
  if validateKnot knot = false then .error .valueError
  else do
    -- 124-128
    let d ← o.getDegree
    let kv ← (match o.kv with | none => .error .attributeError | some kv => .ok kv)
    let rows ← (match o.ctrl with
      | none => .error .typeError
      | some a => reshape2 a.data (a.shape.headD 0) 3)
    let knotVal ← readLocal f "knot_val"
    let (newKv, newP) ← curveKnotInsertion d.toNat kv rows knotVal 1
    let o ← o.setCtrl c (.arr ⟨[newP.length, 3], newP.flatten⟩)
    o.assignKv c newKv

/-! ## Histories -/

/-- The calls that can change an object (`spline/model/base_geometry.py:52-281`,
`spline/model/bspline.py:111-128`). -/
inductive Op (K : Type)
  | degree (d : ℤ) | degreeU (d : ℤ) | degreeV (d : ℤ)
  | numU (n : ℤ) | numV (n : ℤ)
  | ctrl (x : CtrlArg K)
  | kv (k : List K) | kvU (k : List K) | kvV (k : List K)
  | insertKnot (u : K)

/-- One call (`spline/model/base_geometry.py:52-281`, `spline/model/bspline.py:111-128`). -/
def Obj.call (c : ClassState K) (o : Obj K) : Op K → Py (Obj K)
  | .degree d => o.setDegree d
  | .degreeU d => o.setDegreeU d
  | .degreeV d => o.setDegreeV d
  | .numU n => o.setNumU n
  | .numV n => o.setNumV n
  | .ctrl x => o.setCtrl c x
  | .kv k => o.assignKv c k
  | .kvU k => o.setKvU k
  | .kvV k => o.setKvV k
  | .insertKnot u => o.insertKnot c u

/-- A call inside `try … except: pass`.  Every setter assigns in its last statement, and
`insert_knot` never reaches its first assignment, so a failed call leaves the object as it was
(`spline/model/base_geometry.py:52-281`). -/
def Obj.tryCall (c : ClassState K) (o : Obj K) (op : Op K) : Obj K :=
  match o.call c op with
  | .ok o' => o'
  | .error _ => o

/-- A history: calls in sequence, exceptions caught by the caller
(`spline/model/base_geometry.py:29-346`). -/
def Obj.run (c : ClassState K) (o : Obj K) (ops : List (Op K)) : Obj K :=
  ops.foldl (Obj.tryCall c) o

/-! ## Dictionaries -/

/-- `BSplineCurve.from_dict` (`spline/model/bspline.py:130-156`) on a dictionary whose values are
given as arrays.  The result is the *class*, whose attributes have been overwritten; the
instance built in line 153 is discarded. -/
def fromDict (_c : ClassState K) (d : List (String × Arr K)) : Py (ClassState K) := do
  let needed := ["degree", "knot_vector", "control_points"]
  let keys := d.map Prod.fst
  -- 145: symmetric difference
  let missing := (needed.filter (· ∉ keys)) ++ (keys.filter (· ∉ needed))
  if missing ≠ [] then .error .valueError
  else do
    let _ ← (match d.lookup "degree" with | none => .error .keyError | some a => .ok a)
    let kv ← (match d.lookup "knot_vector" with | none => .error .keyError | some a => .ok a)
    let cp ← (match d.lookup "control_points" with | none => .error .keyError | some a => .ok a)
    let _ ← pyGet cp.shape (-1)
    .ok { ctrl := some cp, kv := some kv }

/-- The names of the `ndarray` methods that convert to another representation.
`spline/model/bspline.py:168-169` calls one that is not among them. -/
def ndarrayMethods : List String := ["tolist", "tobytes", "tofile", "astype", "copy", "view"]

/-- `x.name()` for an array `x` (`spline/model/bspline.py:168-169`). -/
def ndarrayMethod (name : String) : Py Unit :=
  if name ∈ ndarrayMethods then .ok () else .error .attributeError

/-- `BSplineCurve.to_dict` (`spline/model/bspline.py:158-171`).  `self.knot_vector` is the
property or the class attribute; it may also be missing. -/
def Obj.toDict (c : ClassState K) (o : Obj K) : Py (List (String × Arr K)) := do
  let d ← o.getDegree
  let kv ← o.getKv c
  let _ ← ndarrayMethod "to_list"
  match o.getCtrl c with
  | none => .error .attributeError
  | some .noShape => .error .attributeError
  | some (.arr a) => do
    let _ ← ndarrayMethod "to_list"
    .ok [("degree", ⟨[], [(d : K)]⟩), ("knot_vector", kv), ("control_points", a)]

end

end PySpline
