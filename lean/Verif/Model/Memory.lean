import Verif.Model.Fitting

/-!
# Model of the functions that create, share and overwrite arrays and objects

Everywhere else in the model an array is a value and an assignment copies.  In Python an array is a
place in memory: `temp.control_points = curve.control_points` makes two objects share one array, and
`a[i] = v` or `a *= f` changes what everybody else sees who holds `a`.  Here the memory is explicit.
It has four parts: 1-D arrays, 2-D arrays, curve objects and surface objects; a `Ref` is a place in
one of them.  An exception leaves the memory as it was when it was raised.

The functions whose arrays leave the function are modelled statement by statement: `normalize`,
`curve_knot_insertion`, `linear_fit_fixed`, `insert_knot`, the `single_fit_*` and the `fit_*`.  Arrays
that are only read inside (`find_span`, `parameterize_curve`, the collocation matrix, the mask) are
computed by the value model from the contents of the memory.  `control_points[:, 0]` is a view in
numpy; here it is an array of its own with the same contents.  The objects are those of
`Verif/Model/Fitting.lean`: an assignment to an attribute stores the reference.
-/

namespace PySpline

/-- A place in memory: the identity of an array or an object, as in
`fixed.control_points = curve.control_points` (`fit/algorithms/fitting.py:262`). -/
abbrev Ref := ℕ

/-- A curve object: its degree and the arrays it refers to
(`fit/algorithms/fitting.py:260-263`). -/
structure CurveObj where
  degree : ℕ
  ctrl : Ref
  kv : Ref
  deriving DecidableEq, Repr, Inhabited

/-- A surface object (`fit/algorithms/fitting.py:357-367`). -/
structure SurfObj where
  degreeU : ℕ
  degreeV : ℕ
  numU : ℕ
  numV : ℕ
  ctrl : Ref
  kvU : Ref
  kvV : Ref
  deriving DecidableEq, Repr, Inhabited

/-- The memory: 1-D arrays, 2-D arrays, curve objects, surface objects.  Nothing is ever removed
(`fit/algorithms/fitting.py:233-389`). -/
structure Mem (K : Type) where
  vecs : List (List K)
  mats : List (List (List K))
  curves : List CurveObj
  surfs : List SurfObj
  deriving DecidableEq, Repr

/-- A call: from the memory before to a result or an exception and the memory after
(`fit/algorithms/fitting.py:233-389`). -/
def Eff (K : Type) (α : Type) := Mem K → Py α × Mem K

/-- Statements in sequence; an exception skips the rest
(`fit/algorithms/fitting.py:233-389`). -/
instance (K : Type) : Monad (Eff K) where
  pure a := fun m => (.ok a, m)
  bind x f := fun m =>
    match x m with
    | (.ok a, m') => f a m'
    | (.error e, m') => (.error e, m')

section
variable {K : Type}

/-- The contents of a 1-D array (`spline/algorithms/knots.py:218`). -/
def Mem.vec (m : Mem K) (r : Ref) : List K := m.vecs.getD r []

/-- The contents of a 2-D array (`spline/algorithms/knots.py:228`). -/
def Mem.mat (m : Mem K) (r : Ref) : List (List K) := m.mats.getD r []

/-- A curve object (`fit/algorithms/fitting.py:260`). -/
def Mem.curveObj (m : Mem K) (o : Ref) : CurveObj := m.curves.getD o default

/-- A surface object (`fit/algorithms/fitting.py:357`). -/
def Mem.surfObj (m : Mem K) (o : Ref) : SurfObj := m.surfs.getD o default

/-- What a curve object looks like from outside: the contents of its arrays
(`spline/model/base_geometry.py:58-73`). -/
def Mem.curve (m : Mem K) (o : Ref) : Curve K :=
  ⟨(m.curveObj o).degree, m.mat (m.curveObj o).ctrl, m.vec (m.curveObj o).kv⟩

/-- What a surface object looks like from outside (`spline/model/base_geometry.py:184-267`). -/
def Mem.surface (m : Mem K) (o : Ref) : Surface K :=
  let s := m.surfObj o
  ⟨s.degreeU, s.degreeV, s.numU, s.numV, m.mat s.ctrl, m.vec s.kvU, m.vec s.kvV⟩

/-- A computation that does not touch the memory (`fit/algorithms/fitting.py:61`). -/
def liftPy {α : Type} (x : Py α) : Eff K α := fun m => (x, m)

/-- A new 1-D array, as by `np.zeros(n)` (`spline/algorithms/knots.py:212`). -/
def vnew (l : List K) : Eff K Ref :=
  fun m => (.ok m.vecs.length, { m with vecs := m.vecs ++ [l] })

/-- Reading a whole 1-D array (`spline/algorithms/knots.py:77-78`). -/
def vread (r : Ref) : Eff K (List K) := fun m => (.ok (m.vec r), m)

/-- Overwriting the contents of a 1-D array, as by `a *= f` (`spline/algorithms/knots.py:81`). -/
def vwrite (r : Ref) (l : List K) : Eff K Unit :=
  fun m => (.ok (), { m with vecs := m.vecs.set r l })

/-- `a[i] = x` for a 1-D array (`spline/algorithms/knots.py:218`). -/
def vset (r : Ref) (i : ℤ) (x : K) : Eff K Unit := do
  let l ← vread r
  let l ← liftPy (pySet l i x)
  vwrite r l

/-- A new 2-D array, as by `np.zeros((n, m))` (`spline/algorithms/knots.py:213-214`). -/
def mnew (l : List (List K)) : Eff K Ref :=
  fun m => (.ok m.mats.length, { m with mats := m.mats ++ [l] })

/-- Reading a whole 2-D array (`fit/algorithms/fitting.py:61`). -/
def mread (r : Ref) : Eff K (List (List K)) := fun m => (.ok (m.mat r), m)

/-- Overwriting the contents of a 2-D array (`fit/algorithms/fitting.py:49`). -/
def mwrite (r : Ref) (l : List (List K)) : Eff K Unit :=
  fun m => (.ok (), { m with mats := m.mats.set r l })

/-- `for i in l` with a body that works on the memory and the local variables `s`
(`spline/algorithms/knots.py:217`). -/
def loopMem {ι σ : Type} (f : ι → σ → Eff K σ) : List ι → σ → Eff K σ
  | [], s => pure s
  | i :: l, s => do
    let s ← f i s
    loopMem f l s

/-- Reading a curve object (`fit/algorithms/fitting.py:87-101`). -/
def getCurve (o : Ref) : Eff K (Curve K) := fun m => (.ok (m.curve o), m)

/-- The attributes of a curve object (`fit/algorithms/fitting.py:261-263`). -/
def getCurveObj (o : Ref) : Eff K CurveObj := fun m => (.ok (m.curveObj o), m)

/-- A new curve object with its attributes (`fit/algorithms/fitting.py:260-263, 292-295`). -/
def newCurve (c : CurveObj) : Eff K Ref :=
  fun m => (.ok m.curves.length, { m with curves := m.curves ++ [c] })

/-- Assigning attributes of a curve object (`fit/algorithms/fitting.py:141`,
`spline/model/bspline.py:127-128`). -/
def writeCurveObj (o : Ref) (c : CurveObj) : Eff K Unit :=
  fun m => (.ok (), { m with curves := m.curves.set o c })

/-- Reading a surface object (`fit/algorithms/fitting.py:158-180`). -/
def getSurface (o : Ref) : Eff K (Surface K) := fun m => (.ok (m.surface o), m)

/-- The attributes of a surface object (`fit/algorithms/fitting.py:358-367`). -/
def getSurfObj (o : Ref) : Eff K SurfObj := fun m => (.ok (m.surfObj o), m)

/-- A new surface object with its attributes (`fit/algorithms/fitting.py:357-367`). -/
def newSurf (s : SurfObj) : Eff K Ref :=
  fun m => (.ok m.surfs.length, { m with surfs := m.surfs ++ [s] })

/-- Assigning attributes of a surface object (`fit/algorithms/fitting.py:230`). -/
def writeSurfObj (o : Ref) (s : SurfObj) : Eff K Unit :=
  fun m => (.ok (), { m with surfs := m.surfs.set o s })

end

section
variable {K : Type} [Field K] [LinearOrder K]

/-- `a[i, :] = v` for a 2-D array (`spline/algorithms/knots.py:228`). -/
def msetRow (r : Ref) (i : ℤ) (v : List K) : Eff K Unit := do
  let l ← mread r
  let l ← liftPy (assignRow l i v)
  mwrite r l

/-- `a[:, c] = v` for a 2-D array (`fit/algorithms/fitting.py:49, 53`). -/
def msetCol (r : Ref) (c : ℤ) (v : List K) : Eff K Unit := do
  let l ← mread r
  let l ← liftPy (setColumn l c v)
  mwrite r l

/-- `normalize` (`spline/algorithms/knots.py:64-83`): line 80 creates an array, line 81 overwrites
it. -/
def normalizeMem (U : Ref) : Eff K Ref := do
  let l ← vread U
  let maxKnot ← liftPy (npMax l)
  let minKnot ← liftPy (npMin l)
  let normalized ← vnew (l.map fun x => x - minKnot * 1)
  let factor ← liftPy (pyDiv 1 (maxKnot - minKnot))
  let l ← vread normalized
  vwrite normalized (l.map fun x => x * factor)
  pure normalized

/-- `curve_knot_insertion` (`spline/algorithms/knots.py:174-253`). -/
def curveKnotInsertionMem (p : ℕ) (oldKv oldP : Ref) (u : K) (r : ℕ) : Eff K (Ref × Ref) := do
  let U ← vread oldKv
  let P ← mread oldP
  -- 203-205
  let k ← liftPy (findSpan P.length p u U)
  let s : ℤ := (findMultiplicity u U : ℤ)
  -- 208-214
  let oldLen : ℤ := (P.length : ℤ) + p + 1
  let newKv ← vnew (zeros (U.length + r))
  let newP ← mnew (zeros2 (P.length + r) 3)
  let R ← mnew (zeros2 (p + 1) 3)
  -- 217-224
  let _ ← loopMem (fun (i : ℤ) (_ : Unit) => do
    let U ← vread oldKv
    let x ← liftPy (pyGet U i)
    vset newKv i x) (pyRange 0 (k + 1)) ()
  let _ ← loopMem (fun (i : ℤ) (_ : Unit) => vset newKv (k + i) u) (pyRange 1 ((r : ℤ) + 1)) ()
  let _ ← loopMem (fun (i : ℤ) (_ : Unit) => do
    let U ← vread oldKv
    let x ← liftPy (pyGet U i)
    vset newKv (i + r) x) (pyRange (k + 1) oldLen) ()
  -- 227-234
  let _ ← loopMem (fun (i : ℤ) (_ : Unit) => do
    let P ← mread oldP
    let row ← liftPy (pyGet P i)
    msetRow newP i row) (pyRange 0 (k - p + 1)) ()
  let _ ← loopMem (fun (i : ℤ) (_ : Unit) => do
    let P ← mread oldP
    let row ← liftPy (pyGet P i)
    msetRow newP (i + r) row) (pyRange (k - s) P.length) ()
  let _ ← loopMem (fun (i : ℤ) (_ : Unit) => do
    let P ← mread oldP
    let row ← liftPy (pyGet P (k - p + i))
    msetRow R i row) (pyRange 0 ((p : ℤ) - s + 1)) ()
  -- 237-246
  let _ ← loopMem (fun (j : ℤ) (_ : Unit) => do
    let L : ℤ := k - p + j
    let _ ← loopMem (fun (i : ℤ) (_ : Unit) => do
      let U ← vread oldKv
      let a ← liftPy (pyGet U (L + i))
      let b ← liftPy (pyGet U (i + k + 1))
      let alpha ← liftPy (pyDiv (u - a) (b - a))
      let rows ← mread R
      let x ← liftPy (pyGet rows (i + 1))
      let y ← liftPy (pyGet rows i)
      msetRow R i (rowComb alpha x (1 - alpha) y)) (pyRange 0 ((p : ℤ) - j - s + 1)) ()
    let rows ← mread R
    let r0 ← liftPy (pyGet rows 0)
    msetRow newP L r0
    let rows ← mread R
    let r1 ← liftPy (pyGet rows ((p : ℤ) - j - s))
    msetRow newP (k + r - j - s) r1) (pyRange 1 ((r : ℤ) + 1)) ()
  -- 249-251
  let L : ℤ := k - p + r
  let _ ← loopMem (fun (i : ℤ) (_ : Unit) => do
    let rows ← mread R
    let row ← liftPy (pyGet rows (i - L))
    msetRow newP i row) (pyRange (L + 1) (k - s)) ()
  pure (newKv, newP)

/-- `linear_fit_fixed` (`fit/algorithms/fitting.py:16-70`).  Line 40 returns the argument `P`
itself. -/
def linearFitFixedMem (lstsq : ℕ → List (List K) → List K → List K) (R Q P : Ref)
    (fixed : List Bool) : Eff K Ref := do
  let n := (← vread P).length
  -- 35-40
  let nfixed ← loopMem (fun (i : ℕ) (nfixed : ℕ) => do
    let f ← liftPy (pyGet fixed i)
    pure (if f then nfixed + 1 else nfixed)) (List.range' 0 (n - 0)) 0
  if nfixed = n then pure P
  else do
    -- 43-54
    let nq := (← vread Q).length
    let Rfree ← mnew (zeros2 nq (n - nfixed))
    let Rfixed ← mnew (zeros2 nq nfixed)
    let Qfixed ← vnew (zeros nq)
    let _ ← loopMem (fun (i : ℕ) (jk : ℕ × ℕ) => do
      let f ← liftPy (pyGet fixed i)
      let m ← mread R
      let col ← liftPy (column m i)
      if f then do
        msetCol Rfixed jk.1 col
        let l ← vread P
        let p ← liftPy (pyGet l i)
        let q ← vread Qfixed
        let q ← liftPy (vadd q (col.map fun x => x * p))
        vwrite Qfixed q
        pure (jk.1 + 1, jk.2)
      else do
        msetCol Rfree jk.2 col
        pure (jk.1, jk.2 + 1)) (List.range' 0 (n - 0)) (0, 0)
    -- 61
    let q ← vread Q
    let qf ← vread Qfixed
    let b ← liftPy (vsub q qf)
    let a ← mread Rfree
    let freeP ← vnew (lstsq (n - nfixed) a b)
    -- 62-70
    let fullP ← vnew (zeros n)
    let _ ← loopMem (fun (i : ℕ) (j : ℕ) => do
      let f ← liftPy (pyGet fixed i)
      if f then do
        let l ← vread P
        let p ← liftPy (pyGet l i)
        vset fullP i p
        pure j
      else do
        let l ← vread freeP
        let x ← liftPy (pyGet l j)
        vset fullP i x
        pure (j + 1)) (List.range' 0 (n - 0)) 0
    pure fullP

/-- The three calls of `linear_fit_fixed` and the stacking of their results
(`fit/algorithms/fitting.py:134-139, 223-228`); `np.column_stack` creates an array. -/
def fitColumnsMem (lstsq : ℕ → List (List K) → List K → List K) (nMat data ctrl : Ref)
    (fixed : List Bool) : Eff K Ref := do
  let d ← mread data
  let qx ← liftPy (column d 0)
  let c ← mread ctrl
  let px ← liftPy (column c 0)
  let qx ← vnew qx
  let px ← vnew px
  let x ← linearFitFixedMem lstsq nMat qx px fixed
  let d ← mread data
  let qy ← liftPy (column d 1)
  let c ← mread ctrl
  let py ← liftPy (column c 1)
  let qy ← vnew qy
  let py ← vnew py
  let y ← linearFitFixedMem lstsq nMat qy py fixed
  let d ← mread data
  let qz ← liftPy (column d 2)
  let c ← mread ctrl
  let pz ← liftPy (column c 2)
  let qz ← vnew qz
  let pz ← vnew pz
  let z ← linearFitFixedMem lstsq nMat qz pz fixed
  let x ← vread x
  let y ← vread y
  let z ← vread z
  let new ← liftPy (columnStack3 x y z)
  mnew new

/-- `single_fit_curve` (`fit/algorithms/fitting.py:73-141`). -/
def singleFitCurveMem (lstsq : ℕ → List (List K) → List K → List K) (o data : Ref) : Eff K Unit := do
  let c ← getCurve o
  let d ← mread data
  let nMat ← liftPy (curveMatrix c d)
  let _ ← liftPy (checkUnity nMat d.length)
  let fixed ← liftPy (curveMask c.ctrlpts.length)
  let nMat ← mnew nMat
  let obj ← getCurveObj o
  let new ← fitColumnsMem lstsq nMat data obj.ctrl fixed
  writeCurveObj o { obj with ctrl := new }

/-- `single_fit_surface` (`fit/algorithms/fitting.py:144-230`). -/
def singleFitSurfaceMem (lstsq : ℕ → List (List K) → List K → List K) (o data : Ref) :
    Eff K Unit := do
  let s ← getSurface o
  let d ← mread data
  let nMat ← liftPy (surfaceMatrix s d)
  let _ ← liftPy (checkUnity nMat d.length)
  let fixed ← liftPy (surfaceMask s.numU s.numV s.ctrlpts.length)
  let nMat ← mnew nMat
  let obj ← getSurfObj o
  let new ← fitColumnsMem lstsq nMat data obj.ctrl fixed
  writeSurfObj o { obj with ctrl := new }

/-- `initialize_curve` (`fit/algorithms/initialization.py:14-56`): every array is new. -/
def initializeCurveMem (start fin : List K) (degree numCtrl : ℕ) : Eff K Ref := do
  let c ← liftPy (initializeCurve start fin degree numCtrl)
  let pts ← mnew c.ctrlpts
  let kv ← vnew c.kv
  newCurve ⟨c.degree, pts, kv⟩

/-- `BSplineCurve.insert_knot` as documented (`spline/model/bspline.py:111-128`). -/
def insertKnotMem (o : Ref) (u : K) : Eff K Unit :=
  if validateKnot u = false then liftPy (.error .valueError)
  else do
    let obj ← getCurveObj o
    let new ← curveKnotInsertionMem obj.degree obj.kv obj.ctrl u 1
    writeCurveObj o { obj with ctrl := new.2, kv := new.1 }

/-- `parameterize_curve` (`fit/algorithms/parameterize.py:137-164`): the result is a new array. -/
def parameterizeCurveMem (env : FitEnv K) (o data : Ref) : Eff K Ref := do
  let c ← getCurve o
  let d ← mread data
  let param ← liftPy (parameterizeCurve env.num (env.curveLike c) d)
  mnew param

/-- The `while True` loop of `fit_curve_knot_insertion` (`fit/algorithms/fitting.py:298-334`). -/
def knotFitLoopMem (env : FitEnv K) (data : Ref) (numPts : ℤ) : ℕ → Ref → Eff K Unit
  | 0, _ => liftPy (.error .diverged)
  | fuel + 1, temp => do
    let param ← parameterizeCurveMem env temp data
    singleFitCurveMem env.lstsq temp param
    let c ← getCurve temp
    if (c.ctrlpts.length : ℤ) ≥ numPts then pure ()
    else do
      let knots ← liftPy (midKnots c)
      let _ ← loopMem (fun u (_ : Unit) => insertKnotMem temp u) knots ()
      knotFitLoopMem env data numPts fuel temp

/-- `fit_curve_knot_insertion` (`fit/algorithms/fitting.py:275-334`). -/
def fitCurveKnotInsertionMem (fuel : ℕ) (env : FitEnv K) (o data : Ref) (numPts : ℤ) :
    Eff K Ref := do
  let obj ← getCurveObj o
  let temp ← newCurve ⟨obj.degree, obj.ctrl, obj.kv⟩
  knotFitLoopMem env data numPts fuel temp
  pure temp

/-- `fit_curve_fixed_ctrlpts` (`fit/algorithms/fitting.py:233-272`). -/
def fitCurveFixedMem (fuel : ℕ) (env : FitEnv K) (o data : Ref) : Eff K Ref := do
  let c ← getCurve o
  let first ← liftPy (pyGet c.ctrlpts 0)
  let last ← liftPy (pyGet c.ctrlpts (-1))
  let init ← initializeCurveMem first last c.degree (c.degree + 1)
  let i ← getCurve init
  let fit ← fitCurveKnotInsertionMem fuel env init data i.ctrlpts.length
  let param ← parameterizeCurveMem env fit data
  let obj ← getCurveObj o
  let fixed ← newCurve ⟨obj.degree, obj.ctrl, obj.kv⟩
  singleFitCurveMem env.lstsq fixed param
  let param ← parameterizeCurveMem env fixed data
  singleFitCurveMem env.lstsq fixed param
  pure fixed

/-- `fit_surface` (`fit/algorithms/fitting.py:337-389`). -/
def fitSurfaceMem (env : FitEnv K) (o data top bottom : Ref) : Eff K Ref := do
  let obj ← getSurfObj o
  let temp ← newSurf ⟨obj.degreeU, obj.degreeV, obj.numU, obj.numV, obj.ctrl, obj.kvU, obj.kvV⟩
  let s ← getSurface temp
  let d ← mread data
  let param ← liftPy (parameterizeSurface env.num (env.surfLike s) d)
  let top ← mread top
  let bottom ← mread bottom
  let stacked := param ++ appendColumn top 1 ++ appendColumn bottom 0
  if ¬ stacked.all (fun row => row.length = 5) then liftPy (.error .valueError)
  else do
    let ordered ← mnew (npSortRows [3, 4, 0, 1, 2] param)
    singleFitSurfaceMem env.lstsq temp ordered
    pure temp

/-- `check_knot_vector` on an array (`spline/algorithms/knots.py:86-121`): line 105 rebinds the
name to a new array.  The division by zero for equal knots is treated as in `checkKnotVector`. -/
def checkKnotVectorMem (p : ℕ) (U : Ref) (n : ℕ) : Eff K Bool := fun m =>
  match normalizeMem U m with
  | (.error .nonfinite, m') => (.ok false, m')
  | (.error e, m') => (.error e, m')
  | (.ok r, m') => (checkNormalized p (m'.vec r) n, m')

/-- The setter of `knot_vector` for an object with degree and control points
(`spline/model/base_geometry.py:75-84`, `spline/model/bspline.py:173-176`): the array itself is
stored. -/
def setKnotVectorMem (o kv : Ref) : Eff K Unit := do
  let obj ← getCurveObj o
  let pts ← mread obj.ctrl
  let good ← checkKnotVectorMem obj.degree kv pts.length
  if good then writeCurveObj o { obj with kv := kv } else pure ()

end

end PySpline
