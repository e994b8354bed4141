import Verif.Model.Parameterize
import Verif.Model.Geometry
import Mathlib.Algebra.Order.Floor.Ring

/-!
# Model of `fit/io/text.py`, `fit/io/curve.py` and `fit/io/base_io.py`

A file system maps names to contents; permissions, directories and encodings are left out.  Effects
are kept when an exception is raised, so a method is a function from the state to a result *and* a
state (`Meth`).

Formatting and parsing of numbers (`'{}'.format`, `float`, `int`) are parameters.  As in
`Verif/Model/Fitting.lean` the property setters of the spline object that a reader fills are left
out: the reader's result is the record of the values it assigns.
-/

namespace PySpline

/-! ## Methods with effects -/

/-- A Python method: the state it leaves behind is also there when it raises.  The methods of
`fit/model/base_data.py:87-723` and the functions of `fit/io/text.py:14-184` are of
this kind. -/
def Meth (σ α : Type) := σ → Py α × σ

namespace Meth
variable {σ τ α β : Type}

/-- A method that only returns a value. -/
def pure (a : α) : Meth σ α := fun s => (.ok a, s)

/-- Two statements in sequence; an exception skips the second. -/
def bind (m : Meth σ α) (f : α → Meth σ β) : Meth σ β := fun s =>
  match m s with
  | (.ok a, s') => f a s'
  | (.error e, s') => (.error e, s')

instance : Monad (Meth σ) where
  pure := Meth.pure
  bind := Meth.bind

/-- A pure computation. -/
def lift (x : Py α) : Meth σ α := fun s => (x, s)
/-- `raise e`. -/
def raise (e : Err) : Meth σ α := fun s => (.error e, s)
/-- Read the state. -/
def read (f : σ → α) : Meth σ α := fun s => (.ok (f s), s)
/-- An assignment. -/
def assign (f : σ → σ) : Meth σ Unit := fun s => (.ok (), f s)
/-- A method of a part of the state. -/
def zoom (get : σ → τ) (set : τ → σ → σ) (m : Meth τ α) : Meth σ α := fun s =>
  let r := m (get s)
  (r.1, set r.2 s)
/-- `for x in l: body(x)` (`fit/io/text.py:118, 135`). -/
def each (l : List β) (body : β → Meth σ Unit) : Meth σ Unit :=
  l.foldr (fun x rest => (body x).bind fun _ => rest) (Meth.pure ())

end Meth

/-! ## Files -/

/-- The contents of a file or of a part of it. -/
abbrev Text := List Char

/-- The contents of the existing files (`fit/io/text.py:27, 64, 102, 151`). -/
abbrev FS := String → Option Text

/-- `open(name, 'r')` (`fit/io/text.py:27, 64, 151`). -/
def openRead (name : String) : Meth FS Text := fun fs =>
  match fs name with
  | none => (.error .fileNotFound, fs)
  | some t => (.ok t, fs)

/-- `open(name, 'w')`: the file exists and is empty (`fit/io/text.py:102`, `fit/io/curve.py:64`). -/
def openWrite (name : String) : Meth FS Unit := fun fs =>
  (.ok (), fun n => if n = name then some [] else fs n)

/-- `f.write(t)` on a file opened with `'w'` (`fit/io/text.py:104-136`). -/
def emit (name : String) (t : Text) : Meth FS Unit := fun fs =>
  (.ok (), fun n => if n = name then some ((fs name).getD [] ++ t) else fs n)

/-- `f.write(t)` on a file opened with `'r'`: `io.UnsupportedOperation` (`fit/io/text.py:29`). -/
def emitReadOnly (_t : Text) : Meth FS Unit := Meth.raise .unsupportedOperation

/-- What a file opened with mode `'r'` gives for the contents of the file: `'\r\n'` and `'\r'` are
read as `'\n'` (`fit/io/text.py:64, 151`). -/
def universalNewlines : Text → Text
  | [] => []
  | c :: t =>
    if c = '\r' then
      if t.head? = some '\n' then universalNewlines t else '\n' :: universalNewlines t
    else c :: universalNewlines t

/-- `[line.strip('\n') for line in f]`: the text split after every newline; the lines themselves
contain no newline, so `strip` removes just the terminator (`fit/io/text.py:65, 152`). -/
def pyLines (t : Text) : List Text :=
  let ls := (universalNewlines t).splitOn '\n'
  if ls.getLast? = some [] then ls.dropLast else ls

/-- Characters at which `str.split()` splits: those for which `str.isspace` holds
(`fit/io/text.py:80, 171`). -/
def pySpace (c : Char) : Bool :=
  c.toNat ∈ [9, 10, 11, 12, 13, 28, 29, 30, 31, 32, 133, 160, 5760, 8232, 8233, 8239, 8287, 12288] ||
    (8192 ≤ c.toNat && c.toNat ≤ 8202)

/-- `s.split()` (`fit/io/text.py:80, 171`). -/
def pyWords (t : Text) : List Text := (t.splitOnP pySpace).filter (· ≠ [])

section
variable {K : Type} [Field K] [LinearOrder K]

/-- `'{}'.format(x)` for floats and ints, `float(s)`, `int(s)` (`fit/io/text.py:68-80, 105-136`). -/
structure Fmt (K : Type) where
  num : K → Text
  int : ℤ → Text
  parseFloat : Text → Py K
  parseInt : Text → Py ℤ

/-- `write_curve_to_txt` (`fit/io/text.py:14-49`): the file is opened with mode `'r'` (27).  Lines
30-49 come after a `write` that raises and are left out. -/
def writeCurve (_fm : Fmt K) (_c : Curve K) (name : String) : Meth FS Unit := do
  let _ ← openRead name
  emitReadOnly "Degree - p:\n".toList

/-- What `read_curve_from_txt` assigns (`fit/io/text.py:84-86`). -/
structure CurveText (K : Type) where
  degree : ℤ
  kv : List K
  ctrlpts : List (List K)
  deriving DecidableEq, Repr

/-- What `read_surf_from_txt` assigns (`fit/io/text.py:175-184`). -/
structure SurfText (K : Type) where
  degreeU : ℤ
  degreeV : ℤ
  numU : ℤ
  numV : ℤ
  kvU : List K
  kvV : List K
  ctrlpts : List (List K)
  deriving DecidableEq, Repr

/-- `np.array(rows)` for a list of lists of floats: `ValueError` if it is ragged
(`fit/io/text.py:81, 172`). -/
def arrayOfRows (rows : List (List K)) : Py (List (List K)) :=
  if rows.all (fun r => r.length = (rows.headD []).length) then .ok rows else .error .valueError

/-- The lines `contents[k:]`, each split and converted (`fit/io/text.py:80-81, 171-172`). -/
def readPoints (fm : Fmt K) (contents : List Text) (k : ℕ) : Py (List (List K)) := do
  let rows ← mapPy (fun line => mapPy fm.parseFloat (pyWords line)) (contents.drop k)
  arrayOfRows rows

/-- The parsing part of `read_curve_from_txt` (`fit/io/text.py:52-81`). -/
def readCurve (fm : Fmt K) (name : String) : Meth FS (CurveText K) := do
  let t ← openRead name
  Meth.lift do
    let contents := pyLines t
    let l1 ← pyGet contents 1
    let degree ← fm.parseInt l1
    let l3 ← pyGet contents 3
    let _ ← fm.parseInt l3
    let l5 ← pyGet contents 5
    let kv ← mapPy fm.parseFloat (l5.splitOn '\t')
    let l7 ← pyGet contents 7
    let _ ← fm.parseInt l7
    let pts ← readPoints fm contents 9
    .ok ⟨degree, kv, pts⟩

/-- `write_surface_to_txt` (`fit/io/text.py:89-136`). -/
def writeSurface (fm : Fmt K) (s : Surface K) (name : String) : Meth FS Unit := do
  openWrite name
  emit name "Degree - p:\n".toList
  emit name (fm.int s.degreeU ++ ['\n'])
  emit name "Degree - q:\n".toList
  emit name (fm.int s.degreeV ++ ['\n'])
  emit name "Number of Knots in U\n".toList
  emit name (fm.int s.kvU.length ++ ['\n'])
  emit name "Number of Knots in V\n".toList
  emit name (fm.int s.kvV.length ++ ['\n'])
  emit name "Knot Vector - U\n".toList
  Meth.each s.kvU fun knot => emit name (fm.num knot ++ ['\t'])
  emit name ['\n']
  emit name "Knot Vector - V\n".toList
  Meth.each s.kvV fun knot => emit name (fm.num knot ++ ['\t'])
  emit name ['\n']
  emit name "Number of Control Points in U\n".toList
  emit name (fm.int s.numU ++ ['\n'])
  emit name "Number of Control Points in V\n".toList
  emit name (fm.int s.numV ++ ['\n'])
  emit name "Control Points\n".toList
  Meth.each s.ctrlpts fun pt => do
    let x ← Meth.lift (pyGet pt 0)
    let y ← Meth.lift (pyGet pt 1)
    let z ← Meth.lift (pyGet pt 2)
    emit name (fm.num x ++ ['\t', ' '] ++ fm.num y ++ ['\t', ' '] ++ fm.num z ++ ['\n'])

/-- `read_surf_from_txt` (`fit/io/text.py:139-184`). -/
def readSurf (fm : Fmt K) (name : String) : Meth FS (SurfText K) := do
  let t ← openRead name
  Meth.lift do
    let contents := pyLines t
    let l1 ← pyGet contents 1
    let degreeU ← fm.parseInt l1
    let l3 ← pyGet contents 3
    let degreeV ← fm.parseInt l3
    let l5 ← pyGet contents 5
    let _ ← fm.parseInt l5
    let l7 ← pyGet contents 7
    let _ ← fm.parseInt l7
    let l9 ← pyGet contents 9
    let kvU ← mapPy fm.parseFloat (l9.splitOn '\t')
    let l11 ← pyGet contents 11
    let kvV ← mapPy fm.parseFloat (l11.splitOn '\t')
    let l13 ← pyGet contents 13
    let numU ← fm.parseInt l13
    let l15 ← pyGet contents 15
    let numV ← fm.parseInt l15
    let pts ← readPoints fm contents 17
    .ok ⟨degreeU, degreeV, numU, numV, kvU, kvV, pts⟩

/-! ## Sampling for VTK -/

/-- `np.arange(start, stop, step)` (`fit/io/text.py:207-208`). -/
def arange [FloorRing K] (start stop step : K) : List K :=
  (List.range ⌈(stop - start) / step⌉.toNat).map fun (i : ℕ) => start + (i : K) * step

/-- `int(x)` for a float: rounding towards zero (`fit/io/text.py:202`). -/
def pyTrunc [FloorRing K] (x : K) : ℤ := if 0 ≤ x then ⌊x⌋ else -⌊-x⌋

/-- The sampling loop of `surf_to_vtk` (`fit/io/text.py:199-211`); the triangulation and the
output with `meshio` are left out. -/
def vtkSamples [FloorRing K] (single : K → K → Py (List K)) (nTri : ℤ) : Py (List (List K)) := do
  let step ← pyDiv (1 : K) (nTri : K)
  let start : K := 0
  let stop : K := 1 + step
  let size := pyTrunc ((stop - start) * (nTri : K))
  let spts : List (List K) := zeros2 (size * size).toNat 5
  let (spts, _) ← forL (arange start stop step) (spts, (0 : ℕ)) fun u st =>
    forL (arange start stop step) st fun v (spts, pt) => do
      let q ← single u v
      let row := q ++ [u, v]
      let _ ← (if row.length = 5 then .ok () else .error .valueError : Py Unit)
      let spts ← pySet spts pt row
      .ok (spts, pt + 1)
  .ok spts

/-! ## JSON -/

/-- A `CurveWriter` whose attributes `file_handle` and `spline` are set
(`fit/io/base_io.py:18, 44`). -/
structure Writer (K : Type) where
  file : String
  spline : Obj K

/-- `json.dump(data, f)` for the dictionary of `to_dict` is a parameter: the text of the
dictionary, or an exception (`fit/io/curve.py:66`). -/
abbrev JsonDump (K : Type) := List (String × Arr K) → Py Text

/-- `CurveWriter._json_writer` (`fit/io/curve.py:63-66`). -/
def Writer.json (dump : JsonDump K) (c : ClassState K) (w : Writer K) : Meth FS Unit := do
  openWrite w.file
  let data ← Meth.lift (w.spline.toDict c)
  let t ← Meth.lift (dump data)
  emit w.file t

/-- `os.path.splitext(name)[1]` for a name without directories: from the last dot on, unless there
is none or only dots come before it (`fit/io/curve.py:31, 56`). -/
def extension (name : String) : Text :=
  let l := name.toList
  if '.' ∉ l then []
  else
    let ext := (l.reverse.takeWhile (· ≠ '.')).reverse
    let root := l.take (l.length - ext.length - 1)
    if root.all (· = '.') then [] else '.' :: ext

/-- `CurveWriter.write` (`fit/io/curve.py:53-61`). -/
def Writer.write (dump : JsonDump K) (c : ClassState K) (w : Writer K) : Meth FS Unit :=
  if extension w.file = ".json".toList then w.json dump c else Meth.raise .valueError

/-- The classes of `fit/io` in method resolution order (`fit/io/base_io.py:9-52`,
`fit/io/curve.py:15, 44`). -/
inductive IoClass | curveReader | curveWriter | baseReader | baseWriter | baseFileIO | abc | object
  deriving DecidableEq, Repr

/-- The method resolution order (`fit/io/base_io.py:9, 22, 36`, `fit/io/curve.py:15, 44`). -/
def IoClass.mro : IoClass → List IoClass
  | .curveReader => [.curveReader, .baseReader, .baseFileIO, .abc, .object]
  | .curveWriter => [.curveWriter, .baseWriter, .baseFileIO, .abc, .object]
  | .baseReader => [.baseReader, .baseFileIO, .abc, .object]
  | .baseWriter => [.baseWriter, .baseFileIO, .abc, .object]
  | .baseFileIO => [.baseFileIO, .abc, .object]
  | .abc => [.abc, .object]
  | .object => [.object]

/-- `super(cls, self)` for `self` of class `c`: `TypeError` unless `c` is a subclass of `cls`;
else the classes searched for a method (`fit/io/base_io.py:19, 45`, `fit/io/curve.py:22, 51`). -/
def superOf (cls c : IoClass) : Py (List IoClass) :=
  if cls ∈ c.mro then .ok ((c.mro.dropWhile (· ≠ cls)).drop 1) else .error .typeError

/-- `BaseWriter.__init__` (`fit/io/base_io.py:43-45`) on an object of class `c`: it sets `spline` and
calls `super(BaseReader, self)`. -/
def baseWriterInit (c : IoClass) (file : String) (spline : Obj K) : Py (Writer K) := do
  let _ ← superOf .baseReader c
  .ok ⟨file, spline⟩

/-- `BaseReader` has no `__init__`; `CurveReader(file_handle)` calls `BaseFileIO.__init__`
(`fit/io/curve.py:18-22`, `fit/io/base_io.py:17-19`): the file name. -/
def curveReaderInit (file : String) : Py String := do
  let _ ← superOf .curveReader .curveReader
  let _ ← superOf .baseFileIO .curveReader
  .ok file

/-- `CurveReader.read` (`fit/io/curve.py:24-41`): the class state afterwards and the returned value
(always `None`, since line 36 drops the result of the reader).  `parse` is `json.load`. -/
def readerRead (parse : Text → Py (List (String × Arr K))) (file : String) :
    Meth (ClassState K × FS) (Option (ClassState K)) :=
  if extension file = ".json".toList then do
    let t ← Meth.zoom Prod.snd (fun fs s => (s.1, fs)) (openRead file)
    let d ← Meth.lift (parse t)
    let c ← Meth.read Prod.fst
    let c' ← Meth.lift (fromDict c d)
    Meth.assign fun s => (c', s.2)
    Meth.pure none
  else Meth.raise .valueError

end

end PySpline
