import Verif.Model.IO

/-!
# Model of `surf_to_vtk` in `fit/io/text.py`

`spatial.Delaunay` and `meshio.write` come from libraries the sources call and are parameters: the
triangulation is a function of the parameter pairs, or raises, and the writer is a method that may
touch any file.
-/

namespace PySpline

/-- `meshio.Mesh(points, {'triangle': simplices})` (`fit/io/text.py:219-223`). -/
structure Mesh (K : Type) where
  points : List (List K)
  triangles : List (List ℕ)
deriving DecidableEq

section
variable {K : Type} [Field K] [LinearOrder K] [FloorRing K]

/-- `surf_to_vtk` (`fit/io/text.py:187-224`).  `single` is the method `single_point` of the surface. -/
def surfToVtk (delaunay : List (List K) → Py (List (List ℕ))) (write : String → Mesh K → Meth FS Unit)
    (single : K → K → Py (List K)) (name : String) (nTri : ℤ) : Meth FS Unit := do
  let spts ← Meth.lift (vtkSamples single nTri)
  let params ← Meth.lift (mapPy (fun row => do
    let u ← pyGet row 3
    let v ← pyGet row 4
    .ok [u, v]) spts)
  let simplices ← Meth.lift (delaunay params)
  let points := spts.map fun row => row.take 3
  write name ⟨points, simplices⟩

end

end PySpline
