import Verif.Model.BSpline
import Verif.Model.Data
import Mathlib.Data.Rat.Floor

/-!
# The package's own tests, evaluated on the model

Inputs and expected values of `/repo/tests/*.py`, over `ℚ`, by kernel evaluation.  The tests were
written for an earlier layout of the package (`from pysplinefit import …`) and are not run; they serve
as an independent check that the model computes what the authors expect.  Left out: tests of getters,
`test_curve_derivpt` and `test_curve_deriv1` (at this commit `BSplineCurve.derivatives` always raises,
`curve_derivatives_value_error`), the tests of `curve_inversion` (which calls it), and
`test_surf_inversion`, which asserts nothing.
-/

namespace PySpline.RepoTests

/-- `np.allclose` on rational lists, with an absolute tolerance. -/
def close (tol : ℚ) (r : Py (List ℚ)) (expected : List ℚ) : Bool :=
  match r with
  | .ok l => l.length == expected.length && (l.zip expected).all fun x => |x.1 - x.2| ≤ tol
  | .error _ => false

/-- Row `i` of a 2-D result. -/
def row (r : Py (List (List ℚ))) (i : ℤ) : Py (List ℚ) := r >>= fun m => pyGet m i

/-! ## `test_knots.py` -/

def kvBook : List ℚ := [0, 0, 0, 1, 2, 3, 4, 4, 5, 5, 5]

/-- `test_find_span` (15-37). -/
example : [(5/2, 4), (1/2, 2), (7/2, 5), (9/2, 7), (3, 5), (0, 2), (3, 5), (5, 7)].all
    (fun x : ℚ × ℤ => decide (findSpan 8 2 x.1 kvBook = .ok x.2)) = true := by decide +kernel

/-- `test_normalize` (40-48). -/
example : normalize [0, 0, 0, 1, 2, 2, 2] = .ok [0, 0, 0, (1/2 : ℚ), 1, 1, 1] := by decide +kernel

/-- `test_check`, `test_check2`, `test_check3` (51-84). -/
example : checkKnotVector 2 [0, 0, 0, (1/2 : ℚ), 1, 1, 1] 4 = .ok true ∧
    checkKnotVector 2 [0, 0, 0, (1 : ℚ), 2, 2, 2] 4 = .ok true ∧
    checkKnotVector 2 [0, 0, 0, (1 : ℚ), 2, 2, 2] 5 = .ok false := by decide +kernel

/-- `test_generate`, `test_generate2`, `test_generate3` (87-123). -/
example : generateUniform 2 4 = .ok [0, 0, 0, (1/2 : ℚ), 1, 1, 1] ∧
    generateUniform 3 4 = .ok [0, 0, 0, 0, (1 : ℚ), 1, 1, 1] ∧
    generateUniform 2 6 = .ok [0, 0, 0, (1/4 : ℚ), 1/2, 3/4, 1, 1, 1] := by decide +kernel

/-- `test_multiplicity`, `test_multiplicity2`, `test_multiplicity3` (126-162). -/
example :
    let kv : List ℚ := [0, 0, 0, 1/4, 1/2, 3/4, 1, 1, 1]
    findMultiplicity (5/8) kv = 0 ∧ findMultiplicity (1/2) kv = 1 ∧ findMultiplicity 0 kv = 3 := by
  decide +kernel

/-! ## `test_basis.py` -/

/-- `test_basis_functions` (17-31). -/
example : basisFunctions 4 (5/2) 2 kvBook = .ok [1/8, 3/4, 1/8] := by decide +kernel

/-- `test_basis_function_ders` (51-69). -/
example : basisFunctionDers 4 (5/2) 2 kvBook 2
    = .ok [[1/8, -1/2, 1], [3/4, 0, -2], [1/8, 1/2, 1]] := by decide +kernel

/-- `test_one_basis_function` (72-89). -/
example : oneBasisFunction 2 kvBook 3 (5/2) = .ok (3/4) ∧
    oneBasisFunction 2 kvBook 4 (5/2) = .ok (1/8) := by decide +kernel

/-- `test_one_basis_function_ders` (92-108). -/
example : oneBasisFunctionDers 2 kvBook 4 (5/2) 2 = .ok [1/8, 1/2, 1] := by decide +kernel

/-! ## `test_spline.py` -/

/-- The fixture `curve2` (87-100). -/
def curve2 : Curve ℚ :=
  ⟨2, [[0, 0, 0], [1, 2, 0], [2, 4, 0], [3, 4, 0], [4, 2, 0], [5, 0, 0]],
    [0, 0, 0, 3/8, 1/2, 5/8, 1, 1, 1]⟩

/-- `test_curve_single_point` (103-117) and `test_curve_points` (120-132). -/
example : [(0, [0, 0, 0]), (1/4, [1.2222222222, 2.444444444444, 0]), (1/2, [5/2, 4, 0]),
    (3/4, [3.77777777778, 2.44444444444, 0]), (1, [5, 0, 0])].all
    (fun x : ℚ × List ℚ => close (1 / 10 ^ 8) (curve2.singlePoint x.1) x.2) = true := by
  decide +kernel

/-- `test_curve_insertion`, `test_curve_insertion2`, `test_curve_insertion3` (170-206), on the function
that `insert_knot` is meant to call. -/
example : (curveKnotInsertion 2 curve2.kv curve2.ctrlpts (7/8) 1 >>= fun r =>
      (⟨2, r.2, r.1⟩ : Curve ℚ).singlePoint (7/10)) = curve2.singlePoint (7/10) ∧
    (curveKnotInsertion 2 curve2.kv curve2.ctrlpts (7/8) 1 >>= fun r => .ok (r.1, r.2.length))
      = .ok ([0, 0, 0, 3/8, 1/2, 5/8, 7/8, 1, 1, 1], 7) := by decide +kernel

/-- The fixture `surf2` (401-425). -/
def surf2 : Surface ℚ where
  degreeU := 2
  degreeV := 2
  numU := 5
  numV := 5
  ctrlpts := (List.range 25).map fun x => [((x / 5 : ℕ) : ℚ), ((x % 5 : ℕ) : ℚ), 0]
  kvU := [0, 0, 0, 1/3, 2/3, 1, 1, 1]
  kvV := [0, 0, 0, 1/3, 2/3, 1, 1, 1]

example : generateUniform 2 5 = .ok surf2.kvU := by decide +kernel

/-- `test_surf_single_point` (428-445) and `test_surf_derivpt` (473-490). -/
example : [(0, 0, [0, 0, 0]), (1/4, 1/4, [1.21875, 1.21875, 0]), (3/4, 3/4, [2.78125, 2.78125, 0]),
    (1/2, 1/4, [2, 1.21875, 0]), (1/4, 1/2, [1.21875, 2, 0]), (1, 1, [4, 4, 0])].all
    (fun x : ℚ × ℚ × List ℚ => decide (surf2.singlePoint x.1 x.2.1 = .ok x.2.2) &&
      decide (row (surf2.derivatives (fun _ => 1) x.1 x.2.1 2 2 false) 0 = .ok x.2.2)) = true := by
  decide +kernel

/-- `test_surf_derivu1`, `test_surf_derivu2`, `test_surf_derivv1`, `test_surf_derivv2`,
`test_surf_derivuv` (493-595): rows 3, 6, 1, 2, 4. -/
example : [(0, 0, [6, 0, 0], [-9, 0, 0], [0, 6, 0], [0, -9, 0]),
    (1/4, 1/4, [3.75, 0, 0], [-9, 0, 0], [0, 3.75, 0], [0, -9, 0]),
    (3/4, 3/4, [3.75, 0, 0], [9, 0, 0], [0, 3.75, 0], [0, 9, 0]),
    (1/2, 1/4, [3, 0, 0], [0, 0, 0], [0, 3.75, 0], [0, -9, 0]),
    (1/4, 1/2, [3.75, 0, 0], [-9, 0, 0], [0, 3, 0], [0, 0, 0]),
    (1, 1, [6, 0, 0], [9, 0, 0], [0, 6, 0], [0, 9, 0])].all
    (fun x : ℚ × ℚ × List ℚ × List ℚ × List ℚ × List ℚ =>
      let r := surf2.derivatives (fun _ => 1) x.1 x.2.1 2 2 false
      decide (row r 3 = .ok x.2.2.1) && decide (row r 6 = .ok x.2.2.2.1) &&
      decide (row r 1 = .ok x.2.2.2.2.1) && decide (row r 2 = .ok x.2.2.2.2.2) &&
      decide (row r 4 = .ok [0, 0, 0])) = true := by
  decide +kernel

/-- The guards of the setters (55-84, 287-398): each of these assignments raises. -/
example :
    let o : Obj ℚ := Obj.init {}
    let pts : CtrlArg ℚ := .arr ⟨[4, 3], [0, 0, 0, 1, 2, 0, 2, 2, 0, 3, 0, 0]⟩
    let raises (r : Py (Obj ℚ)) : Bool := match r with | .error _ => true | .ok _ => false
    raises (o.setCtrl .fresh pts) ∧ raises (o.setKv [0, 0, 0, 0, 1, 1, 1, 1]) ∧
    raises (o.setDegree 3 >>= fun o => o.setKv [0, 0, 0, 0, 1, 1, 1, 1]) ∧
    raises (o.setDegreeU 2 >>= fun o => o.setCtrl .fresh pts) ∧
    raises (o.setDegreeV 2 >>= fun o => o.setCtrl .fresh pts) ∧
    raises (o.setDegreeU 2 >>= fun o => o.setDegreeV 2 >>= fun o => o.setKvU surf2.kvU) ∧
    raises (o.setDegreeU 2 >>= fun o => o.setDegreeV 2 >>= fun o => o.setCtrl .fresh pts >>= fun o =>
      o.setKvU surf2.kvU) := by
  decide +kernel

/-! ## `test_parameterize.py` -/

/-- The fixture `curve` (19-30). -/
def curve : Curve ℚ := ⟨3, [[0, 0, 0], [1, 2, 0], [2, 2, 0], [3, 0, 0]], [0, 0, 0, 0, 1, 1, 1, 1]⟩

/-- `test_initial_guess_curve` (33-39), with the sum of absolute values for the norm. -/
example : (curve.singlePoint (2/7) >>= fun pt => initialGuessCurve
    ⟨fun v => (v.map fun x => |x|).sum, fun _ _ => true⟩ (curve.like fun _ => 1) pt)
      = .ok (2/7) := by decide +kernel

/-- `test_initial_guess_surf` (100-109) on the flat fixture. -/
example : (surf2.singlePoint (2/9) (3/9) >>= fun pt => initialGuessSurf
    ⟨fun v => (v.map fun x => |x|).sum, fun _ _ => true⟩ (surf2.like fun _ => 1) pt)
      = .ok (2/9, 3/9) := by decide +kernel

/-! ## `test_data.py` -/

/-- The fixtures `bound` (17-26) and `interior` (46-53), on the classes that have these
properties. -/
example :
    let env : DataEnv ℚ := ⟨⟨⟨fun _ => 0, fun _ _ => true⟩, fun _ _ _ => [], Curve.like fun _ => 0,
      Surface.like fun _ => 0⟩, ⟨fun _ => [], fun _ => [], fun _ => .error .valueError,
      fun _ => .error .valueError⟩, 0, fun _ => .ok [], fun _ _ => Meth.pure ()⟩
    let w : BWorld ℚ := Boundary.history env ⟨Boundary.new, fun _ => none⟩
      [(.degree (.int 3), fun _ => none), (.start (.arr ⟨[3], [0, 0, 0]⟩), fun _ => none),
       (.fin (.arr ⟨[3], [1, 0, 0]⟩), fun _ => none), (.numCtrl (.int 5), fun _ => none)]
    let i : IWorld ℚ := Interior.history env ⟨Interior.new, fun _ => none⟩
      [(.degree (.int 3), fun _ => none), (.numCtrl (.int 5), fun _ => none)]
    w.self.degree = some 3 ∧ w.self.start = some ⟨[3], [0, 0, 0]⟩ ∧
      w.self.fin = some ⟨[3], [1, 0, 0]⟩ ∧ w.self.numCtrl = some 5 ∧
      i.self.degree = some 3 ∧ i.self.numCtrl = some 5 := by
  decide +kernel

end PySpline.RepoTests
