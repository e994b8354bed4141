# Formal model of PySplineFit — design

The code in `/repo` is read as text. Nothing is executed. The model and the proofs are in `lean/Verif`;
`lake build` in `lean/` checks everything. `properties.jsonl` states the properties, `MANIFEST.json` names the
theorems, `AXIOMS.md` lists the axioms each theorem depends on, `seeded/LOG.jsonl` records the wrong programs
against which the theorems were tested.

## 1. How the code is modelled

* **Values.** Python floats / numpy doubles are elements of an arbitrary linearly ordered field `K` (exact
  arithmetic; `ℚ` and `ℝ` are instances; witnesses are computed over `ℚ` in the kernel). `find_span`'s search is
  modelled over an arbitrary linear order with an arbitrary end test, so C01–C04 also hold for NaN-free doubles.
  The state machines of the problem objects do no arithmetic.
* **Rounded arithmetic.** `Model/Rounded.lean` is a second model of the numerical routines in which a function
  `fl` is applied to the result of every operation. `fl = id` gives the first model (theorems `…Fl_id`);
  `fl = fl64` (53 bits, nearest, ties to even; `Rounding.lean`) is double precision. Sums of products, whose order
  is up to numpy/BLAS, are a relation `DotFl` that allows every order, every bracketing and fused multiply-add. Overflow,
  underflow (subnormals), infinities and NaN are left out here; they are in the models below. C97–C102, C113, C128, C133, C140, C141, C158, C172, C173, C175 and C182 are about this model.
* **Errors are values.** Every modelled function returns `Py α = Except Err α`. Indexing uses Python rules on
  integer indices (negative indices count from the end; out of range is `IndexError`). Division by zero is the
  error `nonfinite`: numpy would go on with inf/nan, plain floats would raise `ZeroDivisionError`; the model stops
  there. So a theorem of the form `f x = .ok y` also states that no index is out of range and nothing is divided by
  zero. What numpy does after a division by zero is in a third model (`Ext.lean`, `Model/Extended.lean`): numbers are finite,
  `±∞` or NaN with the IEEE tables, rounding and overflow left out. It agrees with the first model wherever that does not stop
  with `nonfinite` (C147), and C148–C150 say what happens there and for NaN or infinite arguments.
  `Model/Ieee.lean` puts both together for the evaluation routines, the knot test and knot insertion (`IeeeFit.lean` for the fit matrices, `IeeeDers.lean` for derivatives): every finite result passes through `rd : K → Ext K`, which
  rounds and may overflow; `rd = bin64` is double precision with gradual underflow (C160, C161, C164, C169, C180, C181, C189, C190, C191, C192, C193, C194, C195, C196, C197, C198, C199, C200, C201, C202, C203). In the Newton steps of `parameterize.py` the code clamps a possibly infinite quotient afterwards; there the quotient is
  modelled as finite, `±∞` or NaN (section 4, C40).
* **Loops.** `for i in range(a,b)` is `forN a b` (or `forZ` for possibly negative bounds): a fold with early exit
  on error, in the order of the code, over the same mutable arrays. `while` loops take fuel; running out of fuel is
  the error `diverged`, and theorems say that more fuel gives the same answer, so `diverged` for all fuel means that the
  Python loop does not end.
* **Arrays** are `List K` (1-D) and `List (List K)` (2-D, rows).
* **Objects** are records of instance attributes, where a missing attribute (`AttributeError`) differs from `None`.
  A method is a `Meth σ α = σ → Py α × σ`: what it has assigned before it raises stays assigned. Arguments of
  setters are values `Val` (numbers, arrays of any shape, strings, `None`, …), so "for every argument" covers
  ill-typed ones.
* **Files** (`FS`) map names to contents; permissions, directories and encodings are left out. Formatting and
  parsing of numbers are parameters (`Fmt`) with the laws `Fmt.Ok`; `exists_fmt_ok` shows that the laws can be
  satisfied.
* **External numerics.** `np.linalg.lstsq` is a parameter; where something is assumed of it, the hypothesis `IsLstsq`
  (it returns a minimiser) is visible in the theorem and `exists_lstsq` shows that over every ordered field there is
  such a solver. That is an idealisation: with `rcond=None` NumPy treats singular values up to `eps * max(m, n)` times the
  largest as zero, so for nearly dependent columns the result need not be a minimiser. C185 models the cutoff and says what
  remains true and when it has no effect. `np.linalg.norm` is a parameter; where needed it is homogeneous (C80) or Euclidean (C89, C90,
  `euclidean_exists`). `np.linalg.cond` and printing are left out (only printed). `scipy.spatial.Delaunay` and `meshio.write` are
  parameters; C152 assumes of the former only that circumscribed circles are empty (`gridTriangles_delaunay`: it can be met).

## 2. State of the repository at this commit

The commit is in the middle of a refactoring. These facts are read off the text and matter for what "the code" is:

* `spline/model/base_geometry.py` and `fit/io/base_io.py` use `abc.abstractmethod` after `from abc import ABC` only:
  importing them raises `NameError`. The model describes the files with `import abc` added.
* `class SplineSurface` is nested in `SplineCurve` and holds only a docstring; the surface methods below it are at
  `SplineCurve` level and override the curve's `__init__` and `control_points`. `bspline.py` then cannot import
  `SplineSurface`. `Model/Geometry.lean` follows the committed text.
* `fit/algorithms/*.py`, `fit/model/base_data.py` and `fit/io/text.py` import `np`, `spline`, `knots`, … from a package
  `__init__` that is empty or absent; `spline.Curve()` and `spline.Surface()` do not exist.

Only `knots.py`, `basis.py` and `validation.py` load. We model **function bodies as written**, taking imported names
to mean what they evidently name (`np` is numpy, `knots` is `spline/algorithms/knots.py`, `spline.Curve` /
`spline.Surface` are curve and surface objects). Errors *inside* bodies are modelled as they are.

There are therefore two layers:

* **Algorithms** (`Model/Knots, Basis, BSpline, Parameterize, Fitting`): functions of the stored attributes. The fitting
  functions assign attributes of spline objects; there an assignment replaces a field (setters that accept what they are
  given), and the evaluation methods are black boxes (`CurveLike`, `SurfLike`, `FitEnv`), of which the committed methods
  are one instance (`Curve.like`, `Surface.like`).
* **Objects as committed** (`Model/Geometry, Data, IO`): setters, `insert_knot`, `derivatives`, `from_dict`, problem
  objects, readers and writers, with their errors.

## 3. Modules

| module | content |
|---|---|
| `Verif/Py.lean` | Python/numpy primitives: errors, indexing, slices, loops, `isclose` |
| `Verif/Spec.lean`, `SpecData.lean`, `SpecSolver.lean`, `SpecIeeeSolver.lean`, `SpecIeeeKnotFit.lean`, `SpecIeeeProblems.lean` | independent specification: Cox–de Boor functions, B-spline pieces as polynomials, spline sums, clamped knot vectors, least squares; vocabulary for the problem objects |
| `Verif/Rounding.lean` | rounding functions, `fl64` and its properties |
| `Verif/Model/Knots.lean` | `spline/algorithms/knots.py` |
| `Verif/Model/Basis.lean` | `spline/algorithms/basis.py` |
| `Verif/Model/BSpline.lean` | evaluation methods of `spline/model/bspline.py`, `spline/util/validation.py` |
| `Verif/Model/Geometry.lean` | `spline/model/base_geometry.py`, object part of `bspline.py` |
| `Verif/Model/Parameterize.lean` | `fit/algorithms/parameterize.py` |
| `Verif/Model/Fitting.lean` | `fit/algorithms/fitting.py`, `fit/algorithms/initialization.py` |
| `Verif/Model/Data.lean` | `fit/model/base_data.py` |
| `Verif/Model/IO.lean`, `Model/Vtk.lean` | `fit/io/*.py` |
| `Verif/Model/Rounded.lean`, `RoundedFit.lean`, `RoundedSolve.lean`, `RoundedKnotFit.lean`, `RoundedSurfaceFit.lean`, `RoundedInsertion.lean`, `RoundedDers.lean`, `RoundedOneDers.lean` | the numerical routines in rounded arithmetic |
| `Verif/Ext.lean`, `Model/Extended.lean` | finite numbers, infinities and NaN; the numerical routines over them |
| `Verif/Model/Ieee.lean` | evaluation, knot test and knot insertion with rounding, overflow and underflow |
| `Verif/Model/IeeeFit.lean` | `one_basis_function`, the fit matrices and the partition-of-unity check likewise |
| `Verif/Model/IeeeSolve.lean` | `linear_fit_fixed`, `single_fit_curve` and `single_fit_surface` likewise |
| `Verif/Model/IeeeKnotFit.lean` | `initialize_curve`, `parameterize_curve` and the loops of `fit_curve_knot_insertion` and `fit_curve_fixed_ctrlpts` likewise |
| `Verif/Model/IeeeSurfaceFit.lean` | `set_init_surface`, `parameterize_surface` and `fit_surface` likewise |
| `Verif/Model/IeeeProblems.lean` | `fit` of `BoundaryProblem` and `InteriorProblem` likewise |
| `Verif/Model/IeeeInversion.lean` | one of the arithmetics of `AnyArithmetic`: every operation rounded with overflow and underflow |
| `Verif/Model/IeeeDers.lean` | `basis_function_ders` and the derivatives of surfaces likewise |
| `Verif/Model/IeeeNormalize.lean` | the option `normalize` of the derivatives of surfaces likewise |
| `Verif/Model/Cutoff.lean` | the cutoff of `np.linalg.lstsq(..., rcond=None)` in `fit/algorithms/fitting.py:61` |
| `Verif/Model/Memory.lean` | arrays and objects as places in memory: `normalize`, `curve_knot_insertion`, `insert_knot`, `fit/algorithms/fitting.py` |
| `Verif/Model/MemoryData.lean` | `BoundaryProblem` of `fit/model/base_data.py` with arrays and curves as places in memory |
| `Verif/Model/AnyArithmetic.lean` | the inversion functions in an unspecified arithmetic |
| `Verif/Model/Integers.lean` | the functions of `spline/algorithms` and `BSplineSurface.derivatives` with integer degrees, orders, indices and numbers |
| `Verif/Lemmas/*.lean` | helper lemmas; `Lemmas/XAux` belongs to `Props/X` |
| `Verif/Props/*.lean` | the property theorems, each with a concrete case |
| `Verif/RepoTests.lean` | inputs and expected values of `/repo/tests/*.py` evaluated on the model: a check of the model by data the model's author did not write |

## 4. Properties

What each property means in Lean, how it is proved, and where the first guess was wrong. "Defect" marks behaviour a
user of the package would not expect.

### Knots (`Props/FindSpan`, `Knots`, `Insertion`)

* **C01–C03** Search loop as fuelled recursion; bracket by the invariant `U[low] ≤ u ≤ U[high]`, termination by halving of
  `high - low`, divergence by an invariant that keeps the loop guard true. *Defect:* outside the domain the loop never ends.
* **C04** First stated as "the returned span is never empty"; false (witness `find_span_empty_span_witness`). Now a
  classification: an empty span is returned only at a repeated knot or when the end test fires on an empty last span.
* **C05–C07, C09** Direct, by induction over lists; the code of `check_knot_vector` looks at one of the last knots only,
  C06 shows that this suffices.
* **C08** For `n = p` and `n = p - 1` an array is returned which is not a valid knot vector (first guess: an error).
* **C10–C12** Loop invariants for every copying loop and for the triangular blend, compared with iterated Boehm
  insertion; C11 from the knot-insertion identity `N_i = α_i N̄_i + (1-α_{i+1}) N̄_{i+1}` proved by induction on the degree.
* **C13, C14** *Defects.* C13 is universal: for every degree ≥ 2 and every simple interior knot that is found in the span on its
  left, inserting the knot changes the curve as soon as two neighbouring control points differ. C14: symbolic execution of the
  overfull insertion at both ends.
* **C130** (`Props/InsertionOverfull`) *Defect.* The loops are executed with the invariant of C11 extended by the last row of
  the work array, which line 246 reads as `R[-1]` in the last round. The change of the curve is one basis function, a power of
  a linear function because of the full multiplicity. More than `degree + 1` copies are not treated.
* **C154** (`Props/Integers`, `Model/Integers`) In the other models degrees, numbers of control points and orders are natural
  numbers; here they are integers, and the first part of every theorem says that the two models agree. *Defect:* with
  `num_inserts = -1` the allocation and all copying loops succeed and a knot and a control point are gone. First guess: the control
  point `k - degree` is deleted for every multiplicity up to the degree; for multiplicity `degree` it is the one before.

### Basis functions (`Props/Basis`, `Ders`, `OneBasis`)

* **C15–C17** Loop invariant "after round j, N[r] is the degree-j piece".
* **C18, C19** Invariant for the `ndu` triangle and the two alternating rows `a`; derivative formula of the polynomial
  pieces by induction on the degree.
* **C20–C24** Invariant for the triangular tables with the zero tests. First stated for all clamped knot vectors; with
  `degree + 2` equal first knots the row sum there is 2 (`row_sum_overfull_first_knot`), so a non-empty first span is assumed.
* **C127** *Defect.* In round `k = degree + 1` row `degree + 1` of the table `N` with `degree + 1` rows is read.
* **C155** (`Props/IntegersBasis`) As C154. Reading `U[i + j]` with all `i + j` negative is reading `U[len + i + j]`; only the
  allocation `np.zeros(i + degree + 1)` of `one_basis_function` makes the two functions differ. For orders above the degree the
  index wraps a second time, so the statement about derivatives stops at the degree.

### Curves and surfaces (`Props/Curve`, `Surface`, `SurfaceMore`, `SurfaceEdges`)

* **C25–C32, C34–C37, C94–C96** From C01, C15 and algebra of the specification sums, at every `Regular` parameter: one that
  is in `[0,1]`, is not a repeated interior knot and is not in the end-tolerance sliver left of the last span.
  `regular_of_distinct` gives regularity for distinct interior knots. C32 from the value of the pieces at a knot of given multiplicity.
* **C33** *Defect.* The setter accepts knot vectors on which evaluation hangs; in the sliver a point may leave the convex hull.
* **C106, C107** (`Props/Variation`) By refinement: repeated Boehm insertion of the sample parameters up to full multiplicity
  turns the points of the curve into control points, and one insertion neither adds sign changes nor destroys monotony.
* **C108** Marsden's identity on each piece, compared coefficient by coefficient.
* **C116** (`Props/Bezier`) On one span the Cox–de Boor functions are Bernstein polynomials (induction on the degree).
* **C118–C121** (`Props/CurveMore`) C118 from the zero count behind C109 (equal curves have equal coefficients); the order of
  insertions then does not matter because both orders give the same curve over the same knots. C119 from the partition of
  unity and, for the Lipschitz bound, from C107 applied to the curve plus `L` times the Greville abscissae. C120 by reflection of
  the pieces; C121 by exchange of sums.
* **C73** Curves with two columns are accepted and cannot be evaluated. **C80** homogeneity of the norm.
* **C126** (`Props/SurfaceEdges`) Only the outermost two rows of control points act on the first derivative at an edge
  (`Lemmas/Edge`); the other factor of the tensor product stays a curve.

### Parameterization (`Props/Parameterize`, `Newton`, `SurfaceInversion`)

* **C38, C39** Arg-min fold invariant. **C40, C41, C43** Clamping invariant over all iterations with the curve as a black box;
  iteration count by the counter. A zero denominator in a Newton step gives NaN or an infinity whose sign is that of a
  signed zero; the sign is the parameter `zeroSign`, so the theorems hold for both signs; NaN fails every comparison as in
  IEEE arithmetic.
* **C42** *Defect.* The first statement ("the result passes a test, or the limit is reached") is refuted: if the guess fails the tests, so does the result.
* **C44–C46** The sort is a permutation, sorted, and canonical for a total order on rows.
* **C76–C79** *Defects* (C76–C78): straight lines are inverted only to grid accuracy; nothing can be parameterized on a committed curve; stale
  derivatives. **C89, C90** Every iterate is reached by clamped Newton steps; exactness on planes; stopping certificate.
* **C134** (`Props/Convergence`) The Newton iteration of `curve_inversion` converges quadratically to a foot point near the
  initial guess; the hypothesis `Attracts` follows from a Lipschitz bound over the real numbers.
* **C135** (`Props/Repelling`) *Defect.* Near a foot point the stale derivatives turn the Newton iteration into
  `e(k+1) = b (e(k) - e(k-1))` up to higher order, with `b = -B / (A - B)` for `A = |S_u|²`, `B = -r . S_uu`; it diverges as
  soon as the point is on the concave side at more than a third of the radius of curvature. On the witness the iterates settle
  on a cycle of length two around the closest point.
* **C136** (`Props/ConvergenceSurf`) The counterpart of C135: for points close to the surface the iteration converges. One step
  from `x` with derivatives taken at `z` has an error of at most `(Q |x - s| + kappa) max(|x - s|, |z - s|)`
  (`NearFoot.step`, Cramer's rule); `kappa` is proportional to the distance of the point from the surface. The Fibonacci exponents
  come from `e(k+1) <= Q e(k) e(k-1)`. The constants are explicit but not optimal.
* **C139** (`Props/Singular`) At an iterate where both tests fail the numerator of the Newton step vanishes only if the derivative of
  the curve does; `0/0` is NaN, which the evaluation methods reject with a `ValueError`. Added because a wrong exception in the
  model's Newton step went unnoticed.
* **C153** (`Props/Broadcast`) Added because a model without numpy's broadcasting of a point with one coordinate went unnoticed.
* **C142, C143** (`Props/Trace`, vocabulary in `SpecInversion`) The result as a function of the sequence of iterates: which index is
  returned, when, and where exceptions come from. Norm tests are rewritten as inequalities between inner products, so that the
  statements contain neither norms nor quotients. Added because a model that returns the old iterate at the limit satisfied all
  statements of C89. Note the asymmetry: the curve version returns the iterate *before* the step that ends the run (C42), the
  surface version the one *after* it.
* **C124** (`Props/SurfaceInversion`) Every step of the run is executed on the interface `SurfLike.Smooth`, which is shown for
  clamped surfaces; only `np.linalg.inv` can fail. `initial_guess_surf_bspline` was added because a model with the wrong
  grid size went unnoticed.

### Relations between runs (`Props/Affine`, `InsertionMore`, `Polygon`)

* **C144** A relational logic (`Lemmas/Simulation`): two runs end alike, with related results or the same error. Loops are run in
  lockstep, so nothing is assumed about the arguments. `basis_function_ders` goes through C18 instead, because its work array mixes
  scaled and unscaled entries.
* **C145** First guess: inserting r times and then s times is inserting r + s times. Refuted: the second call may find the span on
  the left of the knot (C13).
* **C146** A curve is `P_0 + sum S_i (P_(i+1) - P_i)` with `S_i` increasing from 0 to 1 (C107), which bounds every inscribed polygon
  at once. `polygonLength` and `IsSeminorm` are in `SpecPolygon`.

### Fitting (`Props/Fitting`, `KnotFit`, `FitStages`, `Committed`)

* **C47, C48** Split of columns; `IsLstsq` as hypothesis. **C49–C52, C81** follow with C20/C21. C50 (curves and surfaces) classifies the unity
  check: with k of m parameters outside it raises exactly when `k > 1e-8 + 1e-5 m` (first guess: whenever `k > 0`; refuted).
* **C53–C55, C93** Loop over rounds, insertion of all midpoints with C10/C11, for every run that returns; existence of the
  run under explicit conditions on the shortest span (tolerance of `find_multiplicity`), with every solver whose solutions have
  the right length.
* **C132** (`Props/StartValues`) The grid search of C38/C124 compares grid points only.  Every parameter is within half a grid
  step of the grid, and curves and surfaces are Lipschitz with the constants of C119 (for surfaces: one direction after the other,
  `surface_lipschitz`), so the nearest grid point is nearly a nearest point.  The norm is any that satisfies `IsNorm`; the sum of
  absolute values (witnesses) and the Euclidean norm over ℝ (`isNorm_euclid`) do.
* **C131** (`Props/FitRounds`) The run as three sequences (curves before and after each fit, parameterized data), by induction
  over the rounds; the comparison of neighbouring rounds is C93 against the curve of the round before, which C11 keeps.
* **C56** *Defect:* boundary data is dropped. **C57** boundary curves are kept. **C58** initial curve.
* **C117** from C116. *Defect* (last part): `n = degree` passes `initialize_curve`'s check `n >= degree`; the knots of
  `generate_uniform` are then no valid knot vector, and the setter of the committed class keeps `None` without an error.
* **C109–C111** (`Props/FitUnique`) The Schoenberg–Whitney theorem (`Lemmas/Zeros`, arbitrary multiplicities) is derived from
  C106: a curve with a non-zero block of coefficients has fewer zeros in their supports than coefficients; the zeros are
  counted by a small perturbation that turns zeros into sign changes. Necessity (`Props/FitDetermined`): if the fit is unique,
  every set of inner control points has as many data points in the union of its supports, Hall's theorem gives a matching,
  and a matching can be sorted. Interior knots of multiplicity `degree + 1` are excluded there. Uniqueness gives independence of the solver, of the
  order of the data and of the coordinate system, via the normal equations. The tensor grid of C111 is a sufficient condition.
* **C112** *Defect.* Without the condition the least-norm solution depends on the origin of the coordinate system: control
  points without data are put at the origin. `IsMinNormLstsq` is the documented behaviour of `np.linalg.lstsq`; that it can
  be satisfied is proved (`exists_minNorm`).
* **C125** (`Props/SurfaceFitUnique`) C110 and C112 for surfaces. *Defect* (last part).
* **C91** *Defect:* with the committed class no non-empty data can be fitted at all. `Raises` means that the call
  does not return (an exception, or the fuel runs out); `Props/CommittedErrors` names the exception, `ValueError`, in
  all well-formed cases (also for C77 and C123).

### Problem objects and files (`Props/Data`, `Frame`, `Session`, `Ruled`, `IO`, `CurveText`, `Geometry`, `Attributes`)

* **C59** Closed form + C35; equal knots of top and bottom are needed and not checked (`ruled_surface_ignores_top_knots`).
* **C60–C63, C82–C86** State machine with arbitrary operation lists, induction over the list. C62 was stated for all
  arguments; `0.5` is accepted and truncated to 0, so the claim is for integers. C82–C84, C86 are *defects*.
* **C114** Frame conditions: a call is run on the whole record and compared attribute by attribute; effects on arguments of
  definite types are equations for the whole resulting state. **C115** *Defect:* two coordinates are accepted by the setters,
  but `initialize_curve` reads the third and `parameterize_curve` needs three columns.
* **C137** (`Props/Interior`) States with boundaries, which only private assignments reach; C57 and C59 composed. Added because a
  model that parameterized on the wrong surface went unnoticed. **C138** (`Props/Missing`) the failing paths, likewise.
* **C151** (`Props/Setters`) the rest of the table of C114. Added because models with other exceptions for `None` or a `Boundary`
  object went unnoticed. `NoNumber` and `FloatLike` are classes of arguments; an empty array is left out (numpy versions differ).
* **C123** (`Props/Session`) The calls of the notebook composed from C114 and C91; `runCells` stops at the first exception.
* **C156** (`Props/CurveText`) Files are opened in text mode, so `'\r\n'` and `'\r'` are read as `'\n'` (`universalNewlines`).
* **C122** (`Props/CurveText`) The lines of a file are given by `curveLines`, independently of the (broken) writer. Added
  because wrong line numbers in the model of `read_curve_from_txt` went unnoticed.
* **C64–C68, C87, C88** Strings as character lists; *defects* except C65 and C67.
* **C69** Exact arithmetic only; see C97. **C152** (`Props/Vtk`, `Model/Vtk`) the whole function. The squared distance to the centre of
  an empty circle is a sum of a function of either parameter, so at a corner of a triangle each of them is least on its axis; on a
  uniform axis a quadratic is least at one value or two neighbours. The bound is half a step because the mean deviation of a two-valued
  quantity is at most half the difference of its values. `interior_vtk_mesh`: the method `vtk` of an interior problem with a fitted surface.
* **C129** the complete table of outcomes of the setters. **C70–C72, C74, C75** *Defects* of the committed classes. (`from_dict` replaces *two* properties of the class, `control_points` and
  `knot_vector`; the model had followed this only for the first, so that a setter theorem was true of it that is false of the code.) **C92** invariants over histories, with witnesses that the provisos
  are needed, and `attributes_settable`: the accepted values are really accepted.

### Double precision (`Props/VtkDouble`, `Rounded`, `Double`, `KnotsDouble`, `FitDouble`, `InsertionDouble`, `EndsDouble`, `RoundedDers`, `DersDouble`)

* **C97** *Defect.* `np.arange(0, 1 + 1/n, 1/n)` and `int((1/δ + 1)^2)` are analysed exactly: complete classification of the
  `n_tri` for which the loop overflows its array or meets a parameter above 1.
* **C98** `Near ρ k x y` (factor between `ρ^k` and `ρ^-k`) is propagated through the loops of `basis_functions`; all terms are
  non-negative, so there is no cancellation except in the differences of knots, which are single rounded operations on inputs.
* **C99** plus the dot products with any order of summation; the error is relative to the point with absolute values.
* **C100** C26 is not true bit for bit (witness). **C101, C102** knot vectors, grids, inserted knots in double precision.
* **C133** where C26 does hold bit for bit: at the first knot all `left` are 0 and only `right[1]` meets a non-zero value, so the
  loop computes `x * (1 / x)` once and then keeps 1 (at the last knot with `left[1]`); sums with a unit vector are exact in every
  order. The 20 uniform knot vectors are checked by computation; the first failure is at 21 spans.
* **C113** `one_basis_function` needs no subtraction except of knots and parameters, so `Near` applies; exact zeros are
  kept (the tests `N[j+1] == 0.0` take the same branch). The sums of the unity check are taken over arbitrary trees (`SumFl`),
  which covers numpy's pairwise summation.
* **C128** `curve_knot_insertion` rounded: `α` and `1 - α` are both off by a small *absolute* amount (`1 - α` has no relative
  bound, `α` may round to 1), the combination is bounded by the largest control coordinate, and the error grows by a constant
  per round of the loop. Stated against the exact control points and then, by the partition of unity, for the curves. The
  multiplicity and the span are found by the rounded comparisons; `2e-5` is twice numpy's tolerance at 1.
* **C140** The coefficients `a[k][j]` of a row of `basis_function_ders` alternate in sign (`aCoef_alternating`), so the differences
  `a[s1, j] - a[s1, j-1]` add magnitudes and `Near` carries over to them; the only cancellation is in the last sum, whose terms add
  up to at most `(2/h)^m` in absolute value over all rows (`sum_rawAbs_le`). The factor `p!/(p-m)!` is a Python integer: exact, then rounded once.
* **C141** plus the products with the control net, with signed weights (`BilinearFl.approx_signed`). The exact derivative compared
  with is that of the patch found by the rounded end test of `find_span`; at a parameter within `1e-6` of the last knot but before
  the last interior knot the hypotheses fail.
* **C103–C105** over `ℝ`, with Mathlib's `iteratedDeriv`, `ContDiffOn` and `HasDerivAt` in place of the formal derivative of
  C18 and C36. At a knot of multiplicity `s` derivatives up to order `p - s` exist; above that the code returns the one-sided
  derivative of the span it found.

### Infinities and NaN (`Props/Extended`, `Nan`, `NanDers`, `NanInputs`, `NanInversion`)

* **C147** The tables of the arithmetic are compared with Mathlib's `EReal` (`Props/ExtReal`). `Follows f x y`: unless `x` stops with `nonfinite`, `y` is the image of `x`. Proved function by function, errors
  included. The sign of a zero divisor matters for the sign of the infinity; the zero divisors of this code are `right[r+1] + left[j-r]`,
  `max - min` and a sum with a squared norm. These are all `+0` in round-to-nearest (`x - x` and `+0 + +0`), so the model's
  choice is that of IEEE, not a guess.
* **C148** On an empty span the first model stops. The third goes on, and the results (all basis functions, all coordinates) are NaN or
  infinite: a wrong but finite point is never returned. Proof: `Absorbing` sets of values closed under what the loops do to them. For derivatives
  (`Props/NanDers`) every term added contains an entry of the triangle above column 0, or a quotient by the length of the span.
* **C149** Every test with NaN is false, so the functions fall through their guards: `find_span(NaN)` returns the first probe,
  `one_basis_function(NaN)` the *finite* value 0 (*defect*). `find_span` of an infinity does not end. Users of the evaluation methods are
  protected by `validate_knot`, which tests `0 <= u <= 1` positively, and `check_knot_vector` rejects such knots, because `normalize`
  makes every entry 0 or NaN and the last knots are then not close to 1.
* **C150** First guess: the Newton loops run to their limit. Refuted: the first step is NaN, NaN passes the clamping (both comparisons are
  false), and the next evaluation raises `ValueError`. `np.linalg.inv` with non-finite entries is modelled by one step of
  elimination (`solve2E`); it is used only where the multiplier is NaN, so every entry of the inverse is NaN whatever the pivot.
* **C157** (`Model/AnyArithmetic`, `Props/AnyArithmetic`) The operations are unspecified functions, collected in `Arith`; the results hold for
  the exact operations (`curveInversionA_exact`) and for every deterministic double precision implementation. What is returned has been
  evaluated, so it passed `validate_knot`; for surfaces the pair of the last step has not, hence the assumption that NaN propagates.
* **C158** (`Props/StartRounded`) C132 in rounded arithmetic: the search invariant `Best` on the computed distances, C99 for the points, two roundings
  for the grid. In double precision a tie of exact distances on the segment of the examples is broken the other way. Underflow and overflow are left out.
* **C159** (`Props/InsertionOnce`) C11 (one insertion) and C13 without assumptions on the counted multiplicity: Boehm's rule also at the
  right end of the span, difference of the computed and the right control points, linear independence on a new span; witness a
  millionth left of the knot 1/4, where the curve moves by almost 1
* **C160** (`Model/Ieee`, `Props/Ieee`, `IeeeSurf`) `IsNear ρ k E`: a stored non-negative number is the exact one up to `k` roundings and up to an absolute `E`.
  Sums and differences of doubles underflow without error; a product or quotient adds `η`. Each pass of the loop of `basis_functions` multiplies `E` by
  at most 4 and adds `3 (2H + 1) η`, `H` the width of the knots in use, whatever the length of the span: `temp = N/(right+left)` may have a large error, but is
  multiplied by `right` or `left`. Overflow is excluded because `temp` is at most `1/h`. The signs of zeros are not modelled (see the file).
* **C161** (`Props/Ieee`, `IeeeKnots`) the range or its reciprocal overflows, and `normalize` gives NaN or zeros in the last knots. In between
  `normalize` is monotone and maps the ends to 0 and within a few units of 1. *Defect*: it is not strictly monotone, so `[-1, -1, -1, 2^-60, 0, 1, 1, 1]`,
  which is not sorted, is accepted in double precision (and refused in exact arithmetic).
* **C162** (`Lemmas/Greville`, `Props/Greville`) by variation diminution (C106) of the curve minus a chord: with the linear function represented by the knot averages, a point above
  the chord gives three control points of signs −, +, −.
* **C163** (`Lemmas/Greville`, `Props/Greville`) Boehm's rule maps knot averages to knot averages, so the new polygon is inscribed in the old one and keeps its slopes. Second order (`GrevilleSecond`): the slopes
  are the control points of the derivative, into which the knot is inserted too (`slope_boehm`); the linear part of the polygon at the control point is
  reproduced by the curve.
* **C164** (`Lemmas/IeeeInsertion`, `Props/IeeeInsertion`) `alpha` is right up to a few roundings and `η`; `1 - alpha` is a difference of doubles, so it adds no
  underflow error, and `alpha + (1 - alpha)` stays near 1: the error grows by the factor `κ^2` and `2 (1/ρ)^2 η` per insertion, without cancellation.
  *Defect*: with knots from `-2^1023` to `2^1023` the denominator is infinite, `alpha` 0 and the new control point a copy of its neighbour.
* **C165** (`Props/FitLipschitz`) A curve to compare with: its inner control points are the values, at the knot averages, of a
  Lipschitz function through the data (the largest one, `min_r q_r + L |x - t_r|`). A control point that is active at a data
  parameter is within `L h` of the datum, so the curve is; the fit is not worse (C51, C81). The spans of the rounds are those of C131.
* **C166** (`Props/FitPlanar`) A linear functional of the three coordinates of the solution solves the normal equations for the values of the
  functional, and so does the constant. Least norm: the functional is in the kernel of the matrix, and the three coordinates are
  orthogonal to the kernel. *Defect*: the counterpart of C112, planar data can give a curve that leaves the plane.
* **C167** (`Props/FitOrder`) Every round sorts the parameterized rows by all their columns, so the rows handed to the solver are the same list
  (C45, C46) and nothing is asked of the solver; an order that makes one function return makes the other return,
  but which exception is raised may depend on the order (the first bad point raises). The check in `fit_surface` whether the boundary
  rows can be stacked looks at all rows. `fit_surface_optimal` joins C56, C43 (parameters in the unit square), C52 and C81.
* **C168** (`Lemmas/FitProject`, `Props/FitProject`) All from the normal equations, which no solver can avoid. Interpolation: parameters
  matched to some basis functions can be completed to parameters for all inner ones (the field is dense), for which the collocation
  map is injective (Schoenberg and Whitney, C109), hence onto; a curve with residual 0 exists and the fit is not worse (C51). Surfaces: line by line, twice.
* **C169** (`Model/IeeeFit`, `Lemmas/IeeeFit`, `IeeeFitAux`, `Props/IeeeFit`) Induction along the triangle as for C160, but the code divides before it multiplies
  and leaves out steps whose factor is zero, so the invariant also says that what is zero exactly is computed as zero; the converse fails by underflow.
  `N/(b - a)` is at most `1/δ`, whence the absolute error per step of order `(2H + 2/δ + 1) η` and the need for `δ ≥ 2^-1000`. `np.sum` is any bracketing of any order (`SumR`).
* **C170** (`Lemmas/Strict`, `Props/Strict`) Subtracting `m` times the linear function, whose coefficients are the knot averages (C108), leaves monotone
  coefficients, hence a monotone curve (C107). Strictness: a monotone curve with equal values at two parameters is constant between them, which by the local independence of the basis
  functions forces equal coefficients. The graph: intermediate values.
* **C171** (`Props/Inexact`) Pythagoras (C168) for the result of an arbitrary solver, which still has the right ends (C49). The constant is
  the sum of the squares of the entries of a left inverse of the collocation matrix, which exists since the matrix is injective (C109, C111).
  With the normal equations missed by `G`, the largest error `M` of a control point satisfies `M² ≤ κ D`, `D ≤ G M`.
* **C172** (`Props/RoundedSolve`) The model is the exact one with `fl` around every operation (`SingleFitCurveFl_id`: with `fl = id` it is the exact one). `BackwardStable ε`
  (`SpecSolver`) is the textbook statement about solvers, weakened to the sum of absolute values instead of the Frobenius norm; `IsLstsq.backwardStable` shows that it can be met.
  The returned free control points solve a least-squares problem with matrix and right-hand side perturbed by at most `(2m+1)ε` and `2(2m+1)εB`. For the largest error `W` of a free
  control point `W² ≤ κ ∑ (values of the difference)²`, and the difference of the two normal equations bounds the sum by `m W` times a term linear in `ε`, `B` and `W`.
* **C173** (`Props/RoundedKnotFit`) `KnotFitFl` and `FitCurveFixedFl` are relations between input and outcome, because the unity check may add in any order; with `fl = id` and the
  exact inversion they are the exact functions (`KnotFitFl_id`, `FitCurveFixedFl_id`). The inversion is a parameter `inv`. The loop is an induction over the rounds with
  a predicate on the knots and an error `η` of a midpoint: "is a double" with `η = 2^-52`, or "multiple of `2^-f`" with `η = 0`. `find_multiplicity` compares with a relative and an
  absolute tolerance, so a span must stay longer than `2e-5`; a midpoint that is closer to an old knot would be taken for it.
* **C174** (`Props/Leverage`) Column `q` of `H` consists of the values of the fit of unit data (one at `q`, zero elsewhere, zero end points), which the existence of a least-squares
  solver provides; everything follows from the normal equations (`Lemmas/Leverage`). The trace is that of the projection onto the fitted values (`LinearMap.trace`).
* **C175** (`Props/RoundedSurfaceFit`) `ruledSurfaceFl` and `FitSurfaceFl` are the exact models with every arithmetic operation rounded (`ruledSurfaceFl_id`, `FitSurfaceFl_id`: without
  rounding they are the exact ones). The top edge follows from Sterbenz' lemma (`fl64_sterbenz`) or does not: `ruled_surface_double_top_inexact` is a boundary that the initial surface, and
  with it every fitted surface, misses in double precision. The disagreement with C59 is 2^-53 of the larger coordinate.
* **C176** (`Props/Approximation`) `Lemmas/Approximation` constructs a curve that is close to the function: control point `i` is the blossom, at the knots of `i`, of the Taylor polynomial at
  the first of them (`quasi`). At a parameter `t` the blossoms of the Taylor polynomial at `t` give the value exactly (Marsden's identity with centre, `curve_polar`), and the blossoms at two
  points of a support differ by `(o + 1) M h ^ (o + 1)` (`quasi_sub_le`). The fit is at least as good. `TaylorOn` is stated over any ordered field; `taylorOn_of_contDiff` provides it over the
  reals.
* **C177** (`Props/Decay`) `Lemmas/Decay` is about normal equations with a band: restrict the difference of two fits to the indices beyond `q + p`; its values interact with the rest only
  in the `2 p` indices around (`decay_step`), so the sum of squares beyond `q + 2 p` is at most the factor `D / (D + 2 lam)` of that beyond `q`. The band comes from the local support of the
  basis (`Nclosed_band`), the upper bound `D` from convexity of the square (`lin_sq_le`). A moved end point is a change of the data by a multiple of its basis function.
* **C178** (`Props/SupStable`) `Lemmas/SupStable` splits the change of the data into groups, one for each basis function, solves each part (`exists_normal_lin`) and adds the bounds of C177;
  the sum over the distances is a geometric series (`sum_pow_dist_le`). Square roots are avoided by numbers whose squares (for surfaces, fourth powers) are large enough. The comparison with a
  smooth function uses the curve of C176.
* **C179** (`Props/FitGrid`) `OnGrid`, `SweepU` and `SweepV` describe the data and the two sweeps by runs of `singleFitCurve`. `sweeps_normal` splits the residual of the surface into those of the
  two sweeps. Every run may use a solver of its own.
* **C180** (`Props/IeeeDers`) `Model/IeeeDers.lean` applies the rounding function `rd` of C160 to every operation of `basis_function_ders` and `derivatives` (`ieee_ders_agree`: with `rd = fin` and
  `rd = fin ∘ fl` these are the earlier models). `SignNear` carries the coefficients of the derivative with their known sign, so that the differences lose no accuracy; `IsApx` carries the
  sums. `DersSize` collects the size conditions; `dersSize_bin64` checks them for double precision. The derivatives are compared with the ones of the polynomial patch that `find_span` chooses.
* **C181** (`Props/IeeeNormalize`) `Model/IeeeNormalize.lean` adds the normalization of C180's rows. `SqrtNear` states what is assumed of the square root. `normalize_row_ieee` has the error bound for any
  arithmetic, `normalize_row_binary64` for double precision; `surface_normalized_binary64` composes it with C180 (`Lemmas/PatchBound` bounds the exact derivatives). A defect: `np.linalg.norm` does not
  scale its argument, so from components of `2^512` on the rows become zero (`normalize_row_overflow`, `surface_normalized_overflow`).
* **C182** (`Props/RoundedOneDers`) `Model/RoundedOneDers.lean` rounds every operation of `one_basis_function_ders` (`oneBasisFunctionDersFl_id`: without rounding it is the exact model).
  The table is carried with relative errors (`Near`), the differences with errors relative to the sum of the terms counted positive (`absDer`); where that sum is zero the code's entries are zero, so
  a quotient that is computed has a positive denominator whichever way the zero tests go.
* **C183** (`Props/DegreeOne`) Degree one. `single_point_degree_one` says that `single_point` is linear interpolation between control points `k - 1` and `k` on the span `k`, for every regular parameter of the closed span (a knot belongs to two spans, and both formulas hold there). `single_point_degree_one_knot`: the curve passes through every control point. `surface_point_degree_one`: bilinear patches. `initialize_curve_degree_one`: the initial curve of degree 1 has constant speed for every number of control points and needs no condition on parameters near 1, because a wrong span of a straight line does no harm. `single_point_degree_one_witness`: elsewhere it does.
* **C184** (`Props/Integral`, lemmas in `Lemmas/Integral`) Means. `single_point_mean`: there are functions whose values `single_point` returns on `[0, 1]` and whose integrals (Mathlib's interval integral) are the weighted means of the control points; `meanWeight_sum`: the weights `(U[i+p+1] - U[i]) / (p + 1)` are positive and add up to one. `surface_point_mean` is about the iterated integral. `knot_insertion_mean`: `curve_knot_insertion` keeps the mean for every new knot, inserted up to `degree` times, although it replaces control points and weights. The basis functions are integrated by the fundamental theorem of calculus from the functions of the next degree (`integral_Nclosed`).
* **C185** (`Props/Cutoff`) replaces the hypothesis `IsLstsq` by `IsCutoffLstsq ε` (`Model/Cutoff`), which says what
  `np.linalg.lstsq(..., rcond=None)` computes in exact arithmetic: with right singular vectors `v` (orthonormal, with
  orthogonal images; squares of singular values are `‖A v‖²`, so no roots are needed) it sums the components of those
  whose singular value exceeds `ε max(m, n)` times the largest. `single_fit_curve_cutoff`, `single_fit_surface_cutoff`:
  distance at most `d + e`, where `e² = (ε max(m, n))² m ‖z‖²`. `single_fit_curve_cutoff_exact`: C51 holds if
  `γ ‖y‖² ≤ ‖A y‖²` for the free control points and `(ε max(m, n))² m < γ`. `single_fit_curve_cutoff_bounded` bounds the
  free control points. `single_fit_cutoff_backward`: the hypothesis `BackwardStable` of C172 and the other properties in
  rounded arithmetic covers the cutoff. `cutoff_zero_minNorm`: the case `ε = 0` is `IsMinNormLstsq`. `exists_cutoff_lstsq`:
  over the reals such solvers exist (spectral theorem). `single_fit_curve_cutoff_worse`: with `ε = 2⁻⁵²` C51 is false —
  the curve has distance zero, the fit more than two.
* **C186** (`Props/CutoffRounds`) The runs of C53–C55, C93 and C131 are established for every solver whose solutions have the
  right length (`SolverLength`, `SpecSolver`): `fit_curve_knot_insertion_returns`, `fit_curve_knot_insertion_fitRounds`,
  `fit_curve_fixed_stages`. The results for exact solvers follow from these with C51; with the cutoff C185 gives
  `NearOptimalFor` for every fit. The comparison curves of C165 and C176 have control points that are bounded by the data and
  by the derivatives (last parts of `exists_close_curve`, `exists_smooth_curve`), so the rates hold up to the cutoff.
* **C187** (`Props/Memory`, model `Model/Memory`, specification `SpecMemory`) Arrays as places in memory. A call is a function from
  the memory before to a result or exception and the memory after (`Eff`). `Sim` says that a call on the memory ends as the
  value model does on the contents of the memory; `Unwritten`, that everything the caller had is as before; `UnwrittenBut o`, that at
  most attributes of the object `o` were reassigned. The fits return new objects; which arrays they share is stated exactly,
  and `..._later_writes` say what a caller sees who goes on writing into their arrays. *Observation:* the comments "Create temp curve so
  as to not overwrite init_curve" and "Copy input" are right about the call itself, but the copies are shallow: the fitted
  curve of `fit_curve_fixed_ctrlpts` and the fitted surface of `fit_surface` live on the knot arrays of their inputs. The setter of
  the knot vector checks an array that it does not copy.
* **C188** (`Props/MemoryData`, model `Model/MemoryData`, specification `SpecMemoryData`) The problem object of C60 to C63 on the memory
  of C187. `view` is what the getters show, `Keeps` says that nothing the caller had was written and that nothing they had became
  part of the computed curves and parameters. `boundary_session_memory` is the simulation for whole histories;
  `boundary_write_mat` and `boundary_write_vec` give the object after any write of the caller, and `boundary_write_good` allows to go on with
  `boundary_memory` from there. *Observation:* the setters check an array that they do not copy, so a problem can hold data
  the setter would reject; `init_curve` and `fit_curve` live on one knot array after a fit with `'fixed'`.
* **C189** (`Props/IeeeSolve`, model `Model/IeeeSolve`, specification `SpecIeeeSolver`) C172 with overflow and underflow, on the matrices of C169.
  `IeeeSolver` is what is assumed of `np.linalg.lstsq`: on stored numbers below the threshold it is backward stable as long as its
  solution stays below the threshold; on infinities and NaN it may do anything, raising included. The bound on the size of the solution is not
  assumed but proved from the stability constant (`normal_size`, `solved_close`). `linear_fit_fixed_ieee` is for any matrix with
  non-negative entries and any rounding; the fits follow with `curve_matrix_binary64` and `surface_matrix_binary64`. The examples show what
  the bounds on `B` are for: data, ends and exact solution can be doubles while a right-hand side overflows.
* **C190** (`Props/IeeeKnotFit`, model `Model/IeeeKnotFit`, specification `SpecIeeeKnotFit`) C173 with overflow and underflow: the single fits of
  C189, the insertions of C164 and the inversion as a parameter, which may raise. Nothing is assumed of the quality of the solver.
  `TameSolver` says that it returns doubles of size at most `B` or raises; `np.linalg.lstsq` does not satisfy this for every system (a column of
  tiny basis values can make the solution as large as one likes), therefore `…_any_solver` is for an arbitrary solver: it ends as stated
  unless the same fit with the solver *guarded* (`Spec.guarded`: raises where the result is not of this form) raises the exception of the guard,
  that is, unless a call made in the run returns something else. `np.linspace` is modelled with both of its formulas (the second is used
  where the step underflows to zero). The examples show both, and that `initialize_curve` returns NaN if the difference of the ends overflows:
  the code has no check for it.
* **C191** (`Props/IeeeSurfaceFit`, model `Model/IeeeSurfaceFit`, specification `SpecIeeeKnotFit`) C175 with overflow and underflow, as C190 for curves:
  `set_init_surface`, `parameterize_surface` with the inversion as a parameter, the fit of C189. `vpt / (num - 1)` is a quotient of Python integers,
  so one control point across raises (the model's `.nonfinite` stands for `ZeroDivisionError`); the code checks nothing here.
  `ruled_surface_binary64_overflow` is a case outside the bound: boundaries of doubles that are `2^1024` apart give `0 * inf = NaN` on the edge that
  should be the bottom boundary.
* **C192** (`Props/IeeeInversionFit`, model `Model/IeeeInversion`) The hypothesis of C190 and C191 on the inversion, discharged for the inversion functions of
  the library: in the arbitrary arithmetic of C157 a returned parameter is a grid parameter or a clamped sum, so it is a double as soon as those are
  (`Arith.Stored`). The curve and surface objects are black boxes that raise outside `[0, 1]` and do not hang. `ieeeArith` is one such arithmetic, with
  every operation rounded by `bin64`; in its examples `curve_inversion` reaches the parameter of a point in one step and then returns the grid
  parameter before it (C157), and `surface_inversion` returns the parameters it reached. The solver is as in C190: `…_any_solver` there and in C191 is
  for solvers that may return anything.
* **C193** (`Props/IeeeProblems`, model `Model/IeeeProblems`, specification `SpecIeeeProblems`) C190, C191 and C192 put together in the methods of the problem
  objects, which call `initialize_curve`, one of the two curve fits, the setter of the number of control points (which refuses three although its message
  allows them, C82), `parameterize_curve`, `set_init_surface`, `fit_surface` and `parameterize_surface`. Simplified: the attributes are not `None` and
  no initial curve or surface has been set before; C60 and C82 treat other states in exact arithmetic. The hypothesis on the solver is that of C190; the bound `2 B` on the control points of the initial curve, a hypothesis
  in C190, follows here from the end points.
* **C194** (`Props/IeeeSessionEval`) C160 applied to the results of C193. At the ends and corners the end points come back only up to `B 2^-44`: by C100
  evaluation at an end need not return the control point exactly in double precision (C133 says on which knots it does), and the top edge of
  the surface is itself only exact up to `B 2^-47`. The bound `2^19` on the numbers of control points keeps the last interior knot away from `1`, where
  `find_span` would take parameters of the last but one span for the last (see `Regular`).
* **C195** (`Props/IeeeAdaptiveSession`) C193 and C194 for boundaries fitted by knot insertion. Both boundaries are asked for the same number of control points
  and so get the same number (C193, `boundary_fit_ieee_count`), as the interior problem needs; it takes the knots of the bottom boundary, so that knots of the top
  boundary that differ from them by rounding do no harm. The theorems `…_with_…` of C193–C195 allow any inversions that return doubles in `[0, 1]` or raise; with
  inversions and a solver that never raise they give sessions that end with a surface (the last examples).
* **C196** (`SpecIeeeMesh`, `Props/IeeeMesh`) C97 for surfaces evaluated in IEEE arithmetic, and with C194 and C195 for the surfaces of whole sessions. `single_point` is
  any function that returns one of the possible results of the model whenever all of them are numbers (`Computes`; `computes_exists` shows that there is one for
  every surface). The loop's own parameters are computed with `fl64`: for `n_tri ≤ 2^50` they are zero or above `2^-53`, where `fl64` and `bin64` agree
  (`vtkParam_stored`). The triangulation (`scipy.spatial.Delaunay`) and the file format are outside (C152).
* **C197** (`SpecIeeeNewton`, `Props/IeeeNewton`) C192 leaves open when `curve_inversion` raises. Here: never, if the computed speed is not zero. The step divides
  `num` by a number that may be zero or tiny, but `num = 0` would have passed the second convergence test, so that the quotient is a number or infinite and is
  clamped to `[0, 1]`. `RegularCurve` allows that `single_point` and the zeroth derivative differ (they may be summed in different orders) as long as the
  zeroth derivative does not hit the point when the first test fails. The last example is a constant curve, where the function raises.
* **C198** (`SpecIeeeNewton`, `Props/IeeeSurfNewton`) The counterpart of C197 for surfaces. The matrix of the Newton step is finite for points and derivatives of
  size at most `2^500`; its determinant is not bounded away from zero, so that `LinAlgError` remains possible (last example). The solver is arbitrary
  except that it makes no NaN out of numbers (`NumericSolve`); `ieee_solve_numeric` shows this for the model's own solver. The code multiplies with
  `np.linalg.inv`, which can violate it when an entry of the inverse overflows (`invMulR`, last example): `surface_inversion_any_solver_binary64` is for
  solvers that may return anything, and says that ValueError is the only further outcome.
* **C199** (`SpecIeeeNewton`, `Props/IeeeOwnSurf`) C198 for the surfaces of the library in place of a black box: `ComputesSurface` ties the methods called by the
  inversion to the IEEE models of `single_point` and `derivatives` (C160, C180); `computesSurface_exists` shows that it can be satisfied. The bound on the
  derivatives is that of C180 plus the size of the exact derivatives (`patchDeriv_abs_le`). `uniform_surface_regular` is for the surfaces that
  the fits return (C193).
* **C200** (`Model/IeeeCurveDers`, `Props/IeeeCommitted`) C71, C77 and C91 without exact arithmetic: the row of two entries does not fit whatever the values are. The
  curves of C192, C193 and C197, left open there, therefore stand for a repaired class; with the committed one (`Curve.likeR`) no fit
  returns. `curve_derivatives_value_error_binary64` shows that the failure is that assignment and not an earlier one.
* **C201** (`Props/IeeeCommittedFit`) C200 says that nothing is fitted, C201 that the exception is always the one of the row assignment. The statement on
  `BoundaryProblem.fit` is an equivalence: `ValueError` is a possible outcome and the only one. `point` is any evaluation whose results are among those
  allowed by `Curve.PointR` (C160); an example shows that there is one.
* **C202** (`Props/IeeeOwnFit`) C191 and C199 put together: nothing is left open in `fit_surface` but the least squares solver, the 2 x 2 solver and the norm. `E` is the
  class of exceptions: it contains `LinAlgError`, those of the solver, and `ValueError` unless the 2 x 2 solver is `NumericSolve`.
* **C203** (`Props/IeeeOwnInterior`) The interior part of C193 with evaluation and inversion of the library instead of a given inversion, and the exceptions named. The
  boundaries are given: by C200 the committed class does not fit them.

## 5. Trusted base

* Lean 4.33.0 kernel; Mathlib as installed. Axioms: at most `propext`, `Classical.choice`, `Quot.sound` (`AXIOMS.md`).
  No `sorry`, `native_decide`, `bv_decide`, no axioms of our own. Concrete cases are checked by kernel evaluation
  (`decide +kernel`).
* The reading of the Python text into the model (sections 1 and 2). What is not modelled:
  * all properties but C97–C102, C113, C128, C133, C140, C141, C147–C150, C157, C158, C160, C161, C164, C169, C172, C173, C175, C180–C182, C189–C203: rounding, overflow, infinities and NaN (except in the Newton steps);
  * C147–C150: rounding, overflow, signs of zero other than those of the divisors;
  * C160, C161, C164, C169, C180, C181, C189–C203: signs of zero;
  * C97–C102, C113, C128, C133, C140, C141, C158, C172, C173, C175, C182: overflow, underflow and NaN; `np.arange` and `np.linspace` are taken as numpy implements them
    (`ceil((stop-start)/step)` entries `start + i*step`; `i * (1/(num-1))` with the last entry set);
  * numpy versions: `np.float` (gone since numpy 1.24) is taken as `float`; `np.array` of rows of different lengths is taken
    to raise `ValueError` (older versions build an object array) — no theorem depends on it;
  * the memory layout of arrays: `param_data.view(...)` in `parameterize_curve`, `parameterize_surface` and `fit_surface` raises
    `ValueError` for arrays that are not C-contiguous; the data are taken to be contiguous. `a[:, j]` of an array without rows
    is taken to succeed for every `j`;
  * numpy dtype promotion beyond what is stated at a definition, aliasing of arrays outside C187 and C188 (elsewhere assignments copy;
    C187 proves for the functions named there that this makes no difference as long as nobody else writes into the arrays;
    the remaining functions only read their arguments; views such as `control_points[:, 0]` are arrays of their own there), warnings, printing;
  * the bodies of external functions named in section 1.
* The statements in `Verif/Spec.lean` and in the theorems themselves.
