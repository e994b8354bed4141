{"id": "C01", "title": "find_span brackets the parameter", "statement": "Whenever find_span returns a span k for a non-decreasing knot vector and a parameter no larger than knot_vector[num_ctrlpts], then degree <= k <= num_ctrlpts-1, and either knot_vector[k] <= knot <= knot_vector[k+1], or the parameter is within the end tolerance of knot_vector[num_ctrlpts] and k = num_ctrlpts-1.", "quantifier": "every linearly ordered value type, every end-tolerance test, every non-decreasing knot vector, degree, number of control points and parameter", "why_tests_cant": "a test samples a few parameters; the bracket must hold for every knot vector and parameter", "anchors": ["spline/algorithms/knots.py:find_span"]}
{"id": "C02", "title": "find_span terminates on the domain", "statement": "For a non-decreasing knot vector with degree < num_ctrlpts < len(knot_vector)-1 and any parameter between knot_vector[degree] and knot_vector[num_ctrlpts], find_span returns, after a number of probes logarithmic in num_ctrlpts-degree.", "quantifier": "all knot vectors, sizes and in-domain parameters", "why_tests_cant": "termination of a while loop cannot be tested", "anchors": ["spline/algorithms/knots.py:find_span"]}
{"id": "C03", "title": "find_span hangs outside the domain", "statement": "For a parameter below knot_vector[degree], or above every knot and not within the end tolerance, find_span never returns: no number of loop iterations ends it.", "quantifier": "all non-decreasing knot vectors and out-of-domain parameters", "why_tests_cant": "non-termination cannot be observed by a test", "anchors": ["spline/algorithms/knots.py:find_span"]}
{"id": "C04", "title": "find_span returns an empty span only at a repeated knot", "statement": "For a non-decreasing knot vector and a parameter of the domain the span k returned by find_span has knot_vector[k] < knot_vector[k+1], unless the parameter is exactly a knot repeated in the domain, or the end test fired and the last span is empty. In particular it is positive when the interior knots are distinct. The exception occurs: on an explicit valid knot vector with a double knot the span is empty and basis_functions divides by zero.", "quantifier": "all knot vectors and parameters of the domain; one explicit witness", "why_tests_cant": "needs every knot vector and every parameter", "anchors": ["spline/algorithms/knots.py:find_span", "spline/algorithms/basis.py:basis_functions"]}
{"id": "C05", "title": "normalize is the affine map onto [0,1]", "statement": "normalize maps a non-constant knot vector by x -> (x-min)/(max-min): length kept, all entries in [0,1], 0 and 1 both attained, order kept, ratios of differences kept, and normalizing twice changes nothing. A constant knot vector gives a non-finite result.", "quantifier": "all non-empty knot vectors", "why_tests_cant": "holds for all inputs of any length", "anchors": ["spline/algorithms/knots.py:normalize"]}
{"id": "C06", "title": "check_knot_vector accepts exactly the clamped knot vectors", "statement": "check_knot_vector returns True exactly when the length is num_ctrlpts+degree+1, the normalized knots are non-decreasing, all of the first degree+1 are within tolerance of 0 and all of the last degree+1 within tolerance of 1, although the code looks at only one of the last degree+1 knots.", "quantifier": "all degrees, knot vectors and control point numbers", "why_tests_cant": "equivalence over all inputs", "anchors": ["spline/algorithms/knots.py:check_knot_vector", "spline/algorithms/knots.py:normalize"]}
{"id": "C07", "title": "check_knot_vector ignores affine re-parameterization", "statement": "The verdict of check_knot_vector is the same for a knot vector and for the vector with every knot x replaced by a*x+b, a > 0.", "quantifier": "all knot vectors and all a > 0, b", "why_tests_cant": "relation between two runs over all inputs", "anchors": ["spline/algorithms/knots.py:check_knot_vector", "spline/algorithms/knots.py:normalize"]}
{"id": "C08", "title": "generate_uniform builds a valid uniform clamped knot vector", "statement": "For num_ctrlpts > degree, generate_uniform returns num_ctrlpts+degree+1 knots, non-decreasing, with degree+1 zeros, degree+1 ones, equal interior steps 1/(num_ctrlpts-degree), and check_knot_vector accepts it. For num_ctrlpts = degree or degree-1 an array is returned that check_knot_vector rejects; for smaller values it raises ValueError.", "quantifier": "all degrees and numbers of control points", "why_tests_cant": "all sizes", "anchors": ["spline/algorithms/knots.py:generate_uniform", "spline/algorithms/knots.py:check_knot_vector"]}
{"id": "C09", "title": "find_multiplicity counts occurrences", "statement": "find_multiplicity never fails, returns the number of entries within numpy's isclose tolerance of the knot, does not depend on the order of the entries, and equals the exact number of occurrences when no different entry is within tolerance.", "quantifier": "all knot vectors and knots", "why_tests_cant": "all inputs of any length", "anchors": ["spline/algorithms/knots.py:find_multiplicity"]}
{"id": "C10", "title": "Knot insertion yields the sorted knot vector", "statement": "Whenever find_span brackets the knot and curve_knot_insertion returns, the returned knots are the old knots with the new knot added num_inserts times, in non-decreasing order (C11 says when it returns).", "quantifier": "all valid curves, knots and num_inserts", "why_tests_cant": "all inputs", "anchors": ["spline/algorithms/knots.py:curve_knot_insertion"]}
{"id": "C11", "title": "Knot insertion does not change the curve", "statement": "For a new knot in the domain whose multiplicity s satisfies s+num_inserts <= degree and which lies in the half-open span returned by find_span, with no other knot inside the tolerance of find_multiplicity, curve_knot_insertion returns and the curve defined by the returned knots and control points equals the old curve at every parameter.", "quantifier": "all degrees, knot vectors, control points, inserted knots, num_inserts and parameters", "why_tests_cant": "equality of two functions at every parameter for all curves", "anchors": ["spline/algorithms/knots.py:curve_knot_insertion"]}
{"id": "C12", "title": "Knot insertion is local and convex", "statement": "Insertion adds num_inserts control points, keeps the ones outside the affected range, and every new control point is a convex combination of neighbouring old ones.", "quantifier": "all insertions as in C11", "why_tests_cant": "all inputs", "anchors": ["spline/algorithms/knots.py:curve_knot_insertion"]}
{"id": "C13", "title": "Inserting an existing knot can change the curve", "statement": "Knot insertion is expected to preserve the curve for every knot in the domain with spare multiplicity. It does not: when find_span returns the span left of a simple interior knot, inserting that knot once returns normally, and the returned curve differs from the old one by exactly a*(P[k]-P[k-1])*N_k with a > 0; so it is a different curve whenever P[k] and P[k-1] differ.", "quantifier": "all degrees >= 2, knot vectors, control points and simple interior knots found in the span on their left, no other knot inside the tolerance of find_multiplicity", "why_tests_cant": "universal statement about all curves; needs the exact knots where the span search picks the left side", "anchors": ["spline/algorithms/knots.py:curve_knot_insertion", "spline/algorithms/knots.py:find_span"]}
{"id": "C14", "title": "Knot insertion past full multiplicity corrupts control points", "statement": "Inserting a knot at an end of a clamped knot vector is not rejected. For the last knot the routine returns normally with two control points overwritten by the origin; for the first knot it returns P[n-1], 0, P[1], ..., P[n-2], 0, so the curve starts at its old last control point.", "quantifier": "all clamped curves with degree >= 1 and exactly degree+1 end knots, no other knot inside the tolerance of find_multiplicity, num_inserts = 1", "why_tests_cant": "universal statement about all curves", "anchors": ["spline/algorithms/knots.py:curve_knot_insertion"]}
{"id": "C15", "title": "basis_functions computes the Cox-de Boor basis", "statement": "On a span k of positive length basis_functions returns, without any division by zero, the degree+1 values N[k-degree..k] of the Cox-de Boor recursion at the parameter.", "quantifier": "all degrees, non-decreasing knot vectors, spans of positive length and parameters in the span", "why_tests_cant": "equality with a recursive specification for all degrees", "anchors": ["spline/algorithms/basis.py:basis_functions"]}
{"id": "C16", "title": "Basis values are a partition of unity and non-negative", "statement": "On a span of positive length the values returned by basis_functions sum to exactly 1 for every parameter, and all are >= 0 for a parameter inside the closed span.", "quantifier": "all degrees, knot vectors, spans, parameters", "why_tests_cant": "all inputs", "anchors": ["spline/algorithms/basis.py:basis_functions"]}
{"id": "C17", "title": "basis_functions fails exactly on empty spans", "statement": "For degree >= 1 and a span index in range, basis_functions gives finite values iff the span has positive length; on a span of zero length the first division is by zero.", "quantifier": "all non-decreasing knot vectors, spans and parameters", "why_tests_cant": "all inputs", "anchors": ["spline/algorithms/basis.py:basis_functions"]}
{"id": "C18", "title": "basis_function_ders computes all derivatives", "statement": "Row r, column m of basis_function_ders is the m-th derivative of the (k-degree+r)-th B-spline basis polynomial on the span, at the parameter, for every deriv_order, also above the degree (where it is 0). Row 0 belongs to basis function k-degree, not to k as the docstring says.", "quantifier": "all degrees, derivative orders, knot vectors, spans of positive length, parameters", "why_tests_cant": "equality with polynomial derivatives for all degrees and orders", "anchors": ["spline/algorithms/basis.py:basis_function_ders"]}
{"id": "C19", "title": "Derivative columns sum to zero and column 0 is basis_functions", "statement": "Column 0 of basis_function_ders equals the output of basis_functions, and every later column sums to 0.", "quantifier": "all inputs as in C18", "why_tests_cant": "all inputs", "anchors": ["spline/algorithms/basis.py:basis_function_ders", "spline/algorithms/basis.py:basis_functions"]}
{"id": "C20", "title": "one_basis_function is the Cox-de Boor function, closed at the right end", "statement": "For a clamped non-decreasing knot vector with a non-empty first span one_basis_function(degree, U, i, u) equals the Cox-de Boor value N_i(u), except that at the last knot it is 1 for the last function (and 0 for the others); it never divides by zero and is 0 outside the support.", "quantifier": "all degrees, clamped knot vectors, indices, parameters", "why_tests_cant": "all inputs", "anchors": ["spline/algorithms/basis.py:one_basis_function"]}
{"id": "C21", "title": "The full basis row sums to 1 on the closed domain", "statement": "For a clamped knot vector with a non-empty first span the sum of one_basis_function over all control point indices is 1 for every parameter of the closed domain.", "quantifier": "all degrees, clamped knot vectors, parameters", "why_tests_cant": "all inputs", "anchors": ["spline/algorithms/basis.py:one_basis_function"]}
{"id": "C22", "title": "one_basis_function agrees with basis_functions", "statement": "For a parameter in the half-open span k, one_basis_function(i) equals entry i-(k-degree) of basis_functions for k-degree <= i <= k, and 0 for every other i.", "quantifier": "all inputs", "why_tests_cant": "relation between two algorithms for all inputs", "anchors": ["spline/algorithms/basis.py:one_basis_function", "spline/algorithms/basis.py:basis_functions"]}
{"id": "C23", "title": "one_basis_function_ders computes derivatives of one basis function", "statement": "For a parameter in the half-open span k and deriv_order <= degree the result is the list of derivatives of the i-th basis polynomial of that span, without division by zero, and agrees with the matching row of basis_function_ders.", "quantifier": "all degrees, knot vectors, indices, parameters, orders", "why_tests_cant": "all inputs", "anchors": ["spline/algorithms/basis.py:one_basis_function_ders"]}
{"id": "C24", "title": "one_basis_function_ders at the right end", "statement": "At the last knot of a clamped knot vector one_basis_function_ders returns all zeros for every index, so its value entry disagrees with one_basis_function for the last function.", "quantifier": "all clamped knot vectors", "why_tests_cant": "universal claim", "anchors": ["spline/algorithms/basis.py:one_basis_function_ders", "spline/algorithms/basis.py:one_basis_function"]}
{"id": "C25", "title": "single_point is the B-spline sum", "statement": "For a curve with clamped knots on [0,1] and distinct interior knots, single_point(u) equals the sum of control_points[i]*N_i(u) in each coordinate, with the value at u=1 taken from the left.", "quantifier": "all curves, parameters in [0,1] outside the tolerance sliver of C33", "why_tests_cant": "all curves and parameters", "anchors": ["spline/model/bspline.py:BSplineCurve.single_point", "spline/algorithms/knots.py:find_span", "spline/algorithms/basis.py:basis_functions"]}
{"id": "C26", "title": "Curves interpolate their end control points", "statement": "single_point at the first knot returns the first control point, at the last knot the last control point.", "quantifier": "all curves with clamped knots on [0,1] whose first, respectively last, span is not empty", "why_tests_cant": "all inputs", "anchors": ["spline/model/bspline.py:BSplineCurve.single_point"]}
{"id": "C27", "title": "Curve points stay in the convex hull", "statement": "Every coordinate of single_point(u) lies between the minimum and maximum of that coordinate over the active control points; any half-space containing the control points contains the point.", "quantifier": "all clamped curves of degree >= 1, all regular parameters (see C25)", "why_tests_cant": "all inputs", "anchors": ["spline/model/bspline.py:BSplineCurve.single_point"]}
{"id": "C28", "title": "Curve evaluation commutes with affine maps", "statement": "Applying an affine map to the control points and then evaluating equals evaluating and then applying the map.", "quantifier": "all curves with a valid knot vector, affine maps and all parameters of the domain where single_point returns", "why_tests_cant": "relation between runs", "anchors": ["spline/model/bspline.py:BSplineCurve.single_point"]}
{"id": "C29", "title": "Control points act locally", "statement": "Changing control point i does not change single_point(u) when u is outside [knot[i], knot[i+degree+1]].", "quantifier": "all curves with a valid knot vector, indices, all parameters of the domain outside the tolerance sliver of C33", "why_tests_cant": "relation between runs", "anchors": ["spline/model/bspline.py:BSplineCurve.single_point"]}
{"id": "C30", "title": "Parameters outside [0,1] are rejected", "statement": "single_point raises ValueError, for curves and surfaces, exactly on parameters outside [0,1] before touching the knot vector; points fails iff some entry fails.", "quantifier": "all parameters and curves", "why_tests_cant": "all inputs", "anchors": ["spline/model/bspline.py:BSplineCurve.single_point", "spline/model/bspline.py:BSplineSurface.single_point", "spline/util/validation.py:validate_knot"]}
{"id": "C31", "title": "points is single_point applied elementwise", "statement": "points returns one row per parameter, in order, each row equal to single_point of that parameter.", "quantifier": "all parameter arrays", "why_tests_cant": "all lengths", "anchors": ["spline/model/bspline.py:BSplineCurve.points", "spline/model/bspline.py:BSplineSurface.points"]}
{"id": "C32", "title": "Curves are continuous across knots", "statement": "If a knot has multiplicity at most the degree, the two spans meeting there give the same curve point, so the side chosen by find_span does not matter.", "quantifier": "all knot vectors, interior knots, control points", "why_tests_cant": "all inputs", "anchors": ["spline/algorithms/basis.py:basis_functions", "spline/model/bspline.py:BSplineCurve.single_point"]}
{"id": "C33", "title": "A knot vector accepted by the setter need not be usable on [0,1]", "statement": "check_knot_vector accepts knot vectors whose domain is not [0,1]; for such a curve single_point can loop forever on a parameter of [0,1]. Also within the end tolerance of the last knot the last span is used even if the parameter is left of it.", "quantifier": "family of knot vectors; witness", "why_tests_cant": "non-termination", "anchors": ["spline/algorithms/knots.py:check_knot_vector", "spline/model/bspline.py:BSplineCurve.single_point", "spline/algorithms/knots.py:find_span"]}
{"id": "C34", "title": "Surface single_point is the tensor-product sum", "statement": "single_point(u,v) equals sum_i sum_j N_i(u) M_j(v) P[i*num_v+j] in each coordinate.", "quantifier": "all clamped surfaces, all regular parameters (see C25)", "why_tests_cant": "all inputs", "anchors": ["spline/model/bspline.py:BSplineSurface.single_point"]}
{"id": "C35", "title": "Surface edges are B-spline curves", "statement": "The surface restricted to v=0 (v=1) is the curve with the control points of the first (last) v-column; the four corners are control points.", "quantifier": "all clamped surfaces with knots on [0,1], all regular parameters along the edge", "why_tests_cant": "all inputs", "anchors": ["spline/model/bspline.py:BSplineSurface.single_point"]}
{"id": "C36", "title": "Surface derivatives are laid out row-major in (u,v) order", "statement": "Row a*(max_order_v+1)+b of derivatives(normalize=False) is the mixed partial derivative of order (a,b) of the tensor-product polynomial; row 0 is single_point.", "quantifier": "all surfaces with valid knot vectors, orders, regular parameters", "why_tests_cant": "all inputs", "anchors": ["spline/model/bspline.py:BSplineSurface.derivatives"]}
{"id": "C37", "title": "Surface points stay in the convex hull", "statement": "Every coordinate of surface single_point lies between the minimum and maximum over the control points.", "quantifier": "all clamped surfaces, regular parameters", "why_tests_cant": "all inputs", "anchors": ["spline/model/bspline.py:BSplineSurface.single_point"]}
{"id": "C38", "title": "initial_guess_curve returns the nearest grid parameter", "statement": "The result is one of the 2n grid parameters k/(2n-1) in [0,1]; if some grid point is closer than 1e6 it attains the minimum distance over the grid (the first one to do so); otherwise it is 0.", "quantifier": "all curves, points, distance functions", "why_tests_cant": "all inputs", "anchors": ["fit/algorithms/parameterize.py:initial_guess_curve"]}
{"id": "C39", "title": "initial_guess_surf returns the nearest grid parameter pair", "statement": "As C38 for the two-dimensional grid in row-major order.", "quantifier": "all surfaces, points", "why_tests_cant": "all inputs", "anchors": ["fit/algorithms/parameterize.py:initial_guess_surf"]}
{"id": "C40", "title": "curve_inversion stays in [0,1]", "statement": "curve_inversion evaluates the curve only at parameters in [0,1] and returns a parameter in [0,1], whatever the Newton steps are.", "quantifier": "all curves (as black boxes), points, tolerances, iteration limits", "why_tests_cant": "all Newton histories", "anchors": ["fit/algorithms/parameterize.py:curve_inversion"]}
{"id": "C41", "title": "curve_inversion terminates", "statement": "curve_inversion does at most max(1, max_iter+2) Newton iterations, and this bound is attained.", "quantifier": "all curves, points, tolerances, limits", "why_tests_cant": "termination of while True", "anchors": ["fit/algorithms/parameterize.py:curve_inversion"]}
{"id": "C42", "title": "curve_inversion never returns a converged parameter it had to search for", "statement": "If the initial guess fails both convergence tests, then whatever parameter curve_inversion returns also fails both: when a candidate passes a test, the loop stops but returns the previous iterate. If the initial guess passes a test it is returned.", "quantifier": "all curves (as black boxes), points, tolerances, iteration limits", "why_tests_cant": "universal claim about all runs of the loop", "anchors": ["fit/algorithms/parameterize.py:curve_inversion"]}
{"id": "C43", "title": "surface_inversion stays in the unit square and terminates", "statement": "surface_inversion returns a pair in [0,1]x[0,1], evaluates the surface only there, after at most max(1, max_iter+1) iterations.", "quantifier": "all surfaces (as black boxes), points, tolerances, limits", "why_tests_cant": "all Newton histories", "anchors": ["fit/algorithms/parameterize.py:surface_inversion"]}
{"id": "C44", "title": "parameterize_curve keeps every data point", "statement": "The result of parameterize_curve has one row per data point: the point with its own inversion parameter appended; rows are a permutation of these and are in ascending parameter order.", "quantifier": "all data arrays and curves", "why_tests_cant": "all lengths and orders", "anchors": ["fit/algorithms/parameterize.py:parameterize_curve"]}
{"id": "C45", "title": "parameterize_curve does not depend on the order of the data", "statement": "Permuting the data rows does not change the result.", "quantifier": "all data arrays and permutations", "why_tests_cant": "relation between runs", "anchors": ["fit/algorithms/parameterize.py:parameterize_curve"]}
{"id": "C46", "title": "parameterize_surface keeps every data point and ignores the data order", "statement": "As C44 and C45 with rows ordered by (u,v).", "quantifier": "all data arrays and permutations", "why_tests_cant": "all lengths and orders", "anchors": ["fit/algorithms/parameterize.py:parameterize_surface"]}
{"id": "C47", "title": "linear_fit_fixed keeps fixed entries", "statement": "The result has the length of P and agrees with P at every index marked fixed; if all are fixed it is P.", "quantifier": "all matrices, vectors, masks", "why_tests_cant": "all inputs", "anchors": ["fit/algorithms/fitting.py:linear_fit_fixed"]}
{"id": "C48", "title": "linear_fit_fixed is optimal under the constraint", "statement": "If the least-squares solver returns a minimizer, the result minimizes the squared residual of R x = Q among all x that agree with P on the fixed entries.", "quantifier": "all matrices, vectors, masks, and all vectors x", "why_tests_cant": "optimality against all competitors", "anchors": ["fit/algorithms/fitting.py:linear_fit_fixed"]}
{"id": "C49", "title": "single_fit_curve keeps the end control points", "statement": "After single_fit_curve the number of control points, the first and the last control point, the degree and the knots are unchanged.", "quantifier": "all curves, data", "why_tests_cant": "all inputs", "anchors": ["fit/algorithms/fitting.py:single_fit_curve"]}
{"id": "C50", "title": "The partition-of-unity check never fails on the domain", "statement": "single_fit_curve does not raise its partition-of-unity error when every parameter lies in the closed domain of a clamped knot vector whose first span is not empty; if k of m parameters are outside, the check raises ValueError exactly when k > 1e-8 + 1e-5 m.", "quantifier": "all curves, parameter arrays", "why_tests_cant": "all inputs", "anchors": ["fit/algorithms/fitting.py:single_fit_curve", "spline/algorithms/basis.py:one_basis_function"]}
{"id": "C51", "title": "A fit step never increases the residual", "statement": "The squared distance between the data and the curve at the given parameters, in each coordinate, is not larger after single_fit_curve than before; it is minimal among curves with the same knots and end points.", "quantifier": "all curves, data", "why_tests_cant": "all inputs", "anchors": ["fit/algorithms/fitting.py:single_fit_curve"]}
{"id": "C52", "title": "single_fit_surface fixes exactly the boundary control points", "statement": "The mask used by single_fit_surface marks index i*num_v+j exactly when i is 0 or num_u-1 or j is 0 or num_v-1; those control points are unchanged by the fit.", "quantifier": "all surface sizes", "why_tests_cant": "all sizes", "anchors": ["fit/algorithms/fitting.py:single_fit_surface"]}
{"id": "C53", "title": "fit_curve_knot_insertion terminates with enough control points", "statement": "Starting with n0 > degree control points the loop ends after t rounds of insertion with exactly degree + 2^t (n0-degree) control points, the first such number >= num_pts; it does end if the shortest knot span exceeds 2^t (1e-5+1e-8) and the parameterization does not raise.", "quantifier": "all curves, data, targets", "why_tests_cant": "termination", "anchors": ["fit/algorithms/fitting.py:fit_curve_knot_insertion"]}
{"id": "C54", "title": "fit_curve_knot_insertion keeps a valid clamped knot vector and the end points", "statement": "Throughout the loop the knots stay non-decreasing, clamped, with distinct interior knots, every knot inserted is new, and the first and last control point never change.", "quantifier": "all runs from clamped curves whose knot spans exceed 2^t (1e-5+1e-8), t the number of rounds, with a parameterization that does not raise", "why_tests_cant": "invariant over all rounds", "anchors": ["fit/algorithms/fitting.py:fit_curve_knot_insertion", "spline/algorithms/knots.py:curve_knot_insertion"]}
{"id": "C55", "title": "fit_curve_fixed_ctrlpts keeps the control point count", "statement": "fit_curve_fixed_ctrlpts returns a curve with the degree, knots, number of control points and end points of the input; its call of the knot-insertion fit never inserts a knot.", "quantifier": "all curves, data", "why_tests_cant": "all inputs", "anchors": ["fit/algorithms/fitting.py:fit_curve_fixed_ctrlpts"]}
{"id": "C56", "title": "fit_surface does not use the boundary data", "statement": "The control points returned by fit_surface do not depend on the parameterized data of the top and bottom boundaries (they are stacked and then dropped).", "quantifier": "all surfaces, data, boundaries", "why_tests_cant": "relation between runs", "anchors": ["fit/algorithms/fitting.py:fit_surface"]}
{"id": "C57", "title": "A fitted surface keeps its boundary curves", "statement": "The surface returned by fit_surface agrees with the input surface along u=0, u=1, v=0 and v=1.", "quantifier": "all surfaces, data, edge parameters", "why_tests_cant": "all inputs", "anchors": ["fit/algorithms/fitting.py:fit_surface", "fit/algorithms/fitting.py:single_fit_surface", "spline/model/bspline.py:BSplineSurface.single_point"]}
{"id": "C58", "title": "initialize_curve builds the straight segment", "statement": "The initial curve has num_ctrlpts equally spaced control points from start to end, starts at start, ends at end, and every point of it lies on the segment.", "quantifier": "all start, end points, degrees, numbers of control points > degree", "why_tests_cant": "all inputs", "anchors": ["fit/algorithms/initialization.py:initialize_curve"]}
{"id": "C59", "title": "set_init_surface builds the ruled surface between the boundaries", "statement": "Control point (i,j) of the initial surface is bottom[i] + j/(n-1)(top[i]-bottom[i]); the surface contains the bottom curve at v=0 and the top curve at v=1.", "quantifier": "all boundary curves with equal degree, knots and size", "why_tests_cant": "all inputs", "anchors": ["fit/model/base_data.py:InteriorProblem.set_init_surface"]}
{"id": "C60", "title": "Problem objects keep their invariants over every history", "statement": "After any sequence of successful or failed assignments data is unset or 2-D with 2 or 3 columns, start and end are unset or points of R2 or R3, num_ctrlpts is unset or > 3, and fit_method is 'fixed' or 'adaptive'.", "quantifier": "all sequences of API calls with arbitrary arguments", "why_tests_cant": "all histories", "anchors": ["fit/model/base_data.py:BoundaryProblem"]}
{"id": "C61", "title": "A rejected assignment changes nothing", "statement": "If an assignment to a property raises, the object is unchanged.", "quantifier": "all states, assignments and arguments", "why_tests_cant": "all histories", "anchors": ["fit/model/base_data.py:BoundaryProblem", "fit/model/base_data.py:InteriorProblem"]}
{"id": "C62", "title": "degree is at least one for integer arguments only", "statement": "After any history in which only integers were assigned to degree, degree is unset or >= 1. With other numbers this is false: 0.5 passes the check and is truncated to 0.", "quantifier": "all histories; one explicit history", "why_tests_cant": "all histories", "anchors": ["fit/model/base_data.py:BoundaryProblem.degree"]}
{"id": "C63", "title": "load is refused after a fit and save before one", "statement": "In every history load raises once a fit curve exists and save raises until one exists.", "quantifier": "all histories", "why_tests_cant": "all histories", "anchors": ["fit/model/base_data.py:BoundaryProblem.save", "fit/model/base_data.py:BoundaryProblem.load"]}
{"id": "C64", "title": "A saved surface cannot be read back", "statement": "read_surf_from_txt raises ValueError on every file written by write_surface_to_txt, because of the tab written after the last knot.", "quantifier": "all surfaces, all number formats that print no tab or newline", "why_tests_cant": "all surfaces", "anchors": ["fit/io/text.py:write_surface_to_txt", "fit/io/text.py:read_surf_from_txt"]}
{"id": "C65", "title": "Reading a surface file without trailing tabs recovers the surface", "statement": "On a file in the written layout without the trailing tabs, and with control points of three coordinates, the reader recovers degrees, sizes, knots and control points exactly.", "quantifier": "all surfaces", "why_tests_cant": "all surfaces", "anchors": ["fit/io/text.py:read_surf_from_txt"]}
{"id": "C66", "title": "Saving a curve as text never writes anything", "statement": "write_curve_to_txt raises for every curve and file system state and leaves all files unchanged.", "quantifier": "all curves, file systems", "why_tests_cant": "all states", "anchors": ["fit/io/text.py:write_curve_to_txt"]}
{"id": "C67", "title": "from_dict accepts exactly the three required keys", "statement": "from_dict raises ValueError iff the key set differs from {degree, knot_vector, control_points}, also for extra keys.", "quantifier": "all dictionaries", "why_tests_cant": "all inputs", "anchors": ["spline/model/bspline.py:BSplineCurve.from_dict"]}
{"id": "C68", "title": "A failed JSON save destroys the old file", "statement": "The JSON writer truncates the target before converting the curve; the conversion always raises, so every existing target file is left empty. This happens for the names that end in .json with something other than dots before; other names raise and change nothing.", "quantifier": "all file systems and curves", "why_tests_cant": "crash point", "anchors": ["fit/io/curve.py:CurveWriter._json_writer", "spline/model/bspline.py:BSplineCurve.to_dict"]}
{"id": "C69", "title": "surf_to_vtk samples a full grid inside the unit square", "statement": "In exact arithmetic (C97 treats double precision), for every n_tri >= 1 the sampling loop fills exactly the allocated (n_tri+1)^2 rows, with every parameter in [0,1] and both ends included.", "quantifier": "all n_tri", "why_tests_cant": "all sizes", "anchors": ["fit/io/text.py:surf_to_vtk"]}
{"id": "C70", "title": "insert_knot on a curve object always raises", "statement": "BSplineCurve.insert_knot raises for every argument and leaves the curve unchanged (it reads a variable before assigning it).", "quantifier": "all curves and arguments", "why_tests_cant": "universal claim", "anchors": ["spline/model/bspline.py:BSplineCurve.insert_knot"]}
{"id": "C71", "title": "Curve.derivatives always raises", "statement": "BSplineCurve.derivatives never returns, for every curve, parameter, order and value of normalize; on a clamped curve with control points in space it raises ValueError at every evaluable parameter.", "quantifier": "all curves, parameters, orders", "why_tests_cant": "universal claim", "anchors": ["spline/model/bspline.py:BSplineCurve.derivatives"]}
{"id": "C72", "title": "Control points of the declared dimension are always rejected", "statement": "In every history of a spline object built by the committed base class, assigning control points whose last dimension equals the declared dimension raises, and knot_vector_u / knot_vector_v are never set.", "quantifier": "all histories", "why_tests_cant": "all histories", "anchors": ["spline/model/base_geometry.py:SplineCurve"]}
{"id": "C73", "title": "Planar control points cannot be evaluated", "statement": "single_point raises IndexError for every curve whose control points have two columns, at every parameter of the domain, although the setters accept such control points.", "quantifier": "all planar curves with valid knots and all parameters outside the tolerance sliver of C33", "why_tests_cant": "universal claim", "anchors": ["spline/model/bspline.py:BSplineCurve.single_point", "spline/model/base_geometry.py:SplineCurve.control_points"]}
{"id": "C74", "title": "The degree keyword is ignored and stale knots survive", "statement": "A spline object created with any keyword arguments has no degree: reading it raises AttributeError. There is a history of accepted assignments (change the degree after the knots) after which the stored knots are rejected by check_knot_vector for the stored degree and control points.", "quantifier": "all keyword arguments; an explicit history", "why_tests_cant": "histories of calls", "anchors": ["spline/model/base_geometry.py:SplineCurve"]}
{"id": "C75", "title": "from_dict destroys the class", "statement": "A successful from_dict call replaces the properties of the class: every object without its own control points (or knots) reads those of the dictionary, and an assignment of control points or knots to any object succeeds without any check, even for values the setter rejects, and changes only what that name reads as, not what the methods use.", "quantifier": "all dictionaries, objects and later assignments", "why_tests_cant": "effect on global state", "anchors": ["spline/model/bspline.py:BSplineCurve.from_dict"]}
{"id": "C76", "title": "Straight lines are inverted only to grid accuracy", "statement": "On a straight line with exact derivatives curve_inversion returns one of the 2n grid parameters k/(2n-1) of the initial guess for every data point and tolerance, although one Newton step is exact there.", "quantifier": "all lines in 3-D, points, tolerances >= 0, iteration limits >= 0, numbers of control points", "why_tests_cant": "universal claim over all lines and points", "anchors": ["fit/algorithms/parameterize.py:curve_inversion", "fit/algorithms/parameterize.py:initial_guess_curve"]}
{"id": "C77", "title": "No data can be parameterized on a committed curve", "statement": "curve_inversion never returns for a BSplineCurve of the committed class, whatever the point, so neither does parameterize_curve for non-empty data; on clamped curves in space whose parameters can all be evaluated both raise ValueError for all spatial points.", "quantifier": "all curves, points, data arrays", "why_tests_cant": "universal claim", "anchors": ["fit/algorithms/parameterize.py:curve_inversion", "fit/algorithms/parameterize.py:parameterize_curve", "spline/model/bspline.py:BSplineCurve.derivatives"]}
{"id": "C78", "title": "surface_inversion uses stale derivatives", "statement": "The derivatives used for a Newton step of surface_inversion lag one step behind the parameters: with max_iter = 1 two surfaces with the same points whose derivatives agree only at the initial guess give the same result.", "quantifier": "all pairs of surfaces (as black boxes), points, tolerances", "why_tests_cant": "relation between two runs", "anchors": ["fit/algorithms/parameterize.py:surface_inversion"]}
{"id": "C79", "title": "surface_inversion picks the right derivative rows only for degree at least two", "statement": "For a BSplineSurface with both degrees at least 2 rows 3, 1, 6, 2, 4 of derivatives(u, v, 2, 2) are the partial derivatives (1,0), (0,1), (2,0), (0,2), (1,1); if one degree is below 2 reading them raises IndexError at every parameter.", "quantifier": "all surfaces, parameters", "why_tests_cant": "all surfaces", "anchors": ["fit/algorithms/parameterize.py:surface_inversion", "spline/model/bspline.py:BSplineSurface.derivatives"]}
{"id": "C80", "title": "Normalized surface derivatives are unit vectors", "statement": "With normalize=True every derivative row of surface derivatives has norm 1, or its norm is at most the tolerance 1e-8.", "quantifier": "all surfaces, orders, parameters, homogeneous norms", "why_tests_cant": "all inputs", "anchors": ["spline/model/bspline.py:BSplineSurface.derivatives"]}
{"id": "C81", "title": "A surface fit is optimal", "statement": "single_fit_surface does not raise when all parameters lie in the closed domain of clamped knot vectors, and its control points minimize the squared distance between the data and the surface at the given parameters, in each coordinate, among all control nets with the same boundary.", "quantifier": "all surfaces, data, competing control nets", "why_tests_cant": "optimality against all competitors", "anchors": ["fit/algorithms/fitting.py:single_fit_surface", "fit/algorithms/fitting.py:linear_fit_fixed"]}
{"id": "C82", "title": "fit is not all-or-nothing", "statement": "If the fitted curve has at most three control points, BoundaryProblem.fit raises ValueError after it has stored the fit curve; load is refused from then on although no fit has succeeded.", "quantifier": "all states, environments, file systems", "why_tests_cant": "state after an exception", "anchors": ["fit/model/base_data.py:BoundaryProblem.fit", "fit/model/base_data.py:BoundaryProblem.load"]}
{"id": "C83", "title": "An InteriorProblem can never be fitted", "statement": "In every history of calls on an InteriorProblem no boundary can be set, and set_init_surface, parameterize, fit, save, load and vtk always raise and change neither the object nor a file.", "quantifier": "all histories of calls with arbitrary arguments", "why_tests_cant": "all histories", "anchors": ["fit/model/base_data.py:InteriorProblem", "fit/model/base_data.py:Boundary"]}
{"id": "C84", "title": "The setters of Boundary always raise", "statement": "Every assignment to data, start or end of a Boundary object raises, for every argument, and changes nothing (shape is called as a function).", "quantifier": "all objects and arguments", "why_tests_cant": "universal claim", "anchors": ["fit/model/base_data.py:Boundary", "fit/model/base_data.py:Data"]}
{"id": "C85", "title": "fit is idempotent", "statement": "After a successful BoundaryProblem.fit another fit succeeds and leaves the object unchanged.", "quantifier": "all states without an initial curve and all states with a well-formed one whose degree has not been reassigned since; data, environments", "why_tests_cant": "relation between two calls over all states", "anchors": ["fit/model/base_data.py:BoundaryProblem.fit"]}
{"id": "C86", "title": "fit uses the stale initial curve", "statement": "Once an initial curve exists, fit ignores start and end assigned afterwards; with method 'fixed' it also ignores num_ctrlpts and degree assigned afterwards, and num_ctrlpts is then off by the difference of the degrees.", "quantifier": "all states and later assignments", "why_tests_cant": "relation between two histories", "anchors": ["fit/model/base_data.py:BoundaryProblem.fit", "fit/model/base_data.py:BoundaryProblem.set_init_curve"]}
{"id": "C87", "title": "No CurveWriter can be constructed", "statement": "Constructing a CurveWriter raises TypeError for every file name and curve (BaseWriter.__init__ calls super with the wrong class); constructing a CurveReader succeeds.", "quantifier": "all arguments", "why_tests_cant": "universal claim", "anchors": ["fit/io/base_io.py:BaseWriter.__init__", "fit/io/curve.py:CurveWriter"]}
{"id": "C88", "title": "Reading a curve returns nothing and changes the class", "statement": "A successful CurveReader.read returns None, changes no file, and overwrites the control points seen by every curve object that has none of its own.", "quantifier": "all files, objects, class states", "why_tests_cant": "effect on global state", "anchors": ["fit/io/curve.py:CurveReader.read", "spline/model/bspline.py:BSplineCurve.from_dict"]}
{"id": "C89", "title": "The inversion functions make clamped Newton steps", "statement": "Every parameter returned by curve_inversion is reached from the initial guess by clamped Newton steps for C'(u).(C(u)-P) = 0. Every pair returned by surface_inversion is the initial guess or is reached from it by clamped Newton steps for S_u.(S-P) = S_v.(S-P) = 0, in which the increment solves the linearised equations with the derivatives of the previous pair.", "quantifier": "all smooth curves and surfaces (as black boxes), points, tolerances, iteration limits", "why_tests_cant": "all iterates of all runs", "anchors": ["fit/algorithms/parameterize.py:curve_inversion", "fit/algorithms/parameterize.py:surface_inversion"]}
{"id": "C90", "title": "What surface_inversion converges to", "statement": "An exact foot point of the initial guess is kept by curve_inversion. On every plane surface_inversion returns the initial guess or the exact foot point clamped to the unit square. If surface_inversion stops before the iteration limit, the returned pair passes the distance test, passes both cosine tests, or was reached by a short step.", "quantifier": "all planes, surfaces, points, tolerances", "why_tests_cant": "all inputs", "anchors": ["fit/algorithms/parameterize.py:surface_inversion", "fit/algorithms/parameterize.py:curve_inversion"]}
{"id": "C91", "title": "No curve can be fitted with the committed class", "statement": "Because derivatives fails on every BSplineCurve, fit_curve_knot_insertion and fit_curve_fixed_ctrlpts never return for non-empty data (they raise ValueError for spatial data on clamped, evaluable curves, the second one on curves with any knots), and no history of a BoundaryProblem whose data arrays are non-empty ever stores a fit curve or parameterized data.", "quantifier": "all curves, non-empty data, histories of calls", "why_tests_cant": "universal claim over all histories", "anchors": ["fit/algorithms/fitting.py:fit_curve_knot_insertion", "fit/algorithms/fitting.py:fit_curve_fixed_ctrlpts", "fit/model/base_data.py:BoundaryProblem.fit"]}
{"id": "C92", "title": "Sizes and control points over histories of a spline object", "statement": "Degrees at least 1 at construction stay so and sizes are at least 2; a size exceeds its degree as long as the degree is not reassigned; control points that were accepted are read back until the next accepted assignment. (Without these provisos it is false: a degree may overtake a size, and a negative degree keyword admits a negative size.)", "quantifier": "all histories of calls with arbitrary arguments", "why_tests_cant": "all histories", "anchors": ["spline/model/base_geometry.py:SplineSurface", "spline/model/base_geometry.py:SplineCurve"]}
{"id": "C93", "title": "The curve fits are optimal for the parameters of the previous iterate", "statement": "The curve returned by fit_curve_knot_insertion and by fit_curve_fixed_ctrlpts minimizes the squared distance to the data, in every coordinate, among all curves with its knots and end points, at the parameters assigned by the curve of the previous iteration.", "quantifier": "all data, initial curves, competing curves", "why_tests_cant": "optimality against all competitors", "anchors": ["fit/algorithms/fitting.py:fit_curve_knot_insertion", "fit/algorithms/fitting.py:fit_curve_fixed_ctrlpts"]}
{"id": "C94", "title": "Surface points are curve points of curve points", "statement": "A surface point is found by evaluating the rows (or the columns) of the control net as curves at one parameter and the curve of these points at the other; both orders give single_point of the surface.", "quantifier": "all clamped surfaces, regular parameters", "why_tests_cant": "relation between two evaluation orders, all surfaces", "anchors": ["spline/model/bspline.py:BSplineSurface.single_point", "spline/model/bspline.py:BSplineCurve.single_point"]}
{"id": "C95", "title": "Surface evaluation commutes with affine maps", "statement": "Mapping the control net by an affine map and evaluating gives the image of the surface point.", "quantifier": "all clamped surfaces, affine maps, regular parameters", "why_tests_cant": "relation between two runs for all maps", "anchors": ["spline/model/bspline.py:BSplineSurface.single_point"]}
{"id": "C96", "title": "Control points of a surface act locally", "statement": "Replacing control point (i,j) leaves every point with u outside [U_i,U_{i+p+1}] or v outside [V_j,V_{j+q+1}] unchanged.", "quantifier": "all clamped surfaces, indices, replacement points, regular parameters", "why_tests_cant": "relation between two runs", "anchors": ["spline/model/bspline.py:BSplineSurface.single_point"]}
{"id": "C97", "title": "surf_to_vtk fails in double precision for many n_tri", "statement": "With the operations rounded to double precision (np.arange as numpy computes it) the sampling loop of surf_to_vtk has n_tri+1 or n_tri+2 parameters per direction and allocates n_tri or n_tri+1 rows per direction, for all 1 <= n_tri <= 2^50. It returns exactly if both numbers are n_tri+1, and then samples a full grid in [0,1]^2; with n_tri+2 parameters the last exceeds 1 and single_point raises; with too few rows allocated it raises IndexError. It returns for n_tri = 100 and all powers of two, raises for n_tri = 6 and 9 on every surface and for 47 by IndexError.", "quantifier": "all n_tri up to 2^50, all surfaces", "why_tests_cant": "rounding at all sizes", "anchors": ["fit/io/text.py:surf_to_vtk"]}
{"id": "C98", "title": "Rounding errors of the basis functions", "statement": "With every operation rounded to relative error 1-rho, basis_functions does not raise where the exact one does not, keeps all values non-negative, and each value is off by a factor of at most rho^(-6p); the sum differs from 1 by at most rho^(-6p) - 1. In double precision and degree at most 10 both bounds are below 1e-14.", "quantifier": "all rounding functions, knot vectors, degrees, spans and parameters in the span", "why_tests_cant": "all inputs and all roundings", "anchors": ["spline/algorithms/basis.py:basis_functions"]}
{"id": "C99", "title": "Rounding errors of curve and surface points", "statement": "Whatever the order of the sums in the dot products, every point computed by single_point in double precision has in each coordinate an error of at most 1e-14 times the point with absolute control values (degrees at most 10 for curves and 5 for surfaces), and such a point exists.", "quantifier": "all clamped curves and surfaces on [0,1] with distinct interior knots away from 1, all parameters", "why_tests_cant": "all inputs and all summation orders", "anchors": ["spline/model/bspline.py:BSplineCurve.single_point", "spline/model/bspline.py:BSplineSurface.single_point"]}
{"id": "C100", "title": "End points are not interpolated exactly in double precision", "statement": "C26 is false bit for bit: there is a clamped curve with knots in double precision such that every possible double precision result of single_point(0) differs from the first control point.", "quantifier": "an explicit curve, all summation orders", "why_tests_cant": "depends on one bit; found by analysis of the rounding", "anchors": ["spline/model/bspline.py:BSplineCurve.single_point", "spline/algorithms/basis.py:basis_functions"]}
{"id": "C101", "title": "Knot vectors in double precision", "statement": "normalize keeps the order, maps into [0,1], the least knot to 0 and the largest to 1 or to 1 - 2^-53 (both occur, so C05's idempotence is false bit for bit); check_knot_vector accepts every clamped knot vector of doubles; generate_uniform yields clamped, strictly ascending knots from 0 to 1 with relative error at most 2^-51 that check_knot_vector accepts.", "quantifier": "all arrays of doubles with two different entries; all p < n <= 2^50", "why_tests_cant": "all sizes", "anchors": ["spline/algorithms/knots.py:normalize", "spline/algorithms/knots.py:check_knot_vector", "spline/algorithms/knots.py:generate_uniform"]}
{"id": "C102", "title": "Grid and inserted knots in double precision", "statement": "The grid of the initial guess starts at 0, ascends strictly inside [0,1] and ends with 1 or 1 - 2^-53 (both occur). The knot inserted into a span by fit_curve_knot_insertion lies in the span, strictly inside if the span is wider than 2^-51 times its right end.", "quantifier": "all grid sizes up to 2^50; all spans of non-negative doubles", "why_tests_cant": "all sizes", "anchors": ["fit/algorithms/parameterize.py:initial_guess_curve", "fit/algorithms/parameterize.py:initial_guess_surf", "fit/algorithms/fitting.py:fit_curve_knot_insertion"]}
{"id": "C103", "title": "basis_function_ders computes derivatives in the sense of analysis", "statement": "Over the real numbers, entry (r,m) of basis_function_ders is the m-th derivative at u of the B-spline basis function with index k-p+r (also for m above the degree), if u is inside the domain and is no knot or a knot of multiplicity at most p-m.", "quantifier": "all knot vectors, spans, orders, parameters in the span", "why_tests_cant": "limits over all real numbers", "anchors": ["spline/algorithms/basis.py:basis_function_ders"]}
{"id": "C104", "title": "Curves are smooth functions", "statement": "On clamped knot vectors with distinct interior knots (the last span longer than the end tolerance) single_point is continuous on [0,1] and p-1 times continuously differentiable on (0,1), and its derivative is the curve of degree p-1 through p(P[i+1]-P[i])/(U[i+p+1]-U[i+1]).", "quantifier": "all such curves, all real parameters", "why_tests_cant": "continuity and limits over all real numbers", "anchors": ["spline/model/bspline.py:BSplineCurve.single_point"]}
{"id": "C105", "title": "Surface derivatives are partial derivatives in the sense of analysis", "statement": "Over the real numbers, row a(max_order_v+1)+b of derivatives(u, v, normalize=False) is the a-th derivative in u of the b-th derivative in v of the function evaluated by single_point, for parameters inside the square that are no knots of too high multiplicity.", "quantifier": "all clamped surfaces, orders, regular interior parameters", "why_tests_cant": "limits over all real numbers", "anchors": ["spline/model/bspline.py:BSplineSurface.derivatives"]}
{"id": "C106", "title": "Variation diminution", "statement": "A curve evaluated by single_point crosses no plane more often than its control polygon: if the points at an increasing sequence of parameters lie strictly on alternating sides of a plane, so do some control points, in order.", "quantifier": "all clamped curves, planes, increasing sequences of regular parameters", "why_tests_cant": "all sequences of all lengths", "anchors": ["spline/model/bspline.py:BSplineCurve.single_point"]}
{"id": "C107", "title": "Monotone control points give monotone curves", "statement": "If a coordinate of the control points is non-decreasing, so is the coordinate of the points along the parameter.", "quantifier": "all clamped curves, pairs of parameters", "why_tests_cant": "all inputs", "anchors": ["spline/model/bspline.py:BSplineCurve.single_point"]}
{"id": "C108", "title": "Polynomials up to the degree are reproduced", "statement": "With control values given by the symmetric polynomials of p consecutive knots (Marsden's identity) single_point returns u^m for every m up to the degree; with the Greville abscissae it returns the parameter itself.", "quantifier": "all clamped knot vectors, all powers up to the degree, regular parameters", "why_tests_cant": "all inputs", "anchors": ["spline/model/bspline.py:BSplineCurve.single_point"]}
{"id": "C109", "title": "A curve fit is determined by data that interlace the knots", "statement": "If for each inner control point there is a data point with parameter inside its support, in increasing order (Schoenberg-Whitney), then single_fit_curve returns the only minimizer with the given ends, every exact least squares solver gives the same result, and data on a curve with these knots and ends are recovered exactly. If no interior knot has multiplicity above the degree the condition is also necessary: otherwise another curve fits the data equally well; in particular if there are fewer data points than inner control points.", "quantifier": "all clamped curves, any knot multiplicities, data, solvers, competing control points", "why_tests_cant": "uniqueness against all competitors, all solvers", "anchors": ["fit/algorithms/fitting.py:single_fit_curve", "fit/algorithms/fitting.py:linear_fit_fixed"]}
{"id": "C110", "title": "A determined curve fit is affinely invariant and independent of the order of the data", "statement": "Under the condition of C109 fitting the image of the data and control points under an affine map gives the image of the fitted control points, and permuting the rows of the data changes nothing.", "quantifier": "all affine maps, all permutations", "why_tests_cant": "relation between two runs", "anchors": ["fit/algorithms/fitting.py:single_fit_curve"]}
{"id": "C111", "title": "A surface fit is determined by data that contain an interlacing grid", "statement": "If the data parameters contain a grid that satisfies the condition of C109 in both directions for the inner control points, single_fit_surface returns the only minimizer with the given boundary, the solver does not matter, and data on a surface with these knots and boundary are recovered exactly.", "quantifier": "all clamped surfaces, data, solvers, competing control nets", "why_tests_cant": "uniqueness against all competitors, all solvers", "anchors": ["fit/algorithms/fitting.py:single_fit_surface", "fit/algorithms/fitting.py:linear_fit_fixed"]}
{"id": "C112", "title": "Control points without data are put at the origin", "statement": "With the least-norm solution (as np.linalg.lstsq returns) an inner control point with no data in its support is placed at the origin of the coordinate system wherever the data are; so the fit of translated data is not the translated fit.", "quantifier": "all clamped curves, data, translations", "why_tests_cant": "relation between two runs; only for uneven data", "anchors": ["fit/algorithms/fitting.py:single_fit_curve", "fit/algorithms/fitting.py:linear_fit_fixed"]}
{"id": "C113", "title": "The partition-of-unity check of the fits in double precision", "statement": "With every operation rounded, one_basis_function does not raise on clamped knot vectors, is zero where the exact value is and is off by a factor of at most rho^(-5p); so are the entries of the matrices of single_fit_curve and single_fit_surface. In double precision the unity check passes whenever all parameters are in the domain, for up to 10^10 roundings, whatever the order of the sums, and raises if at least one of 99000 parameters is outside. The row sums are in general not exactly 1, so the tolerance is needed.", "quantifier": "all clamped curves and surfaces, data, roundings, summation orders", "why_tests_cant": "all sizes, all summation orders", "anchors": ["spline/algorithms/basis.py:one_basis_function", "fit/algorithms/fitting.py:single_fit_curve", "fit/algorithms/fitting.py:single_fit_surface"]}
{"id": "C114", "title": "What the calls on the problem objects assign", "statement": "Every setter of BoundaryProblem and InteriorProblem changes at most its own attribute; set_init_curve, parameterize and fit change the attributes they are documented to change and no others; no call changes a file. Which ints, arrays and strings are accepted is decided by their size and shape, and an accepted value is read back until it is assigned again. set_init_curve stores equally spaced control points from start to end: num_ctrlpts many for the fixed method, degree + 1 for the adaptive one.", "quantifier": "all states, arguments and histories of calls", "why_tests_cant": "frame condition over all histories", "anchors": ["fit/model/base_data.py:BoundaryProblem", "fit/model/base_data.py:InteriorProblem"]}
{"id": "C115", "title": "Problems in the plane are accepted and never fitted", "statement": "The setters accept points with two coordinates. If start (or end) is only ever set to such points, no initial curve ever exists and set_init_curve, parameterize and fit raise without effect; if the data is only ever set to non-empty arrays of such points, parameterize and fit never succeed and nothing is ever fitted - also with derivatives that work.", "quantifier": "all histories of calls", "why_tests_cant": "universal claim over all histories", "anchors": ["fit/model/base_data.py:BoundaryProblem", "fit/algorithms/initialization.py:initialize_curve", "fit/algorithms/parameterize.py:parameterize_curve"]}
{"id": "C116", "title": "One span gives Bezier curves and patches", "statement": "With degree + 1 control points and the knots of generate_uniform a curve is the Bezier curve of its control points: single_point returns the sum of control points times Bernstein polynomials at every parameter in [0,1]; the same for surfaces with (p+1)(q+1) control points.", "quantifier": "all degrees, control points, all parameters in [0,1]", "why_tests_cant": "all inputs", "anchors": ["spline/model/bspline.py:BSplineCurve.single_point", "spline/model/bspline.py:BSplineSurface.single_point", "spline/algorithms/knots.py:generate_uniform"]}
{"id": "C117", "title": "Speed of the initial curve", "statement": "The initial curve of initialize_curve has constant speed if it has degree + 1 control points; with more control points it does not in general. With as many control points as the degree initialize_curve passes its own check and assigns knots that check_knot_vector rejects.", "quantifier": "all end points, degrees, parameters", "why_tests_cant": "all inputs", "anchors": ["fit/algorithms/initialization.py:initialize_curve"]}
{"id": "C118", "title": "Control points are determined by the curve", "statement": "Two curves (or surfaces) with the same degrees and knots that agree at all parameters have the same control points, if interior knots are distinct. Inserting two new knots gives the same knots and control points in either order.", "quantifier": "all clamped curves, surfaces; all pairs of new knots and multiplicities", "why_tests_cant": "equality at all parameters", "anchors": ["spline/model/bspline.py:BSplineCurve.single_point", "spline/model/bspline.py:BSplineSurface.single_point", "spline/algorithms/knots.py:curve_knot_insertion"]}
{"id": "C119", "title": "Evaluation is stable", "statement": "Changing the control points that act at a parameter by at most eps in a coordinate changes the point by at most eps; if neighbouring control points differ by at most L(U[i+p+1]-U[i+1])/p in a coordinate, points at s and t differ by at most L|t-s| in it.", "quantifier": "all clamped curves, perturbations, pairs of regular parameters", "why_tests_cant": "all inputs", "anchors": ["spline/model/bspline.py:BSplineCurve.single_point"]}
{"id": "C120", "title": "Reversal", "statement": "Reversing the control points and reflecting the knots at 1/2 gives the curve traversed backwards.", "quantifier": "all clamped curves, regular parameters", "why_tests_cant": "relation between two runs", "anchors": ["spline/model/bspline.py:BSplineCurve.single_point"]}
{"id": "C121", "title": "The two directions of a surface are treated alike", "statement": "Exchanging degrees, knots and the two directions of the control net exchanges the parameters of single_point.", "quantifier": "all clamped surfaces, regular parameters", "why_tests_cant": "relation between two runs", "anchors": ["spline/model/bspline.py:BSplineSurface.single_point"]}
{"id": "C122", "title": "Curves as text", "statement": "read_curve_from_txt returns degree, knots and control points from a file in the layout of write_curve_to_txt without the tab behind the last knot, whatever the two counts in the file are; with that tab, as write_curve_to_txt means to write it, it raises ValueError.", "quantifier": "all degrees, counts, non-empty knot vectors, spatial control points, formats that read what they print", "why_tests_cant": "all inputs", "anchors": ["fit/io/text.py:read_curve_from_txt", "fit/io/text.py:write_curve_to_txt"]}
{"id": "C123", "title": "The session of the example notebook", "statement": "On a BoundaryProblem the cells up to set_init_curve() succeed for all spatial data, the initial curve runs along the segment from start to end, and fit() raises ValueError and changes nothing.", "quantifier": "all degrees, numbers of control points, data arrays, end points", "why_tests_cant": "all inputs", "anchors": ["fit/model/base_data.py:BoundaryProblem", "examples/Boundary_Fitting_Example.ipynb"]}
{"id": "C124", "title": "Inverting points on a B-spline surface: what can happen", "statement": "On a clamped B-spline surface with both degrees at least 2 and evaluable parameters, surface_inversion returns, for every point in space, tolerances and iteration limit, a pair in the unit square, or raises LinAlgError; nothing else is possible (no index, value or division error, no endless loop). The start values are the nearest pair of the grid with 2*num_ctrlpts_u times 2*num_ctrlpts_v points. With a degree 1 in either direction it raises IndexError for every point. parameterize_surface returns the data points, permuted, each with a pair in the unit square, or raises LinAlgError. Both outcomes occur.", "quantifier": "all clamped surfaces, points and tolerances; explicit witnesses for both outcomes", "why_tests_cant": "absence of all other failures for all surfaces and points", "anchors": ["fit/algorithms/parameterize.py:surface_inversion", "fit/algorithms/parameterize.py:initial_guess_surf", "fit/algorithms/parameterize.py:parameterize_surface", "spline/model/bspline.py:BSplineSurface.derivatives"]}
{"id": "C125", "title": "The single fit of a surface follows its data", "statement": "When the data parameters contain a grid with the Schoenberg-Whitney condition in both directions (C111), single_fit_surface does not depend on the order of the data rows, and an affine map of data and surface maps the fitted control points by the same map. An inner control point whose basis function vanishes at all data is put at the origin by the least-norm solver, whatever the data; translating surface and data then never translates the fitted surface.", "quantifier": "all clamped surfaces, data with parameters in the domain, least-squares (first part) or least-norm (second part) solvers, affine maps", "why_tests_cant": "relation between runs over all inputs", "anchors": ["fit/algorithms/fitting.py:single_fit_surface", "fit/algorithms/fitting.py:linear_fit_fixed"]}
{"id": "C126", "title": "Derivatives of a surface across its edges", "statement": "On a clamped surface the first derivative across an edge is degree/(outermost span) times the difference of the two outermost rows of control points, evaluated as a curve along the edge; at a corner the first derivatives and the twist are multiples of the differences of the two, respectively four, control points at the corner.", "quantifier": "all clamped surfaces and parameters along the edge", "why_tests_cant": "equality for all surfaces and parameters", "anchors": ["spline/model/bspline.py:BSplineSurface.derivatives"]}
{"id": "C127", "title": "one_basis_function_ders fails above the degree", "statement": "With deriv_order above the degree one_basis_function_ders returns zeros outside the support of the basis function and raises IndexError everywhere inside, although the derivatives exist (they are zero) and basis_function_ders returns them.", "quantifier": "all degrees, knot vectors, indices, parameters inside a span and orders above the degree", "why_tests_cant": "universal claim; needs parameters in every span", "anchors": ["spline/algorithms/basis.py:one_basis_function_ders", "spline/algorithms/basis.py:basis_function_ders"]}
{"id": "C128", "title": "Knot insertion in rounded arithmetic", "statement": "With every operation rounded (relative error 1-rho), curve_knot_insertion inserts the knots exactly, copies the control points that the knot does not affect bit for bit, and every other control point has in each coordinate an error of at most 3(rho^(-3r)-1) times the largest coordinate. In double precision, degree at most 10 and a parameter at least 2e-5 from all knots, it returns, and the new curve is the old one up to 1e-14 times the largest coordinate at all parameters. The new control points are in general not the exact ones.", "quantifier": "all clamped curves, parameters, numbers of insertions, rounding functions", "why_tests_cant": "all inputs and all roundings", "anchors": ["spline/algorithms/knots.py:curve_knot_insertion"]}
{"id": "C129", "title": "What assignments to spline objects do", "statement": "Degrees below 1 and sizes not above the degree raise ValueError, sizes without a degree TypeError; control points raise ValueError without both surface degrees (also on curves) or in the declared dimension, AttributeError or IndexError if they have no last dimension; knot_vector without a degree raises AttributeError, without control points ValueError, and knots that check_knot_vector rejects are ignored without an exception; knot_vector_u and knot_vector_v raise AttributeError when degree and control points are set, ValueError otherwise; insert_knot raises UnboundLocalError. All other assignments store the value and change nothing else.", "quantifier": "all objects in any state, all arguments", "why_tests_cant": "all states and arguments", "anchors": ["spline/model/base_geometry.py:SplineSurface", "spline/model/base_geometry.py:SplineCurve"]}
{"id": "C130", "title": "Knot insertion up to full multiplicity tears the curve", "statement": "Inserting a parameter of a half-open span so often that its multiplicity becomes degree + 1 is not rejected and gives the right knots, but one control point is read from the wrong end of a work array: the control point that should be C(u) is the old control point of the span if u was not a knot and the origin if it was. The returned curve is the old one outside the span [a, u) before u; on it, (wrong point - C(u))*((x-a)/(u-a))^degree is added, so unless the wrong point is C(u) the curve changes everywhere in the span and jumps at u.", "quantifier": "all knot vectors, control points, parameters in a half-open span whose near knots (np.isclose) are equal to it", "why_tests_cant": "all inputs; correct for every smaller number of insertions", "anchors": ["spline/algorithms/knots.py:curve_knot_insertion"]}
{"id": "C131", "title": "The rounds of the adaptive fit improve on each other", "statement": "A run of fit_curve_knot_insertion is a sequence of rounds: the data are parameterized on the current curve, the best curve with its knots and ends at these parameters is computed, and knots are put in the middle of all spans without changing the curve. Therefore at the parameters of its round every fit is at least as close to the data, in each coordinate, as the fit of the round before. A curve that passes through all data at the parameters found on it is returned unchanged by the next fit if the data determine it (C109).", "quantifier": "all initial curves with knot spans long enough for the halvings, data, least squares solvers, black-box evaluation", "why_tests_cant": "relation between all iterations of a loop", "anchors": ["fit/algorithms/fitting.py:fit_curve_knot_insertion", "fit/algorithms/fitting.py:single_fit_curve"]}
{"id": "C132", "title": "The start values of the inversions are nearly closest", "statement": "The point at the parameter returned by initial_guess_curve is farther from the given point than the nearest point of the curve by at most the norm of the vector of L_k/(2(2n-1)), where L_k is the Lipschitz constant of coordinate k read off the control points (C119); the same for initial_guess_surf with L_k/(2(2 numU - 1)) + M_k/(2(2 numV - 1)) - provided the curve (surface) comes closer to the point than 1e6 by as much. The Euclidean norm over the real numbers is covered.", "quantifier": "all clamped curves and surfaces on [0,1] all of whose parameters can be evaluated, points, norms that satisfy the triangle inequality and are monotone in the absolute values of the entries", "why_tests_cant": "comparison with all parameters, not only those of the grid", "anchors": ["fit/algorithms/parameterize.py:initial_guess_curve", "fit/algorithms/parameterize.py:initial_guess_surf"]}
{"id": "C133", "title": "End points that are interpolated exactly in double precision", "statement": "If the length x of the first (last) span as computed satisfies fl(x*fl(1/x)) = 1, single_point returns at 0 (at 1) exactly the first (last) control point in double precision, whatever the order of the sums; likewise surfaces at the four corners. This holds when the end spans are powers of two (Bezier curves and the knots obtained from them by halving spans) and for the knots of generate_uniform with at most 20 spans. With 21 uniform spans it is false: a cubic whose control points are all (1,1,1) never returns (1,1,1) at its end.", "quantifier": "all clamped knot vectors, degrees, control points in double precision, summation orders; an explicit counterexample", "why_tests_cant": "bit-exact statement for all inputs and all summation orders", "anchors": ["spline/model/bspline.py:BSplineCurve.single_point", "spline/model/bspline.py:BSplineSurface.single_point", "spline/algorithms/basis.py:basis_functions", "spline/algorithms/knots.py:generate_uniform"]}
{"id": "C134", "title": "Local convergence of curve_inversion", "statement": "If the initial guess lies within R of a parameter s in [0,1] where c'(u).(c(u)-p) vanishes, and near s the derivative of this function is at least m in absolute value with Lipschitz constant M, MR < m, then on a curve with exact derivatives curve_inversion does not raise and returns a parameter r in [0,1] with q|r-s| <= (q|u0-s|)^(2^k), q = M/m. Here k is the full number of Newton steps allowed by max_iter, unless the next step is short or the initial guess or the next iterate passes the distance or the cosine test.", "quantifier": "all curves with exact derivatives, points in space, tolerances, iteration limits, attracting foot points", "why_tests_cant": "limit behaviour for all curves and start values", "anchors": ["fit/algorithms/parameterize.py:curve_inversion", "fit/algorithms/parameterize.py:initial_guess_curve"]}
{"id": "C135", "title": "Closest points from which surface_inversion moves away", "statement": "On the parabolic cylinder (u, v, (u-1/2)^2), a BSplineSurface of degree two, the only point closest to (1/2,1/2,1/4) is the one at (1/2,1/2). With tolerances up to 1/20 (so with the default ones) and every max_iter >= 5 surface_inversion returns a pair whose first parameter is off by at least 9/50, although the initial guess is off by 1/10 only; the point returned is farther away than the point of the initial guess. This is due to the derivatives being taken at the previous pair (C78): on the profile curve, where the derivatives are up to date, curve_inversion converges from every start value (C134).", "quantifier": "all tolerances up to 1/20, all iteration limits from 5 on", "why_tests_cant": "behaviour for all iteration limits and tolerances", "anchors": ["fit/algorithms/parameterize.py:surface_inversion", "fit/algorithms/parameterize.py:initial_guess_surf"]}
{"id": "C136", "title": "Local convergence of surface_inversion", "statement": "Although the derivatives used by the Newton steps of surface_inversion are those of the previous pair, the iteration converges near a foot point that is close to the surface: if first and second derivatives are bounded near the foot point, the determinant of the steps is bounded away from 0 there and Q*R+kappa <= theta <= 1 for explicit constants Q and kappa, kappa proportional to the distance of the point from the surface, then from every initial guess within R the run does not raise, returns a pair of [0,1]x[0,1], and after k steps the parameter error is at most theta^((k+1)/2) times that of the guess. For a point on the surface the order of convergence is the golden ratio: Q*error <= (Q*initial error)^F(k+2), F the Fibonacci numbers. The number of steps is the iteration limit unless a stopping test holds.", "quantifier": "all surfaces with two exact derivatives, points, tolerances, iteration limits, and initial guesses near a foot point", "why_tests_cant": "convergence of an iteration, for all surfaces", "anchors": ["fit/algorithms/parameterize.py:surface_inversion"]}
{"id": "C137", "title": "What fit and parameterize of an InteriorProblem do once it has boundaries", "statement": "For an InteriorProblem whose boundaries, their parameterized data and the data are there: parameterize uses the fitted surface if there is one, else the initial surface, else the ruled surface between the boundaries, which is stored first and kept even if the parameterization raises. fit always fits the initial surface, never an earlier fit, and then parameterizes the data on the result; if the fit raises nothing changes, if only the last parameterization raises the new surface stays beside the old parameterized data. Repeating a successful fit changes nothing. The fitted surface contains both boundary curves if they have the same degree, size and knots.", "quantifier": "all states of an InteriorProblem with boundaries, all solvers and surfaces as black boxes", "why_tests_cant": "all states; the public setters cannot even produce them", "anchors": ["fit/model/base_data.py:InteriorProblem.parameterize", "fit/model/base_data.py:InteriorProblem.fit"]}
{"id": "C138", "title": "A BoundaryProblem with missing attributes", "statement": "set_init_curve raises TypeError if the degree is missing, if (fixed method) the number of control points is missing, or if an end point is missing, and ValueError if fewer control points than the degree are asked for; it changes nothing then. parameterize and fit raise the same exception without changing anything when there is no curve yet. Without data they raise TypeError, but keep the initial curve they have made.", "quantifier": "all states of a BoundaryProblem", "why_tests_cant": "all states", "anchors": ["fit/model/base_data.py:BoundaryProblem.set_init_curve", "fit/model/base_data.py:BoundaryProblem.parameterize", "fit/model/base_data.py:BoundaryProblem.fit", "fit/algorithms/initialization.py:initialize_curve"]}
{"id": "C139", "title": "curve_inversion fails only where the curve is singular", "statement": "On a curve with exact derivatives and tolerances >= 0, curve_inversion returns a parameter of [0,1] or raises ValueError; it raises only if at some parameter the first derivative of the curve vanishes and the second one is orthogonal to the difference to the point. So it always returns on curves whose derivative never vanishes, and it raises whenever the initial guess is such a singular parameter farther away than the first tolerance, for example for every other point if the curve is a single point.", "quantifier": "all curves with exact derivatives, points, tolerances, iteration limits", "why_tests_cant": "all curves and points", "anchors": ["fit/algorithms/parameterize.py:curve_inversion"]}
{"id": "C140", "title": "Rounding errors of the derivatives of the basis functions", "statement": "With every operation rounded (relative error 1-rho), basis_function_ders does not raise on a non-empty span. Its column 0 is off by a factor of at most rho^(-6p). The errors of the derivatives of order m of all p+1 functions together are at most (rho^(-6p-4) - 1) p(p-1)...(p-m+1) (2/h)^m, h the length of the span; the sum of the derivatives of order m >= 1, exactly zero without rounding, is at most as large; derivatives of an order above the degree are exactly zero. In double precision and for degrees up to 10 the first factor is at most 1e-14.", "quantifier": "all knot vectors, non-empty spans, parameters of the closed span, degrees, orders and all roundings", "why_tests_cant": "error bounds over all inputs", "anchors": ["spline/algorithms/basis.py:basis_function_ders"]}
{"id": "C141", "title": "Rounding errors of surface derivatives", "statement": "Whatever the order of the sums, derivatives of a surface (normalize=False) in rounded arithmetic returns an array, and the mixed derivative of order (a,b) differs in each coordinate from the exact one of the patch in which find_span places the parameters by at most (rho^(-7p-7q-10) - 1) p..(p-a+1) (2/hu)^a q..(q-b+1) (2/hv)^b R, R bounding the control coordinates; in double precision and for degrees up to 4 the first factor is at most 1e-14.", "quantifier": "all clamped surfaces, parameters that are not repeated knots, orders, all roundings and all orders of summation", "why_tests_cant": "error bounds over all inputs", "anchors": ["spline/model/bspline.py:BSplineSurface.derivatives", "spline/algorithms/basis.py:basis_function_ders"]}
{"id": "C142", "title": "The complete runs of curve_inversion", "statement": "On a curve with exact derivatives and tolerances >= 0, let x0 be the initial guess and x1, x2, ... the clamped Newton iterates. If x0 is within eps1 of the point, or the cosine of the angle between tangent and residual exists and is at most eps2, x0 is returned. Otherwise, if the step from xn is the first that moves the point by at most eps1 along the tangent or leads to a parameter passing one of these two tests, and n <= max_iter + 1, xn is returned (the iterate before that step). If no step does, x(max_iter+2) is returned (x1 for a negative max_iter). If the step from xn is 0/0, ValueError is raised.", "quantifier": "all curves with exact derivatives, points, tolerances >= 0, iteration limits and stopping indices", "why_tests_cant": "exact equality of the result with a sequence defined independently, for all runs", "anchors": ["fit/algorithms/parameterize.py:curve_inversion"]}
{"id": "C143", "title": "The complete runs of surface_inversion", "statement": "On a surface with exact derivatives and tolerances >= 0, let x0 be the initial guess and x1, x2, ... the clamped Newton iterates where the step from xk uses the derivatives at x(k-1) (at x0 for k = 0). If x0 passes the distance test or both angle tests, x0 is returned. Otherwise, if the step from xn is the first that is shorter than eps1 (with the derivatives at x(n-1)) or leads to a pair passing the distance test or both angle tests (with the tangents at xn), or if n = max_iter, x(n+1) is returned (the pair after that step). If a singular matrix is met before, LinAlgError is raised.", "quantifier": "all surfaces with exact derivatives, points, tolerances >= 0, iteration limits and stopping indices", "why_tests_cant": "exact equality of the result with a sequence defined independently, for all runs", "anchors": ["fit/algorithms/parameterize.py:surface_inversion"]}
{"id": "C144", "title": "Affine changes of the knots", "statement": "basis_functions and one_basis_function return the same values, or fail in the same way, when knots and parameter are mapped by the same affine map; the m-th derivatives in one_basis_function_ders and basis_function_ders are divided by the m-th power of its slope. So normalizing the knots first makes no difference. find_span returns the same span as long as its test for the last knot gives the same answer; that test has an absolute tolerance, so on every knot vector shrunk far enough find_span returns the last span for every parameter, and single_point returns wrong points on knots that check_knot_vector accepts.", "quantifier": "all spans, parameters, degrees, knot arrays and affine maps (slope of either sign for basis_functions, positive for the others); basis_function_ders on non-empty spans", "why_tests_cant": "relation between runs over all inputs, including the failing ones", "anchors": ["spline/algorithms/basis.py:basis_functions", "spline/algorithms/basis.py:one_basis_function", "spline/algorithms/basis.py:one_basis_function_ders", "spline/algorithms/basis.py:basis_function_ders", "spline/algorithms/knots.py:find_span", "spline/algorithms/knots.py:normalize", "spline/model/bspline.py:BSplineCurve.single_point"]}
{"id": "C145", "title": "Inserting one knot several times", "statement": "When a knot in the half-open span found by find_span is inserted until its multiplicity is the degree, the point of the curve at this parameter becomes a control point, number span - old multiplicity: inserting a new knot degree times is an evaluation, the control point with the number of the span is what single_point returns. Inserting a knot r times and then s times gives the knots and control points of inserting it r + s times if find_span places the knot, now that it is in the array, in the span on its right; if it places it in the span on its left, inserting it once and once more is not inserting it twice (unless two control points coincide). Both happen.", "quantifier": "all clamped curves, parameters, numbers of insertions with total multiplicity at most the degree", "why_tests_cant": "relation between several calls, for all inputs", "anchors": ["spline/algorithms/knots.py:curve_knot_insertion", "spline/model/bspline.py:BSplineCurve.single_point"]}
{"id": "C146", "title": "Lengths of curves and control polygons", "statement": "For every norm the polygon through the points that points returns at increasing parameters is at most as long as the control polygon, so the curve is not longer than its control polygon, and any two of its points are at most that far apart. curve_knot_insertion does not lengthen the control polygon while the multiplicity stays at most the degree; at the last knot and beyond the degree it does.", "quantifier": "all clamped curves, norms, increasing parameter lists of any length, inserted knots", "why_tests_cant": "all refinements", "anchors": ["spline/model/bspline.py:BSplineCurve.points", "spline/model/bspline.py:BSplineCurve.single_point", "spline/algorithms/knots.py:curve_knot_insertion"]}
{"id": "C147", "title": "Infinities and NaN do not disturb runs without a division by zero", "statement": "In numpy a division by zero does not stop a run. Modelled with IEEE infinities and NaN, where every comparison with NaN is false, each routine returns what it returns in the exact model, or raises the same exception, unless the exact run divides by zero: find_span, find_multiplicity, normalize, check_knot_vector, curve_knot_insertion, the four basis function routines, single_point and derivatives of curves and surfaces, curve_inversion and surface_inversion. check_knot_vector is the same without exception: normalize makes a constant array an array of NaNs, which is rejected.", "quantifier": "all inputs of all these routines; curve_inversion for curves given by their methods", "why_tests_cant": "agreement of two executions on all inputs", "anchors": ["spline/algorithms/knots.py:find_span", "spline/algorithms/knots.py:normalize", "spline/algorithms/knots.py:check_knot_vector", "spline/algorithms/knots.py:find_multiplicity", "spline/algorithms/knots.py:curve_knot_insertion", "spline/algorithms/basis.py:basis_functions", "spline/algorithms/basis.py:basis_function_ders", "spline/algorithms/basis.py:one_basis_function", "spline/algorithms/basis.py:one_basis_function_ders", "spline/model/bspline.py:BSplineCurve.single_point", "spline/model/bspline.py:BSplineCurve.derivatives", "spline/model/bspline.py:BSplineSurface.single_point", "spline/model/bspline.py:BSplineSurface.derivatives", "fit/algorithms/parameterize.py:curve_inversion", "fit/algorithms/parameterize.py:surface_inversion"]}
{"id": "C148", "title": "A division by zero is visible in every coordinate", "statement": "For degree at least 1 basis_functions returns degree+1 values: the exact ones on a non-empty span, and on an empty span none of them is finite; at the repeated knot all are NaN. Therefore single_point of a curve or surface never raises on its domain, and either all three coordinates are exact or none is finite (in at least one direction the span is empty); they are all NaN if the parameter is the repeated knot. Likewise basis_function_ders and derivatives of surfaces (any orders, normalize or not): the whole array is exact or no entry is finite.", "quantifier": "all knot vectors, degrees at least 1, control points, parameters of the domain within [0,1]", "why_tests_cant": "all inputs", "anchors": ["spline/algorithms/basis.py:basis_functions", "spline/model/bspline.py:BSplineCurve.single_point", "spline/model/bspline.py:BSplineSurface.single_point", "spline/algorithms/basis.py:basis_function_ders", "spline/model/bspline.py:BSplineSurface.derivatives"]}
{"id": "C149", "title": "NaN and infinity as arguments", "statement": "validate_knot accepts exactly the numbers of [0,1], so single_point and derivatives raise ValueError for a NaN or infinite parameter, whatever the knots and control points are. find_span(NaN) returns its first probe after one round; find_span of an infinity does not terminate. find_multiplicity(NaN) is 0, basis_functions(NaN) is all NaN, one_basis_function(NaN) is 0 and one_basis_function_ders(NaN) all zeros. check_knot_vector returns False if any knot is NaN or infinite; normalize then makes every knot 0 or NaN.", "quantifier": "all arrays of numbers, infinities and NaNs (find_span of an infinity: finite knots)", "why_tests_cant": "all inputs", "anchors": ["spline/util/validation.py:validate_knot", "spline/algorithms/knots.py:find_span", "spline/algorithms/knots.py:find_multiplicity", "spline/algorithms/knots.py:normalize", "spline/algorithms/knots.py:check_knot_vector", "spline/algorithms/basis.py:basis_functions", "spline/algorithms/basis.py:one_basis_function", "spline/algorithms/basis.py:one_basis_function_ders", "spline/model/bspline.py:BSplineCurve.single_point", "spline/model/bspline.py:BSplineSurface.single_point"]}
{"id": "C150", "title": "A NaN or infinite coordinate in the data", "statement": "If a coordinate of the point is NaN or infinite the initial guess is 0 resp. (0,0), and curve_inversion and surface_inversion raise ValueError in their first round for all tolerances and iteration limits: both tests are false, the Newton step is NaN, NaN passes the clamping, and the next evaluation rejects it. So parameterize_curve and parameterize_surface never return for data with such a point anywhere.", "quantifier": "all curves and surfaces with exact derivatives that reject NaN, in particular clamped B-spline surfaces of degree at least 2 all of whose parameters can be evaluated; all points, tolerances, iteration limits", "why_tests_cant": "all inputs", "anchors": ["fit/algorithms/parameterize.py:curve_inversion", "fit/algorithms/parameterize.py:initial_guess_curve", "fit/algorithms/parameterize.py:surface_inversion", "fit/algorithms/parameterize.py:initial_guess_surf", "fit/algorithms/parameterize.py:parameterize_curve", "fit/algorithms/parameterize.py:parameterize_surface"]}
{"id": "C151", "title": "What the setters of the problem objects do with other values", "statement": "degree: None, strings, lists and other objects raise TypeError, NaN, minus infinity and arrays with several entries ValueError, infinity OverflowError; a float (or array of one entry) raises ValueError if not positive and is otherwise rounded down, so a value between 0 and 1 is stored as degree 0. num_ctrlpts: None, lists, other objects and arrays with several entries raise TypeError, NaN ValueError, infinities OverflowError; strings count as the int they denote; a float is rounded down and accepted from 4 (BoundaryProblem) resp. 3 (InteriorProblem) on. A fit_method that is no string raises TypeError, data, start and end that are no arrays or lists ValueError. A boundary raises TypeError, a Boundary object AttributeError. Whatever raises changes nothing.", "quantifier": "all values, all states of both classes", "why_tests_cant": "all values", "anchors": ["fit/model/base_data.py:BoundaryProblem.degree", "fit/model/base_data.py:BoundaryProblem.num_ctrlpts", "fit/model/base_data.py:BoundaryProblem.fit_method", "fit/model/base_data.py:BoundaryProblem.data", "fit/model/base_data.py:InteriorProblem.degree", "fit/model/base_data.py:InteriorProblem.num_ctrlpts", "fit/model/base_data.py:InteriorProblem.top_boundary", "fit/model/base_data.py:InteriorProblem.bottom_boundary"]}
{"id": "C152", "title": "The mesh that surf_to_vtk writes", "statement": "With n_tri = n >= 1 the triangulator is given the uniform grid of [0,1]x[0,1] with n+1 values per direction, and the mesh handed to the writer has the surface points at these parameters as vertices, in the same order, and the triangles of the triangulator. If the triangles have empty circumscribed circles (Delaunay), each lies in one cell of the grid, and every point of the mesh differs in coordinate k from the surface point at the same parameters by at most (L_k+M_k)/(2n), L_k and M_k being the Lipschitz constants read off the control net; if they cover the square, every surface point is that close to the mesh. If the surface cannot be evaluated at a grid parameter, or the triangulator raises, the call raises and no file is touched. n_tri = 0 raises; for a negative n_tri the surface is not evaluated and all (|n_tri|-1)^2 vertices are zero.", "quantifier": "all clamped surfaces, numbers of triangles, file systems, triangulators and writers as black boxes; the distance for surfaces all of whose parameters can be evaluated and all Delaunay triangulations of the grid", "why_tests_cant": "comparison with all points of the surface, all triangulations", "anchors": ["fit/io/text.py:surf_to_vtk"]}
{"id": "C153", "title": "Points with another number of coordinates", "statement": "The inversions do not check the number of coordinates of the point. A point with one coordinate x is broadcast by numpy: initial_guess_curve, curve_inversion, initial_guess_surf and surface_inversion return for it what they return for (x,x,x), for all tolerances and limits. For any other number of coordinates but three they raise ValueError if the curve or surface can be evaluated at 0. parameterize_curve and parameterize_surface never return if some point of the data has not exactly three coordinates.", "quantifier": "all curves and surfaces whose points and derivatives have three coordinates, in particular all B-spline curves and surfaces; all points, tolerances, iteration limits", "why_tests_cant": "equality of runs over all inputs", "anchors": ["fit/algorithms/parameterize.py:curve_inversion", "fit/algorithms/parameterize.py:initial_guess_curve", "fit/algorithms/parameterize.py:surface_inversion", "fit/algorithms/parameterize.py:initial_guess_surf", "fit/algorithms/parameterize.py:parameterize_curve", "fit/algorithms/parameterize.py:parameterize_surface"]}
{"id": "C154", "title": "Integer arguments of the knot functions", "statement": "With integers in place of natural numbers: find_span with any rtol agrees with the search of C01 using that tolerance, and whatever span it returns without the end test brackets the knot, read with Python's negative indices; check_knot_vector with degree -1 tests only the number of knots and their order and otherwise raises or rejects; generate_uniform returns for exactly the pairs of C08 and raises ValueError otherwise; curve_knot_insertion with num_inserts = -1 silently deletes knot k and control point k - degree (k the span of the given knot, its multiplicity below the degree), and below minus the number of control points raises ValueError.", "quantifier": "all integers, all knot vectors", "why_tests_cant": "integers outside the documented range", "anchors": ["spline/algorithms/knots.py:find_span", "spline/algorithms/knots.py:check_knot_vector", "spline/algorithms/knots.py:generate_uniform", "spline/algorithms/knots.py:curve_knot_insertion"]}
{"id": "C155", "title": "Integer arguments of the basis functions", "statement": "With integers in place of natural numbers: basis_functions returns an empty array for degree -1 and raises ValueError below; basis_function_ders and BSplineSurface.derivatives raise IndexError for the order -1 and ValueError below; one_basis_function with a negative index i, i + degree + 1 < 0, is 0 outside the knots U[i..i+degree+1] and raises ValueError between them, while one_basis_function_ders gives for it what it gives for the index len(U) + i; the other negative indices give 0 whenever the knots read are in the wrong order.", "quantifier": "all integers, all knot vectors, all surfaces", "why_tests_cant": "integers outside the documented range", "anchors": ["spline/algorithms/basis.py:basis_functions", "spline/algorithms/basis.py:basis_function_ders", "spline/algorithms/basis.py:one_basis_function", "spline/algorithms/basis.py:one_basis_function_ders", "spline/model/bspline.py:BSplineSurface.derivatives"]}
{"id": "C156", "title": "Line terminators of text files", "statement": "read_curve_from_txt and read_surf_from_txt return the same values, or raise the same exception, for a file whose lines end in CR LF or CR as for the file with LF.", "quantifier": "all file contents without CR, both readers", "why_tests_cant": "files from other systems", "anchors": ["fit/io/text.py:read_curve_from_txt", "fit/io/text.py:read_surf_from_txt"]}
{"id": "C157", "title": "The inversion functions in any arithmetic", "statement": "Let nothing be known about the results of +, -, *, /, norm, inner and inv, only that they are functions of their arguments (possibly infinite or NaN) and that comparisons are exact and false for NaN; this covers double precision with overflow, underflow and any order of summation. If the evaluation methods raise outside [0,1], then whatever curve_inversion returns is a number of [0,1]; it ends after at most max(1, max_iter+2) passes; and what it returns after at least one Newton step fails both convergence tests. If NaN propagates, surface_inversion returns a pair of the unit square or raises, after at most max(1, max_iter+1) passes.", "quantifier": "all arithmetics, all curves and surfaces whose methods raise outside the domain, all points, tolerances and limits, including NaN and infinities", "why_tests_cant": "all arithmetics", "anchors": ["fit/algorithms/parameterize.py:curve_inversion", "fit/algorithms/parameterize.py:surface_inversion", "fit/algorithms/parameterize.py:initial_guess_curve", "fit/algorithms/parameterize.py:initial_guess_surf"]}
{"id": "C158", "title": "The start values in rounded arithmetic", "statement": "If the computed distances are right up to a factor c, initial_guess_curve and initial_guess_surf return a grid entry whose computed point is, up to the factor c^2, at least as close to the given point as all computed points of the grid, if one of them is closer than c*10^6, and the first grid entry if all are farther than 10^6/c. For B-spline curves and surfaces evaluated with rounding, sums in any order, the exact point there is nearly the closest point: c^2 times its distance is at most the distance of any point of the curve or surface plus the norm of the Lipschitz constants times half a grid step plus explicit rounding terms. c is the fourth power of the accuracy of one operation for the Euclidean norm.", "quantifier": "all clamped curves and surfaces with evaluable parameters, all points, all roundings with relative accuracy, all summation orders", "why_tests_cant": "comparison with all points of the curve in rounded arithmetic", "anchors": ["fit/algorithms/parameterize.py:initial_guess_curve", "fit/algorithms/parameterize.py:initial_guess_surf"]}
{"id": "C159", "title": "What one knot insertion does to the curve", "statement": "Whatever find_multiplicity counts and whichever side find_span chooses: if s < degree knots are counted, curve_knot_insertion with num_inserts = 1 returns the old knots with the new one in its place, and the new curve is the old one minus the sum over i = k-s+1..k of (u-U[i])/(U[i+p]-U[i]) (P[i]-P[i-1]) N_i, k the span found. So the curve is kept exactly if each of these s knots is the new knot itself or has P[i] = P[i-1]. The change is at most the largest of these coefficients. If no knot within the tolerance of find_multiplicity is larger than the new one the change is at most a multiple of that tolerance; a knot inserted a millionth left of an existing one can change the curve by as much as the distance of its control points.", "quantifier": "all knot vectors, control points, knots of the closed span found, numbers of counted knots below the degree", "why_tests_cant": "identity of functions for all inputs, including knots nearly equal to the new one", "anchors": ["spline/algorithms/knots.py:curve_knot_insertion", "spline/algorithms/knots.py:find_multiplicity", "spline/algorithms/knots.py:find_span"]}
{"id": "C160", "title": "Evaluation with overflow and underflow", "statement": "In IEEE double precision with gradual underflow and overflow, basis_functions and single_point of curves and surfaces return numbers (no infinity, no NaN) that agree with the exact values up to 1e-14 times the value (for points, the value with absolute control coordinates) plus a multiple of 2^-1050 (2^-1045 for curves) proportional to the knots or the coordinates, provided spans are at least 2^-1000 long and knots and coordinates at most 2^1000. General form for every rounding with relative error, underflow error and overflow threshold. Without overflow the functions are those of the rounded model, without rounding those with infinities and NaN.", "quantifier": "all sorted double knot vectors, double parameters in a span, degrees up to 10 (5 for surfaces), control nets, orders of summation; the general form for every degree and format", "why_tests_cant": "all doubles", "anchors": ["spline/algorithms/basis.py:basis_functions", "spline/model/bspline.py:BSplineCurve.single_point", "spline/model/bspline.py:BSplineSurface.single_point"]}
{"id": "C161", "title": "The knot test in double precision", "statement": "check_knot_vector in double precision returns False for every array of doubles whose range is 2^1024 or more, or at most 2^-1024, however well clamped and sorted it is; the bounds are exact among powers of two. It returns True for every clamped array of doubles whose range is between 2^-1022 and 2^1023. It also returns True for an array that is not sorted and that it refuses in exact arithmetic: normalizing rounds the two knots to the same number.", "quantifier": "all arrays of doubles, all degrees and numbers of control points", "why_tests_cant": "extreme inputs", "anchors": ["spline/algorithms/knots.py:check_knot_vector", "spline/algorithms/knots.py:normalize"]}
{"id": "C162", "title": "Convex control polygons give convex curves", "statement": "If the control polygon is convex in some direction, with the control points placed at the averages of p consecutive knots, then the curve evaluated by single_point is a convex function of the parameter in this direction. A surface is convex along its parameter lines if the lines of its control net are.", "quantifier": "all clamped curves and surfaces without knots of multiplicity above the degree, directions, regular parameters", "why_tests_cant": "all triples of parameters of all curves", "anchors": ["spline/model/bspline.py:BSplineCurve.single_point", "spline/model/bspline.py:BSplineSurface.single_point"]}
{"id": "C163", "title": "Knot insertion moves the control points to the curve", "statement": "If neighbouring control points differ by at most L times the distance of their knot averages, every control point is within L h of the curve at its knot average, h the width of the widest window of p+1 spans. curve_knot_insertion keeps L. So inserting any list of new knots gives control points within L times the new h of the original curve. From degree 2 on the distance is of second order: at most 2 M h^2, where M bounds the control points of the second derivative, and curve_knot_insertion keeps M.", "quantifier": "all clamped curves, coordinates, parameters, lists of new knots", "why_tests_cant": "all refinements of all curves", "anchors": ["spline/algorithms/knots.py:curve_knot_insertion", "spline/model/bspline.py:BSplineCurve.single_point"]}
{"id": "C164", "title": "Knot insertion with overflow and underflow", "statement": "In IEEE double precision with gradual underflow and overflow, curve_knot_insertion of a parameter at least 2e-5 away from every knot of a clamped knot vector on [0,1] returns numbers (no infinity, no NaN) for coordinates of any size up to 2^1020. The knots are exact, the control points outside the affected range are copied, and the new curve is the old one for every parameter up to 2e-14 times the largest coordinate plus 2^-1060. General form for every rounding with relative error, underflow error and overflow threshold and for knots of any multiplicity. Without overflow the function is that of the rounded model, without rounding that with infinities and NaN. On knots whose range overflows a wrong finite control point is returned.", "quantifier": "all clamped double knot vectors, double parameters and control points, up to degree insertions, degrees up to 10; the general form for every degree and format", "why_tests_cant": "all doubles", "anchors": ["spline/algorithms/knots.py:curve_knot_insertion", "spline/algorithms/knots.py:find_multiplicity", "spline/algorithms/knots.py:find_span"]}
{"id": "C165", "title": "How close fits come to Lipschitz data", "statement": "If in a coordinate the data and the two end points change at a rate of at most L with the parameters, the mean squared distance of the data to the curve that single_fit_curve returns is at most (L h)^2, h the longest window of degree+1 consecutive knot spans. In round s of fit_curve_knot_insertion all spans are at most w/2^s long, w the longest span of the initial curve, and the mean squared distance is at most (L (degree+1) w/2^s)^2 for data that are Lipschitz with the parameters of that round. For single_fit_surface, with rates L and M in the two parameters, also towards the boundary control points, it is at most (L h + M h')^2.", "quantifier": "all clamped curves and surfaces of degree at least 1, data, rates, exact least squares solvers and numbers of rounds", "why_tests_cant": "error bounds over all data", "anchors": ["fit/algorithms/fitting.py:single_fit_curve", "fit/algorithms/fitting.py:single_fit_surface", "fit/algorithms/fitting.py:fit_curve_knot_insertion"]}
{"id": "C166", "title": "Fits of data in a plane", "statement": "If the data and the end points (for surfaces the boundary control points) are in a plane and the data parameters determine the fit (Schoenberg-Whitney condition), single_fit_curve and single_fit_surface return control points in the plane, wherever the inner control points were before; so does fit_curve_knot_insertion if the parameters of its last round determine the fit. With the solution of least norm the condition is not needed if the plane contains the origin. In any other plane it is: an inner control point without data is put outside of the plane.", "quantifier": "all clamped curves and surfaces, planes, data and least squares solvers", "why_tests_cant": "all data", "anchors": ["fit/algorithms/fitting.py:single_fit_curve", "fit/algorithms/fitting.py:single_fit_surface", "fit/algorithms/fitting.py:fit_curve_knot_insertion", "fit/algorithms/fitting.py:linear_fit_fixed"]}
{"id": "C167", "title": "The complete fits do not depend on the order of the data; fit_surface as a whole", "statement": "fit_curve_knot_insertion, fit_curve_fixed_ctrlpts, fit_surface and the fit methods of BoundaryProblem and InteriorProblem return for every order of the data (for fit_surface also of the boundary data) the same result whenever they return, for every least squares solver, even where the fit is not determined by the data. If the data can be parameterized on the initial surface (knots from 0 to 1), fit_surface returns; only inner control points change, and no surface with this boundary is closer to the data at these parameters in any coordinate.", "quantifier": "all initial curves and surfaces, data, permutations and, for the first part, functions in the place of the least squares solver", "why_tests_cant": "all permutations of all data", "anchors": ["fit/algorithms/fitting.py:fit_curve_knot_insertion", "fit/algorithms/fitting.py:fit_curve_fixed_ctrlpts", "fit/algorithms/fitting.py:fit_surface", "fit/model/base_data.py:BoundaryProblem.fit", "fit/model/base_data.py:InteriorProblem.fit", "fit/algorithms/parameterize.py:parameterize_curve", "fit/algorithms/parameterize.py:parameterize_surface"]}
{"id": "C168", "title": "Fits are orthogonal projections of the data", "statement": "For any exact least squares solver and fixed parameters: the squared distance of a curve (surface) with the same ends (boundary) to the data is that of the fit plus the squared distance of the two at the data parameters; changing the data changes the fitted values by no more than the data, in sums of squares, and if one data point moves no fitted value moves further; fitted values do not depend on the solver or on the inner control points before the fit, determined or not, and are linear in data and end points, as are the control points if the fit is determined. The fit passes through all data that can be matched in increasing order to inner basis functions with the parameters inside their supports (for surfaces: data at different nodes of a grid that interlaces the knots), however few the data.", "quantifier": "all clamped curves and surfaces, data and exact least squares solvers", "why_tests_cant": "all data", "anchors": ["fit/algorithms/fitting.py:single_fit_curve", "fit/algorithms/fitting.py:single_fit_surface", "fit/algorithms/fitting.py:linear_fit_fixed"]}
{"id": "C169", "title": "The matrix of the fits with overflow and underflow", "statement": "In IEEE double precision with gradual underflow and overflow, for degrees up to 10, knots and parameters that are doubles, and different knots between 2^-1000 and 2^1000 apart: one_basis_function returns a non-negative number (no infinity, no NaN), zero wherever the exact value is zero, that differs from the exact value x by at most 1e-14 x + (2H + 2/d + 1) 2^-1050, where d is the least distance of different knots and H the range in use. For parameters in the domain and up to 1e8 data points and control points the partition-of-unity check of single_fit_curve and single_fit_surface (degrees up to 7) passes, in whatever order np.sum adds. On a span of length 2^-1030 the entries are infinite and a fit can be refused.", "quantifier": "All clamped knot vectors of doubles with these distances, all double parameters, all data in the domain, all orders of summation", "why_tests_cant": "Underflow in a single entry needs parameters below 1e-150; whether the check can fail for some knot vector, parameters and summation order cannot be settled by runs", "anchors": ["spline/algorithms/basis.py:one_basis_function", "fit/algorithms/fitting.py:single_fit_curve", "fit/algorithms/fitting.py:single_fit_surface"]}
{"id": "C170", "title": "Slopes of curves; curves and surfaces that do not meet themselves", "statement": "The slopes of the control polygon in a coordinate, with its vertices at the averages of p consecutive knots, bound the slopes of the curve evaluated by single_point from both sides. If the coordinate never decreases along the control points, it is strictly increasing along the curve exactly if it grows somewhere among the p+1 control points of every non-empty span; then the parameter of a point is unique, and over the reals the curve is the graph of a function of this coordinate. A surface whose control net is a height field has unique parameters. The initial curve never turns back: its speed is between max(p,n-p)/(n-1) and p(n-p)/(n-1) times that of the uniform motion.", "quantifier": "all clamped knot vectors, control points and regular parameters; all degrees >= 1", "why_tests_cant": "all curves and parameters", "anchors": ["spline/model/bspline.py:single_point", "fit/algorithms/initialization.py:initialize_curve", "spline/algorithms/knots.py:generate_uniform"]}
{"id": "C171", "title": "Fits with an inexact solver: a posteriori errors and stability", "statement": "Whatever the least-squares solver returns, the squared distance at the data parameters between the fitted curve or surface and the exact least-squares fit is exactly the excess of its squared distance to the data over the least one, in every coordinate. If the parameters determine the fit (Schoenberg-Whitney condition; for surfaces a grid), there is a constant that depends on knots and parameters only such that for all data, starting points and solvers the squared error of every control point is at most the constant times the excess, and if the normal equations are missed by G in total, the control points are within constant * G and the excess is at most constant * G^2. The control points of exact fits depend continuously on the data with such a constant.", "quantifier": "for all solvers (also wrong ones), degrees, clamped knot vectors with a non-empty first span, data with parameters in the domain", "why_tests_cant": "np.linalg.lstsq in floating point is never exact; tests compare with stored results and cannot say how far a computed fit can be from the best one for other data.", "anchors": ["fit/algorithms/fitting.py:single_fit_curve", "fit/algorithms/fitting.py:single_fit_surface", "fit/algorithms/fitting.py:linear_fit_fixed"]}
{"id": "C172", "title": "Complete fits in rounded arithmetic with a backward stable solver", "statement": "single_fit_curve and single_fit_surface with every arithmetic operation rounded (basis functions, products and sums of the fixed columns, the right-hand side, the partition-of-unity check in any order of summation) and a least-squares solver that is only backward stable: a call reports a failed check or returns an object with the same degrees and knots and exactly the same ends or boundary, whose control points differ from those of the exact least-squares fit by at most 2 k m (2m+1) (n (6 k m + 4) + 2) eps B, where eps bounds the solver error and the accumulated roundings, B the data and the fixed control points, k the control points by the values at the parameters. If the parameters determine the fit there is such a k, so the computed fits converge to the exact fit linearly in eps. In double precision the check passes for up to 1e10 points and the call returns.", "quantifier": "for all rounding functions of bounded relative error, backward stable solvers, degrees, clamped knot vectors, data with parameters in the domain, orders of summation; eps small enough for the parameters", "why_tests_cant": "A test sees the result of one solver on one machine; how far it can be from the exact fit for other data, other libraries and other orders of summation is not visible in it.", "anchors": ["fit/algorithms/fitting.py:single_fit_curve", "fit/algorithms/fitting.py:single_fit_surface", "fit/algorithms/fitting.py:linear_fit_fixed", "spline/algorithms/basis.py:one_basis_function"]}
{"id": "C173", "title": "The curve fitting loops in double precision", "statement": "initialize_curve, fit_curve_knot_insertion and fit_curve_fixed_ctrlpts with every arithmetic operation rounded. In any arithmetic, with any solver and any inversion: when fit_curve_knot_insertion returns it has exactly degree + 2^t (n - degree) control points, t the first number that reaches num_pts, and fit_curve_fixed_ctrlpts returns the degree, knots and end points of its input. In double precision, with a solver whose result has the right length and an inversion with values in [0, 1], on a clamped curve on [0, 1] whose spans are long enough for t halvings: every run terminates without an exception; the computed knots are doubles, distinct, clamped, and at most t 2^-52 from the points dividing the spans equally; if the knots are multiples of 2^-e with e + t <= 53 they are exactly those; the end control points are kept; the result is a fit of the data on the returned knots, so the error bound of C172 applies. From the initial curve this holds for up to degree + 2^15 control points, with knots exactly j / 2^t. The initial curve has exactly the given end points and inner control points within M 2^-49 of equally spaced ones.", "quantifier": "for all degrees >= 1, data of points with three coordinates, solvers, inversions with values in [0, 1], numbers of control points within the bounds, and all orders of summation in the unity check", "why_tests_cant": "That the multiplicity test and the unity check never fail during the rounds because of rounding errors in the inserted knots depends on all intermediate values of the loop, which change with data, solver and machine.", "anchors": ["fit/algorithms/fitting.py:fit_curve_knot_insertion", "fit/algorithms/fitting.py:fit_curve_fixed_ctrlpts", "fit/algorithms/initialization.py:initialize_curve", "fit/algorithms/parameterize.py:parameterize_curve", "spline/algorithms/knots.py:curve_knot_insertion"]}
{"id": "C174", "title": "What single data points do to a fit", "statement": "single_fit_curve and single_fit_surface with fixed knots and parameters: there is a matrix H, given by knots and parameters alone, such that for every two solvers that return least-squares solutions, and whatever the inner control points before the fit, changing the data changes the fitted values by H times the change of the data. H is symmetric and idempotent; its diagonal entries are in [0, 1] and the others at most 1/2 in absolute value, so a datum moves the fit at its own parameter by at most its own motion and at the parameters of other data by at most half of it; the diagonal adds up to the number of inner control points when the parameters determine the fit. The fit differs from the fit without datum q by column q of H times the distance of that datum to the fit without it. The fit depends on the data only through the number of data at each parameter and their centroid, up to a common factor of the numbers, so repeated and reordered data give the same fit. Data that lie on the fitted curve or surface can be added without changing it.", "quantifier": "for all clamped knot vectors, degrees >= 1, numbers of data, parameters in the domain, data, and solvers that return least-squares solutions", "why_tests_cant": "The matrix H is never formed by the program; its properties relate the results of different runs, on all data at once.", "anchors": ["fit/algorithms/fitting.py:single_fit_curve", "fit/algorithms/fitting.py:single_fit_surface", "fit/algorithms/fitting.py:linear_fit_fixed"]}
{"id": "C175", "title": "The initial surface and the surface fit in rounded arithmetic", "statement": "set_init_surface and fit_surface with every operation rounded. For any monotone, odd rounding that keeps one, between boundaries of machine numbers: the bottom control points of the initial surface are exactly those of the bottom boundary, the top ones are fl(b + fl(t - b)), which are those of the top boundary where the difference is a machine number; every coordinate is monotone from bottom to top, and constant where the boundaries meet. fit_surface keeps degrees, knots and all boundary control points exactly, whatever arithmetic, solver and inversion do, and the parameterized boundary data do not matter. In double precision the initial surface exists for up to 2^50 control points across, is clamped with distinct knots, and is within M 2^-50 of the exact one; its top edge is exact where bottom and top agree up to a factor of two, and can be wrong otherwise (height 2^-60 becomes 0). fit_surface never raises for a solver that returns vectors of the right length and an inversion with values in the unit square; the whole step from boundaries to the surface keeps the bottom boundary exactly and the top one up to M 2^-50.", "quantifier": "for all boundaries of equal degree and size, all numbers and degrees across, all data, solvers and inversions (size limits for double precision)", "why_tests_cant": "The claims hold for all values of the coordinates and all behaviours of the solver; single runs in exact data do not show the lost digits of the top edge.", "anchors": ["fit/algorithms/fitting.py:fit_surface", "fit/algorithms/fitting.py:single_fit_surface", "fit/model/base_data.py:InteriorProblem.set_init_surface", "fit/algorithms/parameterize.py:parameterize_surface"]}
{"id": "C176", "title": "How close fits come to smooth data", "statement": "If in a coordinate the data are values of a function with o+1 <= degree+1 bounded derivatives (Taylor's formula of order o with constant M), up to errors of at most eps, and the end control points are its end values, the mean squared distance of the data to the curve that single_fit_curve returns is at most ((o+1) M h^(o+1) + eps)^2, h the longest window of degree+1 knot spans. Values of a polynomial of degree at most that of the curve are fitted to eps^2, and exactly if eps = 0, whatever the knots. In round s of fit_curve_knot_insertion the bound is ((o+1) M ((degree+1) w/2^s)^(o+1) + eps)^2: every round divides the distance by 2^(o+1), up to eps. For single_fit_surface and functions of two variables the bound is ((o+1)^2 M h^(o+1) + delta + eps)^2, delta the error of the boundary control points. Over the reals the hypothesis holds for every function with o+1 continuous derivatives.", "quantifier": "for all clamped knot vectors, degrees >= 1, orders up to the degree, functions, error bounds, numbers of data, parameters in the domain and solvers that return least-squares solutions", "why_tests_cant": "An order of approximation is a statement about all functions and all knot spacings; finitely many fits can only suggest it.", "anchors": ["fit/algorithms/fitting.py:single_fit_curve", "fit/algorithms/fitting.py:single_fit_surface", "fit/algorithms/fitting.py:fit_curve_knot_insertion"]}
{"id": "C177", "title": "A change of the data acts locally on a fit", "statement": "Let moving the inner control points by e move the curve at the parameters of the data by at least lam in the mean square (the sum of the squared motions is at least lam times the sum of the squared e), and let D bound the weight of the data on a basis function. If two data sets with the same parameters differ only strictly between knots a and b, the squares of the differences of the control points that single_fit_curve returns shrink by the factor D/(D+2 lam) for every 2*degree indices away from these knots, starting from (1/lam) times the squared change of the data; so do the curves. Moving an end point acts in the same way. For single_fit_surface the same holds for rows and columns of control points. Data at the peaks of the basis functions have lam = 1, and parameters that determine the curve have some lam > 0.", "quantifier": "for all clamped knot vectors, degrees >= 1, data sets with the same parameters in the domain, end points, inner control points before the fit and solvers that return least-squares solutions", "why_tests_cant": "Locality is a rate over all distances, all data and all knot vectors; no finite set of perturbed fits establishes it.", "anchors": ["fit/algorithms/fitting.py:single_fit_curve", "fit/algorithms/fitting.py:single_fit_surface"]}
{"id": "C178", "title": "Fits are stable and accurate in the maximum norm", "statement": "Let moving the inner control points by e move the curve at the parameters of the data by at least lam in the mean square, and let every basis function be nonzero at no more than q of these parameters. If two data sets with these parameters differ by at most delta and the end points by at most delta', the control points that single_fit_curve returns and the curves differ by at most C (delta + delta') everywhere, with C = (3 degree + 1)(q + lam)(q + 2 lam)/lam^2, which depends neither on the number of control points nor on the number of data. If the data are values of a function with o+1 bounded derivatives up to errors eps, and the end points its end values, the curve is within (1+C)(o+1) M h^(o+1) + C eps of the function at every parameter, also between the data. For single_fit_surface the same holds with C = 8 (3 p + 1)(3 p' + 1)(q + lam)(q + 2 lam)^2/lam^3.", "quantifier": "for all clamped knot vectors, degrees >= 1, data sets with parameters in the domain, end points, functions, inner control points before the fit and solvers that return least-squares solutions", "why_tests_cant": "The constant has to hold for every number of control points and data and for every perturbation; a test sees one fit.", "anchors": ["fit/algorithms/fitting.py:single_fit_curve", "fit/algorithms/fitting.py:single_fit_surface"]}
{"id": "C179", "title": "Surface fits of data on a grid are curve fits in both directions", "statement": "Let the data of single_fit_surface lie on a grid of parameters. Fit, for every second parameter, the data by a curve in the first direction with single_fit_curve, its ends on the edges of the surface; then fit, for every inner index, the control points of these curves by a curve in the second direction with single_fit_curve, its ends the boundary control points. The surface with the resulting control points has the same values at the data as the result of single_fit_surface, and if the parameters determine the curves in both directions the control points are the same.", "quantifier": "for all clamped surfaces of degrees >= 1, grids in the domain, data, inner control points before the fits and (possibly different) solvers that return least-squares solutions", "why_tests_cant": "It relates one surface fit to many curve fits, for every size of the grid and for solvers that need not return the same solution.", "anchors": ["fit/algorithms/fitting.py:single_fit_surface", "fit/algorithms/fitting.py:single_fit_curve"]}
{"id": "C180", "title": "Derivatives with overflow and underflow", "statement": "basis_function_ders and BSplineSurface.derivatives (normalize=False) in IEEE arithmetic with rounding, gradual underflow, overflow, infinities and NaN. If the knots and the parameter are machine numbers and the span h is not so short that powers of 2/h come near the overflow threshold, no infinity and no NaN appears anywhere, the basis functions are not negative, and the errors of the derivatives of order m of all basis functions together are at most ((1/rho)^(6p+4) - 1) p...(p-m+1) (2/h)^m plus an explicit share of underflow. The mixed derivatives of a surface satisfy the corresponding bound, whatever the order of the summations, and an array is always returned. In double precision: degrees up to 10 (basis functions) or 5 (surfaces), spans of at least 2^-40 and coordinates up to 2^500 give the factor 1e-14 and a share of underflow of 2^-600, for surfaces (C+1) 2^-600, if for surfaces the last interior knot is at most 1 - 1.02e-6. Without the bound on the span the derivatives overflow: on a span of length 2^-1023 a second derivative is infinite.", "quantifier": "for all rounding functions with the IEEE properties, all sorted knot vectors, degrees, orders and parameters in a non-empty span; all surfaces on [0,1]^2 and all summation orders", "why_tests_cant": "Overflow and underflow appear only for extreme knots and coordinates, and the bound is for all of them at once.", "anchors": ["spline/algorithms/basis.py:basis_function_ders", "spline/model/bspline.py:BSplineSurface.derivatives"]}
{"id": "C181", "title": "Normalized derivatives with overflow and underflow", "statement": "BSplineSurface.derivatives with normalize=True (the default) in IEEE arithmetic, for any square root that is accurate to two roundings and any order of the sums in np.linalg.norm. A row shorter than about the tolerance 1e-8 is left as it is; any other row of components up to about the square root of the overflow threshold is divided by its length: every component keeps its sign, its square is its part of the sum of the squares, and the row has length 1, in double precision up to 2e-15. For surfaces of degree up to 5, knots at least 2^-40 apart and coordinates up to 2^80 this holds for all rows but the first, which is the point, with the direction of the computed derivative within the error bound of C180 of the exact one. Without the bound it fails: np.linalg.norm overflows, and a row with a component of 2^512 or more becomes zero although its length is far below the largest double; a surface is given for which derivatives returns (0, 0, 0) for a derivative of length 2^513.", "quantifier": "for all rounding functions with the IEEE properties, all accurate square roots, all rows of three numbers, all surfaces on [0,1]^2 within the bounds, all summation orders", "why_tests_cant": "The error bound is for all derivatives at once; the zero rows need extreme coordinates, and they are silent.", "anchors": ["spline/model/bspline.py:BSplineSurface.derivatives"]}
{"id": "C182", "title": "Rounding errors of one_basis_function_ders", "statement": "one_basis_function_ders in rounded arithmetic, for sorted knots, a parameter in a span of length h and an order up to the degree p: it raises nothing and never divides by zero, although its zero tests may turn out differently than in exact arithmetic. The value is not negative and accurate to 5p roundings. The errors of the derivatives of order m of any number of basis functions together are at most ((1/rho)^(5p-m) - 1) p...(p-m+1) (2/h)^m; in double precision, for degrees up to 14, 1e-14 p...(p-m+1) (2/h)^m. Outside the support the zeros are exact. A single derivative can have any relative error: for the knots 0, 1, 6, 10 the derivative at the maximum of the quadratic basis function, at 4, is zero, but the function returns -2^-55 in double precision.", "quantifier": "for all rounding functions with bounded relative error, all sorted knot vectors, degrees, orders up to the degree and parameters in a non-empty span", "why_tests_cant": "The bound is for all knots and parameters at once; the zero tests that rounding turns around need special knots.", "anchors": ["spline/algorithms/basis.py:one_basis_function_ders"]}
{"id": "C183", "title": "Degree one", "statement": "A curve of degree one is its control polygon: between the knots U[k] and U[k+1] single_point runs through the segment between the control points k-1 and k with constant speed, and with distinct knots it passes through control point i at the knot U[i+1]; a surface of degree one in both directions consists of bilinear patches between four neighbouring control points. The initial curve of initialize_curve with degree 1 runs through the segment with constant speed for every number of control points (which fails for higher degrees, C117). The condition on parameters near 1 is needed: with a last span shorter than the tolerance of find_span the curve leaves its polygon by 99 times the length of the last segment.", "quantifier": "all knot vectors of degree 1, all control points, all regular parameters of [0,1] (all parameters for the initial curves)", "why_tests_cant": "A test looks at some parameters of some polygons; the formula holds at every parameter, including the knots shared by two segments.", "anchors": ["spline/model/bspline.py:Curve.single_point", "spline/model/bspline.py:Surface.single_point", "fit/algorithms/initialization.py:initialize_curve", "spline/algorithms/knots.py:find_span"]}
{"id": "C184", "title": "Means of curves and surfaces", "statement": "The integral of a coordinate of single_point over [0,1] is the mean of that coordinate of the control points with the weights (U[i+p+1]-U[i])/(p+1), which are positive and add up to one; without interior knots they are all 1/(p+1). For surfaces the double integral is the mean with products of these weights. Inserting a new knot up to degree times with curve_knot_insertion does not change this mean of the control points.", "quantifier": "all clamped knot vectors on [0,1] with distinct interior knots whose last interior knot is outside the end tolerance, all control points over the reals, every knot inserted into the inside of a span", "why_tests_cant": "An integral over all parameters cannot be formed by evaluating at finitely many of them; a test can only compare it with a quadrature rule.", "anchors": ["spline/model/bspline.py:Curve.single_point", "spline/model/bspline.py:Surface.single_point", "spline/algorithms/knots.py:curve_knot_insertion"]}
{"id": "C185", "title": "What a fit computes with the cutoff of np.linalg.lstsq", "statement": "np.linalg.lstsq with rcond=None treats singular values up to eps * max(m, n) times the largest one as zero. With this cutoff single_fit_curve and single_fit_surface still return, keep the fixed control points, and are nearly optimal: if some spline with the same fixed control points has distance d from the data (one coordinate, root of the sum of squares), the fit has distance at most d + eps * max(m, number of free control points) * sqrt(m) * (length of the vector of free control points of that spline). If the least singular value of the free columns is greater than the cutoff, the fit is optimal. The free control points are bounded in terms of the data whatever the parameters are. The fit solves exactly a problem whose matrix differs by at most eps * N times its size, so that the properties of fits in rounded arithmetic hold with it. Without cutoff the solver is a least-squares solver of least norm. With the cutoff of double precision a fit can make a curve that passes through its data leave them: a cubic with data parameters 2^-60 and 1/2.", "quantifier": "all degrees, clamped knot arrays, control points, data with parameters in the domain, comparison splines, cutoffs; existence of the solver over the reals", "why_tests_cant": "the cutoff acts only on nearly dependent columns; tests have well-spread parameters, where it has no effect, and no test compares a fit with all splines", "anchors": ["fit/algorithms/fitting.py:linear_fit_fixed", "fit/algorithms/fitting.py:single_fit_curve", "fit/algorithms/fitting.py:single_fit_surface"]}
{"id": "C186", "title": "Complete fits with the cutoff of np.linalg.lstsq", "statement": "With the singular value cutoff of np.linalg.lstsq, fit_curve_knot_insertion, fit_curve_fixed_ctrlpts and fit_surface terminate, return the same numbers of control points, knots and fixed control points as with an exact solver (for this any solver will do), and every fit on the way is nearly optimal for its parameters: distance at most d + e if another spline with the same fixed control points has distance d, e proportional to the cutoff and to the size of its free control points. In every round the curve is nearly as close to the data as the curve of the round before. For data that are Lipschitz, or values of a smooth function up to errors, the distance decreases with the length of the spans at the same order as with an exact solver, down to eps * max(m, n) * sqrt(n) times the size of the data or of the derivatives.", "quantifier": "all degrees, clamped knot arrays on [0, 1] with long enough spans, data that can be parameterized, numbers of rounds, cutoffs, comparison splines", "why_tests_cant": "whole runs with nearly dependent columns would be needed in every round; tests check single small fits against stored values", "anchors": ["fit/algorithms/fitting.py:fit_curve_knot_insertion", "fit/algorithms/fitting.py:fit_curve_fixed_ctrlpts", "fit/algorithms/fitting.py:fit_surface", "fit/algorithms/fitting.py:linear_fit_fixed"]}
{"id": "C187", "title": "What the functions do to the arrays and objects of their caller", "statement": "With an explicit memory, in which attributes refer to arrays and arrays are overwritten in place, normalize, curve_knot_insertion, linear_fit_fixed, insert_knot, single_fit_curve, single_fit_surface, fit_curve_knot_insertion, fit_curve_fixed_ctrlpts and fit_surface do to the contents of the memory what they do with arrays as values, and write into no array and no object that existed before, also when they raise; insert_knot and the single fits reassign attributes of their own object only, so another object on the same arrays does not notice. The results of the complete fits are new objects with control points of their own. The array of the knot vector is that of the given curve for fit_curve_fixed_ctrlpts and for fit_curve_knot_insertion that inserts nothing, and new otherwise; fit_surface shares both knot vectors. Hence later writes of the caller into the knot vector of the given spline change the fitted one, and no other writes do. linear_fit_fixed returns its argument itself exactly when everything is fixed. The setter of the knot vector stores the array itself: after it was accepted it may be overwritten with anything.", "quantifier": "all memories, objects, sharing of arrays, arguments and solvers; all later writes", "why_tests_cant": "tests look at results, not at what else changed; sharing shows only when somebody writes later", "anchors": ["spline/algorithms/knots.py:normalize", "spline/algorithms/knots.py:curve_knot_insertion", "fit/algorithms/fitting.py:linear_fit_fixed", "fit/algorithms/fitting.py:single_fit_curve", "fit/algorithms/fitting.py:single_fit_surface", "fit/algorithms/fitting.py:fit_curve_knot_insertion", "fit/algorithms/fitting.py:fit_curve_fixed_ctrlpts", "fit/algorithms/fitting.py:fit_surface", "spline/model/bspline.py:insert_knot", "spline/model/base_geometry.py:knot_vector"]}
{"id": "C188", "title": "Which arrays a BoundaryProblem shares with its caller", "statement": "With the attributes of a BoundaryProblem as places in memory, every call (setters, set_init_curve, parameterize, fit), returning or raising, does to what the getters show what the value model says for the contents the arguments have at that moment, writes into no array and no curve that existed before, and makes no such array part of what it computes. So after any sequence of calls on a new problem no write of the caller into an array they had changes the initial curve, the fitted curve or the parameterized data. The data and the end points are another matter: set to an array they are that array, and the getters and the next fit follow what the caller writes into it, past the checks of the setter; set to a list they are a copy. After a fit with 'fixed' the initial and the fitted curve share one knot vector, a write into either changes both; their control points are separate.", "quantifier": "all memories, sequences of calls, arguments, solvers and later writes", "why_tests_cant": "tests set attributes once and compare results; nobody writes into an array after passing it", "anchors": ["fit/model/base_data.py:BoundaryProblem"]}
{"id": "C189", "title": "Complete fits in IEEE arithmetic with overflow and underflow", "statement": "In double precision with overflow and gradual underflow, single_fit_curve (degree at most 10) and single_fit_surface (degrees at most 7) return numbers, no infinity and no NaN, keep degrees, knots and the ends (the boundary) exactly, and their control points are those of the exact fit up to L eps B, where eps is the accuracy of a backward stable solver, B the size of the data and L depends on the stability of the parameters alone; provided that knots, parameters, data and ends are doubles, different knots are 2^-1000 to 2^1000 apart, and B is at least 2^-1000 and at most 2^1023 over a constant for the parameters. If the parameters determine the fit such constants exist. Whatever overflows, whatever the numbers (infinities and NaN included) and whatever the solver returns, a fit that returns keeps degrees, knots, counts and the fixed control points. Without overflow linear_fit_fixed is the function in rounded arithmetic.", "quantifier": "all curves, surfaces and data of doubles in the stated ranges, all orders of summation in the check, all backward stable solvers; the last parts for all extended numbers, roundings and solvers", "why_tests_cant": "tests fit data of moderate size and compare with a tolerance; they never reach the overflow threshold and never bound the error", "anchors": ["fit/algorithms/fitting.py:linear_fit_fixed", "fit/algorithms/fitting.py:single_fit_curve", "fit/algorithms/fitting.py:single_fit_surface"]}
{"id": "C190", "title": "Curve fits with their loops in IEEE arithmetic with overflow and underflow", "statement": "In double precision with overflow and gradual underflow, fit_curve_knot_insertion and fit_curve_fixed_ctrlpts (degree at most 10, on clamped curves of doubles on [0, 1] whose spans allow the halvings) end without an infinity or NaN, without an exception of their own and after the number of rounds that exact arithmetic takes: the result consists of doubles of size at most B, has degree + 2^t (n - degree) control points (the input's number for the fixed fit), a clamped knot vector with distinct interior knots at most t 2^-52 from the equal subdivision (exactly the input's knots for the fixed fit) and exactly the input's end control points; provided data and ends are doubles of size at most B with 2^-1000 <= B <= 2^1019, the inversion returns doubles in [0, 1], and every call of the solver made in the run returns doubles of size at most B. initialize_curve returns doubles, the end points exactly and the others within M 2^-47 of equally spaced ones; without a bound on the ends it returns NaN. Whatever overflows and whatever solver and inversion return, a fit that returns keeps degree and end points and has the stated number of control points.", "quantifier": "all curves, data, numbers of points and solvers in the stated ranges, all orders of summation in the checks, all inversions into [0, 1]; the last part for all extended numbers, roundings, solvers and inversions", "why_tests_cant": "tests run the loops on data of moderate size with one solver; they never reach the overflow or underflow thresholds nor a solver that returns extreme numbers", "anchors": ["fit/algorithms/initialization.py:initialize_curve", "fit/algorithms/fitting.py:fit_curve_knot_insertion", "fit/algorithms/fitting.py:fit_curve_fixed_ctrlpts", "spline/algorithms/knots.py:generate_uniform", "fit/algorithms/parameterize.py:parameterize_curve"]}
{"id": "C191", "title": "Initial surface and surface fit in IEEE arithmetic with overflow and underflow", "statement": "In double precision with overflow and gradual underflow, set_init_surface between two fitted boundaries of the same degree and size with doubles of size at most M (2^-1000 <= M <= 2^1019) returns a surface of doubles: the bottom edge is exactly the bottom boundary, every coordinate is within X 2^-47 of the exact one (X a bound for the two ends of its line), coordinates common to both boundaries are kept, and the knots across are clamped with distinct interior knots. fit_surface (degrees at most 7) then ends without an infinity or NaN and without an exception of its own: its control points are doubles of size at most B, degrees, knots and boundary control points are those of the initial surface, so that the fitted surface has the bottom boundary exactly and the top boundary up to M 2^-47; provided the inversion returns doubles in [0, 1] and every call of the solver returns doubles of size at most B. Without the bound M the difference of the boundaries overflows: the initial surface then has NaN on its bottom edge and infinities elsewhere. Whatever overflows and whatever solver and inversion return, a fit that returns keeps degrees, knots and boundary control points and does not depend on the parameterized data of the two boundaries; a row of them with the wrong length raises.", "quantifier": "all boundaries, surfaces, data and solvers in the stated ranges, all orders of summation in the checks, all inversions into [0, 1]; the last part for all extended numbers, roundings, solvers and inversions", "why_tests_cant": "tests fit one surface of moderate size; they never reach the overflow threshold nor a solver that returns extreme numbers", "anchors": ["fit/model/base_data.py:InteriorProblem.set_init_surface", "fit/algorithms/fitting.py:fit_surface", "fit/algorithms/fitting.py:single_fit_surface", "spline/algorithms/knots.py:generate_uniform", "fit/algorithms/parameterize.py:parameterize_surface"]}
{"id": "C192", "title": "Fits with the library's own inversion in IEEE arithmetic", "statement": "In every arithmetic whose sums, differences and grid parameters are doubles, however norms, inner products, products, quotients and evaluations are computed, curve_inversion returns a double in [0, 1] or raises, and so does surface_inversion if NaN propagates; neither hangs. Hence fit_curve_knot_insertion, fit_curve_fixed_ctrlpts and the fit of an interior problem (set_init_surface, then fit_surface), all in double precision with overflow and underflow and with the library's own inversions, always end, with an exception or with a result of doubles that has the number of control points, the knots and the end or boundary control points of C190 and C191.", "quantifier": "all curves, surfaces, data and solvers in the ranges of C190 and C191, all tolerances and iteration limits, all implementations of the evaluation that reject parameters outside [0, 1], all arithmetics as stated", "why_tests_cant": "the inversion iterates Newton steps that may divide by zero or overflow; tests see the data for which they do not", "anchors": ["fit/algorithms/parameterize.py:curve_inversion", "fit/algorithms/parameterize.py:surface_inversion", "fit/algorithms/fitting.py:fit_curve_knot_insertion", "fit/algorithms/fitting.py:fit_curve_fixed_ctrlpts", "fit/algorithms/fitting.py:fit_surface", "fit/model/base_data.py:InteriorProblem.set_init_surface"]}
{"id": "C193", "title": "The problem objects in IEEE arithmetic, from end points and data to the fitted surface", "statement": "In double precision with overflow and gradual underflow, BoundaryProblem.fit and InteriorProblem.fit on end points and data of doubles of size at most B (2^-1000 <= B <= 2^1018), degrees at most 7, more than three control points along and more control points than the degree, with the library's own inversions: every run ends, with an exception or with doubles only. A fitted boundary has the number of control points, the clamped knots over [0, 1] and exactly the given end points, and its parameterized data are doubles with parameters in [0, 1]; with the adaptive method (at most 15 halvings) it has degree + 2^t control points on knots equally spaced up to t 2^-52. The fitted surface has the bottom boundary exactly and the top boundary up to B 2^-47, so its four corners are the four given end points, the bottom ones exactly and the top ones up to B 2^-47; provided every call of the solver returns doubles of size at most B or raises. Whatever the arithmetic, solver and inversion do, a boundary fit that returns has more than three control points, with fixed control points the number asked for and with the adaptive method the first degree + 2^t that reaches it; three control points never return.", "quantifier": "all end points, data, degrees, sizes and solvers in the stated ranges, all orders of summation in the checks, all implementations of the evaluation that reject parameters outside [0, 1]; the last part for all extended numbers, roundings, solvers and inversions", "why_tests_cant": "a session composes ten calls whose intermediate results must all stay finite; tests run one session at moderate size", "anchors": ["fit/model/base_data.py:BoundaryProblem.fit", "fit/model/base_data.py:BoundaryProblem.set_init_curve", "fit/model/base_data.py:BoundaryProblem.parameterize", "fit/model/base_data.py:InteriorProblem.fit", "fit/model/base_data.py:InteriorProblem.set_init_surface", "fit/model/base_data.py:InteriorProblem.parameterize"]}
{"id": "C194", "title": "What a session has fitted in IEEE arithmetic can be evaluated in it", "statement": "In double precision with overflow and gradual underflow, single_point on a curve of doubles on the knots of generate_uniform (degree at most 10, at most 2^19 control points of size at most X <= 2^1000), at every double in [0, 1], returns three finite numbers within 1e-14 X + (X + 1) 2^-1045 of the curve, whatever the order of the sums; likewise for surfaces of degrees at most 5. Consequently a boundary that BoundaryProblem.fit has fitted with fixed control points and the surface that InteriorProblem.fit returns at the end of a session (sizes at most B, 2^-1000 <= B <= 2^999, solver as in C193) evaluate to numbers of size at most B + B 2^-44 and 2 B + B 2^-44, and at the ends of the boundary and at the four corners of the surface to the end points that were given to the problems, up to B 2^-44.", "quantifier": "all curves, surfaces, sessions, solvers, doubles in [0, 1] and orders of summation in the stated ranges", "why_tests_cant": "the statement is about the composition of fitting and evaluation for all data and solvers; tests evaluate single fitted curves at moderate size", "anchors": ["spline/model/bspline.py:BSplineCurve.single_point", "spline/model/bspline.py:BSplineSurface.single_point", "fit/model/base_data.py:BoundaryProblem.fit", "fit/model/base_data.py:InteriorProblem.fit", "spline/algorithms/knots.py:generate_uniform"]}
{"id": "C195", "title": "Sessions with the adaptive method in IEEE arithmetic", "statement": "In double precision with overflow and gradual underflow, a session whose two boundary problems use the adaptive method (knot insertion, at most 15 halvings) and whose interior problem lies between them, with end points and data of doubles of size at most B (2^-1000 <= B <= 2^1018), degrees at most 7 and the library's own inversions: each fit ends, with an exception or with doubles only, and a session without exception ends with (p + 2^t) m control points, p + 2^t being the first such number that reaches the number asked for, on knots along the boundaries that are equally spaced up to t 2^-52, with the bottom end points exactly and the top end points up to B 2^-47; provided every call of the solver returns doubles of size at most B or raises. For degrees at most 5 and B <= 2^999 the surface evaluates in double precision at every pair of doubles in [0, 1] to numbers of size at most 2 B + B 2^-44, and at its corners to the four given end points up to B 2^-44.", "quantifier": "all end points, data, degrees, sizes and solvers in the stated ranges, all orders of summation, all implementations of the evaluation within the inversions that reject parameters outside [0, 1]", "why_tests_cant": "both boundaries must come out of loops of data-dependent fits with matching numbers of control points, and everything must stay finite; tests run one session", "anchors": ["fit/model/base_data.py:BoundaryProblem.fit", "fit/model/base_data.py:InteriorProblem.fit", "fit/algorithms/fitting.py:fit_curve_knot_insertion", "fit/algorithms/fitting.py:fit_surface", "spline/model/bspline.py:BSplineSurface.single_point"]}
{"id": "C196", "title": "Meshes of the surfaces of sessions in IEEE arithmetic", "statement": "In double precision, for every surface whose single_point returns numbers of size at most M at all doubles in [0, 1]^2 and is within eps of four given points at its corners, and every n_tri from 1 to 2^50: the sampling loop of surf_to_vtk returns if and only if the computed numbers of parameters and of rows are both n_tri + 1 (which depends on n_tri alone; for n_tri = 100, the only value InteriorProblem.vtk uses, they are). It then returns (n_tri + 1)^2 rows of five numbers: a possible result of single_point of size at most M, followed by its two parameters, which are i / n_tri and j / n_tri up to 2^-51. For n_tri = 100 rows 0, 100, 10100 and 10200 are the four given points up to eps. This holds for the surface at the end of every session of C193 and C195 with degrees at most 5 and B <= 2^999, with M = 2 B + B 2^-44, eps = B 2^-44 and the end points given to the boundary problems.", "quantifier": "all surfaces and sessions in the stated ranges, all n_tri up to 2^50, all implementations of single_point that return one of its possible results", "why_tests_cant": "the loop computes its array size and its number of parameters in two different ways in floating point; a test fixes one n_tri and one surface", "anchors": ["fit/io/text.py:surf_to_vtk", "spline/model/bspline.py:BSplineSurface.single_point", "fit/model/base_data.py:InteriorProblem.fit", "fit/model/base_data.py:InteriorProblem.vtk"]}
{"id": "C197", "title": "When curve_inversion returns in IEEE arithmetic", "statement": "In double precision with overflow and gradual underflow, curve_inversion does not raise and returns a double in [0, 1], for every point of three numbers of size at most 2^500, every limit of the iterations, eps1 >= 2^-500 and eps2 >= 0, if at every double in [0, 1] the curve returns a point and its first two derivatives with coordinates of size at most 2^500, the zeroth derivative is that point, and the computed length of the first derivative is at least 2^-500. Without the last condition it can raise ValueError: on a constant curve the Newton step is 0 / 0, and single_point rejects the NaN.", "quantifier": "all curves, points, tolerances and limits in the stated ranges, all implementations of np.linalg.norm that return numbers between 0 and 2^505 for vectors with coordinates of size at most 2^502", "why_tests_cant": "whether some pass divides zero by zero depends on every intermediate rounding; the second convergence test protects the division only because both compute the same numerator", "anchors": ["fit/algorithms/parameterize.py:curve_inversion", "fit/algorithms/parameterize.py:initial_guess_curve"]}
{"id": "C198", "title": "How surface_inversion can fail in IEEE arithmetic", "statement": "In double precision with overflow and gradual underflow, surface_inversion returns two doubles in [0, 1] or raises LinAlgError, and nothing else can happen, for every point of three numbers of size at most 2^500, all tolerances and every limit of the iterations, if at all pairs of doubles in [0, 1] the surface returns a point and the derivatives up to order two with coordinates of size at most 2^500. LinAlgError does occur: on a surface that has shrunk to a segment the matrix of the first Newton step is singular. If the solver may return NaN, the norm of a vector with NaN is NaN and single_point rejects NaN, then the only further outcome is ValueError: NaN is never returned. This occurs too: with the rounded inverse of the matrix times the right-hand side, an entry of the inverse overflows and is multiplied with zero.", "quantifier": "all surfaces, points, tolerances and limits in the stated ranges, all implementations of np.linalg.norm that return numbers between 0 and 2^505 for vectors with coordinates of size at most 2^502, all solvers of two equations that raise LinAlgError or return no NaN when the coefficients are numbers", "why_tests_cant": "the inner products, the matrix and the right-hand side have to stay finite at every iterate, for all surfaces; a test sees one path of iterates", "anchors": ["fit/algorithms/parameterize.py:surface_inversion", "fit/algorithms/parameterize.py:initial_guess_surf"]}
{"id": "C199", "title": "surface_inversion on B-spline surfaces in IEEE arithmetic", "statement": "Let s be a clamped BSplineSurface of degrees 2 to 5 over [0, 1] whose knots are doubles at least 2^-40 apart, the last interior ones at most 1 - 1.02e-6, with at most 2^49 control points in each direction, of size at most 2^300. In double precision with overflow and gradual underflow, and whatever the order in which products are added in single_point and derivatives, all points and derivatives that surface_inversion asks for are numbers of size at most 2^500. So for every point of size at most 2^500, all tolerances and limits, surface_inversion returns two doubles in [0, 1], or raises LinAlgError, or, only if the solver makes NaN out of numbers, ValueError. Surfaces of doubles on the knots of generate_uniform with at most 2^19 control points in each direction, such as fit_surface returns, are of this kind.", "quantifier": "all such surfaces, points, tolerances, limits and orders of summation; all implementations of np.linalg.norm and of the solver as in C198, the norm of a vector with NaN being NaN", "why_tests_cant": "covers every rounding error and every order of summation at every iterate", "anchors": ["fit/algorithms/parameterize.py:surface_inversion", "spline/model/bspline.py:BSplineSurface.single_point", "spline/model/bspline.py:BSplineSurface.derivatives", "spline/algorithms/knots.py:generate_uniform"]}
{"id": "C200", "title": "The committed curve class fits nothing, in any arithmetic", "statement": "BSplineCurve.derivatives never returns, whatever the rounding, the product of vectors and the norm, for all curves with any entries (NaN and infinities included), parameters and orders. So curve_inversion on a BSplineCurve always raises, and every outcome of BoundaryProblem.fit on data that are not empty is an exception, for both methods, all solvers, end points, degrees and numbers of control points. In double precision with overflow and gradual underflow the exception of derivatives is the ValueError of assigning a row of two to a row of three, on all clamped curves in space of degree at most ten over [0, 1] whose knots are doubles at least 2^-40 apart, the last interior one at most 1 - 1.02e-6, at all doubles in [0, 1]: nothing before it fails.", "quantifier": "all rounding functions, vector products, norms, curves, parameters, orders; all data, solvers and settings of the boundary problem", "why_tests_cant": "shows that no choice of arithmetic, data or settings lets the committed class be fitted", "anchors": ["spline/model/bspline.py:BSplineCurve.derivatives", "fit/algorithms/parameterize.py:curve_inversion", "fit/algorithms/fitting.py:fit_curve_fixed_ctrlpts", "fit/model/base_data.py:BoundaryProblem.fit"]}
{"id": "C201", "title": "The exception of the committed curve class in double precision", "statement": "In double precision with overflow and gradual underflow, and whatever the order in which products are added, curve_inversion raises the ValueError of derivatives on every clamped BSplineCurve in space of degree 1 to 10 as in C200 with control points of size at most 2^1000, for every point with three entries (NaN and infinities included), all tolerances and limits. BoundaryProblem.fit has exactly one outcome, ValueError, for both methods, all solvers, all data that are not empty with three entries each, degrees 1 to 10, up to 2^20 control points, and end points of doubles of size at most 2^900: the initial curve is built, its points are evaluated, and the first derivative fails.", "quantifier": "all such curves, points, end points, data, settings, solvers, norms and orders of summation", "why_tests_cant": "identifies the exception for every rounding error and order of summation; tests show it for single inputs", "anchors": ["spline/model/bspline.py:BSplineCurve.derivatives", "fit/algorithms/parameterize.py:curve_inversion", "fit/algorithms/parameterize.py:initial_guess_curve", "fit/algorithms/fitting.py:fit_curve_knot_insertion", "fit/algorithms/fitting.py:fit_curve_fixed_ctrlpts", "fit/model/base_data.py:BoundaryProblem.fit"]}
{"id": "C202", "title": "fit_surface with the library's own inversion on its own surfaces, in double precision", "statement": "Let s be a surface of doubles as in C199. In double precision with overflow and gradual underflow, whatever the order in which products are added in the evaluation and in the fit, fit_surface with surface_inversion on s has an outcome, and every outcome is an exception of the least squares solver, LinAlgError, ValueError (only if the 2 x 2 solver makes NaN out of numbers), or a surface of doubles of size at most 2^300 on the same knots with exactly the boundary control points of s. The fitted surface is again as in C199: the data parameterized on it raise one of these exceptions or get parameters in [0, 1]^2.", "quantifier": "all such surfaces, all data of doubles of size at most 2^300, all tolerances and limits, all solvers that return numbers of size at most 2^300 or raise, norms and 2 x 2 solvers as in C198, up to 10^8 control points and data", "why_tests_cant": "covers every rounding error and order of summation in evaluation and fit together", "anchors": ["fit/algorithms/fitting.py:fit_surface", "fit/algorithms/parameterize.py:surface_inversion", "fit/algorithms/parameterize.py:parameterize_surface", "spline/model/bspline.py:BSplineSurface.derivatives"]}
{"id": "C203", "title": "InteriorProblem.fit with the library's own inversion, in double precision", "statement": "Let the top and bottom boundaries be curves of doubles of size at most 2^299 with equal degrees 2 to 5 and equal numbers of control points, the knots of the bottom one as in C199. In double precision with overflow and gradual underflow, whatever the order in which products are added in the evaluation and in the fit, InteriorProblem.fit of degree 2 to 5 with at most 2^19 control points across has an outcome, and every outcome is LinAlgError, an exception of the least squares solver, ValueError (only if the 2 x 2 solver makes NaN out of numbers), or a surface of doubles of size at most 2^300 on the knots of the bottom boundary and of generate_uniform whose first edge has exactly the control points of the bottom boundary, with parameters in [0, 1]^2 for all data. The surface is again as in C199, so every point of moderate size can be inverted on it.", "quantifier": "all such boundaries, all data of doubles of size at most 2^300, all tolerances and limits, all solvers that return numbers of size at most 2^300 or raise, norms and 2 x 2 solvers as in C198, up to 10^8 control points and data", "why_tests_cant": "covers every rounding error and order of summation from the boundaries to the fitted surface", "anchors": ["fit/model/base_data.py:InteriorProblem.fit", "fit/model/base_data.py:InteriorProblem.set_init_surface", "fit/algorithms/fitting.py:fit_surface", "fit/algorithms/parameterize.py:surface_inversion", "fit/algorithms/parameterize.py:parameterize_surface"]}
