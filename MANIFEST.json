{
 "claims": [
  {
   "property": "C01",
   "status": "proved",
   "theorems": [
    "PySpline.find_span_brackets",
    "PySpline.find_span_on_domain"
   ],
   "note": ""
  },
  {
   "property": "C02",
   "status": "proved",
   "theorems": [
    "PySpline.find_span_terminates",
    "PySpline.find_span_fuel_mono",
    "PySpline.find_span_on_domain"
   ],
   "note": ""
  },
  {
   "property": "C03",
   "status": "proved",
   "theorems": [
    "PySpline.find_span_hangs_below",
    "PySpline.find_span_hangs_above"
   ],
   "note": ""
  },
  {
   "property": "C04",
   "status": "proved",
   "theorems": [
    "PySpline.find_span_positive_span",
    "PySpline.find_span_positive_span_distinct",
    "PySpline.find_span_empty_span_witness"
   ],
   "note": "The unrestricted claim (always a positive span) is false; the exceptions are classified and one is exhibited."
  },
  {
   "property": "C05",
   "status": "proved",
   "theorems": [
    "PySpline.normalize_affine",
    "PySpline.normalize_degenerate"
   ],
   "note": ""
  },
  {
   "property": "C06",
   "status": "proved",
   "theorems": [
    "PySpline.check_knot_vector_iff",
    "PySpline.check_knot_vector_accepts_clamped"
   ],
   "note": ""
  },
  {
   "property": "C07",
   "status": "proved",
   "theorems": [
    "PySpline.check_knot_vector_affine"
   ],
   "note": ""
  },
  {
   "property": "C08",
   "status": "proved",
   "theorems": [
    "PySpline.generate_uniform_valid",
    "PySpline.generate_uniform_too_few"
   ],
   "note": ""
  },
  {
   "property": "C09",
   "status": "proved",
   "theorems": [
    "PySpline.find_multiplicity_counts"
   ],
   "note": ""
  },
  {
   "property": "C10",
   "status": "proved",
   "theorems": [
    "PySpline.knot_insertion_knots"
   ],
   "note": ""
  },
  {
   "property": "C11",
   "status": "proved",
   "theorems": [
    "PySpline.knot_insertion_preserves_curve",
    "PySpline.knot_insertion_preserves_curve_new_knot"
   ],
   "note": ""
  },
  {
   "property": "C12",
   "status": "proved",
   "theorems": [
    "PySpline.knot_insertion_convex"
   ],
   "note": ""
  },
  {
   "property": "C13",
   "status": "proved",
   "theorems": [
    "PySpline.knot_insertion_left_span",
    "PySpline.knot_insertion_left_span_changes_curve"
   ],
   "note": "A defect: the expected claim is refuted for every such curve."
  },
  {
   "property": "C14",
   "status": "proved",
   "theorems": [
    "PySpline.knot_insertion_at_last_knot",
    "PySpline.knot_insertion_at_first_knot"
   ],
   "note": "A defect."
  },
  {
   "property": "C15",
   "status": "proved",
   "theorems": [
    "PySpline.basis_functions_cox_de_boor",
    "PySpline.basis_functions_pieces"
   ],
   "note": ""
  },
  {
   "property": "C16",
   "status": "proved",
   "theorems": [
    "PySpline.basis_functions_partition_of_unity"
   ],
   "note": ""
  },
  {
   "property": "C17",
   "status": "proved",
   "theorems": [
    "PySpline.basis_functions_finite_iff"
   ],
   "note": ""
  },
  {
   "property": "C18",
   "status": "proved",
   "theorems": [
    "PySpline.basis_function_ders_derivatives",
    "PySpline.piece_is_basis_function"
   ],
   "note": ""
  },
  {
   "property": "C19",
   "status": "proved",
   "theorems": [
    "PySpline.basis_function_ders_columns"
   ],
   "note": ""
  },
  {
   "property": "C20",
   "status": "proved",
   "theorems": [
    "PySpline.one_basis_function_cox_de_boor",
    "PySpline.one_basis_function_support"
   ],
   "note": "Needs a non-empty first span; see row_sum_overfull_first_knot for the excluded case."
  },
  {
   "property": "C21",
   "status": "proved",
   "theorems": [
    "PySpline.one_basis_function_row_sum",
    "PySpline.row_sum_overfull_first_knot"
   ],
   "note": "Needs a non-empty first span; with degree+2 equal first knots the sum at that knot is 2 (witness)."
  },
  {
   "property": "C22",
   "status": "proved",
   "theorems": [
    "PySpline.one_basis_function_agrees"
   ],
   "note": ""
  },
  {
   "property": "C23",
   "status": "proved",
   "theorems": [
    "PySpline.one_basis_function_ders_derivatives",
    "PySpline.one_basis_function_ders_agrees"
   ],
   "note": ""
  },
  {
   "property": "C24",
   "status": "proved",
   "theorems": [
    "PySpline.one_basis_function_ders_right_end"
   ],
   "note": ""
  },
  {
   "property": "C25",
   "status": "proved",
   "theorems": [
    "PySpline.single_point_bspline_sum",
    "PySpline.regular_of_distinct"
   ],
   "note": "For clamped knots and degree >= 1, at every regular parameter (not a repeated knot, not in the end-tolerance sliver)."
  },
  {
   "property": "C26",
   "status": "proved",
   "theorems": [
    "PySpline.single_point_first",
    "PySpline.single_point_last"
   ],
   "note": ""
  },
  {
   "property": "C27",
   "status": "proved",
   "theorems": [
    "PySpline.single_point_half_space",
    "PySpline.single_point_box"
   ],
   "note": ""
  },
  {
   "property": "C28",
   "status": "proved",
   "theorems": [
    "PySpline.single_point_affine"
   ],
   "note": ""
  },
  {
   "property": "C29",
   "status": "proved",
   "theorems": [
    "PySpline.single_point_local"
   ],
   "note": ""
  },
  {
   "property": "C30",
   "status": "proved",
   "theorems": [
    "PySpline.single_point_rejects",
    "PySpline.single_point_raises_iff",
    "PySpline.points_fails_iff",
    "PySpline.surface_point_rejects",
    "PySpline.surface_point_raises_iff"
   ],
   "note": ""
  },
  {
   "property": "C31",
   "status": "proved",
   "theorems": [
    "PySpline.points_elementwise",
    "PySpline.surface_points_elementwise"
   ],
   "note": ""
  },
  {
   "property": "C32",
   "status": "proved",
   "theorems": [
    "PySpline.spans_meet"
   ],
   "note": ""
  },
  {
   "property": "C33",
   "status": "proved",
   "theorems": [
    "PySpline.single_point_hangs",
    "PySpline.check_accepts_hanging",
    "PySpline.sliver_leaves_hull"
   ],
   "note": "A defect: the expected claim is refuted."
  },
  {
   "property": "C34",
   "status": "proved",
   "theorems": [
    "PySpline.surface_point_tensor_sum"
   ],
   "note": ""
  },
  {
   "property": "C35",
   "status": "proved",
   "theorems": [
    "PySpline.surface_edge_v",
    "PySpline.surface_edge_u",
    "PySpline.surface_corners"
   ],
   "note": ""
  },
  {
   "property": "C36",
   "status": "proved",
   "theorems": [
    "PySpline.surface_derivatives_layout",
    "PySpline.surface_derivatives_row_zero"
   ],
   "note": ""
  },
  {
   "property": "C37",
   "status": "proved",
   "theorems": [
    "PySpline.surface_point_half_space"
   ],
   "note": ""
  },
  {
   "property": "C38",
   "status": "proved",
   "theorems": [
    "PySpline.initial_guess_curve_nearest",
    "PySpline.initial_guess_curve_mem"
   ],
   "note": ""
  },
  {
   "property": "C39",
   "status": "proved",
   "theorems": [
    "PySpline.initial_guess_surf_nearest"
   ],
   "note": ""
  },
  {
   "property": "C40",
   "status": "proved",
   "theorems": [
    "PySpline.curve_inversion_mem",
    "PySpline.curve_inversion_reads_unit_interval"
   ],
   "note": ""
  },
  {
   "property": "C41",
   "status": "proved",
   "theorems": [
    "PySpline.curve_inversion_iterations",
    "PySpline.curve_inversion_iterations_sharp",
    "PySpline.inversion_default_iterations"
   ],
   "note": ""
  },
  {
   "property": "C42",
   "status": "proved",
   "theorems": [
    "PySpline.curve_inversion_fails_tests",
    "PySpline.curve_inversion_returns_previous",
    "PySpline.curve_inversion_initial_accept"
   ],
   "note": "A defect."
  },
  {
   "property": "C43",
   "status": "proved",
   "theorems": [
    "PySpline.surface_inversion_mem",
    "PySpline.surface_inversion_reads_unit_square",
    "PySpline.surface_inversion_iterations",
    "PySpline.inversion_default_iterations"
   ],
   "note": ""
  },
  {
   "property": "C44",
   "status": "proved",
   "theorems": [
    "PySpline.parameterize_curve_rows"
   ],
   "note": ""
  },
  {
   "property": "C45",
   "status": "proved",
   "theorems": [
    "PySpline.parameterize_curve_perm"
   ],
   "note": ""
  },
  {
   "property": "C46",
   "status": "proved",
   "theorems": [
    "PySpline.parameterize_surface_rows",
    "PySpline.parameterize_surface_perm"
   ],
   "note": ""
  },
  {
   "property": "C47",
   "status": "proved",
   "theorems": [
    "PySpline.linear_fit_fixed_keeps",
    "PySpline.linear_fit_fixed_all"
   ],
   "note": ""
  },
  {
   "property": "C48",
   "status": "proved",
   "theorems": [
    "PySpline.linear_fit_fixed_optimal"
   ],
   "note": "np.linalg.lstsq is a parameter assumed to return a minimizer (IsLstsq, satisfiable by exists_lstsq)."
  },
  {
   "property": "C49",
   "status": "proved",
   "theorems": [
    "PySpline.single_fit_curve_keeps"
   ],
   "note": ""
  },
  {
   "property": "C50",
   "status": "proved",
   "theorems": [
    "PySpline.single_fit_curve_unity",
    "PySpline.single_fit_curve_outside_raises",
    "PySpline.single_fit_surface_outside_raises"
   ],
   "note": ""
  },
  {
   "property": "C51",
   "status": "proved",
   "theorems": [
    "PySpline.single_fit_curve_optimal",
    "PySpline.single_fit_curve_not_worse"
   ],
   "note": "Under IsLstsq."
  },
  {
   "property": "C52",
   "status": "proved",
   "theorems": [
    "PySpline.surface_mask_boundary",
    "PySpline.single_fit_surface_keeps"
   ],
   "note": ""
  },
  {
   "property": "C53",
   "status": "proved",
   "theorems": [
    "PySpline.fit_curve_knot_insertion_count",
    "PySpline.fit_curve_knot_insertion_returns"
   ],
   "note": "The count holds for every run that returns; termination is proved for knot spans long enough for t halvings (tolerance of find_multiplicity) and a parameterization that does not raise."
  },
  {
   "property": "C54",
   "status": "proved",
   "theorems": [
    "PySpline.fit_curve_knot_insertion_returns"
   ],
   "note": "The closed form of the final knots shows that every inserted knot is new."
  },
  {
   "property": "C55",
   "status": "proved",
   "theorems": [
    "PySpline.fit_curve_fixed_no_insertion",
    "PySpline.fit_curve_fixed_keeps"
   ],
   "note": ""
  },
  {
   "property": "C56",
   "status": "proved",
   "theorems": [
    "PySpline.fit_surface_ignores_boundary"
   ],
   "note": ""
  },
  {
   "property": "C57",
   "status": "proved",
   "theorems": [
    "PySpline.fit_surface_keeps_boundary"
   ],
   "note": ""
  },
  {
   "property": "C58",
   "status": "proved",
   "theorems": [
    "PySpline.initialize_curve_points",
    "PySpline.initialize_curve_segment"
   ],
   "note": ""
  },
  {
   "property": "C81",
   "status": "proved",
   "theorems": [
    "PySpline.single_fit_surface_optimal"
   ],
   "note": "Under IsLstsq."
  },
  {
   "property": "C59",
   "status": "proved",
   "theorems": [
    "PySpline.ruled_surface_points",
    "PySpline.ruled_surface_contains",
    "PySpline.ruled_surface_ignores_top_knots"
   ],
   "note": "The last theorem shows that equal knots, which the code does not check, are needed."
  },
  {
   "property": "C60",
   "status": "proved",
   "theorems": [
    "PySpline.boundary_invariant"
   ],
   "note": ""
  },
  {
   "property": "C61",
   "status": "proved",
   "theorems": [
    "PySpline.boundary_assignment_atomic",
    "PySpline.interior_assignment_atomic"
   ],
   "note": ""
  },
  {
   "property": "C62",
   "status": "proved",
   "theorems": [
    "PySpline.boundary_degree_pos",
    "PySpline.boundary_degree_zero"
   ],
   "note": "The unrestricted claim is false (boundary_degree_zero); proved for int arguments."
  },
  {
   "property": "C63",
   "status": "proved",
   "theorems": [
    "PySpline.boundary_save_load"
   ],
   "note": ""
  },
  {
   "property": "C64",
   "status": "proved",
   "theorems": [
    "PySpline.written_surface_unreadable",
    "PySpline.write_surface_text"
   ],
   "note": "A defect. The number format is a parameter with the laws Fmt.Ok, satisfiable by exists_fmt_ok."
  },
  {
   "property": "C65",
   "status": "proved",
   "theorems": [
    "PySpline.read_surface_text",
    "PySpline.exists_fmt_ok"
   ],
   "note": ""
  },
  {
   "property": "C66",
   "status": "proved",
   "theorems": [
    "PySpline.write_curve_raises"
   ],
   "note": "A defect."
  },
  {
   "property": "C68",
   "status": "proved",
   "theorems": [
    "PySpline.json_save_truncates",
    "PySpline.extension_json"
   ],
   "note": "A defect."
  },
  {
   "property": "C69",
   "status": "proved",
   "theorems": [
    "PySpline.vtk_samples_grid",
    "PySpline.vtk_params_range",
    "PySpline.vtk_samples_surface",
    "PySpline.vtk_samples_zero"
   ],
   "note": "Exact arithmetic; C97 shows that the claim is false in double precision."
  },
  {
   "property": "C82",
   "status": "proved",
   "theorems": [
    "PySpline.boundary_fit_not_atomic"
   ],
   "note": "A defect."
  },
  {
   "property": "C83",
   "status": "proved",
   "theorems": [
    "PySpline.interior_never_fits"
   ],
   "note": "A defect."
  },
  {
   "property": "C84",
   "status": "proved",
   "theorems": [
    "PySpline.boundary_obj_setters_raise"
   ],
   "note": "A defect."
  },
  {
   "property": "C85",
   "status": "proved",
   "theorems": [
    "PySpline.boundary_fit_idempotent",
    "PySpline.boundary_fit_twice"
   ],
   "note": ""
  },
  {
   "property": "C86",
   "status": "proved",
   "theorems": [
    "PySpline.boundary_fit_ignores_ends",
    "PySpline.boundary_fit_stale"
   ],
   "note": "A defect."
  },
  {
   "property": "C87",
   "status": "proved",
   "theorems": [
    "PySpline.curve_writer_init_raises"
   ],
   "note": "A defect."
  },
  {
   "property": "C88",
   "status": "proved",
   "theorems": [
    "PySpline.curve_reader_result"
   ],
   "note": "A defect."
  },
  {
   "property": "C89",
   "status": "proved",
   "theorems": [
    "PySpline.curve_inversion_newton_chain",
    "PySpline.curve_inversion_one_step",
    "PySpline.surface_inversion_newton_chain",
    "PySpline.euclidean_exists"
   ],
   "note": "The evaluation methods are a black box with exact first and second derivatives, the norm is Euclidean."
  },
  {
   "property": "C90",
   "status": "proved",
   "theorems": [
    "PySpline.curve_inversion_foot_point",
    "PySpline.surface_inversion_plane",
    "PySpline.surface_inversion_certificate",
    "PySpline.surface_inversion_default_tolerances"
   ],
   "note": ""
  },
  {
   "property": "C91",
   "status": "proved",
   "theorems": [
    "PySpline.fit_curve_knot_insertion_committed",
    "PySpline.fit_curve_fixed_committed",
    "PySpline.boundary_never_fits",
    "PySpline.boundary_fit_raises",
    "PySpline.fit_curve_knot_insertion_value_error",
    "PySpline.fit_curve_fixed_value_error",
    "PySpline.boundary_fit_value_error"
   ],
   "note": "A defect."
  },
  {
   "property": "C92",
   "status": "proved",
   "theorems": [
    "PySpline.sizes_at_least_two",
    "PySpline.sizes_exceed_degree",
    "PySpline.control_points_read_back",
    "PySpline.attributes_settable",
    "PySpline.size_below_degree",
    "PySpline.negative_size"
   ],
   "note": "The witnesses show that the hypotheses are needed."
  },
  {
   "property": "C93",
   "status": "proved",
   "theorems": [
    "PySpline.fit_curve_knot_insertion_optimal",
    "PySpline.fit_curve_fixed_optimal"
   ],
   "note": "lstsq is any exact least squares solver, the evaluation methods are a black box."
  },
  {
   "property": "C94",
   "status": "proved",
   "theorems": [
    "PySpline.surface_point_by_rows",
    "PySpline.surface_point_by_columns"
   ],
   "note": ""
  },
  {
   "property": "C95",
   "status": "proved",
   "theorems": [
    "PySpline.surface_point_affine"
   ],
   "note": ""
  },
  {
   "property": "C96",
   "status": "proved",
   "theorems": [
    "PySpline.surface_point_local"
   ],
   "note": ""
  },
  {
   "property": "C97",
   "status": "proved",
   "theorems": [
    "PySpline.vtk_len",
    "PySpline.vtk_size",
    "PySpline.vtk_param",
    "PySpline.vtk_double_grid",
    "PySpline.vtk_double_beyond",
    "PySpline.vtk_double_overflow",
    "PySpline.vtk_double_returns_iff",
    "PySpline.vtk_double_pow_two",
    "PySpline.vtk_double_six",
    "PySpline.vtk_double_cases"
   ],
   "note": "A defect. Round to nearest even with 53 bits; overflow and underflow are not modelled and do not occur for these n_tri."
  },
  {
   "property": "C98",
   "status": "proved",
   "theorems": [
    "PySpline.basis_functions_rounded",
    "PySpline.basis_functions_rounded_sum",
    "PySpline.basis_functions_double",
    "PySpline.basisFunctionsFl_id"
   ],
   "note": "Overflow and underflow are not modelled."
  },
  {
   "property": "C99",
   "status": "proved",
   "theorems": [
    "PySpline.single_point_rounded",
    "PySpline.surface_point_rounded",
    "PySpline.single_point_double",
    "PySpline.surface_point_double",
    "PySpline.Curve.PointFl_id"
   ],
   "note": "Overflow and underflow are not modelled; the exact point is the B-spline at the given parameter."
  },
  {
   "property": "C100",
   "status": "proved",
   "theorems": [
    "PySpline.first_point_double_inexact"
   ],
   "note": "C26 holds in exact arithmetic only."
  },
  {
   "property": "C101",
   "status": "proved",
   "theorems": [
    "PySpline.normalize_double",
    "PySpline.normalize_double_inexact",
    "PySpline.check_knot_vector_double",
    "PySpline.generate_uniform_double"
   ],
   "note": "Overflow and underflow are not modelled; numpy's linspace is taken as i * (1/(num-1)) with the last entry set to 1."
  },
  {
   "property": "C102",
   "status": "proved",
   "theorems": [
    "PySpline.grid_double",
    "PySpline.grid_double_last",
    "PySpline.mid_knot_double"
   ],
   "note": "Overflow and underflow are not modelled."
  },
  {
   "property": "C103",
   "status": "proved",
   "theorems": [
    "PySpline.basis_function_ders_real"
   ],
   "note": "Over the reals."
  },
  {
   "property": "C104",
   "status": "proved",
   "theorems": [
    "PySpline.single_point_smooth",
    "PySpline.curve_hasDerivAt"
   ],
   "note": "Over the reals."
  },
  {
   "property": "C105",
   "status": "proved",
   "theorems": [
    "PySpline.surface_derivatives_real"
   ],
   "note": "Over the reals."
  },
  {
   "property": "C106",
   "status": "proved",
   "theorems": [
    "PySpline.single_point_variation_diminishing"
   ],
   "note": ""
  },
  {
   "property": "C107",
   "status": "proved",
   "theorems": [
    "PySpline.single_point_monotone"
   ],
   "note": ""
  },
  {
   "property": "C108",
   "status": "proved",
   "theorems": [
    "PySpline.single_point_polynomial",
    "PySpline.single_point_greville"
   ],
   "note": ""
  },
  {
   "property": "C109",
   "status": "proved",
   "theorems": [
    "PySpline.single_fit_curve_unique",
    "PySpline.single_fit_curve_solver",
    "PySpline.single_fit_curve_recovers",
    "PySpline.schoenberg_whitney",
    "PySpline.single_fit_curve_unique_iff",
    "PySpline.single_fit_curve_few"
   ],
   "note": "lstsq is any exact least squares solver."
  },
  {
   "property": "C110",
   "status": "proved",
   "theorems": [
    "PySpline.single_fit_curve_affine",
    "PySpline.single_fit_curve_perm"
   ],
   "note": "lstsq is any exact least squares solver."
  },
  {
   "property": "C111",
   "status": "proved",
   "theorems": [
    "PySpline.single_fit_surface_unique",
    "PySpline.single_fit_surface_solver",
    "PySpline.single_fit_surface_recovers"
   ],
   "note": "lstsq is any exact least squares solver."
  },
  {
   "property": "C112",
   "status": "proved",
   "theorems": [
    "PySpline.single_fit_curve_origin",
    "PySpline.single_fit_curve_not_translation_invariant"
   ],
   "note": "A defect. lstsq is any exact solver that returns the solution of least norm."
  },
  {
   "property": "C113",
   "status": "proved",
   "theorems": [
    "PySpline.one_basis_function_rounded",
    "PySpline.curve_matrix_rounded",
    "PySpline.surface_matrix_rounded",
    "PySpline.single_fit_curve_unity_double",
    "PySpline.single_fit_curve_outside_double",
    "PySpline.single_fit_surface_unity_double",
    "PySpline.single_fit_surface_outside_double",
    "PySpline.unity_not_exact",
    "PySpline.oneBasisFunctionFl_id",
    "PySpline.CheckUnityFl_id"
   ],
   "note": "Overflow and underflow are not modelled; sums are taken in any order."
  },
  {
   "property": "C114",
   "status": "proved",
   "theorems": [
    "PySpline.boundary_frame",
    "PySpline.boundary_set",
    "PySpline.boundary_readback",
    "PySpline.boundary_set_init_curve",
    "PySpline.interior_frame",
    "PySpline.interior_set",
    "PySpline.interior_readback"
   ],
   "note": ""
  },
  {
   "property": "C115",
   "status": "proved",
   "theorems": [
    "PySpline.planar_ends_never_fit",
    "PySpline.planar_data_never_fits"
   ],
   "note": "A defect."
  },
  {
   "property": "C116",
   "status": "proved",
   "theorems": [
    "PySpline.single_point_bezier",
    "PySpline.surface_point_bezier"
   ],
   "note": ""
  },
  {
   "property": "C117",
   "status": "proved",
   "theorems": [
    "PySpline.initialize_curve_constant_speed",
    "PySpline.initialize_curve_not_constant_speed",
    "PySpline.initialize_curve_degree"
   ],
   "note": "A defect (last part)."
  },
  {
   "property": "C118",
   "status": "proved",
   "theorems": [
    "PySpline.single_point_injective",
    "PySpline.surface_point_injective",
    "PySpline.knot_insertion_comm"
   ],
   "note": ""
  },
  {
   "property": "C119",
   "status": "proved",
   "theorems": [
    "PySpline.single_point_stable",
    "PySpline.single_point_lipschitz"
   ],
   "note": ""
  },
  {
   "property": "C120",
   "status": "proved",
   "theorems": [
    "PySpline.single_point_reverse"
   ],
   "note": ""
  },
  {
   "property": "C121",
   "status": "proved",
   "theorems": [
    "PySpline.surface_point_transpose"
   ],
   "note": ""
  },
  {
   "property": "C122",
   "status": "proved",
   "theorems": [
    "PySpline.read_curve_text",
    "PySpline.read_curve_text_tab"
   ],
   "note": "A defect (last part). write_curve_to_txt itself always raises (C66)."
  },
  {
   "property": "C123",
   "status": "proved",
   "theorems": [
    "PySpline.notebook_session"
   ],
   "note": "A defect. The notebook imports a package that does not exist at this commit; its calls are made on a BoundaryProblem."
  },
  {
   "property": "C124",
   "status": "proved",
   "theorems": [
    "PySpline.surface_inversion_bspline",
    "PySpline.surface_inversion_bspline_degree_one",
    "PySpline.initial_guess_surf_bspline",
    "PySpline.parameterize_surface_bspline",
    "PySpline.surface_smooth"
   ],
   "note": "Exact arithmetic. Evaluable: AllRegular, which follows from distinct interior knots that keep away from 1."
  },
  {
   "property": "C125",
   "status": "proved",
   "theorems": [
    "PySpline.single_fit_surface_affine",
    "PySpline.single_fit_surface_perm",
    "PySpline.single_fit_surface_origin",
    "PySpline.single_fit_surface_not_translation_invariant"
   ],
   "note": "A defect (last part)."
  },
  {
   "property": "C126",
   "status": "proved",
   "theorems": [
    "PySpline.surface_cross_derivative_u",
    "PySpline.surface_cross_derivative_v",
    "PySpline.surface_corner_derivatives"
   ],
   "note": ""
  },
  {
   "property": "C127",
   "status": "proved",
   "theorems": [
    "PySpline.one_basis_function_ders_above_degree"
   ],
   "note": "A defect."
  },
  {
   "property": "C128",
   "status": "proved",
   "theorems": [
    "PySpline.knot_insertion_rounded",
    "PySpline.knot_insertion_double"
   ],
   "note": "Overflow and underflow are not modelled."
  },
  {
   "property": "C129",
   "status": "proved",
   "theorems": [
    "PySpline.assign_numbers",
    "PySpline.assign_control_points",
    "PySpline.assign_knots"
   ],
   "note": "Silent rejection of knots and the failing setters are defects."
  },
  {
   "property": "C130",
   "status": "proved",
   "theorems": [
    "PySpline.knot_insertion_full_multiplicity",
    "PySpline.knot_insertion_full_multiplicity_changes_curve"
   ],
   "note": "A defect."
  },
  {
   "property": "C131",
   "status": "proved",
   "theorems": [
    "PySpline.fit_curve_knot_insertion_rounds",
    "PySpline.fit_round_keeps_exact"
   ],
   "note": "The parameterization must not raise (hypothesis Parameterizes); lstsq is any exact least squares solver."
  },
  {
   "property": "C132",
   "status": "proved",
   "theorems": [
    "PySpline.initial_guess_curve_near",
    "PySpline.initial_guess_surf_near"
   ],
   "note": ""
  },
  {
   "property": "C133",
   "status": "proved",
   "theorems": [
    "PySpline.single_point_ends_double",
    "PySpline.surface_corners_double",
    "PySpline.exactEnds_dyadic",
    "PySpline.exactEnds_uniform",
    "PySpline.uniform_last_point_inexact"
   ],
   "note": "Overflow and underflow are not modelled."
  },
  {
   "property": "C134",
   "status": "proved",
   "theorems": [
    "PySpline.curve_inversion_converges",
    "PySpline.attracts_of_lipschitz"
   ],
   "note": "For curves given as black boxes with exact derivatives: on the committed curve class curve_inversion raises (C77)."
  },
  {
   "property": "C135",
   "status": "proved",
   "theorems": [
    "PySpline.trough_closest",
    "PySpline.surface_inversion_repelled"
   ],
   "note": "A defect."
  },
  {
   "property": "C136",
   "status": "proved",
   "theorems": [
    "PySpline.surface_inversion_converges",
    "PySpline.surface_inversion_on_surface",
    "PySpline.NearFoot.of_ders"
   ],
   "note": ""
  },
  {
   "property": "C137",
   "status": "proved",
   "theorems": [
    "PySpline.interior_parameterize",
    "PySpline.interior_fit_result",
    "PySpline.interior_fit_unparameterized",
    "PySpline.interior_fit_idempotent",
    "PySpline.interior_fit_contains"
   ],
   "note": "The states are not reachable with the public setters (C83)."
  },
  {
   "property": "C138",
   "status": "proved",
   "theorems": [
    "PySpline.set_init_curve_missing",
    "PySpline.missing_propagates",
    "PySpline.missing_data"
   ],
   "note": ""
  },
  {
   "property": "C139",
   "status": "proved",
   "theorems": [
    "PySpline.curve_inversion_total",
    "PySpline.curve_inversion_regular",
    "PySpline.curve_inversion_stuck"
   ],
   "note": "For curves given as black boxes with exact derivatives: on the committed curve class curve_inversion raises (C77)."
  },
  {
   "property": "C140",
   "status": "proved",
   "theorems": [
    "PySpline.basis_function_ders_rounded",
    "PySpline.basis_function_ders_rounded_sum",
    "PySpline.basis_function_ders_double",
    "PySpline.basisFunctionDersFl_id"
   ],
   "note": ""
  },
  {
   "property": "C141",
   "status": "proved",
   "theorems": [
    "PySpline.surface_derivatives_rounded",
    "PySpline.surface_derivatives_double"
   ],
   "note": ""
  },
  {
   "property": "C142",
   "status": "proved",
   "theorems": [
    "PySpline.curve_inversion_guess_accepted",
    "PySpline.curve_inversion_stops",
    "PySpline.curve_inversion_limit",
    "PySpline.curve_inversion_raises"
   ],
   "note": "If f' = 0 but f is not 0 at an iterate, the step goes to 0 or 1 according to the sign of a zero (a parameter of the model); that case is in C89."
  },
  {
   "property": "C143",
   "status": "proved",
   "theorems": [
    "PySpline.surface_inversion_guess_accepted",
    "PySpline.surface_inversion_stops",
    "PySpline.surface_inversion_raises"
   ],
   "note": ""
  },
  {
   "property": "C144",
   "status": "proved",
   "theorems": [
    "PySpline.basis_functions_affine",
    "PySpline.one_basis_function_affine",
    "PySpline.one_basis_function_ders_affine",
    "PySpline.basis_function_ders_affine",
    "PySpline.basis_functions_normalize",
    "PySpline.find_span_affine",
    "PySpline.find_span_small_scale",
    "PySpline.single_point_affine_knots",
    "PySpline.small_knots_witness"
   ],
   "note": "The absolute tolerance of find_span is a defect."
  },
  {
   "property": "C145",
   "status": "proved",
   "theorems": [
    "PySpline.knot_insertion_reaches_curve",
    "PySpline.knot_insertion_evaluates",
    "PySpline.knot_insertion_add",
    "PySpline.knot_insertion_add_fails"
   ],
   "note": "The failing case is the defect of C13."
  },
  {
   "property": "C146",
   "status": "proved",
   "theorems": [
    "PySpline.points_length_le",
    "PySpline.points_distance_le",
    "PySpline.knot_insertion_polygon_length",
    "PySpline.knot_insertion_polygon_length_witness"
   ],
   "note": ""
  },
  {
   "property": "C147",
   "status": "proved",
   "theorems": [
    "PySpline.find_span_extended",
    "PySpline.basis_extended",
    "PySpline.knot_insertion_extended",
    "PySpline.curve_extended",
    "PySpline.surface_extended",
    "PySpline.check_knot_vector_extended",
    "PySpline.surface_inversion_extended",
    "PySpline.curve_inversion_extended",
    "PySpline.curve_like_extends",
    "PySpline.surface_like_extends",
    "PySpline.ext_add",
    "PySpline.ext_mul",
    "PySpline.ext_div",
    "PySpline.ext_order",
    "PySpline.ext_nan"
   ],
   "note": "curve_inversion: the zero that a Newton step divides by is +0 (hypothesis on zeroSign), and the derivative rows are not empty."
  },
  {
   "property": "C148",
   "status": "proved",
   "theorems": [
    "PySpline.basis_functions_visible",
    "PySpline.curve_point_visible",
    "PySpline.surface_point_visible",
    "PySpline.basis_function_ders_visible",
    "PySpline.surface_derivatives_visible"
   ],
   "note": ""
  },
  {
   "property": "C149",
   "status": "proved",
   "theorems": [
    "PySpline.validate_knot_extended",
    "PySpline.evaluation_rejects_nonfinite",
    "PySpline.find_span_nan",
    "PySpline.find_span_inf",
    "PySpline.find_multiplicity_nan",
    "PySpline.basis_functions_nan",
    "PySpline.one_basis_function_nan",
    "PySpline.one_basis_function_ders_nan",
    "PySpline.check_knot_vector_nonfinite"
   ],
   "note": ""
  },
  {
   "property": "C150",
   "status": "proved",
   "theorems": [
    "PySpline.curve_inversion_nonfinite",
    "PySpline.surface_inversion_nonfinite",
    "PySpline.surface_inversion_nonfinite_bspline",
    "PySpline.parameterize_nonfinite"
   ],
   "note": "numpy.linalg.inv with entries that are not finite is modelled by one elimination step; used only where the multiplier is NaN."
  },
  {
   "property": "C151",
   "status": "proved",
   "theorems": [
    "PySpline.degree_values",
    "PySpline.num_ctrlpts_values",
    "PySpline.other_values"
   ],
   "note": "Python values are those of the type Val; int of a string is a parameter."
  },
  {
   "property": "C152",
   "status": "proved",
   "theorems": [
    "PySpline.surf_to_vtk_mesh",
    "PySpline.surf_to_vtk_raises",
    "PySpline.surf_to_vtk_negative",
    "PySpline.interior_vtk_mesh",
    "PySpline.delaunay_cell",
    "PySpline.surf_to_vtk_close",
    "PySpline.surf_to_vtk_covers"
   ],
   "note": "spatial.Delaunay and meshio.write are parameters; exact arithmetic (for the sampling in double precision see C97)."
  },
  {
   "property": "C153",
   "status": "proved",
   "theorems": [
    "PySpline.curve_inversion_single",
    "PySpline.curve_inversion_other",
    "PySpline.parameterize_curve_other",
    "PySpline.surface_inversion_single",
    "PySpline.surface_inversion_other",
    "PySpline.parameterize_surface_other",
    "PySpline.surface_spatial",
    "PySpline.curve_spatial"
   ],
   "note": "A defect (missing check)."
  },
  {
   "property": "C154",
   "status": "proved",
   "theorems": [
    "PySpline.find_span_int",
    "PySpline.find_span_sound",
    "PySpline.find_span_rtol",
    "PySpline.check_knot_vector_int",
    "PySpline.generate_uniform_int",
    "PySpline.curve_knot_insertion_int"
   ],
   "note": "Includes a defect: negative numbers of insertions are accepted."
  },
  {
   "property": "C155",
   "status": "proved",
   "theorems": [
    "PySpline.basis_functions_int",
    "PySpline.basis_function_ders_int",
    "PySpline.one_basis_function_int",
    "PySpline.one_basis_function_ders_int",
    "PySpline.surface_derivatives_int"
   ],
   "note": ""
  },
  {
   "property": "C156",
   "status": "proved",
   "theorems": [
    "PySpline.read_any_line_terminator"
   ],
   "note": ""
  },
  {
   "property": "C157",
   "status": "proved",
   "theorems": [
    "PySpline.curve_inversion_any",
    "PySpline.curve_inversion_any_fails_tests",
    "PySpline.surface_inversion_any",
    "PySpline.curveInversionA_exact",
    "PySpline.surfaceInversionA_exact",
    "PySpline.curve_checks",
    "PySpline.surface_checks"
   ],
   "note": ""
  },
  {
   "property": "C158",
   "status": "proved",
   "theorems": [
    "PySpline.initial_guess_curve_measured",
    "PySpline.initial_guess_surf_measured",
    "PySpline.initial_guess_curve_rounded",
    "PySpline.initial_guess_surf_rounded",
    "PySpline.measures_euclid",
    "PySpline.measures_sum",
    "PySpline.rounded_grid_double"
   ],
   "note": ""
  },
  {
   "property": "C159",
   "status": "proved",
   "theorems": [
    "PySpline.knot_insertion_once",
    "PySpline.knot_insertion_once_preserves_iff",
    "PySpline.knot_insertion_once_bound",
    "PySpline.knot_insertion_once_near_left"
   ],
   "note": ""
  },
  {
   "property": "C160",
   "status": "proved",
   "theorems": [
    "PySpline.ieee_extended",
    "PySpline.ieee_rounded",
    "PySpline.basis_functions_ieee",
    "PySpline.single_point_ieee",
    "PySpline.surface_point_ieee",
    "PySpline.basis_functions_binary64",
    "PySpline.single_point_binary64",
    "PySpline.surface_point_binary64"
   ],
   "note": "Examples: infinities on a span of length 2^-1030, a basis function that underflows to 0."
  },
  {
   "property": "C161",
   "status": "proved",
   "theorems": [
    "PySpline.check_knot_vector_binary64",
    "PySpline.check_knot_vector_binary64_accepts",
    "PySpline.check_knot_vector_binary64_unsorted"
   ],
   "note": "Examples show that 2^-1023 and 2^1023 are accepted. The last theorem is a defect, with a concrete witness."
  },
  {
   "property": "C162",
   "status": "proved",
   "theorems": [
    "PySpline.single_point_convex",
    "PySpline.surface_point_convex_u",
    "PySpline.surface_point_convex_v"
   ],
   "note": ""
  },
  {
   "property": "C163",
   "status": "proved",
   "theorems": [
    "PySpline.control_point_near_curve",
    "PySpline.knot_insertion_slopes",
    "PySpline.knot_refinement_near_curve",
    "PySpline.control_point_near_curve_second",
    "PySpline.knot_refinement_second"
   ],
   "note": ""
  },
  {
   "property": "C164",
   "status": "proved",
   "theorems": [
    "PySpline.knot_insertion_ieee_agrees",
    "PySpline.knot_insertion_ieee",
    "PySpline.knot_insertion_binary64"
   ],
   "note": "Examples: subnormal and huge coordinates, a midpoint that underflows, a knot range that overflows."
  },
  {
   "property": "C165",
   "status": "proved",
   "theorems": [
    "PySpline.single_fit_curve_lipschitz",
    "PySpline.single_fit_surface_lipschitz",
    "PySpline.fit_curve_knot_insertion_lipschitz"
   ],
   "note": "lstsq is any exact least squares solver."
  },
  {
   "property": "C166",
   "status": "proved",
   "theorems": [
    "PySpline.single_fit_curve_planar",
    "PySpline.fit_curve_knot_insertion_planar",
    "PySpline.single_fit_surface_planar",
    "PySpline.single_fit_curve_planar_origin",
    "PySpline.single_fit_surface_planar_origin",
    "PySpline.single_fit_curve_not_planar"
   ],
   "note": "lstsq is any exact least squares solver; for the last three theorems one that returns the solution of least norm. The last part is a defect."
  },
  {
   "property": "C167",
   "status": "proved",
   "theorems": [
    "PySpline.fit_curve_knot_insertion_order",
    "PySpline.fit_curve_fixed_order",
    "PySpline.fit_surface_order",
    "PySpline.boundary_fit_order",
    "PySpline.interior_fit_order",
    "PySpline.fit_surface_optimal"
   ],
   "note": "lstsq is any function for the first five theorems, any exact least squares solver for the last."
  },
  {
   "property": "C168",
   "status": "proved",
   "theorems": [
    "PySpline.single_fit_curve_projection",
    "PySpline.single_fit_curve_nonexpansive",
    "PySpline.single_fit_curve_values",
    "PySpline.single_fit_curve_one_datum",
    "PySpline.single_fit_curve_superposition",
    "PySpline.single_fit_curve_interpolates",
    "PySpline.single_fit_surface_projection",
    "PySpline.single_fit_surface_nonexpansive",
    "PySpline.single_fit_surface_interpolates"
   ],
   "note": "lstsq is any exact least squares solver."
  },
  {
   "property": "C169",
   "status": "proved",
   "theorems": [
    "PySpline.one_basis_function_ieee_agrees",
    "PySpline.one_basis_function_ieee",
    "PySpline.one_basis_function_binary64",
    "PySpline.single_fit_curve_unity_binary64",
    "PySpline.single_fit_surface_unity_binary64"
   ],
   "note": "Examples: a knot at 2^-900, an entry that underflows to zero, a span of length 2^-1030 where the check fails."
  },
  {
   "property": "C170",
   "status": "proved",
   "theorems": [
    "PySpline.single_point_slopes",
    "PySpline.single_point_strictly_increasing",
    "PySpline.single_point_flat",
    "PySpline.curve_strict_iff",
    "PySpline.single_point_parameter_unique",
    "PySpline.single_point_graph",
    "PySpline.surface_point_increasing_u",
    "PySpline.surface_point_increasing_v",
    "PySpline.surface_parameters_unique",
    "PySpline.initialize_curve_speed",
    "PySpline.initialize_curve_parameter_unique"
   ],
   "note": "The necessity of the span condition is stated for the mathematical curve and, span by span, for single_point."
  },
  {
   "property": "C171",
   "status": "proved",
   "theorems": [
    "PySpline.single_fit_curve_excess",
    "PySpline.single_fit_curve_stable",
    "PySpline.single_fit_curve_continuous",
    "PySpline.single_fit_surface_excess",
    "PySpline.single_fit_surface_stable"
   ],
   "note": "The constant is shown to exist (from a left inverse of the collocation matrix), its size is not bounded; the basis functions are exact (for their rounding errors see C169)."
  },
  {
   "property": "C172",
   "status": "proved",
   "theorems": [
    "PySpline.single_fit_curve_rounded",
    "PySpline.single_fit_curve_rounded_determined",
    "PySpline.single_fit_surface_rounded",
    "PySpline.single_fit_surface_rounded_determined",
    "PySpline.single_fit_curve_double",
    "PySpline.single_fit_surface_double"
   ],
   "note": "Overflow and underflow are left out. Backward stability is what is assumed of np.linalg.lstsq; cutting off small singular values is covered by it. The constant k is a hypothesis in the explicit bounds and shown to exist for determined fits."
  },
  {
   "property": "C173",
   "status": "proved",
   "theorems": [
    "PySpline.fit_curve_knot_insertion_rounded_count",
    "PySpline.fit_curve_fixed_rounded_keeps",
    "PySpline.fit_curve_knot_insertion_double",
    "PySpline.fit_curve_knot_insertion_double_exact_knots",
    "PySpline.fit_curve_knot_insertion_double_initial",
    "PySpline.fit_curve_fixed_double",
    "PySpline.initialize_curve_double",
    "PySpline.KnotFitFl_id",
    "PySpline.FitCurveFixedFl_id"
   ],
   "note": "Overflow and underflow are left out. The inversion is a parameter of the model; that its values are in [0, 1] in any arithmetic is C157."
  },
  {
   "property": "C174",
   "status": "proved",
   "theorems": [
    "PySpline.single_fit_curve_influence",
    "PySpline.single_fit_curve_centroids",
    "PySpline.single_fit_curve_extra",
    "PySpline.single_fit_surface_influence",
    "PySpline.single_fit_surface_centroids",
    "PySpline.single_fit_surface_extra"
   ],
   "note": "Fitted values are those at the parameters of the data; statements about control points assume that the parameters determine the fit."
  },
  {
   "property": "C175",
   "status": "proved",
   "theorems": [
    "PySpline.ruled_surface_rounded",
    "PySpline.fit_surface_rounded_keeps",
    "PySpline.ruled_surface_double",
    "PySpline.fit_surface_double",
    "PySpline.interior_fit_double",
    "PySpline.ruled_surface_double_top_inexact",
    "PySpline.ruledSurfaceFl_id",
    "PySpline.FitSurfaceFl_id"
   ],
   "note": "The inversion is a parameter here (any function into the unit square). Sizes up to 10^10 for the fit. The committed InteriorProblem cannot be fitted through its methods (C83); the theorems are about the code of set_init_surface between given boundaries."
  },
  {
   "property": "C176",
   "status": "proved",
   "theorems": [
    "PySpline.single_fit_curve_smooth",
    "PySpline.single_fit_curve_polynomial",
    "PySpline.fit_curve_knot_insertion_smooth",
    "PySpline.single_fit_surface_smooth",
    "PySpline.taylorOn_of_contDiff",
    "PySpline.single_fit_curve_contDiff"
   ],
   "note": "In the rounds the data must be values of a smooth function of the parameters of that round. For surfaces the boundary control points are compared with the blossoms of the Taylor polynomials of the function."
  },
  {
   "property": "C177",
   "status": "proved",
   "theorems": [
    "PySpline.single_fit_curve_decay",
    "PySpline.single_fit_curve_decay_ends",
    "PySpline.single_fit_surface_decay",
    "PySpline.stable_of_peaks",
    "PySpline.stable_of_determined"
   ],
   "note": "lam and D are hypotheses of the decay theorems; stable_of_peaks and stable_of_determined give conditions under which lam exists. For surfaces only changes of the data are treated, not changes of the boundary."
  },
  {
   "property": "C178",
   "status": "proved",
   "theorems": [
    "PySpline.single_fit_curve_sup_stable",
    "PySpline.single_fit_curve_sup_smooth",
    "PySpline.single_fit_surface_sup_stable",
    "PySpline.single_fit_surface_sup_smooth"
   ],
   "note": "lam and q are hypotheses; lam > 0 exists whenever the parameters determine the curve (C177, stable_of_determined)."
  },
  {
   "property": "C179",
   "status": "proved",
   "theorems": [
    "PySpline.single_fit_surface_grid"
   ],
   "note": ""
  },
  {
   "property": "C180",
   "status": "proved",
   "theorems": [
    "PySpline.ieee_ders_agree",
    "PySpline.basis_function_ders_ieee",
    "PySpline.basis_function_ders_binary64",
    "PySpline.basis_function_ders_overflow",
    "PySpline.surface_derivatives_ieee",
    "PySpline.surface_derivatives_binary64"
   ],
   "note": "normalize=False; the knots and the parameter are taken to be machine numbers."
  },
  {
   "property": "C181",
   "status": "proved",
   "theorems": [
    "PySpline.normalize_row_agree",
    "PySpline.normalize_row_ieee",
    "PySpline.normalize_row_overflow",
    "PySpline.exists_sqrt_bin64",
    "PySpline.normalize_row_binary64",
    "PySpline.surface_normalized_binary64",
    "PySpline.surface_normalized_overflow"
   ],
   "note": "The square root is a parameter, assumed accurate to two roundings (exists_sqrt_bin64: there is one in double precision). The two calls of np.linalg.norm on the same array are taken to give the same number."
  },
  {
   "property": "C182",
   "status": "proved",
   "theorems": [
    "PySpline.oneBasisFunctionDersFl_id",
    "PySpline.one_basis_function_ders_rounded",
    "PySpline.one_basis_function_ders_rounded_outside",
    "PySpline.one_basis_function_ders_double",
    "PySpline.one_basis_function_ders_cancellation"
   ],
   "note": "No overflow or underflow."
  },
  {
   "property": "C183",
   "status": "proved",
   "theorems": [
    "PySpline.single_point_degree_one",
    "PySpline.single_point_degree_one_knot",
    "PySpline.surface_point_degree_one",
    "PySpline.initialize_curve_degree_one",
    "PySpline.single_point_degree_one_witness"
   ],
   "note": "exact, over every ordered field"
  },
  {
   "property": "C184",
   "status": "proved",
   "theorems": [
    "PySpline.meanWeight_sum",
    "PySpline.single_point_mean",
    "PySpline.surface_point_mean",
    "PySpline.knot_insertion_mean",
    "PySpline.meanWeight_bezier"
   ],
   "note": "over the reals, with Mathlib's interval integral"
  },
  {
   "property": "C185",
   "status": "proved",
   "theorems": [
    "PySpline.cutoff_zero_minNorm",
    "PySpline.exists_cutoff_lstsq",
    "PySpline.single_fit_curve_cutoff",
    "PySpline.single_fit_curve_cutoff_exact",
    "PySpline.single_fit_curve_cutoff_bounded",
    "PySpline.single_fit_surface_cutoff",
    "PySpline.single_fit_cutoff_backward",
    "PySpline.single_fit_curve_cutoff_worse"
   ],
   "note": "near-optimality, optimality for well-conditioned problems, boundedness and backward stability of fits with the rcond cutoff; a fit that increases the distance"
  },
  {
   "property": "C186",
   "status": "proved",
   "theorems": [
    "PySpline.fit_curve_knot_insertion_returns",
    "PySpline.fit_curve_knot_insertion_fitRounds",
    "PySpline.fit_curve_fixed_stages",
    "PySpline.fit_curve_knot_insertion_cutoff",
    "PySpline.fit_curve_fixed_cutoff",
    "PySpline.fit_surface_cutoff",
    "PySpline.fit_curve_knot_insertion_cutoff_lipschitz",
    "PySpline.fit_curve_knot_insertion_cutoff_smooth"
   ],
   "note": "termination with every solver; near-optimality of all rounds and stages, rates for Lipschitz and smooth data with the rcond cutoff"
  },
  {
   "property": "C187",
   "status": "proved",
   "theorems": [
    "PySpline.normalize_memory",
    "PySpline.curve_knot_insertion_memory",
    "PySpline.linear_fit_fixed_memory",
    "PySpline.insert_knot_memory",
    "PySpline.single_fit_curve_memory",
    "PySpline.single_fit_surface_memory",
    "PySpline.UnwrittenBut.other",
    "PySpline.fit_curve_knot_insertion_memory",
    "PySpline.fit_curve_fixed_memory",
    "PySpline.fit_surface_memory",
    "PySpline.fit_curve_fixed_later_writes",
    "PySpline.fit_curve_knot_insertion_later_writes",
    "PySpline.fit_surface_later_writes",
    "PySpline.set_knot_vector_memory",
    "PySpline.set_knot_vector_later_writes"
   ],
   "note": "memory with shared arrays: simulation of the value model, frame, sharing of results, later writes"
  },
  {
   "property": "C188",
   "status": "proved",
   "theorems": [
    "PySpline.boundary_memory",
    "PySpline.boundary_new_memory",
    "PySpline.boundary_session_memory",
    "PySpline.boundary_write_mat",
    "PySpline.boundary_write_vec",
    "PySpline.boundary_results_own",
    "PySpline.boundary_write_good",
    "PySpline.boundary_data_shared",
    "PySpline.boundary_start_shared",
    "PySpline.boundary_end_shared",
    "PySpline.boundary_fit_shares"
   ],
   "note": "problem object in memory: simulation of the value model, frame, sharing with the caller, later writes"
  },
  {
   "property": "C189",
   "status": "proved",
   "theorems": [
    "PySpline.linear_fit_fixed_ieee_agrees",
    "PySpline.linear_fit_fixed_ieee_keeps",
    "PySpline.single_fit_curve_ieee_keeps",
    "PySpline.single_fit_surface_ieee_keeps",
    "PySpline.linear_fit_fixed_ieee",
    "PySpline.single_fit_curve_binary64",
    "PySpline.single_fit_surface_binary64",
    "PySpline.single_fit_curve_binary64_determined",
    "PySpline.single_fit_surface_binary64_determined"
   ],
   "note": "fits in IEEE arithmetic: no overflow, error bound, fixed entries kept in any case"
  },
  {
   "property": "C190",
   "status": "proved",
   "theorems": [
    "PySpline.fit_curve_knot_insertion_ieee_count",
    "PySpline.fit_curve_fixed_ieee_keeps",
    "PySpline.initialize_curve_binary64",
    "PySpline.fit_curve_knot_insertion_binary64",
    "PySpline.fit_curve_knot_insertion_binary64_any_solver",
    "PySpline.fit_curve_fixed_binary64",
    "PySpline.fit_curve_fixed_binary64_any_solver"
   ],
   "note": "curve fits in IEEE arithmetic: every run ends with doubles, counts, knots and ends, for any solver unless it returns extreme numbers"
  },
  {
   "property": "C191",
   "status": "proved",
   "theorems": [
    "PySpline.fit_surface_ieee_keeps",
    "PySpline.fit_surface_ieee_raises",
    "PySpline.ruled_surface_binary64",
    "PySpline.fit_surface_binary64",
    "PySpline.fit_surface_binary64_any_solver",
    "PySpline.interior_fit_binary64",
    "PySpline.ruled_surface_binary64_overflow"
   ],
   "note": "initial surface and surface fit in IEEE arithmetic: doubles, edges, knots, for any solver unless it returns extreme numbers"
  },
  {
   "property": "C192",
   "status": "proved",
   "theorems": [
    "PySpline.curve_inversion_stored",
    "PySpline.surface_inversion_stored",
    "PySpline.ieeeArith_stored",
    "PySpline.ieeeArith_rounded",
    "PySpline.inversions_ieee_rounded",
    "PySpline.sumNormR_rounded",
    "PySpline.fit_curve_knot_insertion_own_inversion",
    "PySpline.fit_curve_fixed_own_inversion",
    "PySpline.interior_fit_own_inversion"
   ],
   "note": "inversions return doubles or raise in any arithmetic with stored sums; complete fits with them end with doubles or an exception"
  },
  {
   "property": "C193",
   "status": "proved",
   "theorems": [
    "PySpline.boundary_fit_ieee_count",
    "PySpline.boundary_fit_fixed_binary64",
    "PySpline.boundary_fit_adaptive_binary64",
    "PySpline.interior_problem_binary64",
    "PySpline.own_curve_inversion_tame",
    "PySpline.own_surface_inversion_tame",
    "PySpline.session_with_binary64",
    "PySpline.session_binary64"
   ],
   "note": "problem objects in IEEE arithmetic: a whole session ends with an exception or with doubles that keep end points, edges and knots"
  },
  {
   "property": "C194",
   "status": "proved",
   "theorems": [
    "PySpline.uniform_curve_evaluates_binary64",
    "PySpline.stored_surface_evaluates_binary64",
    "PySpline.uniform_surface_evaluates_binary64",
    "PySpline.stored_surface_corners_binary64",
    "PySpline.boundary_evaluates_binary64",
    "PySpline.session_with_evaluates_binary64",
    "PySpline.session_evaluates_binary64"
   ],
   "note": "fitted curves and surfaces evaluate to finite numbers in IEEE arithmetic, and at their ends and corners to the given end points up to rounding"
  },
  {
   "property": "C195",
   "status": "proved",
   "theorems": [
    "PySpline.adaptive_session_with_binary64",
    "PySpline.adaptive_session_binary64",
    "PySpline.halved_knots",
    "PySpline.adaptive_session_with_evaluates_binary64",
    "PySpline.adaptive_session_evaluates_binary64"
   ],
   "note": "sessions with adaptive boundaries in IEEE arithmetic end with an exception or with doubles; the surface evaluates to the given end points at its corners up to rounding"
  },
  {
   "property": "C196",
   "status": "proved",
   "theorems": [
    "PySpline.mesh_binary64",
    "PySpline.mesh_default_binary64",
    "PySpline.session_mesh_binary64",
    "PySpline.adaptive_session_mesh_binary64",
    "PySpline.computes_exists"
   ],
   "note": "meshes of the surfaces of sessions in IEEE arithmetic: the default mesh is returned, with finite coordinates and the given end points at its corners up to rounding"
  },
  {
   "property": "C197",
   "status": "proved",
   "theorems": [
    "PySpline.curve_inversion_returns_binary64",
    "PySpline.regular_of_same",
    "PySpline.sumNormR_bounded"
   ],
   "note": "curve_inversion in IEEE arithmetic never raises on curves whose computed speed does not vanish; it can on others"
  },
  {
   "property": "C198",
   "status": "proved",
   "theorems": [
    "PySpline.surface_inversion_fails_binary64",
    "PySpline.surface_inversion_any_solver_binary64",
    "PySpline.ieee_solve_numeric"
   ],
   "note": "surface_inversion in IEEE arithmetic returns two doubles in [0, 1] or raises LinAlgError, or ValueError if the solver makes NaN, nothing else"
  },
  {
   "property": "C199",
   "status": "proved",
   "theorems": [
    "PySpline.own_surface_moderate",
    "PySpline.own_surface_inversion_binary64",
    "PySpline.computesSurface_exists",
    "PySpline.uniform_surface_regular"
   ],
   "note": "surface_inversion on the library's own surfaces in IEEE arithmetic: two doubles in [0, 1], LinAlgError, or ValueError if the solver makes NaN"
  },
  {
   "property": "C200",
   "status": "proved",
   "theorems": [
    "PySpline.curve_derivatives_raises_ieee",
    "PySpline.curve_inversion_committed_ieee",
    "PySpline.boundary_fit_raises_ieee",
    "PySpline.committed_never_fits_ieee",
    "PySpline.curve_derivatives_value_error_binary64"
   ],
   "note": "BSplineCurve.derivatives, curve_inversion on it and BoundaryProblem.fit never return in any arithmetic; ValueError in double precision"
  },
  {
   "property": "C201",
   "status": "proved",
   "theorems": [
    "PySpline.curve_inversion_value_error_binary64",
    "PySpline.committed_boundary_value_error_binary64"
   ],
   "note": "in double precision curve_inversion and BoundaryProblem.fit with the committed class raise ValueError, and nothing else happens"
  },
  {
   "property": "C202",
   "status": "proved",
   "theorems": [
    "PySpline.fit_surface_own_inversion_binary64"
   ],
   "note": "fit_surface in IEEE arithmetic with the library's own evaluation and inversion; the result can be inverted again"
  },
  {
   "property": "C203",
   "status": "proved",
   "theorems": [
    "PySpline.interior_problem_own_inversion_binary64"
   ],
   "note": "InteriorProblem.fit in IEEE arithmetic with the library's own evaluation and inversion"
  },
  {
   "property": "C67",
   "status": "proved",
   "theorems": [
    "PySpline.from_dict_value_error_iff"
   ],
   "note": ""
  },
  {
   "property": "C70",
   "status": "proved",
   "theorems": [
    "PySpline.insert_knot_raises"
   ],
   "note": "A defect."
  },
  {
   "property": "C71",
   "status": "proved",
   "theorems": [
    "PySpline.curve_derivatives_raises",
    "PySpline.curve_derivatives_value_error"
   ],
   "note": "A defect."
  },
  {
   "property": "C72",
   "status": "proved",
   "theorems": [
    "PySpline.history_invariant",
    "PySpline.right_dimension_rejected",
    "PySpline.wrong_dimension_accepted",
    "PySpline.knot_vector_u_raises",
    "PySpline.knot_vector_v_raises"
   ],
   "note": "A defect."
  },
  {
   "property": "C73",
   "status": "proved",
   "theorems": [
    "PySpline.single_point_planar_raises"
   ],
   "note": ""
  },
  {
   "property": "C74",
   "status": "proved",
   "theorems": [
    "PySpline.degree_keyword_ignored",
    "PySpline.stale_knots"
   ],
   "note": "A defect."
  },
  {
   "property": "C75",
   "status": "proved",
   "theorems": [
    "PySpline.from_dict_overwrites_class",
    "PySpline.set_ctrl_after_from_dict"
   ],
   "note": "A defect."
  },
  {
   "property": "C76",
   "status": "proved",
   "theorems": [
    "PySpline.line_inversion_quantised"
   ],
   "note": "A defect."
  },
  {
   "property": "C77",
   "status": "proved",
   "theorems": [
    "PySpline.curve_inversion_bspline_raises",
    "PySpline.parameterize_curve_bspline_raises",
    "PySpline.curve_inversion_bspline_value_error",
    "PySpline.parameterize_curve_bspline_value_error"
   ],
   "note": "A defect."
  },
  {
   "property": "C78",
   "status": "proved",
   "theorems": [
    "PySpline.surface_inversion_stale_derivatives"
   ],
   "note": "A defect."
  },
  {
   "property": "C79",
   "status": "proved",
   "theorems": [
    "PySpline.surface_rows_degree_two",
    "PySpline.surface_rows_degree_one"
   ],
   "note": ""
  },
  {
   "property": "C80",
   "status": "proved",
   "theorems": [
    "PySpline.surface_derivatives_unit_rows"
   ],
   "note": ""
  }
 ]
}