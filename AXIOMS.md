# Axioms of the theorems in MANIFEST.json

Output of `#print axioms`, grouped.

## propext (1 theorems)

* `PySpline.UnwrittenBut.other`

## propext, Quot.sound (57 theorems)

* `PySpline.CheckUnityFl_id`
* `PySpline.assign_knots`
* `PySpline.assign_numbers`
* `PySpline.basisFunctionDersFl_id`
* `PySpline.basisFunctionsFl_id`
* `PySpline.boundary_fit_raises_ieee`
* `PySpline.boundary_new_memory`
* `PySpline.boundary_obj_setters_raise`
* `PySpline.boundary_write_good`
* `PySpline.boundary_write_mat`
* `PySpline.boundary_write_vec`
* `PySpline.control_points_read_back`
* `PySpline.curveInversionA_exact`
* `PySpline.curve_inversion_any`
* `PySpline.curve_inversion_any_fails_tests`
* `PySpline.curve_inversion_fails_tests`
* `PySpline.curve_inversion_initial_accept`
* `PySpline.curve_inversion_iterations`
* `PySpline.curve_inversion_single`
* `PySpline.curve_inversion_stored`
* `PySpline.curve_writer_init_raises`
* `PySpline.degree_keyword_ignored`
* `PySpline.ext_nan`
* `PySpline.find_multiplicity_nan`
* `PySpline.find_span_fuel_mono`
* `PySpline.find_span_int`
* `PySpline.find_span_sound`
* `PySpline.fit_surface_ieee_raises`
* `PySpline.from_dict_overwrites_class`
* `PySpline.ieeeArith_rounded`
* `PySpline.ieee_extended`
* `PySpline.insert_knot_raises`
* `PySpline.inversions_ieee_rounded`
* `PySpline.knot_vector_u_raises`
* `PySpline.knot_vector_v_raises`
* `PySpline.linear_fit_fixed_all`
* `PySpline.normalize_degenerate`
* `PySpline.oneBasisFunctionDersFl_id`
* `PySpline.oneBasisFunctionFl_id`
* `PySpline.one_basis_function_ders_nan`
* `PySpline.one_basis_function_ders_rounded_outside`
* `PySpline.one_basis_function_nan`
* `PySpline.points_elementwise`
* `PySpline.points_fails_iff`
* `PySpline.read_any_line_terminator`
* `PySpline.set_ctrl_after_from_dict`
* `PySpline.set_init_curve_missing`
* `PySpline.single_point_rejects`
* `PySpline.sizes_at_least_two`
* `PySpline.sizes_exceed_degree`
* `PySpline.sumNormR_rounded`
* `PySpline.surfaceInversionA_exact`
* `PySpline.surface_inversion_iterations`
* `PySpline.surface_inversion_single`
* `PySpline.surface_point_rejects`
* `PySpline.surface_spatial`
* `PySpline.vtk_samples_zero`

## propext, Classical.choice, Quot.sound (622 theorems)

* `PySpline.Curve.PointFl_id`
* `PySpline.FitCurveFixedFl_id`
* `PySpline.FitSurfaceFl_id`
* `PySpline.KnotFitFl_id`
* `PySpline.NearFoot.of_ders`
* `PySpline.adaptive_session_binary64`
* `PySpline.adaptive_session_evaluates_binary64`
* `PySpline.adaptive_session_mesh_binary64`
* `PySpline.adaptive_session_with_binary64`
* `PySpline.adaptive_session_with_evaluates_binary64`
* `PySpline.assign_control_points`
* `PySpline.attracts_of_lipschitz`
* `PySpline.attributes_settable`
* `PySpline.basis_extended`
* `PySpline.basis_function_ders_affine`
* `PySpline.basis_function_ders_binary64`
* `PySpline.basis_function_ders_columns`
* `PySpline.basis_function_ders_derivatives`
* `PySpline.basis_function_ders_double`
* `PySpline.basis_function_ders_ieee`
* `PySpline.basis_function_ders_int`
* `PySpline.basis_function_ders_overflow`
* `PySpline.basis_function_ders_real`
* `PySpline.basis_function_ders_rounded`
* `PySpline.basis_function_ders_rounded_sum`
* `PySpline.basis_function_ders_visible`
* `PySpline.basis_functions_affine`
* `PySpline.basis_functions_binary64`
* `PySpline.basis_functions_cox_de_boor`
* `PySpline.basis_functions_double`
* `PySpline.basis_functions_finite_iff`
* `PySpline.basis_functions_ieee`
* `PySpline.basis_functions_int`
* `PySpline.basis_functions_nan`
* `PySpline.basis_functions_normalize`
* `PySpline.basis_functions_partition_of_unity`
* `PySpline.basis_functions_pieces`
* `PySpline.basis_functions_rounded`
* `PySpline.basis_functions_rounded_sum`
* `PySpline.basis_functions_visible`
* `PySpline.boundary_assignment_atomic`
* `PySpline.boundary_data_shared`
* `PySpline.boundary_degree_pos`
* `PySpline.boundary_degree_zero`
* `PySpline.boundary_end_shared`
* `PySpline.boundary_evaluates_binary64`
* `PySpline.boundary_fit_adaptive_binary64`
* `PySpline.boundary_fit_fixed_binary64`
* `PySpline.boundary_fit_idempotent`
* `PySpline.boundary_fit_ieee_count`
* `PySpline.boundary_fit_ignores_ends`
* `PySpline.boundary_fit_not_atomic`
* `PySpline.boundary_fit_order`
* `PySpline.boundary_fit_raises`
* `PySpline.boundary_fit_shares`
* `PySpline.boundary_fit_stale`
* `PySpline.boundary_fit_twice`
* `PySpline.boundary_fit_value_error`
* `PySpline.boundary_frame`
* `PySpline.boundary_invariant`
* `PySpline.boundary_memory`
* `PySpline.boundary_never_fits`
* `PySpline.boundary_readback`
* `PySpline.boundary_results_own`
* `PySpline.boundary_save_load`
* `PySpline.boundary_session_memory`
* `PySpline.boundary_set`
* `PySpline.boundary_set_init_curve`
* `PySpline.boundary_start_shared`
* `PySpline.check_accepts_hanging`
* `PySpline.check_knot_vector_accepts_clamped`
* `PySpline.check_knot_vector_affine`
* `PySpline.check_knot_vector_binary64`
* `PySpline.check_knot_vector_binary64_accepts`
* `PySpline.check_knot_vector_binary64_unsorted`
* `PySpline.check_knot_vector_double`
* `PySpline.check_knot_vector_extended`
* `PySpline.check_knot_vector_iff`
* `PySpline.check_knot_vector_int`
* `PySpline.check_knot_vector_nonfinite`
* `PySpline.committed_boundary_value_error_binary64`
* `PySpline.committed_never_fits_ieee`
* `PySpline.computesSurface_exists`
* `PySpline.computes_exists`
* `PySpline.control_point_near_curve`
* `PySpline.control_point_near_curve_second`
* `PySpline.curve_checks`
* `PySpline.curve_derivatives_raises`
* `PySpline.curve_derivatives_raises_ieee`
* `PySpline.curve_derivatives_value_error`
* `PySpline.curve_derivatives_value_error_binary64`
* `PySpline.curve_extended`
* `PySpline.curve_hasDerivAt`
* `PySpline.curve_inversion_bspline_raises`
* `PySpline.curve_inversion_bspline_value_error`
* `PySpline.curve_inversion_committed_ieee`
* `PySpline.curve_inversion_converges`
* `PySpline.curve_inversion_extended`
* `PySpline.curve_inversion_foot_point`
* `PySpline.curve_inversion_guess_accepted`
* `PySpline.curve_inversion_iterations_sharp`
* `PySpline.curve_inversion_limit`
* `PySpline.curve_inversion_mem`
* `PySpline.curve_inversion_newton_chain`
* `PySpline.curve_inversion_nonfinite`
* `PySpline.curve_inversion_one_step`
* `PySpline.curve_inversion_other`
* `PySpline.curve_inversion_raises`
* `PySpline.curve_inversion_reads_unit_interval`
* `PySpline.curve_inversion_regular`
* `PySpline.curve_inversion_returns_binary64`
* `PySpline.curve_inversion_returns_previous`
* `PySpline.curve_inversion_stops`
* `PySpline.curve_inversion_stuck`
* `PySpline.curve_inversion_total`
* `PySpline.curve_inversion_value_error_binary64`
* `PySpline.curve_knot_insertion_int`
* `PySpline.curve_knot_insertion_memory`
* `PySpline.curve_like_extends`
* `PySpline.curve_matrix_rounded`
* `PySpline.curve_point_visible`
* `PySpline.curve_reader_result`
* `PySpline.curve_spatial`
* `PySpline.curve_strict_iff`
* `PySpline.cutoff_zero_minNorm`
* `PySpline.degree_values`
* `PySpline.delaunay_cell`
* `PySpline.euclidean_exists`
* `PySpline.evaluation_rejects_nonfinite`
* `PySpline.exactEnds_dyadic`
* `PySpline.exactEnds_uniform`
* `PySpline.exists_cutoff_lstsq`
* `PySpline.exists_fmt_ok`
* `PySpline.exists_sqrt_bin64`
* `PySpline.ext_add`
* `PySpline.ext_div`
* `PySpline.ext_mul`
* `PySpline.ext_order`
* `PySpline.extension_json`
* `PySpline.find_multiplicity_counts`
* `PySpline.find_span_affine`
* `PySpline.find_span_brackets`
* `PySpline.find_span_empty_span_witness`
* `PySpline.find_span_extended`
* `PySpline.find_span_hangs_above`
* `PySpline.find_span_hangs_below`
* `PySpline.find_span_inf`
* `PySpline.find_span_nan`
* `PySpline.find_span_on_domain`
* `PySpline.find_span_positive_span`
* `PySpline.find_span_positive_span_distinct`
* `PySpline.find_span_rtol`
* `PySpline.find_span_small_scale`
* `PySpline.find_span_terminates`
* `PySpline.first_point_double_inexact`
* `PySpline.fit_curve_fixed_binary64`
* `PySpline.fit_curve_fixed_binary64_any_solver`
* `PySpline.fit_curve_fixed_committed`
* `PySpline.fit_curve_fixed_cutoff`
* `PySpline.fit_curve_fixed_double`
* `PySpline.fit_curve_fixed_ieee_keeps`
* `PySpline.fit_curve_fixed_keeps`
* `PySpline.fit_curve_fixed_later_writes`
* `PySpline.fit_curve_fixed_memory`
* `PySpline.fit_curve_fixed_no_insertion`
* `PySpline.fit_curve_fixed_optimal`
* `PySpline.fit_curve_fixed_order`
* `PySpline.fit_curve_fixed_own_inversion`
* `PySpline.fit_curve_fixed_rounded_keeps`
* `PySpline.fit_curve_fixed_stages`
* `PySpline.fit_curve_fixed_value_error`
* `PySpline.fit_curve_knot_insertion_binary64`
* `PySpline.fit_curve_knot_insertion_binary64_any_solver`
* `PySpline.fit_curve_knot_insertion_committed`
* `PySpline.fit_curve_knot_insertion_count`
* `PySpline.fit_curve_knot_insertion_cutoff`
* `PySpline.fit_curve_knot_insertion_cutoff_lipschitz`
* `PySpline.fit_curve_knot_insertion_cutoff_smooth`
* `PySpline.fit_curve_knot_insertion_double`
* `PySpline.fit_curve_knot_insertion_double_exact_knots`
* `PySpline.fit_curve_knot_insertion_double_initial`
* `PySpline.fit_curve_knot_insertion_fitRounds`
* `PySpline.fit_curve_knot_insertion_ieee_count`
* `PySpline.fit_curve_knot_insertion_later_writes`
* `PySpline.fit_curve_knot_insertion_lipschitz`
* `PySpline.fit_curve_knot_insertion_memory`
* `PySpline.fit_curve_knot_insertion_optimal`
* `PySpline.fit_curve_knot_insertion_order`
* `PySpline.fit_curve_knot_insertion_own_inversion`
* `PySpline.fit_curve_knot_insertion_planar`
* `PySpline.fit_curve_knot_insertion_returns`
* `PySpline.fit_curve_knot_insertion_rounded_count`
* `PySpline.fit_curve_knot_insertion_rounds`
* `PySpline.fit_curve_knot_insertion_smooth`
* `PySpline.fit_curve_knot_insertion_value_error`
* `PySpline.fit_round_keeps_exact`
* `PySpline.fit_surface_binary64`
* `PySpline.fit_surface_binary64_any_solver`
* `PySpline.fit_surface_cutoff`
* `PySpline.fit_surface_double`
* `PySpline.fit_surface_ieee_keeps`
* `PySpline.fit_surface_ignores_boundary`
* `PySpline.fit_surface_keeps_boundary`
* `PySpline.fit_surface_later_writes`
* `PySpline.fit_surface_memory`
* `PySpline.fit_surface_optimal`
* `PySpline.fit_surface_order`
* `PySpline.fit_surface_own_inversion_binary64`
* `PySpline.fit_surface_rounded_keeps`
* `PySpline.from_dict_value_error_iff`
* `PySpline.generate_uniform_double`
* `PySpline.generate_uniform_int`
* `PySpline.generate_uniform_too_few`
* `PySpline.generate_uniform_valid`
* `PySpline.grid_double`
* `PySpline.grid_double_last`
* `PySpline.halved_knots`
* `PySpline.history_invariant`
* `PySpline.ieeeArith_stored`
* `PySpline.ieee_ders_agree`
* `PySpline.ieee_rounded`
* `PySpline.ieee_solve_numeric`
* `PySpline.initial_guess_curve_measured`
* `PySpline.initial_guess_curve_mem`
* `PySpline.initial_guess_curve_near`
* `PySpline.initial_guess_curve_nearest`
* `PySpline.initial_guess_curve_rounded`
* `PySpline.initial_guess_surf_bspline`
* `PySpline.initial_guess_surf_measured`
* `PySpline.initial_guess_surf_near`
* `PySpline.initial_guess_surf_nearest`
* `PySpline.initial_guess_surf_rounded`
* `PySpline.initialize_curve_binary64`
* `PySpline.initialize_curve_constant_speed`
* `PySpline.initialize_curve_degree`
* `PySpline.initialize_curve_degree_one`
* `PySpline.initialize_curve_double`
* `PySpline.initialize_curve_not_constant_speed`
* `PySpline.initialize_curve_parameter_unique`
* `PySpline.initialize_curve_points`
* `PySpline.initialize_curve_segment`
* `PySpline.initialize_curve_speed`
* `PySpline.insert_knot_memory`
* `PySpline.interior_assignment_atomic`
* `PySpline.interior_fit_binary64`
* `PySpline.interior_fit_contains`
* `PySpline.interior_fit_double`
* `PySpline.interior_fit_idempotent`
* `PySpline.interior_fit_order`
* `PySpline.interior_fit_own_inversion`
* `PySpline.interior_fit_result`
* `PySpline.interior_fit_unparameterized`
* `PySpline.interior_frame`
* `PySpline.interior_never_fits`
* `PySpline.interior_parameterize`
* `PySpline.interior_problem_binary64`
* `PySpline.interior_problem_own_inversion_binary64`
* `PySpline.interior_readback`
* `PySpline.interior_set`
* `PySpline.interior_vtk_mesh`
* `PySpline.inversion_default_iterations`
* `PySpline.json_save_truncates`
* `PySpline.knot_insertion_add`
* `PySpline.knot_insertion_add_fails`
* `PySpline.knot_insertion_at_first_knot`
* `PySpline.knot_insertion_at_last_knot`
* `PySpline.knot_insertion_binary64`
* `PySpline.knot_insertion_comm`
* `PySpline.knot_insertion_convex`
* `PySpline.knot_insertion_double`
* `PySpline.knot_insertion_evaluates`
* `PySpline.knot_insertion_extended`
* `PySpline.knot_insertion_full_multiplicity`
* `PySpline.knot_insertion_full_multiplicity_changes_curve`
* `PySpline.knot_insertion_ieee`
* `PySpline.knot_insertion_ieee_agrees`
* `PySpline.knot_insertion_knots`
* `PySpline.knot_insertion_left_span`
* `PySpline.knot_insertion_left_span_changes_curve`
* `PySpline.knot_insertion_mean`
* `PySpline.knot_insertion_once`
* `PySpline.knot_insertion_once_bound`
* `PySpline.knot_insertion_once_near_left`
* `PySpline.knot_insertion_once_preserves_iff`
* `PySpline.knot_insertion_polygon_length`
* `PySpline.knot_insertion_polygon_length_witness`
* `PySpline.knot_insertion_preserves_curve`
* `PySpline.knot_insertion_preserves_curve_new_knot`
* `PySpline.knot_insertion_reaches_curve`
* `PySpline.knot_insertion_rounded`
* `PySpline.knot_insertion_slopes`
* `PySpline.knot_refinement_near_curve`
* `PySpline.knot_refinement_second`
* `PySpline.line_inversion_quantised`
* `PySpline.linear_fit_fixed_ieee`
* `PySpline.linear_fit_fixed_ieee_agrees`
* `PySpline.linear_fit_fixed_ieee_keeps`
* `PySpline.linear_fit_fixed_keeps`
* `PySpline.linear_fit_fixed_memory`
* `PySpline.linear_fit_fixed_optimal`
* `PySpline.meanWeight_bezier`
* `PySpline.meanWeight_sum`
* `PySpline.measures_euclid`
* `PySpline.measures_sum`
* `PySpline.mesh_binary64`
* `PySpline.mesh_default_binary64`
* `PySpline.mid_knot_double`
* `PySpline.missing_data`
* `PySpline.missing_propagates`
* `PySpline.negative_size`
* `PySpline.normalize_affine`
* `PySpline.normalize_double`
* `PySpline.normalize_double_inexact`
* `PySpline.normalize_memory`
* `PySpline.normalize_row_agree`
* `PySpline.normalize_row_binary64`
* `PySpline.normalize_row_ieee`
* `PySpline.normalize_row_overflow`
* `PySpline.notebook_session`
* `PySpline.num_ctrlpts_values`
* `PySpline.one_basis_function_affine`
* `PySpline.one_basis_function_agrees`
* `PySpline.one_basis_function_binary64`
* `PySpline.one_basis_function_cox_de_boor`
* `PySpline.one_basis_function_ders_above_degree`
* `PySpline.one_basis_function_ders_affine`
* `PySpline.one_basis_function_ders_agrees`
* `PySpline.one_basis_function_ders_cancellation`
* `PySpline.one_basis_function_ders_derivatives`
* `PySpline.one_basis_function_ders_double`
* `PySpline.one_basis_function_ders_int`
* `PySpline.one_basis_function_ders_right_end`
* `PySpline.one_basis_function_ders_rounded`
* `PySpline.one_basis_function_ieee`
* `PySpline.one_basis_function_ieee_agrees`
* `PySpline.one_basis_function_int`
* `PySpline.one_basis_function_rounded`
* `PySpline.one_basis_function_row_sum`
* `PySpline.one_basis_function_support`
* `PySpline.other_values`
* `PySpline.own_curve_inversion_tame`
* `PySpline.own_surface_inversion_binary64`
* `PySpline.own_surface_inversion_tame`
* `PySpline.own_surface_moderate`
* `PySpline.parameterize_curve_bspline_raises`
* `PySpline.parameterize_curve_bspline_value_error`
* `PySpline.parameterize_curve_other`
* `PySpline.parameterize_curve_perm`
* `PySpline.parameterize_curve_rows`
* `PySpline.parameterize_nonfinite`
* `PySpline.parameterize_surface_bspline`
* `PySpline.parameterize_surface_other`
* `PySpline.parameterize_surface_perm`
* `PySpline.parameterize_surface_rows`
* `PySpline.piece_is_basis_function`
* `PySpline.planar_data_never_fits`
* `PySpline.planar_ends_never_fit`
* `PySpline.points_distance_le`
* `PySpline.points_length_le`
* `PySpline.read_curve_text`
* `PySpline.read_curve_text_tab`
* `PySpline.read_surface_text`
* `PySpline.regular_of_distinct`
* `PySpline.regular_of_same`
* `PySpline.right_dimension_rejected`
* `PySpline.rounded_grid_double`
* `PySpline.row_sum_overfull_first_knot`
* `PySpline.ruledSurfaceFl_id`
* `PySpline.ruled_surface_binary64`
* `PySpline.ruled_surface_binary64_overflow`
* `PySpline.ruled_surface_contains`
* `PySpline.ruled_surface_double`
* `PySpline.ruled_surface_double_top_inexact`
* `PySpline.ruled_surface_ignores_top_knots`
* `PySpline.ruled_surface_points`
* `PySpline.ruled_surface_rounded`
* `PySpline.schoenberg_whitney`
* `PySpline.session_binary64`
* `PySpline.session_evaluates_binary64`
* `PySpline.session_mesh_binary64`
* `PySpline.session_with_binary64`
* `PySpline.session_with_evaluates_binary64`
* `PySpline.set_knot_vector_later_writes`
* `PySpline.set_knot_vector_memory`
* `PySpline.single_fit_curve_affine`
* `PySpline.single_fit_curve_binary64`
* `PySpline.single_fit_curve_binary64_determined`
* `PySpline.single_fit_curve_centroids`
* `PySpline.single_fit_curve_contDiff`
* `PySpline.single_fit_curve_continuous`
* `PySpline.single_fit_curve_cutoff`
* `PySpline.single_fit_curve_cutoff_bounded`
* `PySpline.single_fit_curve_cutoff_exact`
* `PySpline.single_fit_curve_cutoff_worse`
* `PySpline.single_fit_curve_decay`
* `PySpline.single_fit_curve_decay_ends`
* `PySpline.single_fit_curve_double`
* `PySpline.single_fit_curve_excess`
* `PySpline.single_fit_curve_extra`
* `PySpline.single_fit_curve_few`
* `PySpline.single_fit_curve_ieee_keeps`
* `PySpline.single_fit_curve_influence`
* `PySpline.single_fit_curve_interpolates`
* `PySpline.single_fit_curve_keeps`
* `PySpline.single_fit_curve_lipschitz`
* `PySpline.single_fit_curve_memory`
* `PySpline.single_fit_curve_nonexpansive`
* `PySpline.single_fit_curve_not_planar`
* `PySpline.single_fit_curve_not_translation_invariant`
* `PySpline.single_fit_curve_not_worse`
* `PySpline.single_fit_curve_one_datum`
* `PySpline.single_fit_curve_optimal`
* `PySpline.single_fit_curve_origin`
* `PySpline.single_fit_curve_outside_double`
* `PySpline.single_fit_curve_outside_raises`
* `PySpline.single_fit_curve_perm`
* `PySpline.single_fit_curve_planar`
* `PySpline.single_fit_curve_planar_origin`
* `PySpline.single_fit_curve_polynomial`
* `PySpline.single_fit_curve_projection`
* `PySpline.single_fit_curve_recovers`
* `PySpline.single_fit_curve_rounded`
* `PySpline.single_fit_curve_rounded_determined`
* `PySpline.single_fit_curve_smooth`
* `PySpline.single_fit_curve_solver`
* `PySpline.single_fit_curve_stable`
* `PySpline.single_fit_curve_sup_smooth`
* `PySpline.single_fit_curve_sup_stable`
* `PySpline.single_fit_curve_superposition`
* `PySpline.single_fit_curve_unique`
* `PySpline.single_fit_curve_unique_iff`
* `PySpline.single_fit_curve_unity`
* `PySpline.single_fit_curve_unity_binary64`
* `PySpline.single_fit_curve_unity_double`
* `PySpline.single_fit_curve_values`
* `PySpline.single_fit_cutoff_backward`
* `PySpline.single_fit_surface_affine`
* `PySpline.single_fit_surface_binary64`
* `PySpline.single_fit_surface_binary64_determined`
* `PySpline.single_fit_surface_centroids`
* `PySpline.single_fit_surface_cutoff`
* `PySpline.single_fit_surface_decay`
* `PySpline.single_fit_surface_double`
* `PySpline.single_fit_surface_excess`
* `PySpline.single_fit_surface_extra`
* `PySpline.single_fit_surface_grid`
* `PySpline.single_fit_surface_ieee_keeps`
* `PySpline.single_fit_surface_influence`
* `PySpline.single_fit_surface_interpolates`
* `PySpline.single_fit_surface_keeps`
* `PySpline.single_fit_surface_lipschitz`
* `PySpline.single_fit_surface_memory`
* `PySpline.single_fit_surface_nonexpansive`
* `PySpline.single_fit_surface_not_translation_invariant`
* `PySpline.single_fit_surface_optimal`
* `PySpline.single_fit_surface_origin`
* `PySpline.single_fit_surface_outside_double`
* `PySpline.single_fit_surface_outside_raises`
* `PySpline.single_fit_surface_perm`
* `PySpline.single_fit_surface_planar`
* `PySpline.single_fit_surface_planar_origin`
* `PySpline.single_fit_surface_projection`
* `PySpline.single_fit_surface_recovers`
* `PySpline.single_fit_surface_rounded`
* `PySpline.single_fit_surface_rounded_determined`
* `PySpline.single_fit_surface_smooth`
* `PySpline.single_fit_surface_solver`
* `PySpline.single_fit_surface_stable`
* `PySpline.single_fit_surface_sup_smooth`
* `PySpline.single_fit_surface_sup_stable`
* `PySpline.single_fit_surface_unique`
* `PySpline.single_fit_surface_unity_binary64`
* `PySpline.single_fit_surface_unity_double`
* `PySpline.single_point_affine`
* `PySpline.single_point_affine_knots`
* `PySpline.single_point_bezier`
* `PySpline.single_point_binary64`
* `PySpline.single_point_box`
* `PySpline.single_point_bspline_sum`
* `PySpline.single_point_convex`
* `PySpline.single_point_degree_one`
* `PySpline.single_point_degree_one_knot`
* `PySpline.single_point_degree_one_witness`
* `PySpline.single_point_double`
* `PySpline.single_point_ends_double`
* `PySpline.single_point_first`
* `PySpline.single_point_flat`
* `PySpline.single_point_graph`
* `PySpline.single_point_greville`
* `PySpline.single_point_half_space`
* `PySpline.single_point_hangs`
* `PySpline.single_point_ieee`
* `PySpline.single_point_injective`
* `PySpline.single_point_last`
* `PySpline.single_point_lipschitz`
* `PySpline.single_point_local`
* `PySpline.single_point_mean`
* `PySpline.single_point_monotone`
* `PySpline.single_point_parameter_unique`
* `PySpline.single_point_planar_raises`
* `PySpline.single_point_polynomial`
* `PySpline.single_point_raises_iff`
* `PySpline.single_point_reverse`
* `PySpline.single_point_rounded`
* `PySpline.single_point_slopes`
* `PySpline.single_point_smooth`
* `PySpline.single_point_stable`
* `PySpline.single_point_strictly_increasing`
* `PySpline.single_point_variation_diminishing`
* `PySpline.size_below_degree`
* `PySpline.sliver_leaves_hull`
* `PySpline.small_knots_witness`
* `PySpline.spans_meet`
* `PySpline.stable_of_determined`
* `PySpline.stable_of_peaks`
* `PySpline.stale_knots`
* `PySpline.stored_surface_corners_binary64`
* `PySpline.stored_surface_evaluates_binary64`
* `PySpline.sumNormR_bounded`
* `PySpline.surf_to_vtk_close`
* `PySpline.surf_to_vtk_covers`
* `PySpline.surf_to_vtk_mesh`
* `PySpline.surf_to_vtk_negative`
* `PySpline.surf_to_vtk_raises`
* `PySpline.surface_checks`
* `PySpline.surface_corner_derivatives`
* `PySpline.surface_corners`
* `PySpline.surface_corners_double`
* `PySpline.surface_cross_derivative_u`
* `PySpline.surface_cross_derivative_v`
* `PySpline.surface_derivatives_binary64`
* `PySpline.surface_derivatives_double`
* `PySpline.surface_derivatives_ieee`
* `PySpline.surface_derivatives_int`
* `PySpline.surface_derivatives_layout`
* `PySpline.surface_derivatives_real`
* `PySpline.surface_derivatives_rounded`
* `PySpline.surface_derivatives_row_zero`
* `PySpline.surface_derivatives_unit_rows`
* `PySpline.surface_derivatives_visible`
* `PySpline.surface_edge_u`
* `PySpline.surface_edge_v`
* `PySpline.surface_extended`
* `PySpline.surface_inversion_any`
* `PySpline.surface_inversion_any_solver_binary64`
* `PySpline.surface_inversion_bspline`
* `PySpline.surface_inversion_bspline_degree_one`
* `PySpline.surface_inversion_certificate`
* `PySpline.surface_inversion_converges`
* `PySpline.surface_inversion_default_tolerances`
* `PySpline.surface_inversion_extended`
* `PySpline.surface_inversion_fails_binary64`
* `PySpline.surface_inversion_guess_accepted`
* `PySpline.surface_inversion_mem`
* `PySpline.surface_inversion_newton_chain`
* `PySpline.surface_inversion_nonfinite`
* `PySpline.surface_inversion_nonfinite_bspline`
* `PySpline.surface_inversion_on_surface`
* `PySpline.surface_inversion_other`
* `PySpline.surface_inversion_plane`
* `PySpline.surface_inversion_raises`
* `PySpline.surface_inversion_reads_unit_square`
* `PySpline.surface_inversion_repelled`
* `PySpline.surface_inversion_stale_derivatives`
* `PySpline.surface_inversion_stops`
* `PySpline.surface_inversion_stored`
* `PySpline.surface_like_extends`
* `PySpline.surface_mask_boundary`
* `PySpline.surface_matrix_rounded`
* `PySpline.surface_normalized_binary64`
* `PySpline.surface_normalized_overflow`
* `PySpline.surface_parameters_unique`
* `PySpline.surface_point_affine`
* `PySpline.surface_point_bezier`
* `PySpline.surface_point_binary64`
* `PySpline.surface_point_by_columns`
* `PySpline.surface_point_by_rows`
* `PySpline.surface_point_convex_u`
* `PySpline.surface_point_convex_v`
* `PySpline.surface_point_degree_one`
* `PySpline.surface_point_double`
* `PySpline.surface_point_half_space`
* `PySpline.surface_point_ieee`
* `PySpline.surface_point_increasing_u`
* `PySpline.surface_point_increasing_v`
* `PySpline.surface_point_injective`
* `PySpline.surface_point_local`
* `PySpline.surface_point_mean`
* `PySpline.surface_point_raises_iff`
* `PySpline.surface_point_rounded`
* `PySpline.surface_point_tensor_sum`
* `PySpline.surface_point_transpose`
* `PySpline.surface_point_visible`
* `PySpline.surface_points_elementwise`
* `PySpline.surface_rows_degree_one`
* `PySpline.surface_rows_degree_two`
* `PySpline.surface_smooth`
* `PySpline.taylorOn_of_contDiff`
* `PySpline.trough_closest`
* `PySpline.uniform_curve_evaluates_binary64`
* `PySpline.uniform_last_point_inexact`
* `PySpline.uniform_surface_evaluates_binary64`
* `PySpline.uniform_surface_regular`
* `PySpline.unity_not_exact`
* `PySpline.validate_knot_extended`
* `PySpline.vtk_double_beyond`
* `PySpline.vtk_double_cases`
* `PySpline.vtk_double_grid`
* `PySpline.vtk_double_overflow`
* `PySpline.vtk_double_pow_two`
* `PySpline.vtk_double_returns_iff`
* `PySpline.vtk_double_six`
* `PySpline.vtk_len`
* `PySpline.vtk_param`
* `PySpline.vtk_params_range`
* `PySpline.vtk_samples_grid`
* `PySpline.vtk_samples_surface`
* `PySpline.vtk_size`
* `PySpline.write_curve_raises`
* `PySpline.write_surface_text`
* `PySpline.written_surface_unreadable`
* `PySpline.wrong_dimension_accepted`

