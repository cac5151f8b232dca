{
 "claims": [
  {
   "property": "C01",
   "status": "proved",
   "theorems": [
    "Verif.C01_seed_file_2d",
    "Verif.C01_seed_file_3d"
   ],
   "note": "Any scalar type (no arithmetic laws used)."
  },
  {
   "property": "C02",
   "status": "proved",
   "theorems": [
    "Verif.C02_accept_iff_2d",
    "Verif.C02_accept_iff_3d"
   ],
   "note": "Any scalar type."
  },
  {
   "property": "C03",
   "status": "proved",
   "theorems": [
    "Verif.C03_reference_2d",
    "Verif.C03_reference_3d"
   ],
   "note": "Any scalar type; any mix of integrators in any state, including failed calls."
  },
  {
   "property": "C04",
   "status": "partial",
   "theorems": [
    "Verif.C04_missing_keys",
    "Verif.C04_incomplete_3d_accepted_iff",
    "Verif.C04_incomplete_3d_rejected_partial",
    "Verif.C04_incomplete_3d_fails",
    "Verif.C04_accepts_iff",
    "Verif.C04_columns_rejected",
    "Verif.C04_flat_six_blocks_fails"
   ],
   "note": "False of the code: a 3D file without front/back is accepted whenever 6 divides 4N, with wrong grouping. Exact condition and witness proved; rejection holds otherwise."
  },
  {
   "property": "C05",
   "status": "partial",
   "theorems": [
    "Verif.C05_blocks_accepted_iff",
    "Verif.C05_unequal_blocks_rejected_partial",
    "Verif.C05_unequal_blocks_fails",
    "Verif.C05_blocks_accepted_iff_3d",
    "Verif.C05_unequal_blocks_3d_fails"
   ],
   "note": "False of the code: unequal blocks are accepted iff the total length is a multiple of 4 (6). Exact condition and witness proved."
  },
  {
   "property": "C06",
   "status": "proved",
   "theorems": [
    "Verif.C06_affine_exact_2d",
    "Verif.C06_affine_exact_3d"
   ],
   "note": "Exact arithmetic over any field."
  },
  {
   "property": "C07",
   "status": "proved",
   "theorems": [
    "Verif.C07_shift_invariant_2d",
    "Verif.C07_shift_invariant_3d"
   ],
   "note": "Exact arithmetic; every group may have its own shift."
  },
  {
   "property": "C08",
   "status": "proved",
   "theorems": [
    "Verif.C08_degenerate_2d",
    "Verif.C08_degenerate_3d"
   ],
   "note": "Exact arithmetic; numba raises on scalar division by zero."
  },
  {
   "property": "C09",
   "status": "partial",
   "theorems": [
    "Verif.C09_jacobian_value_2d",
    "Verif.C09_jacobian_value_3d",
    "Verif.C09_orientation_2d_fails",
    "Verif.C09_orientation_3d_fails",
    "Verif.C09_identity_flow_witness"
   ],
   "note": "False of the code: the Jacobian of an invertible affine map is right iff all stencils are axis aligned; exact value A*S proved for every stencil."
  },
  {
   "property": "C10",
   "status": "proved",
   "theorems": [
    "Verif.C10_max_eigenvalue"
   ],
   "note": "Exact real arithmetic (binary64: see C66)."
  },
  {
   "property": "C11",
   "status": "proved",
   "theorems": [
    "Verif.C11_cauchy_green_2d",
    "Verif.C11_cauchy_green_3d",
    "Verif.C11_tensor_3d_differs"
   ],
   "note": "The 3D routine builds F F^T instead of F^T F: same eigenvalues, different tensor (last theorem)."
  },
  {
   "property": "C12",
   "status": "proved",
   "theorems": [
    "Verif.C12_max_stretching_2d",
    "Verif.C12_max_stretching_3d"
   ],
   "note": "Exact real arithmetic; eigvals modelled as the roots of the characteristic polynomial."
  },
  {
   "property": "C13",
   "status": "proved",
   "theorems": [
    "Verif.C13_objective_2d",
    "Verif.C13_objective_3d"
   ],
   "note": "Exact real arithmetic."
  },
  {
   "property": "C14",
   "status": "proved",
   "theorems": [
    "Verif.C14_lower_bound_2d",
    "Verif.C14_lower_bound_3d"
   ],
   "note": "Exact real arithmetic; covers the incompressible case |det F| = 1."
  },
  {
   "property": "C15",
   "status": "proved",
   "theorems": [
    "Verif.C15_scaling_2d",
    "Verif.C15_scaling_3d"
   ],
   "note": "Exact real arithmetic."
  },
  {
   "property": "C16",
   "status": "proved",
   "theorems": [
    "Verif.C16_degenerate_2d",
    "Verif.C16_degenerate_3d"
   ],
   "note": "Exact real arithmetic."
  },
  {
   "property": "C17",
   "status": "proved",
   "theorems": [
    "Verif.C17_independent_2d",
    "Verif.C17_independent_3d"
   ],
   "note": ""
  },
  {
   "property": "C18",
   "status": "proved",
   "theorems": [
    "Verif.C18_uniform_exact"
   ],
   "note": "Exact arithmetic over any field of characteristic zero."
  },
  {
   "property": "C19",
   "status": "proved",
   "theorems": [
    "Verif.C19_euler_linear",
    "Verif.C19_rk4_linear",
    "Verif.C19_ab2_linear"
   ],
   "note": "Exact arithmetic over any field of characteristic zero."
  },
  {
   "property": "C20",
   "status": "partial",
   "theorems": [
    "Verif.C20_intermediate_times_fails",
    "Verif.C20_time_ramp_fails",
    "Verif.C20_steady_rk4_partial"
   ],
   "note": "False of the code: all stages use the snapshot at the start of the step, so RK4 = Euler on spatially uniform snapshots. The RK4 step is the classical one for steady fields."
  },
  {
   "property": "C21",
   "status": "proved",
   "theorems": [
    "Verif.C21_no_cross_talk"
   ],
   "note": "Any arithmetic, arbitrary uninitialised memory."
  },
  {
   "property": "C22",
   "status": "proved",
   "theorems": [
    "Verif.C22_euler_no_leak",
    "Verif.C22_rk4_no_leak",
    "Verif.C22_ab2_only_previous",
    "Verif.C22_ab2_shape_change_raises",
    "Verif.C22_ab2_locked"
   ],
   "note": "Any arithmetic; all histories including failing calls."
  },
  {
   "property": "C23",
   "status": "proved",
   "theorems": [
    "Verif.C23_backward_is_reversed",
    "Verif.C23_backward_run"
   ],
   "note": "Positions for all integrators and histories, and complete analytical runs (field or exception), in any sign-symmetric arithmetic."
  },
  {
   "property": "C24",
   "status": "proved",
   "theorems": [
    "Verif.C24_bilinear_exact",
    "Verif.C24_trilinear_exact",
    "Verif.C24_node_2d",
    "Verif.C24_node_3d"
   ],
   "note": "Exact arithmetic over any ordered field with floor; both C++ targets."
  },
  {
   "property": "C25",
   "status": "partial",
   "theorems": [
    "Verif.C25_no_overshoot_2d",
    "Verif.C25_no_overshoot_3d",
    "Verif.C25_zero_outside_2d_partial",
    "Verif.C25_zero_outside_3d_partial"
   ],
   "note": "Convexity in full. Zero outside for every query whose index coordinate converts to int (on x86: every query, NaN and infinities included, except floor = 2^31-1, see C26)."
  },
  {
   "property": "C26",
   "status": "partial",
   "theorems": [
    "Verif.C26_in_bounds_2d_partial",
    "Verif.C26_in_bounds_3d_partial",
    "Verif.C26_arguments_2d",
    "Verif.C26_arguments_3d",
    "Verif.C26_int_max_fails",
    "Verif.C26_standard_fails",
    "Verif.C26_plane_overflow_fails"
   ],
   "note": "False of the code for index coordinate 2^31-1, for the C++ standard on unconvertible coordinates, and for planes Y*Z >= 2^31; in bounds for every other query, any arithmetic."
  },
  {
   "property": "C27",
   "status": "partial",
   "theorems": [
    "Verif.C27_last_line_fails",
    "Verif.C27_interior_nodes_partial",
    "Verif.C27_last_plane_fails",
    "Verif.C27_interior_nodes_3d_partial"
   ],
   "note": "False of the code: nodes on the last grid line give 0; all other nodes give the stored value."
  },
  {
   "property": "C28",
   "status": "proved",
   "theorems": [
    "Verif.C28_x_fastest",
    "Verif.C28_data_points"
   ],
   "note": "From every previous state of the object, exact arithmetic, both C++ targets; queries with 32-bit index coordinates."
  },
  {
   "property": "C29",
   "status": "partial",
   "theorems": [
    "Verif.C29_velocity_only_2d_fails",
    "Verif.C29_velocity_only_3d_fails"
   ],
   "note": "False of the code for every 2-D and 3-D grid: update(velocities) succeeds and the next interpolate raises RuntimeError."
  },
  {
   "property": "C30",
   "status": "partial",
   "theorems": [
    "Verif.C30_node_value",
    "Verif.C30_axes_swapped_fails",
    "Verif.C30_equal_sides_partial"
   ],
   "note": "False of the code whenever nx != ny (interior nodes that always return 0); true for nx = ny; exact behaviour proved for all shapes."
  },
  {
   "property": "C31",
   "status": "partial",
   "theorems": [
    "Verif.C31_layout_3d_partial",
    "Verif.C31_layout_2d_fails",
    "Verif.C31_layout_2d_differs_fails"
   ],
   "note": "False of the code in 2-D for all nx, ny >= 2 (C order versus Fortran order); true in 3-D."
  },
  {
   "property": "C32",
   "status": "partial",
   "theorems": [
    "Verif.C32_two_dim_partial",
    "Verif.C32_three_points_2d_fails",
    "Verif.C32_three_points_3d_partial",
    "Verif.C32_third_component_fails",
    "Verif.C32_cubic_rejects_3d"
   ],
   "note": "False of the code: third component left uninitialised unless there are exactly three query points; exactly three 2-D query points raise. True in all other cases."
  },
  {
   "property": "C33",
   "status": "partial",
   "theorems": [
    "Verif.C33_interpolate_before_update",
    "Verif.C33_grid_rejects",
    "Verif.C33_fast_rejects_partial",
    "Verif.C33_fast_accepts_wrong_points_fails",
    "Verif.C33_fast_accepts_iff"
   ],
   "note": "All call histories without coordinates raise; GridInterpolator validates; HighPerfInterpolator only checks the total number of entries (witness of a wrong acceptance). C33_fast_accepts_iff says exactly what the fast interpolator accepts."
  },
  {
   "property": "C34",
   "status": "proved",
   "theorems": [
    "Verif.C34_integrators",
    "Verif.C34_interpolators",
    "Verif.C34_writers"
   ],
   "note": "For every string, every str.lower, every grid shape and callable."
  },
  {
   "property": "C35",
   "status": "partial",
   "theorems": [
    "Verif.C35_scatter",
    "Verif.C35_moving_partial",
    "Verif.C35_grid_3d_partial",
    "Verif.C35_grid_2d_static_fails",
    "Verif.C35_fast_static_fails",
    "Verif.C35_fast_witness_fails"
   ],
   "note": "True for scattered-data interpolators always, for every interpolator when coordinates change, and for the SciPy grid interpolator in 3-D. False of the code for static grids: the fast interpolator never passes the second step, the SciPy 2-D one changes layout after the first."
  },
  {
   "property": "C36",
   "status": "proved",
   "theorems": [
    "Verif.C36_success",
    "Verif.C36_failure",
    "Verif.C36_exhaustive",
    "Verif.C36_silent"
   ],
   "note": "Any arithmetic; every run is of one of the covered kinds."
  },
  {
   "property": "C37",
   "status": "partial",
   "theorems": [
    "Verif.C37_period_fails",
    "Verif.C37_value_fails",
    "Verif.C37_single_snapshot_fails",
    "Verif.C37_ratio_partial"
   ],
   "note": "False of the code: p steps are integrated but the period is (p-1)|dt|; p = 1 raises ZeroDivisionError; exact ratio proved."
  },
  {
   "property": "C38",
   "status": "partial",
   "theorems": [
    "Verif.C38_time_zero_fails",
    "Verif.C38_start_time_fails",
    "Verif.C38_witness_fails",
    "Verif.C38_api_rows_fails",
    "Verif.C38_steady_partial"
   ],
   "note": "False of the code: the velocity function is always called with t = 0; all rows returned by the API are equal; true for steady fields."
  },
  {
   "property": "C39",
   "status": "partial",
   "theorems": [
    "Verif.C39_file_partial",
    "Verif.C39_ab2_fails",
    "Verif.C39_analytical_fails"
   ],
   "note": "True for file sources with Euler and RK4 after any number of earlier runs. False of the code for AB2 (stale velocity) and for analytical sources (seeds mutated)."
  },
  {
   "property": "C40",
   "status": "partial",
   "theorems": [
    "Verif.C40_done_first_fails",
    "Verif.C40_crash_fails",
    "Verif.C40_after_integration_partial"
   ],
   "note": "False of the code: done is published before the field is computed and written; it does follow the whole integration."
  },
  {
   "property": "C41",
   "status": "proved",
   "theorems": [
    "Verif.C41_euler_2d",
    "Verif.C41_rk4_2d",
    "Verif.C41_euler_3d",
    "Verif.C41_rk4_3d",
    "Verif.C41_ab2_2d",
    "Verif.C41_ab2_3d"
   ],
   "note": "Complete runs over the reals, 2-D and 3-D; minus infinity when the run matrix is 0."
  },
  {
   "property": "C42",
   "status": "proved",
   "theorems": [
    "Verif.C42_refinement",
    "Verif.C42_refinement_ab2"
   ],
   "note": "Over the reals; every run with p >= 2 snapshots over the fixed period succeeds with one value L p and L p tends to |a|."
  },
  {
   "property": "C43",
   "status": "proved",
   "theorems": [
    "Verif.C43_windows"
   ],
   "note": "All list lengths; the number of snapshots p is a parameter, see C47."
  },
  {
   "property": "C44",
   "status": "proved",
   "theorems": [
    "Verif.C44_too_long",
    "Verif.C44_not_positive",
    "Verif.C44_infeasible",
    "Verif.C44_feasible"
   ],
   "note": "Manager run up to the start of the pool; p is a parameter (see C47). The error is ValueError or IndexError; no pool state exists, so no task starts."
  },
  {
   "property": "C45",
   "status": "partial",
   "theorems": [
    "Verif.C45_mirrored_windows",
    "Verif.C45_pairing_partial",
    "Verif.C45_pairing_fails"
   ],
   "note": "Windows mirrored in all cases. The pairing with coordinate files is preserved if the number of coordinate files divides the number of snapshots; false of the code otherwise (distinct coordinate files)."
  },
  {
   "property": "C46",
   "status": "partial",
   "theorems": [
    "Verif.C46_written_name",
    "Verif.C46_distinct_stems_partial",
    "Verif.C46_one_directory_partial",
    "Verif.C46_files_fails",
    "Verif.C46_analytical_partial",
    "Verif.C46_analytical_binary64_partial",
    "Verif.C46_analytical_fails"
   ],
   "note": "False of the code: same file name in two directories or with two extensions, or time steps below 1e-6. True for one directory and one extension, and for |dt| >= 2e-6 in binary64."
  },
  {
   "property": "C47",
   "status": "partial",
   "theorems": [
    "Verif.C47_exact_partial",
    "Verif.C47_rounded_partial",
    "Verif.C47_decimal_fails",
    "Verif.C47_product_fails",
    "Verif.C47_overflow_fails"
   ],
   "note": "True for exact multiples up to the binary64 range (beyond it OverflowError). Not true for decimal inputs such as 0.3/0.1, nor for periods computed as 3*dt; then at most one snapshot is lost."
  },
  {
   "property": "C48",
   "status": "proved",
   "theorems": [
    "Verif.C48_task_order",
    "Verif.C48_no_exception",
    "Verif.C48_returns"
   ],
   "note": "Transition system of caller, executor manager and workers; every interleaving. Liveness for executions without the death of a worker."
  },
  {
   "property": "C49",
   "status": "proved",
   "theorems": [
    "Verif.C49_never_returns",
    "Verif.C49_raises",
    "Verif.C49_first_observed"
   ],
   "note": "First observed failure: for executions in which no worker process dies and identifiers can be computed (see C69 for the other case)."
  },
  {
   "property": "C50",
   "status": "proved",
   "theorems": [
    "Verif.C50_started_once",
    "Verif.C50_at_most_workers",
    "Verif.C50_progress",
    "Verif.C50_finite",
    "Verif.C50_drains"
   ],
   "note": "Every execution has at most 5n+2 actions."
  },
  {
   "property": "C51",
   "status": "proved",
   "theorems": [
    "Verif.C51_isolated",
    "Verif.C51_fresh_solver",
    "Verif.C51_isolated_failure",
    "Verif.C51_returns"
   ],
   "note": "Refinement of a pool with mutable objects and pickled copies. Independence of uninitialised memory under the hypotheses of C70."
  },
  {
   "property": "C52",
   "status": "partial",
   "theorems": [
    "Verif.C52_monitor_partial",
    "Verif.C52_row_kept",
    "Verif.C52_end_partial",
    "Verif.C52_keeps_running",
    "Verif.C52_failed_task_fails",
    "Verif.C52_survives_iff"
   ],
   "note": "Holds for every interleaving of the messages of successful tasks. False of the code when a task fails between two messages: the next task of that worker finds no free row and the monitor dies with KeyError. C52_survives_iff: for any sequence of messages the monitor survives iff never more than n tasks are unfinished."
  },
  {
   "property": "C53",
   "status": "partial",
   "theorems": [
    "Verif.C53_fails",
    "Verif.C53_dead_branch",
    "Verif.C53_runtime_partial"
   ],
   "note": "False of the code: the original exception is re-raised; the documented RuntimeError is dead code."
  },
  {
   "property": "C54",
   "status": "proved",
   "theorems": [
    "Verif.C54_structured",
    "Verif.C54_flat",
    "Verif.C54_mismatch"
   ],
   "note": "All shapes; a field whose size does not fit the shape raises ValueError."
  },
  {
   "property": "C55",
   "status": "partial",
   "theorems": [
    "Verif.C55_unstructured",
    "Verif.C55_two_dim",
    "Verif.C55_three_dim_partial",
    "Verif.C55_three_dim_fails",
    "Verif.C55_flattened_fails",
    "Verif.C55_says_iff"
   ],
   "note": "True without a shape and for 2-D shapes with planar particles. False of the code for 3-D structured grids with nx, ny >= 2 (C-order centroids read as Fortran order) and for 3-D particles written on a 2-D shape. C55_says_iff gives the exact condition for distinct values at distinct locations."
  },
  {
   "property": "C56",
   "status": "partial",
   "theorems": [
    "Verif.C56_vtk",
    "Verif.C56_mat_partial",
    "Verif.C56_empty_shape_fails",
    "Verif.C56_cell_values_fails",
    "Verif.C56_mat_iff",
    "Verif.C56_vtk_iff"
   ],
   "note": "False of the code: the MAT writer treats the empty shape as no shape and accepts any number of values (VTK raises), and pyvista accepts a 2-D field with as many values as cells. C56_mat_iff and C56_vtk_iff say exactly which calls are accepted; without a shape the MAT writer does not even compare the numbers of values and centroids."
  },
  {
   "property": "C57",
   "status": "partial",
   "theorems": [
    "Verif.C57_same_dim_partial",
    "Verif.C57_drops_z_fails",
    "Verif.C57_refuses_fails",
    "Verif.C57_same_iff"
   ],
   "note": "False of the code: the dimension is remembered from the first call; later fields of another dimension lose their z coordinate or are refused. C57_same_iff: a used writer writes what a new one would iff the first field it was given had the same dimension."
  },
  {
   "property": "C58",
   "status": "proved",
   "theorems": [
    "Verif.C58_accepts",
    "Verif.C58_rejects"
   ],
   "note": "For every string and every character table satisfying the stated laws; int() grammar in Spec/IntLiteral."
  },
  {
   "property": "C59",
   "status": "partial",
   "theorems": [
    "Verif.C59_usable_partial",
    "Verif.C59_short_fails",
    "Verif.C59_planar_fails"
   ],
   "note": "False of the code: \"a,1\" gives a tuple of length 1 that every structured writer refuses; a 3-tuple with planar particles raises in the VTK writer."
  },
  {
   "property": "C60",
   "status": "partial",
   "theorems": [
    "Verif.C60_defaults_fails",
    "Verif.C60_exceptions_fails",
    "Verif.C60_given_partial",
    "Verif.C60_interpolator_partial"
   ],
   "note": "False of the code: omitting --integrator, --interpolator or --output_format makes the set-up fail, the documented defaults (euler, cubic, mat) do not take effect. Given values select what they name."
  },
  {
   "property": "C61",
   "status": "partial",
   "theorems": [
    "Verif.C61_plain_partial",
    "Verif.C61_comma_fails",
    "Verif.C61_ragged_fails",
    "Verif.C61_missing_fails",
    "Verif.C61_blank_fails",
    "Verif.C61_empty_fails",
    "Verif.C61_no_file",
    "Verif.C61_round_trip_iff"
   ],
   "note": "True for lists of plain paths. False of the code for paths with commas, NA-like names, blank lines and the empty list. C61_round_trip_iff says exactly which lists come back."
  },
  {
   "property": "C62",
   "status": "proved",
   "theorems": [
    "Verif.C62_sorted_exact",
    "Verif.C62_wildcards",
    "Verif.C62_order_independent",
    "Verif.C62_time_order",
    "Verif.C62_unpadded"
   ],
   "note": "For patterns that are non-empty and contain no slash; patterns with * and ? are C62_wildcards, brackets are not modelled."
  },
  {
   "property": "C63",
   "status": "proved",
   "theorems": [
    "Verif.C63_split",
    "Verif.C63_unique",
    "Verif.C63_transparent"
   ],
   "note": "Any elapsed time in microseconds; any function value or exception."
  },
  {
   "property": "C64",
   "status": "proved",
   "theorems": [
    "Verif.C64_accepts",
    "Verif.C64_content",
    "Verif.C64_rejects"
   ],
   "note": "Row-major flattening, although the documentation says column-major."
  },
  {
   "property": "C65",
   "status": "proved",
   "theorems": [
    "Verif.C65_single",
    "Verif.C65_stack",
    "Verif.C65_output",
    "Verif.C65_returns",
    "Verif.C65_start",
    "Verif.C65_dead_branch",
    "Verif.C65_constructor"
   ],
   "note": "For num_ftles <= 0 the call raises IndexError; the documented RuntimeError branch is dead code (C65_dead_branch)."
  },
  {
   "property": "C66",
   "status": "partial",
   "theorems": [
    "Verif.C66_fails",
    "Verif.C66_gap_partial",
    "Verif.C66_isotropic_partial"
   ],
   "note": "False of the code: two stretches 1+2^-26 and 1+2^-27 give a negative discriminant and hence NaN. Holds when the eigenvalues are separated by more than rounding level, and for equal stretches."
  },
  {
   "property": "C67",
   "status": "partial",
   "theorems": [
    "Verif.C67_negative_period_2d_fails",
    "Verif.C67_negative_period_3d_fails",
    "Verif.C67_period_magnitude_2d_partial",
    "Verif.C67_period_magnitude_3d_partial"
   ],
   "note": "False of the code: 1/T is used, so the sign flips for negative periods; exact relation proved; holds for positive periods."
  },
  {
   "property": "C68",
   "status": "partial",
   "theorems": [
    "Verif.C68_fails",
    "Verif.C68_cancelled_partial"
   ],
   "note": "False of the code: up to n_processes+1 tasks already in the call queue are still started, running ones continue."
  },
  {
   "property": "C69",
   "status": "partial",
   "theorems": [
    "Verif.C69_monitor_partial",
    "Verif.C69_not_stopped_fails",
    "Verif.C69_monitor_hangs_fails"
   ],
   "note": "False of the code: for a negative flow map period in the API the error handler itself raises, the monitor is never told to stop and loops for ever."
  },
  {
   "property": "C70",
   "status": "partial",
   "theorems": [
    "Verif.C70_deterministic_partial",
    "Verif.C70_scattered_3d_fails"
   ],
   "note": "False of the code for scattered data in three dimensions; true for all other interpolators (and all in two dimensions) with a new integrator."
  },
  {
   "property": "C71",
   "status": "partial",
   "theorems": [
    "Verif.C71_formats_disagree_fails",
    "Verif.C71_agree_iff_2d",
    "Verif.C71_agree_iff_3d"
   ],
   "note": "False of the code: MAT output is in C order, VTK output in Fortran order; they disagree on every grid with nx, ny >= 2. C71_agree_iff_2d/3d: they agree iff there is at most one node along x or along y."
  },
  {
   "property": "C72",
   "status": "partial",
   "theorems": [
    "Verif.C72_status_fails",
    "Verif.C72_killed_fails",
    "Verif.C72_message_partial",
    "Verif.C72_status_partial"
   ],
   "note": "False of the code: main swallows every RuntimeError (also BrokenProcessPool) and returns normally. Holds together with the printed message, or without dead workers and RuntimeErrors."
  },
  {
   "property": "C73",
   "status": "proved",
   "theorems": [
    "Verif.C73_unstructured",
    "Verif.C73_mat_structured"
   ],
   "note": "Both formats without a shape; MAT with a shape (VTK structured: C55, C71)."
  },
  {
   "property": "C74",
   "status": "proved",
   "theorems": [
    "Verif.C74_flow_map_2d",
    "Verif.C74_flow_map_3d"
   ],
   "note": "The map is flowMap, the row-wise integrator of C18-C23; the velocities are assumed to act on points (Pointwise)."
  },
  {
   "property": "C75",
   "status": "proved",
   "theorems": [
    "Verif.C75_local_2d",
    "Verif.C75_local_3d"
   ],
   "note": "Contract: SciPy and a user velocity function evaluate query points independently (SciPy.RowLocal, Independent); proved for the compiled interpolators."
  },
  {
   "property": "C76",
   "status": "proved",
   "theorems": [
    "Verif.C76_swap_2d",
    "Verif.C76_swap_3d",
    "Verif.C76_centroid_2d",
    "Verif.C76_centroid_3d"
   ],
   "note": "Field for any arithmetic with SwapLaws (fields, binary64); centroids in exact arithmetic."
  },
  {
   "property": "C77",
   "status": "proved",
   "theorems": [
    "Verif.C77_starts",
    "Verif.C77_output",
    "Verif.C77_completes",
    "Verif.C77_failure",
    "Verif.C77_directory",
    "Verif.C77_status",
    "Verif.C77_too_long",
    "Verif.C77_missing_entry_partial"
   ],
   "note": "C77_missing_entry_partial: TypeError for missing list entries, raised earlier in the model than in the code. Composition of Program.create with C43, C49-C51, C61; distinct stems are assumed for the directory (C46)."
  },
  {
   "property": "C78",
   "status": "partial",
   "theorems": [
    "Verif.C78_lists_partial",
    "Verif.C78_by_name_partial",
    "Verif.C78_partition_fails",
    "Verif.C78_suffix_fails",
    "Verif.C78_warnings_partial",
    "Verif.C78_particle_warning_fails",
    "Verif.C78_read_back",
    "Verif.C78_missing_particles",
    "Verif.C78_time_order"
   ],
   "note": "False of the code: keywords are looked for in the whole path, so that a file can be in several lists; .mat.bak files are listed; the particle warning looks at the coordinate list. Exact content of the lists, reading back and time order are proved."
  },
  {
   "property": "C79",
   "status": "partial",
   "theorems": [
    "Verif.C79_results",
    "Verif.C79_after_failure_fails",
    "Verif.C79_not_stopped",
    "Verif.C79_stale_fails",
    "Verif.C79_clean_partial",
    "Verif.C79_nothing_lost"
   ],
   "note": "False of the code for the monitor: the stop event is never cleared and unread messages stay on the queue. Results never depend on the history; after a normal run with all messages read the executor is as new."
  },
  {
   "property": "C80",
   "status": "proved",
   "theorems": [
    "Verif.C80_run_again"
   ],
   "note": ""
  },
  {
   "property": "C81",
   "status": "proved",
   "theorems": [
    "Verif.C81_line_ends"
   ],
   "note": ""
  },
  {
   "property": "C82",
   "status": "proved",
   "theorems": [
    "Verif.C82_refinement_2d",
    "Verif.C82_refinement_3d",
    "Verif.C82_analytical_2d"
   ],
   "note": "Exact arithmetic (limits in the reals). Existence of the trajectories and smoothness of the field are hypotheses."
  },
  {
   "property": "C83",
   "status": "proved",
   "theorems": [
    "Verif.C83_true_exponent_2d",
    "Verif.C83_true_exponent_3d"
   ],
   "note": "Exact arithmetic; first the number of snapshots, then the distance of the neighbours goes to its limit. Differentiability of the exact flow map at the centres is a hypothesis here; C88 removes it."
  },
  {
   "property": "C84",
   "status": "proved",
   "theorems": [
    "Verif.C84_error_2d",
    "Verif.C84_error_3d",
    "Verif.C84_gridded_2d",
    "Verif.C84_gridded_3d"
   ],
   "note": "Exact arithmetic. The gridded 2-D theorem needs the listing with x running fastest, the 3-D one equal numbers of nodes in x and y (meshgrid listing): the layouts which the interpolator reads correctly, see C28 and C30. Coordinates are read at every step."
  },
  {
   "property": "C85",
   "status": "proved",
   "theorems": [
    "Verif.C85_kernel",
    "Verif.C85_nan",
    "Verif.C85_zero_period"
   ],
   "note": "Binary64 without overflow. The accuracy of np.sqrt and np.log is a hypothesis (Libm.Accurate)."
  },
  {
   "property": "C86",
   "status": "proved",
   "theorems": [
    "Verif.C86_binary64_2d"
   ],
   "note": "Binary64 without overflow. Accuracy of np.sqrt and np.log is a hypothesis (Libm.Accurate). The velocities which the source returns are numbers within a stated error; how an interpolator rounds is not part of this theorem."
  },
  {
   "property": "C87",
   "status": "proved",
   "theorems": [
    "Verif.C87_gridded_2d"
   ],
   "note": "Binary64 without overflow, separately rounded operations (no fused multiply-add: x86-64 baseline; arm64 compilers may fuse, not modelled). Accuracy of np.sqrt and np.log is a hypothesis. Listing with x running fastest and coordinates read at every step, as in C84."
  },
  {
   "property": "C88",
   "status": "proved",
   "theorems": [
    "Verif.C88_exponent_2d",
    "Verif.C88_exponent_3d",
    "Verif.C88_analytical_2d",
    "Verif.C88_analytical_3d",
    "Verif.C88_deformation"
   ],
   "note": "Exact arithmetic. The order of limits is that of C83: first the number of snapshots, then the distance of the neighbours."
  },
  {
   "property": "C89",
   "status": "partial",
   "theorems": [
    "Verif.C89_missing_2d",
    "Verif.C89_zero_period_2d",
    "Verif.C89_missing_period",
    "Verif.C89_missing_3d_fails",
    "Verif.C89_complete_3d_partial"
   ],
   "note": "False of the code in 3-D: np.linalg.eigvals raises LinAlgError for the whole batch if one particle met a missing velocity (C89_missing_3d_fails, for every such run). The 2-D statement is proved in full, the 3-D one for runs that meet no missing velocity. Infinite values are not modelled."
  },
  {
   "property": "C90",
   "status": "partial",
   "theorems": [
    "Verif.C90_between_2d_partial",
    "Verif.C90_used_2d_partial",
    "Verif.C90_line_2d_fails",
    "Verif.C90_between_3d_partial",
    "Verif.C90_plane_3d_fails",
    "Verif.C90_exact_2d",
    "Verif.C90_exact_3d"
   ],
   "note": "False of the code on grid lines and planes: a missing sample of the next line gives 0 * NaN = NaN. Proved in full at points strictly between the nodes; one direction everywhere in 2-D. C90_exact_2d/3d say exactly at which points the result is missing."
  },
  {
   "property": "C91",
   "status": "proved",
   "theorems": [
    "Verif.C91_masked_run"
   ],
   "note": "Exact arithmetic with NaN, x86-64 conversions. Listing with x running fastest, coordinates complete and read at every step, as in C84."
  },
  {
   "property": "C92",
   "status": "partial",
   "theorems": [
    "Verif.C92_independent_partial",
    "Verif.C92_rejected_query_fails"
   ],
   "note": "False of the code: HighPerfInterpolator allocates its buffers for the number of columns of the first query of that length, so after a rejected two-column query a valid three-column query raises TypeError (C92_rejected_query_fails). Proved for every sequence of uses otherwise: two-column queries always, three-column queries if all earlier ones had three columns."
  },
  {
   "property": "C93",
   "status": "proved",
   "theorems": [
    "Verif.C93_accepted_shapes",
    "Verif.C93_transposed_refused",
    "Verif.C93_run_refused",
    "Verif.C93_stretched_values"
   ],
   "note": "np.copyto is modelled with its broadcasting rule including stripped leading unit axes; the values theorem is exact arithmetic, the acceptance theorem holds for any scalar type. The annotations Array2xN | Array3xN of integrate.py name a layout that is refused."
  },
  {
   "property": "C94",
   "status": "partial",
   "theorems": [
    "Verif.C94_monotone",
    "Verif.C94_outside",
    "Verif.C94_inside",
    "Verif.C94_zero_outside_2d",
    "Verif.C94_inside_2d_partial",
    "Verif.C94_zero_outside_3d",
    "Verif.C94_inside_3d_partial",
    "Verif.C94_inside_fails",
    "Verif.C94_last_node_fails",
    "Verif.C94_underflow_fails"
   ],
   "note": "False of the code: points just before the last node can get 0, the last node can be covered, and a negative subnormal number can fall into the first cell (three _fails theorems). Proved with the exact margins 2^-1072 dx on the left and 2^-50 of the length on the right; C94_outside and C94_inside are per axis; the kernel theorems are for both kernels (in 3-D the array of samples has the lengths of the axes, and Y*Z fits into an int)."
  },
  {
   "property": "C95",
   "status": "proved",
   "theorems": [
    "Verif.C95_files",
    "Verif.C95_analytical",
    "Verif.C95_kernels"
   ],
   "note": "Exact arithmetic (any ordered field). SciPy is assumed to be equivariant (Spec/Units.lean, Equivariant) for the interpolators that call it; nothing is assumed for the fast interpolator and for velocity functions. Scattered data in 3-D are excluded because their third component is uninitialised memory (C70). C95_kernels discharges the hypothesis on the kernels for ftle.py."
  },
  {
   "property": "C96",
   "status": "partial",
   "theorems": [
    "Verif.C96_extent_only",
    "Verif.C96_node_iff_2d",
    "Verif.C96_stretched_fails",
    "Verif.C96_descending_fails",
    "Verif.C96_node_iff_3d"
   ],
   "note": "False of the code: only the minimum and maximum of each coordinate row are used (C96_extent_only, any scalar type, GridInterpolator and HighPerfInterpolator). C96_node_iff_2d and C96_node_iff_3d say exactly which nodes of the fast interpolator are reproduced; stretched grids and descending axes are silently misread (_fails theorems)."
  },
  {
   "property": "C97",
   "status": "partial",
   "theorems": [
    "Verif.C97_moving_frame_2d",
    "Verif.C97_moving_frame_3d",
    "Verif.C97_rk4_fails",
    "Verif.C97_outside_fails"
   ],
   "note": "False of the code: RK4 evaluates its stages in one snapshot (C97_rk4_fails), and particles outside the grid get velocity 0 for every observer (C97_outside_fails). Proved for Euler (any motion of the observer) and Adams-Bashforth 2 (uniform motion) with the fast interpolator, particles within the grid, exact arithmetic; 3-D for grids with as many nodes in x as in y (C30)."
  },
  {
   "property": "C98",
   "status": "partial",
   "theorems": [
    "Verif.C98_accepted_iff",
    "Verif.C98_rejected",
    "Verif.C98_spelling",
    "Verif.C98_order",
    "Verif.C98_negative_fails",
    "Verif.C98_negative_partial",
    "Verif.C98_usable"
   ],
   "note": "False of the code for negative numbers that are not in plain decimal notation and are written as a separate argument (C98_negative_fails). The model follows argparse.py of Python 3.11 for the declared options; configuration files are in C100, float() is a parameter. C98_accepted_iff characterises the accepted lines and their meaning exactly."
  },
  {
   "property": "C99",
   "status": "partial",
   "theorems": [
    "Verif.C99_report_partial",
    "Verif.C99_folder_only",
    "Verif.C99_report_fails",
    "Verif.C99_lost",
    "Verif.C99_empty_name_fails",
    "Verif.C99_contents",
    "Verif.C99_saved_partial",
    "Verif.C99_fresh_partial",
    "Verif.C99_stale_fails",
    "Verif.C99_place_partial",
    "Verif.C99_place_fails",
    "Verif.C99_late_fails",
    "Verif.C99_failed_file"
   ],
   "note": "False of the code: absolute names and .. leave outputs (C99_place_fails), the error is only printed and all fields are computed before they are lost (C99_late_fails, C99_lost), old files stay (C99_stale_fails), an error can go unnoticed (C99_report_fails), empty API name (C99_empty_name_fails). Proved for the other cases. No symbolic links; that VTK raises when a file cannot be opened is an assumption."
  },
  {
   "property": "C100",
   "status": "proved",
   "theorems": [
    "Verif.C100_accepted_iff",
    "Verif.C100_rejected",
    "Verif.C100_usable",
    "Verif.C100_override",
    "Verif.C100_file_option",
    "Verif.C100_unset",
    "Verif.C100_no_file",
    "Verif.C100_text",
    "Verif.C100_documented",
    "Verif.C100_repeated",
    "Verif.C100_documented_repeated"
   ],
   "note": "The model follows the published behaviour of configargparse 1.7.1 (not installed here) and argparse of Python 3.11; float() and the reading of lists in square brackets are parameters. C100_text, C100_repeated: no value in square brackets. Two spellings of a key (name and --name) are two entries, whose order is that of their first lines."
  },
  {
   "property": "C101",
   "status": "partial",
   "theorems": [
    "Verif.C101_unknown_key_partial",
    "Verif.C101_unknown_key_fails",
    "Verif.C101_list_rejected",
    "Verif.C101_replaced_partial",
    "Verif.C101_replaced_fails"
   ],
   "note": "False of the code: abbreviated keys and unknown keys with an empty list are accepted (C101_unknown_key_fails), an entry replaced by an abbreviated option is still checked (C101_replaced_fails). C101_unknown_key_partial lists exactly which keys an accepted file can have; C101_replaced_partial holds for options under their full name."
  },
  {
   "property": "C102",
   "status": "partial",
   "theorems": [
    "Verif.C102_order_partial",
    "Verif.C102_unsteady_rk4_fails"
   ],
   "note": "False of the code for RK4 on unsteady flows (C102_unsteady_rk4_fails: the error is exactly n h^2/2 for the velocity t). Proved for Euler and AB2 on all smooth flows and for RK4 on steady ones, with order one for all methods on unsteady flows of class C^1, which is what RK4 attains there; velocities known up to an error; exact arithmetic."
  },
  {
   "property": "C103",
   "status": "partial",
   "theorems": [
    "Verif.C103_order_2d_partial",
    "Verif.C103_order_3d_partial",
    "Verif.C103_period_fails"
   ],
   "note": "False of the code against the exponent over the period T the code divides by (C103_period_fails). Proved for the exact positions after n steps: error of the order of the integrator; RK4 has order four on steady flows and one on unsteady ones (Attains); exact arithmetic."
  },
  {
   "property": "C104",
   "status": "partial",
   "theorems": [
    "Verif.C104_gridded_2d_partial",
    "Verif.C104_gridded_3d_partial"
   ],
   "note": "RK4 has order four on steady flows and one on unsteady ones (not better, C102_unsteady_rk4_fails); 3-D grids with as many nodes in x as in y (C30); coordinates handed out with every snapshot (C29). Exact arithmetic. The number of nodes per direction is below 2^31 because of the C++ int, so the bound is for finite grids and not about a limit."
  },
  {
   "property": "C105",
   "status": "proved",
   "theorems": [
    "Verif.C105_starts",
    "Verif.C105_meaning",
    "Verif.C105_refused",
    "Verif.C105_saved",
    "Verif.C105_completes"
   ],
   "note": "Simplifications: the text files and .mat inputs are given and not looked up on the modelled disk; every save of a file is one step; experiment names are relative and the path of the folder has no . or ..; contract of PyVista as in C55. Distinct stems of the first snapshots are assumed (files with equal stems replace one another)."
  },
  {
   "property": "C106",
   "status": "proved",
   "theorems": [
    "Verif.C106_completes_2d",
    "Verif.C106_completes_3d",
    "Verif.C106_values_2d",
    "Verif.C106_values_3d",
    "Verif.C106_vtk_completes_2d",
    "Verif.C106_vtk_completes_3d",
    "Verif.C106_vtk_values_2d",
    "Verif.C106_vtk_values_3d"
   ],
   "note": "VTK output: in the plane .vtp files, or .vts files with --particles_grid_shape of length two; in space .vtp files (the shape case is false of the code, C55). Exact arithmetic (float() and the number of snapshots per period are parameters). At least two different coordinate files (C29); 3-D grids with as many nodes in x as in y (C30); simplifications of C105. sigma is the stretching after n steps, T = (n-1)|h| as in the code (C37)."
  },
  {
   "property": "C107",
   "status": "partial",
   "theorems": [
    "Verif.C107_saved",
    "Verif.C107_completes",
    "Verif.C107_new_folder",
    "Verif.C107_default_folder",
    "Verif.C107_folder",
    "Verif.C107_same_second_fails"
   ],
   "note": "False of the code: without output_dir_name two calls in the same second use one folder and the files of the first are replaced (C107_same_second_fails). C107_saved and C107_completes prove the rest in full; C107_default_folder C107_folder says that the folders of two calls are equal iff the clock readings are, C107_new_folder that a folder that was not there has exactly the files of the call. Distinct names of the start times are assumed (C46 says when they are)."
  },
  {
   "property": "C108",
   "status": "partial",
   "theorems": [
    "Verif.C108_analytical_2d",
    "Verif.C108_analytical_3d",
    "Verif.C108_kernels",
    "Verif.C108_kernel64",
    "Verif.C108_exact_2d",
    "Verif.C108_exact_3d",
    "Verif.C108_binary64_2d",
    "Verif.C108_grid_2d",
    "Verif.C108_grid_3d",
    "Verif.C108_edge_fails",
    "Verif.C108_exchange_3d_fails"
   ],
   "note": "False of the code for gridded snapshots: a particle on the lower edge of the grid moves, its mirror image on the upper edge does not (C108_edge_fails); in 3-D an exchange of y and z gives a grid that the fast interpolator misreads (C108_exchange_3d_fails). Proved: analytical runs in 2-D and 3-D for any arithmetic that treats signs alike, with the kernels of ftle.py over the reals and (2-D) bit for bit in binary64; gridded runs over ordered fields for all integrators, as long as velocities are evaluated within the grid and off the lower edges of reversed axes, 3-D grids of the form m x m x nz before and after the turn."
  },
  {
   "property": "C109",
   "status": "partial",
   "theorems": [
    "Verif.C109_window_fails",
    "Verif.C109_error_fails",
    "Verif.C109_command_fails",
    "Verif.C109_status_fails",
    "Verif.C109_tutorial_fails",
    "Verif.C109_window_witness_fails",
    "Verif.C109_witness_fails"
   ],
   "note": "False of the code, whatever the files contain: with one coordinate file and the fast interpolator the run of every window ends with an exception after at most one progress message (C109_window_fails), the executor never returns (C109_command_fails, C109_tutorial_fails), and the RuntimeError is caught, so that the exit status is 0 (C109_status_fails). The positive side is C106, which needs at least two different coordinate names, and C35 for the other interpolators."
  },
  {
   "property": "C110",
   "status": "partial",
   "theorems": [
    "Verif.C110_seeds_2d",
    "Verif.C110_seeds_3d",
    "Verif.C110_saved_seeds_2d",
    "Verif.C110_saved_seeds_3d",
    "Verif.C110_picture",
    "Verif.C110_grid_points",
    "Verif.C110_stream",
    "Verif.C110_panels_fails",
    "Verif.C110_frozen_fails",
    "Verif.C110_values_partial"
   ],
   "note": "False of the code: the announced double gyre is frozen at time 0 (C110_frozen_fails) and the four consecutive panels are copies of one field (C110_panels_fails). Proved: the seeds, the saved seeds and the layout of pictures and grid in any arithmetic; that the formula is the velocity of the stream function; and that the field shown is accurate, to the order of the integrator, for the steady gyre (C110_values_partial)."
  },
  {
   "property": "C111",
   "status": "proved",
   "theorems": [
    "Verif.C111_array_2d",
    "Verif.C111_array_3d",
    "Verif.C111_files_2d",
    "Verif.C111_files_3d"
   ],
   "note": "Exact arithmetic. The velocity function has to be the flow at the time 0 only, since the code asks for no other time (C38); the period is the one the code divides by (C37)."
  },
  {
   "property": "C112",
   "status": "proved",
   "theorems": [
    "Verif.C112_kernel",
    "Verif.C112_zero_period",
    "Verif.C112_binary64_3d"
   ],
   "note": "Binary64 without overflow. Accuracy of np.sqrt, np.log, @ and np.linalg.eigvals is a hypothesis (Libm.Accurate, Linalg.Accurate); that LAPACK returns real eigenvalues for symmetric matrices is part of it. The velocities which the source returns are numbers within a stated error; how an interpolator rounds is not part of this theorem."
  },
  {
   "property": "C113",
   "status": "proved",
   "theorems": [
    "Verif.C113_gridded_3d"
   ],
   "note": "Binary64 without overflow, separately rounded operations (no fused multiply-add: x86-64 baseline; arm64 compilers may fuse, not modelled). Accuracy of np.sqrt, np.log, @ and np.linalg.eigvals is a hypothesis. Grids with as many nodes in x as in y (C30), listed in the default order of numpy.meshgrid, coordinates read at every step (C29)."
  },
  {
   "property": "C114",
   "status": "proved",
   "theorems": [
    "Verif.C114_array_2d",
    "Verif.C114_files_2d",
    "Verif.C114_array_3d",
    "Verif.C114_files_3d"
   ],
   "note": "Steady flows (the API evaluates the velocity function at time 0 only, C38). Binary64 without overflow. Accuracy of np.sqrt, np.log, @ and np.linalg.eigvals is a hypothesis. The number of snapshots per period is an input (C47); T = (n-1)|h| as in the code (C37)."
  },
  {
   "property": "C115",
   "status": "proved",
   "theorems": [
    "Verif.C115_completes_2d",
    "Verif.C115_values_2d",
    "Verif.C115_completes_3d",
    "Verif.C115_values_3d",
    "Verif.C115_vtk_completes_2d",
    "Verif.C115_vtk_values_2d",
    "Verif.C115_vtk_completes_3d",
    "Verif.C115_vtk_values_3d"
   ],
   "note": "VTK output: in the plane .vtp files, or .vts files with --particles_grid_shape of length two; in space .vtp files (the shape case is false of the code, C55). Binary64 without overflow. Accuracy of np.sqrt, np.log, @ and np.linalg.eigvals is a hypothesis; float() and the number of snapshots per period are parameters (C47). At least two different coordinate files (C29); 3-D grids with as many nodes in x as in y (C30); simplifications of C105. sigma is the stretching after n steps, T = (n-1)|h| as in the code (C37)."
  },
  {
   "property": "C116",
   "status": "proved",
   "theorems": [
    "Verif.C116_nearest_blends",
    "Verif.C116_linear_blends",
    "Verif.C116_run",
    "Verif.C116_completes",
    "Verif.C116_values",
    "Verif.C116_vtk_completes",
    "Verif.C116_vtk_values"
   ],
   "note": "Exact arithmetic. That SciPy blends nearby values is a hypothesis (Spec/Scattered.lean, SciPy.Blends), met by nearest-point and piecewise linear interpolation; the cubic interpolator of Clough and Tocher does not meet it. In the plane only: in space the third component is uninitialised memory (C32). Simplifications of C105; T = (n-1)|h| as in the code (C37)."
  },
  {
   "property": "C117",
   "status": "partial",
   "theorems": [
    "Verif.C117_files",
    "Verif.C117_exact_partial",
    "Verif.C117_decimal_partial",
    "Verif.C117_decimal_fails",
    "Verif.C117_readme"
   ],
   "note": "False of the code as documented: for --flow_map_period 0.3 --snapshot_timestep 0.1 there is one field more than documented (C117_decimal_fails), and each field takes one snapshot more than the README says (C117_readme). Proved: the number of files is that of fields (C117_files), the documented number for periods that are exact multiples in binary64 (C117_exact_partial), at most one more for decimal numbers (C117_decimal_partial). A negative time step counts with its absolute value. For the texts as float reads them see C118."
  },
  {
   "property": "C118",
   "status": "proved",
   "theorems": [
    "Verif.C118_reads",
    "Verif.C118_decimal",
    "Verif.C118_seventeen_digits",
    "Verif.C118_snapshots_iff",
    "Verif.C118_words",
    "Verif.C118_fields"
   ],
   "note": "The model of float(str) was compared with Python on random texts. Zeros have no sign. Infinite time steps are accepted by the program (C118_words); the rest of the model computes with finite time steps (float64)."
  },
  {
   "property": "C119",
   "status": "partial",
   "theorems": [
    "Verif.C119_velocity_partial",
    "Verif.C119_fastest",
    "Verif.C119_euler_partial",
    "Verif.C119_all_or_none_fails",
    "Verif.C119_companions_fails",
    "Verif.C119_seed_on_axis_fails",
    "Verif.C119_panels_fails",
    "Verif.C119_rotation_fails",
    "Verif.C119_no_picture_fails"
   ],
   "note": "False of the code: the velocities are scaled by the greatest speed of the array asked for, and are all NaN if one position is on the axis; the vortex does not rotate (C38). What is computed is characterised exactly: C119_velocity_partial, and C119_euler_partial for runs with Euler's method (the one the notebook uses)."
  },
  {
   "property": "C120",
   "status": "partial",
   "theorems": [
    "Verif.C120_rest_2d",
    "Verif.C120_rest_3d",
    "Verif.C120_exact_2d",
    "Verif.C120_exact_3d",
    "Verif.C120_binary64_2d",
    "Verif.C120_binary64_3d",
    "Verif.C120_binary64_3d_near",
    "Verif.C120_outside_2d",
    "Verif.C120_outside_3d",
    "Verif.C120_tilted_fails"
   ],
   "note": "False of the code: a tilted pair of seeds gets a positive exponent in a fluid at rest (C120_tilted_fails); points outside the grid get exactly zero, like fluid at rest (C120_outside). Proved instead: over the reals the value of a group at rest is zero exactly when its pairs of seeds are parallel to the axes, and then it is exactly zero in binary64 too."
  },
  {
   "property": "C121",
   "status": "partial",
   "theorems": [
    "Verif.C121_read",
    "Verif.C121_meaning",
    "Verif.C121_stops_partial",
    "Verif.C121_default_fails"
   ],
   "note": "False of the code: the name of the experiment and the list files are set to the word true, to the empty string or to the comment (C121_default_fails). What is read and what it means is characterised exactly (C121_read, C121_meaning); for all other options the program stops (C121_stops_partial)."
  },
  {
   "property": "C122",
   "status": "partial",
   "theorems": [
    "Verif.C122_euler_2d",
    "Verif.C122_euler_3d",
    "Verif.C122_rk4_eigenvalue_2d",
    "Verif.C122_rk4_eigenvalue_3d",
    "Verif.C122_rk4_2d_partial",
    "Verif.C122_rk4_3d_partial",
    "Verif.C122_ab2_2d_partial",
    "Verif.C122_ab2_3d_partial",
    "Verif.C122_euler_rotation",
    "Verif.C122_rk4_rotation",
    "Verif.C122_rotation_refinement",
    "Verif.C122_euler_rotation_fails",
    "Verif.C122_rk4_rotation_fails",
    "Verif.C122_ab2_rotation_fails"
   ],
   "note": "False of the code: a rotating body is reported as stretching (Euler, AB2) or as contracting in all directions (RK4). Proved: with Euler no value of an incompressible linear flow is negative; with RK4 and AB2 for flows of the plane with open streamlines and for flows of space without rotation; the exact values of rotating bodies and their limit 0."
  },
  {
   "property": "C123",
   "status": "partial",
   "theorems": [
    "Verif.C123_layout",
    "Verif.C123_stray",
    "Verif.C123_stray_status",
    "Verif.C123_readme_partial",
    "Verif.C123_remark_fails",
    "Verif.C123_commented_fails",
    "Verif.C123_readme_fails"
   ],
   "note": "False of the documentation: the comment behind a backslash in the command of the README splits it in two, and the program stops with status 2 (C123_readme_fails, C123_remark_fails); lines made comments cut off those that follow (C123_commented_fails). Proved for all commands without such comments (C123_layout) and for the command of the README without its comment."
  },
  {
   "property": "C124",
   "status": "partial",
   "theorems": [
    "Verif.C124_float64_partial",
    "Verif.C124_one_block_partial",
    "Verif.C124_rk4_fails",
    "Verif.C124_rk4_error",
    "Verif.C124_function_fails",
    "Verif.C124_frozen_2d_fails",
    "Verif.C124_frozen_3d_fails",
    "Verif.C124_nodes_fails",
    "Verif.C124_files_fails",
    "Verif.C124_files_zero_fails",
    "Verif.C124_zero_fails",
    "Verif.C124_zero_3d_fails",
    "Verif.C124_saddle_fails"
   ],
   "note": "False of the code: with integer seeds RK4 raises (C124_rk4_fails), functions that return float64 arrays raise (C124_function_fails), and Euler and Adams-Bashforth report 0 for every flow with velocities below 1 (C124_zero_fails, C124_files_zero_fails; witness C124_saddle_fails: 0 instead of log(9/4)). Proved for seeds of which one block is stored as float64."
  },
  {
   "property": "C125",
   "status": "proved",
   "theorems": [
    "Verif.C125_affine_2d",
    "Verif.C125_affine_3d",
    "Verif.C125_files_2d",
    "Verif.C125_files_3d",
    "Verif.C125_function_2d",
    "Verif.C125_function_3d"
   ],
   "note": ""
  },
  {
   "property": "C126",
   "status": "partial",
   "theorems": [
    "Verif.C126_function",
    "Verif.C126_files_partial",
    "Verif.C126_ab2_fails",
    "Verif.C126_space_fails"
   ],
   "note": "False of the code for Adams-Bashforth in unsteady flows (C126_ab2_fails: log(5/2) forward, log(3/2) backward) and false in space for any method (C126_space_fails). Proved in the plane for functions and all three methods (C126_function) and for gridded files with Euler and RK4, or Adams-Bashforth with a constant gradient (C126_files_partial)."
  },
  {
   "property": "C127",
   "status": "partial",
   "theorems": [
    "Verif.C127_names_partial",
    "Verif.C127_scattered_partial",
    "Verif.C127_steady",
    "Verif.C127_periodic",
    "Verif.C127_fast_fails"
   ],
   "note": "False of the code for the fast interpolator: copies of the coordinates give a result, one file listed twice raises (C127_fast_fails), since the names decide whether coordinates are read once. Proved when both descriptions take the same decision, for any interpolator (C127_names_partial), and without that condition for scattered data (C127_scattered_partial); the consequences for periodic and steady data are C127_periodic, C127_steady."
  },
  {
   "property": "C128",
   "status": "proved",
   "theorems": [
    "Verif.C128_limit_2d",
    "Verif.C128_limit_3d",
    "Verif.C128_euler",
    "Verif.C128_rk4"
   ],
   "note": "For velocities given as functions; the two-step method is not part of the claim."
  },
  {
   "property": "C129",
   "status": "proved",
   "theorems": [
    "Verif.C129_groups_2d",
    "Verif.C129_groups_3d",
    "Verif.C129_nearest",
    "Verif.C129_triangles"
   ],
   "note": "Cases sparse_nearest and sparse_linear: the same files give 0 and log 2. SciPy is a parameter with the stated contract."
  },
  {
   "property": "C130",
   "status": "partial",
   "theorems": [
    "Verif.C130_spacing_2d_partial",
    "Verif.C130_spacing_3d_partial",
    "Verif.C130_parallel",
    "Verif.C130_attained",
    "Verif.C130_uneven_fails"
   ],
   "note": "False of the code for RK4 in unsteady flows, where the order is one instead of four (proved; C132_unsteady_rk4_fails: not better). C130_parallel and C130_attained give exact values that reach the bound; C130_uneven_fails: groups with unequal arms have an error proportional to delta."
  },
  {
   "property": "C131",
   "status": "partial",
   "theorems": [
    "Verif.C131_goes_on_fails",
    "Verif.C131_all_tasks_fails",
    "Verif.C131_monitor_fails",
    "Verif.C131_ends",
    "Verif.C131_surfaces_partial"
   ],
   "note": "False of the code: nothing is stopped. C131_goes_on_fails: every submitted task is started, those not in progress when the signal arrives run to their end; C131_all_tasks_fails: for every job all tasks can be started after the interruption; C131_monitor_fails: the monitor is not told and can wait for ever. What holds: the run never returns results, keeps the limit of processes, starts no task twice (C131_surfaces_partial), and ends after at most three actions per task (C131_ends). Executions in which a worker dies are excluded."
  },
  {
   "property": "C132",
   "status": "partial",
   "theorems": [
    "Verif.C132_gridded_2d_partial",
    "Verif.C132_gridded_3d_partial",
    "Verif.C132_inside_cell",
    "Verif.C132_second_order_fails",
    "Verif.C132_unsteady",
    "Verif.C132_unsteady_rk4_fails"
   ],
   "note": "False of the code for RK4 in unsteady flows, where the order is one instead of four (proved; C132_unsteady_rk4_fails: not better). C132_inside_cell gives the exact value for a group inside one cell of a parallel flow; C132_second_order_fails: it exceeds the exponent by a multiple of Delta that does not depend on delta, so the term min(Delta, Delta^2/delta) cannot be replaced by Delta^2."
  },
  {
   "property": "C133",
   "status": "partial",
   "theorems": [
    "Verif.C133_affine_2d_partial",
    "Verif.C133_affine_3d_partial",
    "Verif.C133_smooth_2d_partial",
    "Verif.C133_smooth_3d_partial",
    "Verif.C133_ab2_fails"
   ],
   "note": "Exact in affine flows for Euler and RK4; false of the code for Adams-Bashforth, whose windows start with an Euler step (C133_ab2_fails: a window that stretches more than its halves together, for every time step). Up to the errors of the method in smooth flows for all three; there RK4 has order one in unsteady flows, as in C132."
  },
  {
   "property": "C134",
   "status": "partial",
   "theorems": [
    "Verif.C134_left",
    "Verif.C134_again_partial",
    "Verif.C134_twice_partial",
    "Verif.C134_scattered_3d_fails"
   ],
   "note": "Proved for all data in two dimensions and for grids in three. False of the code for scattered data in three dimensions, where the third velocity component is never assigned (C134_scattered_3d_fails: a repeated call replaces a file by a different one)."
  },
  {
   "property": "C135",
   "status": "partial",
   "theorems": [
    "Verif.C135_lower_2d_partial",
    "Verif.C135_lower_3d_partial",
    "Verif.C135_duality_2d_partial",
    "Verif.C135_sum_3d_partial",
    "Verif.C135_space_fails"
   ],
   "note": "Proved for all three methods; RK4 has order one in unsteady flows, as in C132. The equality of the two windows is a fact of two dimensions: in three it fails (C135_space_fails), the bound of the sum holds. In exact arithmetic."
  },
  {
   "property": "C136",
   "status": "proved",
   "theorems": [
    "Verif.C136_run",
    "Verif.C136_taken",
    "Verif.C136_program"
   ],
   "note": "Files are dictionaries of arrays; the encoding of MAT-files is not modelled, so a damaged file is one without the required arrays."
  },
  {
   "property": "C137",
   "status": "proved",
   "theorems": [
    "Verif.C137_alone",
    "Verif.C137_together",
    "Verif.C137_completes",
    "Verif.C137_same_name_fails"
   ],
   "note": "Opening, writing and closing a file is one call; names `.` and `..` in the folder are excluded here (C99 has them)."
  },
  {
   "property": "C138",
   "status": "partial",
   "theorems": [
    "Verif.C138_upper_2d",
    "Verif.C138_between_2d",
    "Verif.C138_upper_3d",
    "Verif.C138_between_3d",
    "Verif.C138_files_2d",
    "Verif.C138_files_3d",
    "Verif.C138_edge_fails",
    "Verif.C138_collapse"
   ],
   "note": "Proved for all runs whose queries stay where the bound of the strain holds, for grids inside the grid. False of the code at the edge of the grid (C138_edge_fails): equal samples with exponents beyond every bound. C138_collapse: without a small step there is no lower bound. In exact arithmetic."
  },
  {
   "property": "C139",
   "status": "partial",
   "theorems": [
    "Verif.C139_disk_partial",
    "Verif.C139_backward_fails"
   ],
   "note": "Proved for forward and backward runs from the command line to the disk, with one coordinate file, one for each snapshot, or a repeated list in forward runs. False of the code for repeated coordinate lists in backward runs (C139_backward_fails), and, as in C134, for scattered data in three dimensions."
  },
  {
   "property": "C140",
   "status": "proved",
   "theorems": [
    "Verif.C140_assembled_2d",
    "Verif.C140_assembled_3d",
    "Verif.C140_iff_2d",
    "Verif.C140_iff_3d"
   ],
   "note": "Contract: SciPy and a user velocity function answer or refuse query points independently (SciPy.RowLocal, SciPy.Joining, Independent, Joins); proved for the compiled interpolators, and for the FTLE kernels in exact arithmetic and in binary64 (RealEnv.joins, joins64). Parts that are used have at least one group; scattered data in the plane only."
  },
  {
   "property": "C141",
   "status": "proved",
   "theorems": [
    "Verif.C141_noise_2d",
    "Verif.C141_noise_3d",
    "Verif.C141_scattered"
   ],
   "note": "Exact arithmetic (with rounding: C87, C113). Scattered data under the contract of C116. Gridded data: the layouts of C84 (x running fastest in 2-D, the same number of nodes in x and y in 3-D), coordinates read at every step, trajectories with a margin to the border."
  },
  {
   "property": "C142",
   "status": "proved",
   "theorems": [
    "Verif.C142_strain_2d",
    "Verif.C142_strain_3d",
    "Verif.C142_noise_2d",
    "Verif.C142_noise_3d"
   ],
   "note": "Exact arithmetic; the layouts of C84, coordinates read at every step; the seeds keep the distance 2 n |h| (W + eta) to the border of the grid (C138_edge_fails shows what happens otherwise)."
  },
  {
   "property": "C143",
   "status": "proved",
   "theorems": [
    "Verif.C143_runs_2d",
    "Verif.C143_runs_3d",
    "Verif.C143_files_2d",
    "Verif.C143_files_3d"
   ],
   "note": "Exact arithmetic; the layouts of C84, coordinates read at every step; the seeds keep the distance 2 n |h| B to the border of the grid, with the greatest speed B of the data."
  },
  {
   "property": "C144",
   "status": "proved",
   "theorems": [
    "Verif.C144_resampled_2d",
    "Verif.C144_resampled_3d"
   ],
   "note": "Exact arithmetic; the layouts of C84, coordinates read at every step; in 3-D the same factor for x and y, since the grid interpolator needs as many nodes in x as in y (C30)."
  },
  {
   "property": "C145",
   "status": "partial",
   "theorems": [
    "Verif.C145_own_order_2d_partial",
    "Verif.C145_own_order_3d_partial",
    "Verif.C145_symmetric_2d_partial",
    "Verif.C145_symmetric_3d_partial",
    "Verif.C145_one_set_2d_fails",
    "Verif.C145_rectangle_2d_fails",
    "Verif.C145_one_set_3d_fails",
    "Verif.C145_differs_2d_fails"
   ],
   "note": "False of the code: GridInterpolator expects the nodes in the order with the last axis fastest, the fast interpolator with x before y. From files on a square SciPy computes the field of the samples with x and y exchanged (one_set, for all data), on rectangles that of samples moved between nodes (rectangle, for all data); for the velocity (0, -x) one reports a positive exponent and the other 0 (differs, for every SciPy with the linear method). With files in the order that each expects the fields are equal (own_order), and from one set of files on a square when the data are symmetric in x and y (symmetric). Exact arithmetic, coordinates read at every step; that SciPy is linear in each cell is an assumption (SciPy.LinearGrid2, LinearGrid3)."
  },
  {
   "property": "C146",
   "status": "partial",
   "theorems": [
    "Verif.C146_space_partial",
    "Verif.C146_symmetric_2d_partial",
    "Verif.C146_mixed_2d_fails",
    "Verif.C146_own_order_2d_fails",
    "Verif.C146_mixed_rectangle_2d_fails",
    "Verif.C146_own_rectangle_2d_fails",
    "Verif.C146_differs_2d_fails"
   ],
   "note": "False of the code in 2-D: with one coordinate file the first snapshot is read in C order and all others in Fortran order (C31), so on a square the samples of the first snapshot have x and y exchanged and those of the others do not (mixed, for all data), and for files in the order that the first update expects the first snapshot is right and the others are exchanged (own_order, for all data); the same for rectangles, where the samples are moved between nodes (rectangle); for the velocity (0, -x) the exponent is positive with one file and 0 with copies (differs, for every SciPy with the linear method). In 3-D the fields are equal (space), for all grid sizes; in 2-D for data symmetric in x and y on a square (symmetric). Exact arithmetic; SciPy.LinearGrid2, LinearGrid3 are assumptions about SciPy."
  }
 ]
}