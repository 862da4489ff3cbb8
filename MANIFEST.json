{
 "claims": [
  {
   "property": "C01",
   "status": "proved",
   "theorems": [
    "Verif.Props.c01_slab_basis_orthonormal"
   ],
   "note": "all orders, all cells; Legendre evaluation of numpy taken as the Bonnet recurrence"
  },
  {
   "property": "C02",
   "status": "proved",
   "theorems": [
    "Verif.Props.c02_slab_edge_values",
    "Verif.Props.c02_sphere_edge_values"
   ],
   "note": ""
  },
  {
   "property": "C03",
   "status": "proved",
   "theorems": [
    "Verif.Props.c03_chebyshev_table",
    "Verif.Props.c03_chebyshev_table_rejects"
   ],
   "note": ""
  },
  {
   "property": "C04",
   "status": "proved",
   "theorems": [
    "Verif.Props.c04_slab_streaming_matrix"
   ],
   "note": "for every history of calls on the shared matrix object"
  },
  {
   "property": "C05",
   "status": "proved",
   "theorems": [
    "Verif.Props.c05_slab_mesh_motion_matrix"
   ],
   "note": "for every history of calls on the shared matrix object"
  },
  {
   "property": "C06",
   "status": "proved",
   "theorems": [
    "Verif.Props.c06_uniform_field_preserved",
    "Verif.Props.c06_uniform_field_preserved_whole_mesh"
   ],
   "note": "slab right-hand side of rhs_class.py; interior cells, and all cells when the boundary source has the same strength"
  },
  {
   "property": "C07",
   "status": "proved",
   "theorems": [
    "Verif.Props.c07_transport_conserves"
   ],
   "note": "vacuum boundaries; general outer states in transport_balance"
  },
  {
   "property": "C08",
   "status": "proved",
   "theorems": [
    "Verif.Props.c08_slab_upwind",
    "Verif.Props.c08_sphere_upwind",
    "Verif.Props.c08_upwind_meaning"
   ],
   "note": ""
  },
  {
   "property": "C09",
   "status": "proved",
   "theorems": [
    "Verif.Props.c09_slab_left_vacuum",
    "Verif.Props.c09_right_vacuum"
   ],
   "note": ""
  },
  {
   "property": "C10",
   "status": "proved",
   "theorems": [
    "Verif.Props.c10_weights_sum_to_one",
    "Verif.Props.c10_weights_keep_shape"
   ],
   "note": ""
  },
  {
   "property": "C11",
   "status": "proved",
   "theorems": [
    "Verif.Props.c11_scattering_balance",
    "Verif.Props.c11_scattering_balance_uncollided",
    "Verif.Props.c11_sign"
   ],
   "note": "slab right-hand side of rhs_class.py"
  },
  {
   "property": "C12",
   "status": "proved",
   "theorems": [
    "Verif.Props.c12_exchange_balance",
    "Verif.Props.c12_exchange_balance_uncollided"
   ],
   "note": "make_P with the commented-out dropping of the energy row; the current make_P multiplies arrays of different lengths in this case"
  },
  {
   "property": "C13",
   "status": "partial",
   "theorems": [
    "Verif.Props.c13_slab_returns_input",
    "Verif.Props.c13_slab_not_transport",
    "Verif.Props.c13_slab_solution_grows"
   ],
   "note": "false: in slab geometry the active right-hand side returns the state unchanged; the transport operator of rhs_class.py is treated in C06-C14"
  },
  {
   "property": "C14",
   "status": "proved",
   "theorems": [
    "Verif.Props.c14_rhs_linear",
    "Verif.Props.c14_rhs_local"
   ],
   "note": "slab right-hand side of rhs_class.py"
  },
  {
   "property": "C15",
   "status": "proved",
   "theorems": [
    "Verif.Props.c15_redistribution_telescopes",
    "Verif.Props.c15_widths_sum"
   ],
   "note": ""
  },
  {
   "property": "C16",
   "status": "partial",
   "theorems": [
    "Verif.Props.c16_conserves_iff_partial",
    "Verif.Props.c16_two_directions",
    "Verif.Props.c16_fails_three_directions",
    "Verif.Props.c16_fails_four_directions",
    "Verif.Props.c133_redistribution"
   ],
   "note": "false in general: holds exactly when the weights are proportional to the angular cell widths; witnesses with the 3 and 4 point Gauss-Legendre sets It fails for every number of Gauss-Legendre directions above two (c133_redistribution)."
  },
  {
   "property": "C17",
   "status": "proved",
   "theorems": [
    "Verif.Props.c17_sphere_mesh_motion_table",
    "Verif.Props.c17_c18_matrices_of_last_cell",
    "Verif.Props.c17_order_above_ten_fails"
   ],
   "note": "decimals of the tables read as fractions; G_L stores the table value divided by π; orders above 10 raise"
  },
  {
   "property": "C18",
   "status": "proved",
   "theorems": [
    "Verif.Props.c18_sphere_mass_derivative_table",
    "Verif.Props.c17_c18_matrices_of_last_cell"
   ],
   "note": "decimals of the tables read as fractions"
  },
  {
   "property": "C19",
   "status": "partial",
   "theorems": [
    "Verif.Props.c19_centre_inflow",
    "Verif.Props.c19_mirrored_direction",
    "Verif.Props.c19_even_asymmetric_rejected_partial",
    "Verif.Props.c19_odd_asymmetric_accepted"
   ],
   "note": "inflow proved for all sets; rejection proved for even sets and false for odd sets, where the middle direction is never checked"
  },
  {
   "property": "C20",
   "status": "partial",
   "theorems": [
    "Verif.Props.c20_uniform_redistribution",
    "Verif.Props.c20_equilibrium_iff_partial",
    "Verif.Props.c20_fails_two_directions",
    "Verif.Props.c20_holds_midpoint_set_partial",
    "Verif.Props.c133_middle_iff"
   ],
   "note": "false in general: holds exactly when every cosine is the midpoint of its angular cell; witness with the 2 point Gauss-Legendre set All directions are in equilibrium only if they are equally spaced (c133_middle_iff); Gauss-Legendre ones never are (c133_uniform)."
  },
  {
   "property": "C21",
   "status": "partial",
   "theorems": [
    "Verif.Props.c21_interior_exact_on_quadratics_partial",
    "Verif.Props.c21_one_sided_exact_on_linear_partial",
    "Verif.Props.c21_angular_deriv_not_exact"
   ],
   "note": "proved for finite_diff_uneven_2; false for angular_deriv"
  },
  {
   "property": "C22",
   "status": "proved",
   "theorems": [
    "Verif.Props.c22_static_mesh",
    "Verif.Props.c22_static_at_final"
   ],
   "note": "c22_static_at_final covers thin meshes with a volume source"
  },
  {
   "property": "C23",
   "status": "partial",
   "theorems": [
    "Verif.Props.c23_history_irrelevant_partial",
    "Verif.Props.c23_fresh_mesh_partial",
    "Verif.Props.c23_depends_on_history",
    "Verif.Props.c23_finite_square_stuck"
   ],
   "note": "proved without a finite domain and for sources it does not affect; false in a finite domain, where the mesh consults its present edges and velocities"
  },
  {
   "property": "C24",
   "status": "partial",
   "theorems": [
    "Verif.Props.c24_square_ordered_partial",
    "Verif.Props.c24_shell_ordered_partial",
    "Verif.Props.c24_plane_sphere_ordered_partial",
    "Verif.Props.c24_plane_slab_ordered_partial",
    "Verif.Props.c24_accelerating_ordered_partial",
    "Verif.Props.c31_ordered",
    "Verif.Props.c24_crossed_edges",
    "Verif.Props.c24_thick_static_collapses",
    "Verif.Props.c29_plane_slab_collapses",
    "Verif.Props.c116_collapses",
    "Verif.Props.c116_ordered_partial"
   ],
   "note": "false for the slab plane mesh at time zero, for the accelerating mesh asked for times out of order, for the thick static square pulse, and for the constructed wave-following mesh (c116_collapses); proved for the other thin meshes, and for the wave-following moves from a state whose stored initial edges form a mesh"
  },
  {
   "property": "C25",
   "status": "partial",
   "theorems": [
    "Verif.Props.c25_velocity_is_derivative_partial",
    "Verif.Props.c28_velocity_is_derivative",
    "Verif.Props.c25_sqrt_velocity_partial",
    "Verif.Props.c25_gaussian_wrong",
    "Verif.Props.c25_open_source_wrong",
    "Verif.Props.c116_velocity_partial",
    "Verif.Props.c116_jump"
   ],
   "note": "false for moving Gaussian meshes and for the square source without finite domain, which never move but report velocities; the finite-difference velocities of the wave-following mesh are exact while the front advances with constant speed for the next 1e-7, and a jump at time zero"
  },
  {
   "property": "C26",
   "status": "partial",
   "theorems": [
    "Verif.Props.c26_square_edge_count_partial",
    "Verif.Props.c26_thin_square_edge_count_partial",
    "Verif.Props.c26_boundary_edge_count_partial",
    "Verif.Props.c26_shell_edge_count",
    "Verif.Props.c26_six_cells"
   ],
   "note": "false unless four divides N_space (square meshes) or two divides it (boundary source)"
  },
  {
   "property": "C27",
   "status": "proved",
   "theorems": [
    "Verif.Props.c27_plane_symmetric",
    "Verif.Props.c27_square_symmetric"
   ],
   "note": "the Lobatto nodes handed to the mesh are assumed increasing and symmetric with ends -1 and 1"
  },
  {
   "property": "C28",
   "status": "partial",
   "theorems": [
    "Verif.Props.c28_switch_over",
    "Verif.Props.c28_reaches_target_partial",
    "Verif.Props.c28_velocity_is_derivative",
    "Verif.Props.c28_stops_short"
   ],
   "note": "target reached by meshes that have not stopped at the end of the domain; a mesh whose target is the end of the domain stops before it"
  },
  {
   "property": "C29",
   "status": "partial",
   "theorems": [
    "Verif.Props.c29_plane_slab_collapses",
    "Verif.Props.c29_not_initial",
    "Verif.Props.c29_sphere_starts_partial"
   ],
   "note": "false in slab geometry for every configuration, true in the sphere"
  },
  {
   "property": "C30",
   "status": "partial",
   "theorems": [
    "Verif.Props.c30_square_light_cone_partial",
    "Verif.Props.c30_plane_light_cone_partial",
    "Verif.Props.c30_shell_light_cone_partial",
    "Verif.Props.c30_small_shell_stays",
    "Verif.Props.c25_open_source_wrong"
   ],
   "note": "false for spherical meshes with at most two cells and for the slab square source without finite domain"
  },
  {
   "property": "C31",
   "status": "proved",
   "theorems": [
    "Verif.Props.c31_shock_position",
    "Verif.Props.c31_ordered"
   ],
   "note": ""
  },
  {
   "property": "C32",
   "status": "proved",
   "theorems": [
    "Verif.Props.c32_chebyshev_exact",
    "Verif.Props.c32_chebyshev_nodes"
   ],
   "note": ""
  },
  {
   "property": "C33",
   "status": "proved",
   "theorems": [
    "Verif.Props.c33_nodes_inside",
    "Verif.Props.c33_nodes_increase"
   ],
   "note": "numpy's leggauss is assumed to return n increasing points strictly inside (-1,1); the Chebyshev points of the sphere are proved to"
  },
  {
   "property": "C34",
   "status": "proved",
   "theorems": [
    "Verif.Props.c34_intervals",
    "Verif.Props.c34_terminates",
    "Verif.Props.c34_result",
    "Verif.Props.c34_root",
    "Verif.Props.c34_error_iff",
    "Verif.Props.c34_deterministic"
   ],
   "note": "a bracket already within the tolerance gives an unbound-variable error instead of a point (c34_error_iff)"
  },
  {
   "property": "C35",
   "status": "partial",
   "theorems": [
    "Verif.Props.c35_newtons_stops",
    "Verif.Props.c35_newtons_root",
    "Verif.Props.c35_newtons_deterministic",
    "Verif.Props.c35_newtons2_partial",
    "Verif.Props.c35_newtons2_sentinel",
    "Verif.Props.c35_newtons2_not_converged"
   ],
   "note": "true of newtons; newtons2 makes one correction unless it starts within the tolerance of its sentinel 1000, when it makes none"
  },
  {
   "property": "C36",
   "status": "proved",
   "theorems": [
    "Verif.Props.c36_convergence_order",
    "Verif.Props.c36_scaling"
   ],
   "note": ""
  },
  {
   "property": "C37",
   "status": "proved",
   "theorems": [
    "Verif.Props.c37_time_steps",
    "Verif.Props.c37_defined"
   ],
   "note": ""
  },
  {
   "property": "C38",
   "status": "proved",
   "theorems": [
    "Verif.Props.c38_square_pulse",
    "Verif.Props.c38_start"
   ],
   "note": "about the flux of a unit pulse; the strength is the subject of C42"
  },
  {
   "property": "C39",
   "status": "proved",
   "theorems": [
    "Verif.Props.c39_plane",
    "Verif.Props.c39_square",
    "Verif.Props.c39_square_source",
    "Verif.Props.c39_square_source_s2"
   ],
   "note": ""
  },
  {
   "property": "C40",
   "status": "proved",
   "theorems": [
    "Verif.Props.c40_square_source"
   ],
   "note": "numba_expi is assumed to have derivative exp(u)/u on the negative axis; exists_expi shows that such a function exists"
  },
  {
   "property": "C41",
   "status": "partial",
   "theorems": [
    "Verif.Props.c41_source_on_partial",
    "Verif.Props.c41_source_off_partial",
    "Verif.Props.c41_too_large",
    "Verif.Props.c41_wrong",
    "Verif.Props.c41_always_a_value"
   ],
   "note": "false after the source is off, near its middle, once the far end is out of sight (line 314); proved everywhere else"
  },
  {
   "property": "C42",
   "status": "partial",
   "theorems": [
    "Verif.Props.c42_proportional_partial",
    "Verif.Props.c42_squared",
    "Verif.Props.c42_not_proportional"
   ],
   "note": "false for square and Gaussian pulses in the slab, where the strength is applied twice"
  },
  {
   "property": "C43",
   "status": "proved",
   "theorems": [
    "Verif.Props.c43_shell"
   ],
   "note": ""
  },
  {
   "property": "C44",
   "status": "proved",
   "theorems": [
    "Verif.Props.c44_transport",
    "Verif.Props.c44_initial",
    "Verif.Props.c44_boundary"
   ],
   "note": ""
  },
  {
   "property": "C45",
   "status": "proved",
   "theorems": [
    "Verif.Props.c45_emission",
    "Verif.Props.c45_emission_general",
    "Verif.Props.c45_constant_cv"
   ],
   "note": ""
  },
  {
   "property": "C46",
   "status": "proved",
   "theorems": [
    "Verif.Props.c46_square",
    "Verif.Props.c46_gaussian"
   ],
   "note": ""
  },
  {
   "property": "C47",
   "status": "partial",
   "theorems": [
    "Verif.Props.c47_moments_current_partial",
    "Verif.Props.c47_moved_cell_current",
    "Verif.Props.c47_moving_shock_stale"
   ],
   "note": "Proved over all request histories for every time-independent opacity, and for every opacity on cells whose edges moved. False for fake_sedov on a mesh that stands still: the cache test ignores time (witness c47_moving_shock_stale)."
  },
  {
   "property": "C48",
   "status": "partial",
   "theorems": [
    "Verif.Props.c48_constant_partial",
    "Verif.Props.c48_absorption_accumulates",
    "Verif.Props.c48_depends_on_history"
   ],
   "note": "Proved for constant opacity. False otherwise: make_vectors never resets VV; each request adds to the previous vector (c48_absorption_accumulates), witness c48_depends_on_history."
  },
  {
   "property": "C49",
   "status": "proved",
   "theorems": [
    "Verif.Props.c49_skipped_zero",
    "Verif.Props.c49_tensor_exact"
   ],
   "note": "All orders and cells; with an exact rule the whole tensor divided by sqrt of the width is the triple product on the cell."
  },
  {
   "property": "C50",
   "status": "proved",
   "theorems": [
    "Verif.Props.c50_cell_contains_point",
    "Verif.Props.c50_cell_of_point",
    "Verif.Props.c50_outside"
   ],
   "note": "np.searchsorted modelled by its contract on sorted arrays. Sphere for orders up to 12, where the basis is implemented."
  },
  {
   "property": "C51",
   "status": "proved",
   "theorems": [
    "Verif.Props.c51_scalar_flux_weighted_sum",
    "Verif.Props.c51_scalar_flux_in_cell"
   ],
   "note": "Weights are those passed to make_output."
  },
  {
   "property": "C52",
   "status": "proved",
   "theorems": [
    "Verif.Props.c52_elimination_solves",
    "Verif.Props.c52_nonsingular_solved",
    "Verif.Props.c52_singular_fails"
   ],
   "note": "Exact arithmetic. Also proved: every nonsingular system is solved and every singular one fails, although line 422 scales all rows by the same factor."
  },
  {
   "property": "C53",
   "status": "proved",
   "theorems": [
    "Verif.Props.c53_spline_natural",
    "Verif.Props.c53_solution_natural",
    "Verif.Props.c53_evaluation",
    "Verif.Props.c53_interpolates"
   ],
   "note": "For increasing knots the coefficients are always found (the assembled matrix is nonsingular)."
  },
  {
   "property": "C54",
   "status": "partial",
   "theorems": [
    "Verif.Props.c54_load_after_save_partial",
    "Verif.Props.c54_own_folder_partial",
    "Verif.Props.c54_save_succeeds",
    "Verif.Props.c54_single_precision",
    "Verif.Props.c54_shared_angular_flux",
    "Verif.Props.c54_not_own_angular_flux",
    "Verif.Props.c54_default_file",
    "Verif.Props.c54_constant_cv_not_found",
    "Verif.Props.c54_constant_cv_found",
    "Verif.Props.c54_other_types_found",
    "Verif.Props.c54_missing"
   ],
   "note": "Proved for all histories: a load from the saver's file and folder gives back the last save with the same identifiers, with points, flux and material energy rounded to single precision. False in full: solution rows are stored in single precision; angular flux and directions are stored at the root of the file and shared by all problem types; the loader's default file is another one; constant heat capacity runs are not found under the problem name used for saving. Each failure is proved."
  },
  {
   "property": "C55",
   "status": "partial",
   "theorems": [
    "Verif.Props.c55_other_name_unchanged_partial",
    "Verif.Props.c55_order_overwrites",
    "Verif.Props.c55_source_overwrites",
    "Verif.Props.c54_not_own_angular_flux",
    "Verif.Props.c55_folders_differ"
   ],
   "note": "Proved: a save never affects loads of runs that differ in source name, switches, cells, time, scattering ratio, source size or epsilon. False in full: order and number of angles are not part of the name, a run without a source is saved under the name of the plane pulse, and the angular flux is shared between problem types."
  },
  {
   "property": "C56",
   "status": "proved",
   "theorems": [
    "Verif.Props.c56_two_true_fails",
    "Verif.Props.c56_otherwise_copies"
   ],
   "note": "Keys of the dictionary are different, as in Python; only the value one counts as true, as in Python's comparison with True."
  },
  {
   "property": "C57",
   "status": "partial",
   "theorems": [
    "Verif.Props.c57_unequal_rejected",
    "Verif.Props.c57_equal_accepted",
    "Verif.Props.c57_cells",
    "Verif.Props.c57_orders_partial",
    "Verif.Props.c57_single_order_fails",
    "Verif.Props.c57_other_major_fails",
    "Verif.Props.c57_width"
   ],
   "note": "Proved for major = cells. With major = Ms every run uses the second number of cells and a configuration with one run fails; other values of major are accepted and fail when run."
  },
  {
   "property": "C58",
   "status": "partial",
   "theorems": [
    "Verif.Props.c58_one_hot_partial",
    "Verif.Props.c58_no_source_named_plane"
   ],
   "note": "Proved for vectors with exactly one switch on. False in full: a vector with no switch on is saved as the plane pulse."
  },
  {
   "property": "C59",
   "status": "proved",
   "theorems": [
    "Verif.Props.c59_polynomials_advected_exactly"
   ],
   "note": ""
  },
  {
   "property": "C60",
   "status": "partial",
   "theorems": [
    "Verif.Props.c60_slab_left_source_partial",
    "Verif.Props.c60_slab_right_source_partial",
    "Verif.Props.c60_sphere_right_source",
    "Verif.Props.c60_sphere_source_wrong"
   ],
   "note": "slab proved; sphere geometry false: the inflow is the strength divided by sqrt(pi)"
  },
  {
   "property": "C61",
   "status": "proved",
   "theorems": [
    "Verif.Props.c61_total_energy_balance"
   ],
   "note": ""
  },
  {
   "property": "C62",
   "status": "proved",
   "theorems": [
    "Verif.Props.c62_sphere_balance",
    "Verif.Props.c62_sphere_conserves"
   ],
   "note": "constant opacity; entries of L, J and Mass (read from files not in the repository) assumed to be the integrals they stand for, Minv assumed to invert Mass; such matrices exist by c65_matrices_exist"
  },
  {
   "property": "C63",
   "status": "proved",
   "theorems": [
    "Verif.Props.c63_uniform_equilibrium_iff"
   ],
   "note": "same assumptions on L, J, Mass and Minv as C62"
  },
  {
   "property": "C64",
   "status": "proved",
   "theorems": [
    "Verif.Props.c64_tables_consistent"
   ],
   "note": ""
  },
  {
   "property": "C65",
   "status": "proved",
   "theorems": [
    "Verif.Props.c65_sphere_mass_positive",
    "Verif.Props.c65_matrices_exist"
   ],
   "note": "exact integrals; the coefficient files the code reads are not in the repository"
  },
  {
   "property": "C66",
   "status": "proved",
   "theorems": [
    "Verif.Props.c66_gaussian_pulse",
    "Verif.Props.c66_gaussian_integrand",
    "Verif.Props.c66_source_error",
    "Verif.Props.c66_source_limit",
    "Verif.Props.c66_gauss_points"
   ],
   "note": "math.erf is taken to be the error function defined in Spec/Uncollided"
  },
  {
   "property": "C67",
   "status": "proved",
   "theorems": [
    "Verif.Props.c67_closed_form",
    "Verif.Props.c67_thick_integrand",
    "Verif.Props.c67_narrow",
    "Verif.Props.c67_wide",
    "Verif.Props.c67_gauss_points"
   ],
   "note": "math.erf is taken to be the error function defined in Spec/Uncollided"
  },
  {
   "property": "C68",
   "status": "partial",
   "theorems": [
    "Verif.Props.c68_plane_moments_partial",
    "Verif.Props.c68_other_x0"
   ],
   "note": "true when x0 is 1e-12, false for every other positive x0"
  },
  {
   "property": "C69",
   "status": "partial",
   "theorems": [
    "Verif.Props.c69_independent_partial",
    "Verif.Props.c69_stale",
    "Verif.Props.c69_manufactured"
   ],
   "note": "false for source types without an uncollided branch, which return what the previous call left"
  },
  {
   "property": "C70",
   "status": "proved",
   "theorems": [
    "Verif.Props.c70_history",
    "Verif.Props.c70_manufactured"
   ],
   "note": "the uncollided flux is an argument that is a function of point and time; see C69 for source types where it is not"
  },
  {
   "property": "C71",
   "status": "proved",
   "theorems": [
    "Verif.Props.c71_emission_moments",
    "Verif.Props.c71_no_material"
   ],
   "note": ""
  },
  {
   "property": "C72",
   "status": "proved",
   "theorems": [
    "Verif.Props.c72_slab_initial",
    "Verif.Props.c72_sphere_initial",
    "Verif.Props.c72_initial_energy"
   ],
   "note": "energy in slab geometry only: in the sphere the code combines the Chebyshev rule with Legendre functions"
  },
  {
   "property": "C73",
   "status": "partial",
   "theorems": [
    "Verif.Props.c73_plane_partial",
    "Verif.Props.c73_plane_static",
    "Verif.Props.c73_plane_two_cells_wrong",
    "Verif.Props.c73_square_partial",
    "Verif.Props.c73_shell_partial",
    "Verif.Props.c73_point_pulse",
    "Verif.Props.c73_point_pulse_not_normalised"
   ],
   "note": "true for plane, square and spherical shell pulses (on a static uniform mesh the plane pulse fills the four inner cells), false for the point pulse (8 pi/3 too many) and for a static plane pulse on two cells (half is lost)"
  },
  {
   "property": "C74",
   "status": "partial",
   "theorems": [
    "Verif.Props.c74_solid_partial",
    "Verif.Props.c74_uncollided_squared",
    "Verif.Props.c74_uncollided_code",
    "Verif.Props.c74_not_proportional"
   ],
   "note": "true without, false with the uncollided treatment, where the source grows with the square of the strength"
  },
  {
   "property": "C75",
   "status": "partial",
   "theorems": [
    "Verif.Props.c75_slab_first_collision",
    "Verif.Props.c75_slab_first_collision_partial",
    "Verif.Props.c75_sphere_first_collision",
    "Verif.Props.c75_slab_wrong_factor"
   ],
   "note": "slab: extra factors sigma_s and source_strength, so c squared for unit total cross section"
  },
  {
   "property": "C76",
   "status": "partial",
   "theorems": [
    "Verif.Props.c76_square_source_partial",
    "Verif.Props.c76_sphere_no_source",
    "Verif.Props.c76_manufactured_no_source"
   ],
   "note": "true in slab geometry for the square source; in the sphere no source is applied without the uncollided treatment, and the manufactured source is not applied by the active right-hand side"
  },
  {
   "property": "C77",
   "status": "proved",
   "theorems": [
    "Verif.Props.c77_absorption_projection",
    "Verif.Props.c77_scattering_projection"
   ],
   "note": "Quadrature exactness to degree 2M+Msigma is a hypothesis on the rule."
  },
  {
   "property": "C78",
   "status": "partial",
   "theorems": [
    "Verif.Props.c78_exit_distribution",
    "Verif.Props.c78_exit_flux_partial",
    "Verif.Props.c78_exit_flux_fails",
    "Verif.Props.c78_exit_flux_wrong_points",
    "Verif.Props.c78_exit_flux_two",
    "Verif.Props.c78_exit_flux_one"
   ],
   "note": "Distribution proved; exit scalar flux proved without uncollided treatment. With it the call fails unless there are one or two output points, and then uses the wrong points."
  },
  {
   "property": "C79",
   "status": "partial",
   "theorems": [
    "Verif.Props.c79_derivative_table",
    "Verif.Props.c79_energy_derivative_partial",
    "Verif.Props.c79_missing_factor"
   ],
   "note": "The reported number is the derivative times half the cell width (chain factor missing in dx_normPn)."
  },
  {
   "property": "C80",
   "status": "partial",
   "theorems": [
    "Verif.Props.c80_after_copy_partial",
    "Verif.Props.c80_saved_waves_never_loaded",
    "Verif.Props.c80_su_olson_thick_fails"
   ],
   "note": "False of the code: saver and loader use different files, and the branch for the thick Su-Olson problem uses an undefined name. Proved once the file has been copied by hand, for the two problem types whose branch works."
  },
  {
   "property": "C81",
   "status": "proved",
   "theorems": [
    "Verif.Props.c81_difference_rate",
    "Verif.Props.c81_norm_rate"
   ],
   "note": "Slab right-hand side of rhs_class.py, constant opacity."
  },
  {
   "property": "C82",
   "status": "proved",
   "theorems": [
    "Verif.Props.c82_difference_bound",
    "Verif.Props.c82_never_grows",
    "Verif.Props.c82_unique"
   ],
   "note": "Exact trajectories; the time integrator is not modelled."
  },
  {
   "property": "C83",
   "status": "proved",
   "theorems": [
    "Verif.Props.c83_coupled_rate",
    "Verif.Props.c83_coupled_never_grows"
   ],
   "note": "Linear emission: the emission vector is the energy vector."
  },
  {
   "property": "C84",
   "status": "proved",
   "theorems": [
    "Verif.Props.c84_residual_bound"
   ],
   "note": "Exact real arithmetic; bounds the effect of a residual, does not bound the residual of DOP853."
  },
  {
   "property": "C85",
   "status": "proved",
   "theorems": [
    "Verif.Props.c85_mirror_field",
    "Verif.Props.c85_rhs_mirror",
    "Verif.Props.c85_symmetric_solution"
   ],
   "note": "Slab right-hand side of rhs_class.py with constant opacity."
  },
  {
   "property": "C86",
   "status": "partial",
   "theorems": [
    "Verif.Props.c86_nonneg",
    "Verif.Props.c86_comparison",
    "Verif.Props.c86_maximum",
    "Verif.Props.c86_order_one_negative"
   ],
   "note": "Proved for order 0 (one coefficient per cell); false for order 1 and above, c86_order_one_negative gives a nonnegative start that becomes negative."
  },
  {
   "property": "C87",
   "status": "proved",
   "theorems": [
    "Verif.Props.c87_exists",
    "Verif.Props.c87_wellposed"
   ],
   "note": "Constant opacity, exact real arithmetic; edges continuous, velocities and source piecewise continuous."
  },
  {
   "property": "C88",
   "status": "proved",
   "theorems": [
    "Verif.Props.c88_error_bound"
   ],
   "note": "Semi-discrete scheme in exact arithmetic, constant opacity, exact source moments; the exact solution is assumed to exist and to be smooth on each cell."
  },
  {
   "property": "C89",
   "status": "proved",
   "theorems": [
    "Verif.Props.c89_distance_bound",
    "Verif.Props.c89_convergence"
   ],
   "note": "Same setting; the constant is explicit. The time integrator is not included (see C84 for its residual)."
  },
  {
   "property": "C90",
   "status": "partial",
   "theorems": [
    "Verif.Props.c90_beam_partial",
    "Verif.Props.c90_no_backward",
    "Verif.Props.c90_scalar_partial",
    "Verif.Props.c90_transport_partial",
    "Verif.Props.c90_shock_left",
    "Verif.Props.c90_front"
   ],
   "note": "true as long as the shock is inside the slab when the particles enter; false once it has passed the left boundary before emission (c90_shock_left)"
  },
  {
   "property": "C91",
   "status": "partial",
   "theorems": [
    "Verif.Props.c91_angular_partial",
    "Verif.Props.c91_scalar_partial",
    "Verif.Props.c91_other_width"
   ],
   "note": "true for half width 5; the benchmark has the left end -5 hard coded, so it is false for any other width (witness c91_other_width)"
  },
  {
   "property": "C92",
   "status": "partial",
   "theorems": [
    "Verif.Props.gaussDepth_eq",
    "Verif.Props.c92_beam_partial",
    "Verif.Props.c92_other_opacity"
   ],
   "note": "the benchmark is the beam for a Gaussian of its own width 1/2; the opacity the solver uses has width 2, so the benchmark is not that of the solved problem (c92_other_opacity)"
  },
  {
   "property": "C93",
   "status": "partial",
   "theorems": [
    "Verif.Props.c93_plane_solves",
    "Verif.Props.c93_plane_mass",
    "Verif.Props.c93_dipole_solves",
    "Verif.Props.c93_full_not_diffusion"
   ],
   "note": "true for the plane and dipole benchmarks; false for benchmarkfull, which does not use its position argument"
  },
  {
   "property": "C94",
   "status": "proved",
   "theorems": [
    "Verif.Props.c94_solves",
    "Verif.Props.c94_initial",
    "Verif.Props.c94_mass",
    "Verif.Props.c94_late"
   ],
   "note": ""
  },
  {
   "property": "C95",
   "status": "proved",
   "theorems": [
    "Verif.Props.c95_relaxes",
    "Verif.Props.c95_initial",
    "Verif.Props.c95_no_scalar_flux"
   ],
   "note": ""
  },
  {
   "property": "C96",
   "status": "proved",
   "theorems": [
    "Verif.Props.c96_order",
    "Verif.Props.c96_last_ignored"
   ],
   "note": ""
  },
  {
   "property": "C97",
   "status": "partial",
   "theorems": [
    "Verif.Props.c97_solves_partial",
    "Verif.Props.c97_mass_partial",
    "Verif.Props.c97_pulse_start_partial",
    "Verif.Props.c97_finite_start",
    "Verif.Props.c97_source"
   ],
   "note": "equation and particle number right for every start; the start itself only for the plane pulse; for any finite start the scaled benchmark starts from another flux (c97_finite_start), and a volume source is changed (c97_source)"
  },
  {
   "property": "C98",
   "status": "partial",
   "theorems": [
    "Verif.Props.c98_increasing_partial",
    "Verif.Props.c98_symmetric_partial",
    "Verif.Props.c98_inside",
    "Verif.Props.c98_nearest_lost",
    "Verif.Props.c98_odd_fails"
   ],
   "note": "true except at the point nearest to the edge, which always gets zero (c98_nearest_lost); an odd number of symmetric points can fail (c98_odd_fails)"
  },
  {
   "property": "C99",
   "status": "partial",
   "theorems": [
    "Verif.Props.c99_make_e_partial",
    "Verif.Props.c99_always_zero",
    "Verif.Props.c99_energy_lost"
   ],
   "note": "make_e is right but never called: the dictionary of switches is compared with 1, so the reported energy is always zero; inputs with the integer switch cannot be loaded"
  },
  {
   "property": "C100",
   "status": "partial",
   "theorems": [
    "Verif.Props.c100_measure_partial",
    "Verif.Props.c100_never"
   ],
   "note": "the measure itself is right; no run that was loaded computes it, because the dictionary of switches equals neither 0 nor 1"
  },
  {
   "property": "C101",
   "status": "partial",
   "theorems": [
    "Verif.Props.c101_unit_partial",
    "Verif.Props.c101_other_opacity"
   ],
   "note": "true for sigma_t = 1; false for every other value: the active right-hand side uses sigma_s for scattering but 1 for absorption"
  },
  {
   "property": "C102",
   "status": "partial",
   "theorems": [
    "Verif.Props.c102_round_trip",
    "Verif.Props.c102_vector_round_trip",
    "Verif.Props.c102_uncoupled_partial",
    "Verif.Props.c102_coupled_fails",
    "Verif.Props.c102_times_mixed"
   ],
   "note": "true without material; with material the active right-hand side fails at its first evaluation; the unused array of all output times is mixed up"
  },
  {
   "property": "C103",
   "status": "partial",
   "theorems": [
    "Verif.Props.c103_sphere_difference_rate",
    "Verif.Props.c103_sphere_difference_bound",
    "Verif.Props.c103_sphere_difference_bound_weights",
    "Verif.Props.c103_sphere_never_grows_partial",
    "Verif.Props.c103_sphere_norm_can_grow"
   ],
   "note": "true for directions in the middle of their angular cells; false for other directions (also the sets of order two that the solver uses): the distance can grow. An exponential bound is proved for all directions and weights, and the exact rate for weights equal to half the angular cells"
  },
  {
   "property": "C104",
   "status": "proved",
   "theorems": [
    "Verif.Props.c104_wellposed"
   ],
   "note": "existence and uniqueness over any finite run; matrices of the cells are exact tables of the integrals (they exist by C65), boundary source with one end time, piecewise continuous data"
  },
  {
   "property": "C105",
   "status": "proved",
   "theorems": [
    "Verif.Props.c105_tables_exist",
    "Verif.Props.c105_three_cells",
    "Verif.Props.c105_two_cells_not_enough",
    "Verif.Props.c105_too_small"
   ],
   "note": "the files are not in the repository, so their contents are a parameter; a zero denominator counts as failure"
  },
  {
   "property": "C106",
   "status": "proved",
   "theorems": [
    "Verif.Props.c106_names",
    "Verif.Props.c106_read_back",
    "Verif.Props.c106_files_exist",
    "Verif.Props.c106_large_files_fail"
   ],
   "note": "the arrays of denominators are taken to be square; the files for G and VV, whose coefficients are not used, are left out"
  },
  {
   "property": "C107",
   "status": "proved",
   "theorems": [
    "Verif.Props.c107_sphere_error_bound",
    "Verif.Props.c107_sphere_distance_bound"
   ],
   "note": "vacuum outside, at least two shells; source moments are the exact ones; matrices exact (C65)"
  },
  {
   "property": "C108",
   "status": "partial",
   "theorems": [
    "Verif.Props.c108_sphere_convergence_partial",
    "Verif.Props.c134_scheme"
   ],
   "note": "proved for directions at or right of the middle of their angular cells (equally spaced directions); for other directions the bound of C107 grows with the reciprocal of the innermost radius and no order follows; c134_scheme gives the bound for all directions with the innermost radius in the exponent"
  },
  {
   "property": "C109",
   "status": "partial",
   "theorems": [
    "Verif.Props.c109_history_irrelevant_partial",
    "Verif.Props.c109_component_model_partial",
    "Verif.Props.c109_finite_domain_depends_on_history"
   ],
   "note": "proved for meshes without memory, opacities that do not depend on time, usable matrix tables, no material coupling; false for a finite domain (witness: a call at the final time changes later answers) and for the moving-shock opacity (C47)"
  },
  {
   "property": "C110",
   "status": "partial",
   "theorems": [
    "Verif.Props.c110_wellposed_partial",
    "Verif.Props.c110_particle_number_partial",
    "Verif.Props.c110_particle_number_without_source_partial",
    "Verif.Props.c110_never_grows_partial"
   ],
   "note": "proved for meshes that move at constant velocities (point pulse and shell, unbounded domain, moving or kept fixed), constant opacity, exact tables and a correct matrix inversion, weights equal to half the angular cells; other meshes and the time integrator are not covered"
  },
  {
   "property": "C111",
   "status": "partial",
   "theorems": [
    "Verif.Props.c111_absorption_ignores_opacity",
    "Verif.Props.c111_balance",
    "Verif.Props.c111_scatter_order_zero",
    "Verif.Props.c111_pure_scatterer_gains"
   ],
   "note": "the property is false (c111_pure_scatterer_gains); proved: absorption never sees the opacity, and the exact balance"
  },
  {
   "property": "C112",
   "status": "partial",
   "theorems": [
    "Verif.Props.c112_shell_run_partial",
    "Verif.Props.c112_point_run",
    "Verif.Props.c112_point_uncollided_empty",
    "Verif.Props.c112_shell_source_strength_squared"
   ],
   "note": "holds for the shell without uncollided treatment on a moving mesh with the rule that solve chooses, exact tables and a correct matrix inversion; false for the point pulse (8 pi/3 times the strength, c112_point_run; with uncollided treatment the collided flux stays zero, c112_point_uncollided_empty) and for the shell with uncollided treatment (the strength enters squared, c112_shell_source_strength_squared)"
  },
  {
   "property": "C113",
   "status": "partial",
   "theorems": [
    "Verif.Props.c113_results_partial",
    "Verif.Props.c113_shell_reported_partial",
    "Verif.Props.c113_times_partial",
    "Verif.Props.c113_uncollided_fails",
    "Verif.Props.c113_uncollided_default_fails",
    "Verif.Props.c113_times_default_fails",
    "Verif.Props.c113_uncollided_one",
    "Verif.Props.c113_times_uncollided_two"
   ],
   "note": "holds without uncollided treatment at one time, and at several times for points asked for; false with uncollided treatment, where get_exit_dist adds an array of the length of the output points to one of length two (c113_uncollided_fails), and for several times with the points of solve, where find_nodes is called without its geometry (c113_times_default_fails); solve_ivp is not modelled, its result is an argument"
  },
  {
   "property": "C114",
   "status": "partial",
   "theorems": [
    "Verif.Props.c114_derivatives",
    "Verif.Props.c114_near_root",
    "Verif.Props.c114_symmetric",
    "Verif.Props.c114_rule_partial",
    "Verif.Props.c114_exact",
    "Verif.Props.c114_three",
    "Verif.Props.c114_four",
    "Verif.Props.c114_two_fails",
    "Verif.Props.c114_not_cells_partial"
   ],
   "note": "derivatives, symmetry and nearness to a root for every n; the rule for 3 to 500 points if the root search stays between the two Gauss points where it began, which is proved for three and four points; false for one and two points, where all weights are zero; leggauss and eval_legendre are taken as documented"
  },
  {
   "property": "C115",
   "status": "partial",
   "theorems": [
    "Verif.Props.c115_interpolates",
    "Verif.Props.c115_nodes",
    "Verif.Props.c115_after",
    "Verif.Props.c115_before",
    "Verif.Props.c115_speed",
    "Verif.Props.c115_front",
    "Verif.Props.c115_overrun",
    "Verif.Props.c115_single"
   ],
   "note": "false at times not before the last stored one that equal the number behind the array of times in memory (for wave_loc_array the first stored left edge), where memory behind the positions is returned, and for a single stored time"
  },
  {
   "property": "C116",
   "status": "partial",
   "theorems": [
    "Verif.Props.c116_collapses",
    "Verif.Props.c116_stays_collapsed",
    "Verif.Props.c116_ordered_partial",
    "Verif.Props.c116_waits",
    "Verif.Props.c116_follows",
    "Verif.Props.c116_spacing",
    "Verif.Props.c116_velocity_partial",
    "Verif.Props.c116_front_rate",
    "Verif.Props.c116_jump",
    "Verif.Props.c116_initial",
    "Verif.Props.c116_initial_crossed"
   ],
   "note": "false for constructed meshes: the constructor does not store its initial edges, so a request for time zero puts all edges at the origin for good; ordering is proved from states whose stored edges form a mesh, following, spacing and velocities from every state; the velocity at time zero is a jump divided by 1e-7; the initial middle edges assume a source of half width 1/2"
  },
  {
   "property": "C117",
   "status": "partial",
   "theorems": [
    "Verif.Props.c117_front",
    "Verif.Props.c117_front_bound",
    "Verif.Props.c117_descent_only",
    "Verif.Props.c117_bounds_square",
    "Verif.Props.c117_bounds_gaussian",
    "Verif.Props.c117_bounds_other"
   ],
   "note": "true for find_T_wave on a descending profile; false for the bounds, which do not use the solution because both searches are switched off, and which fail for plane sources; the spline through the solution is not modelled"
  },
  {
   "property": "C118",
   "status": "partial",
   "theorems": [
    "Verif.Props.c118_error_bound_partial",
    "Verif.Props.c118_rate_partial",
    "Verif.Props.c134_error_bound"
   ],
   "note": "missing: sources, opacities that are not constant, orders above 10, and a rate for directions left of the middle of their cell (every Gauss rule, C133); the bound itself holds for all directions and weights with a factor that grows with the reciprocal of the innermost edge (c134_error_bound)"
  },
  {
   "property": "C119",
   "status": "proved",
   "theorems": [
    "Verif.Props.c119_nonneg",
    "Verif.Props.c119_negative",
    "Verif.Props.c119_iff",
    "Verif.Props.c119_pure_absorber",
    "Verif.Props.c119_central_shell"
   ],
   "note": "the criterion is sufficient for all times and necessary at the first time of a run; on a mesh at rest it is equivalent to positivity"
  },
  {
   "property": "C120",
   "status": "proved",
   "theorems": [
    "Verif.Props.c120_roundtrip",
    "Verif.Props.c120_never_loaded",
    "Verif.Props.c120_dropped",
    "Verif.Props.c120_collision",
    "Verif.Props.c120_wrong_time",
    "Verif.Props.c120_wrong_size",
    "Verif.Props.c120_energy_names"
   ],
   "note": "the defects (another folder, dropped, misfiled and colliding times) are part of the statement; the round trip is for the reading code applied to the file that was written"
  },
  {
   "property": "C121",
   "status": "proved",
   "theorems": [
    "Verif.Props.c121_names",
    "Verif.Props.c121_right_name",
    "Verif.Props.c121_drivers",
    "Verif.Props.c121_initial_states",
    "Verif.Props.c121_loaded_as_plane",
    "Verif.Props.c121_s2",
    "Verif.Props.c121_finder"
   ],
   "note": "the mislabelled drivers are part of the statement"
  },
  {
   "property": "C122",
   "status": "proved",
   "theorems": [
    "Verif.Props.c122_main",
    "Verif.Props.c122_results",
    "Verif.Props.c122_all_keeps",
    "Verif.Props.c122_square_all_fails",
    "Verif.Props.c122_all_times",
    "Verif.Props.c122_square_many_fails"
   ],
   "note": "plots left out; solve is a function of the switches and the position because it builds all its objects anew"
  },
  {
   "property": "C123",
   "status": "proved",
   "theorems": [
    "Verif.Props.c123_superpose",
    "Verif.Props.c123_difference",
    "Verif.Props.c123_proportional",
    "Verif.Props.c123_ordered"
   ],
   "note": "manufactured solution excluded (its source does not scale); the square of the source strength is what C112 found"
  },
  {
   "property": "C124",
   "status": "proved",
   "theorems": [
    "Verif.Props.c124_source_stability",
    "Verif.Props.c124_exact_run",
    "Verif.Props.c124_midpoint_bound",
    "Verif.Props.c124_limit",
    "Verif.Props.c124_source_too_strong",
    "Verif.Props.c124_too_many_particles"
   ],
   "note": "the limit is for M = 0; for higher M the moment of degree zero is shown too large shell by shell"
  },
  {
   "property": "C125",
   "status": "proved",
   "theorems": [
    "Verif.Props.c125_never_fails",
    "Verif.Props.c125_rejected_steps_leave_no_trace",
    "Verif.Props.c125_stored_rate",
    "Verif.Props.c125_converges",
    "Verif.Props.c125_whole_program",
    "Verif.Props.c125_rk45_end",
    "Verif.Props.c125_rk45_dense_consistent",
    "Verif.Props.c125_dop853_end"
   ],
   "note": "scipy is modelled from its documented algorithm: step sizes and acceptance are arbitrary; constant opacity for convergence, steady opacity for the rest; c125_whole_program under the hypotheses of C118"
  },
  {
   "property": "C126",
   "status": "proved",
   "theorems": [
    "Verif.Props.c126_superpose",
    "Verif.Props.c126_empty",
    "Verif.Props.c126_point_uncollided_empty",
    "Verif.Props.c126_particle_number",
    "Verif.Props.c126_rk23_step",
    "Verif.Props.c126_rk45_step",
    "Verif.Props.c126_rk23_loses",
    "Verif.Props.c126_rk45_creates",
    "Verif.Props.c126_rk45_run",
    "Verif.Props.c126_point_pulse"
   ],
   "note": "exact arithmetic; scipy modelled as in C125; the particle number for meshes of equal shells without source and boundary source"
  },
  {
   "property": "C127",
   "status": "proved",
   "theorems": [
    "Verif.Props.c127_rk45_order",
    "Verif.Props.c127_rk23_order",
    "Verif.Props.c127_rk45_dense_order",
    "Verif.Props.c127_rk45_number_gain",
    "Verif.Props.c127_rk23_number_loss",
    "Verif.Props.c127_rk45_sharp",
    "Verif.Props.c127_rk23_sharp"
   ],
   "note": "exact arithmetic; scipy modelled as in C125; runs without source in force, where the right-hand side is smooth in time"
  },
  {
   "property": "C128",
   "status": "proved",
   "theorems": [
    "Verif.Props.c128_solve",
    "Verif.Props.c128_no_trace",
    "Verif.Props.c128_rk45",
    "Verif.Props.c128_rk23",
    "Verif.Props.c128_converges",
    "Verif.Props.c128_rk45_times",
    "Verif.Props.c128_point_pulse",
    "Verif.Props.c128_unfinished_fails",
    "Verif.Props.c128_times_unfinished_fails",
    "Verif.Props.c128_times_bad_fails",
    "Verif.Props.c128_estimate_unfinished",
    "Verif.Props.c128_estimate_initial",
    "Verif.Props.c128_uncollided_fails",
    "Verif.Props.c128_times_default_fails",
    "Verif.Props.c135_solve",
    "Verif.Props.c135_times"
   ],
   "note": "exact arithmetic; scipy modelled as in C125 with its handling of t_eval; step sizes and acceptance are arbitrary C135 treats DOP853."
  },
  {
   "property": "C129",
   "status": "proved",
   "theorems": [
    "Verif.Props.c129_state",
    "Verif.Props.c129_solve",
    "Verif.Props.c129_requested_points",
    "Verif.Props.c129_physics_ignored",
    "Verif.Props.c129_sources_ignored",
    "Verif.Props.c129_rk45_exponential",
    "Verif.Props.c129_rk23_exponential",
    "Verif.Props.c129_static_number",
    "Verif.Props.c129_square_number",
    "Verif.Props.c129_uncollided_fails",
    "Verif.Props.c129_uncollided_alone"
   ],
   "note": "describes what the code does (the slab branch of the right-hand side returns its argument); exact arithmetic; scipy modelled as in C125 and C128"
  },
  {
   "property": "C130",
   "status": "proved",
   "theorems": [
    "Verif.Props.c130_rk45_error",
    "Verif.Props.c130_rk23_error",
    "Verif.Props.c130_consistent_error"
   ],
   "note": "exact arithmetic; the constant of the time integration depends on the problem, that of the mesh only on M; hypotheses of C118 (directions ordered about the middle of their angular cells) are kept; for the sphere the program only forms pulses as initial states, their distance from u(0) is part of the bound C133 shows that no rule exact on the first two powers meets the assumptions on directions and weights, so no Gauss rule that solve can choose does. C134 gives the bound for all directions and weights."
  },
  {
   "property": "C131",
   "status": "proved",
   "theorems": [
    "Verif.Props.c131_wellposed",
    "Verif.Props.c131_rk45_order",
    "Verif.Props.c131_rk23_order",
    "Verif.Props.c131_solve",
    "Verif.Props.c131_rk45",
    "Verif.Props.c131_rk23",
    "Verif.Props.c131_converges"
   ],
   "note": "exact arithmetic; the exact solution is that of the equations of the program, whose scattering term is not that of transport for a non-constant opacity (C111)"
  },
  {
   "property": "C132",
   "status": "proved",
   "theorems": [
    "Verif.Props.c132_mesh",
    "Verif.Props.c132_frozen",
    "Verif.Props.c132_slab_edges",
    "Verif.Props.c132_slab_pulse",
    "Verif.Props.c132_sphere",
    "Verif.Props.c132_outer_half",
    "Verif.Props.c132_sphere_times"
   ],
   "note": "exact arithmetic; describes what the program does, which is not what a sphere with a mesh from 0 to D/2 or a slab pulse of half width x0 should give"
  },
  {
   "property": "C133",
   "status": "proved",
   "theorems": [
    "Verif.Props.c133_middle_iff",
    "Verif.Props.c133_centre",
    "Verif.Props.c133_isotropic_centre",
    "Verif.Props.c133_gauss_legendre",
    "Verif.Props.c133_gauss_lobatto",
    "Verif.Props.c133_two_directions",
    "Verif.Props.c133_uniform",
    "Verif.Props.c133_redistribution",
    "Verif.Props.c133_not_exact"
   ],
   "note": "exact arithmetic; leggauss returns the roots of the Legendre polynomial"
  },
  {
   "property": "C134",
   "status": "proved",
   "theorems": [
    "Verif.Props.c134_scheme",
    "Verif.Props.c134_error_bound",
    "Verif.Props.c134_rk45_error",
    "Verif.Props.c134_rk23_error",
    "Verif.Props.c134_consistent_error",
    "Verif.Props.c134_stable"
   ],
   "note": "exact arithmetic; with directions left of the middle of their cells (Gauss directions) the factor contains exp(1/innermost edge), so no rate follows on refinement at the centre; C133 explains why smooth solutions there are special"
  },
  {
   "property": "C135",
   "status": "proved",
   "theorems": [
    "Verif.Props.c135_order",
    "Verif.Props.c135_coefficients",
    "Verif.Props.c135_rounding",
    "Verif.Props.c135_not_nine",
    "Verif.Props.c135_dense_evaluations",
    "Verif.Props.c135_dense_order",
    "Verif.Props.c135_solve",
    "Verif.Props.c135_times",
    "Verif.Props.c135_error"
   ],
   "note": "arithmetic with the coefficients is exact; scipy is not in the repository, its coefficients and the dense output are modelled from scipy's published source (dop853_coefficients.py, rk.py); which steps are tried and accepted is arbitrary, so the error estimator of DOP853 is not modelled"
  },
  {
   "property": "C136",
   "status": "proved",
   "theorems": [
    "Verif.Props.c136_find_wave_fails",
    "Verif.Props.c136_wave_data",
    "Verif.Props.c136_report",
    "Verif.Props.c136_time_points",
    "Verif.Props.c136_times_need_points",
    "Verif.Props.c136_times",
    "Verif.Props.c136_rk45_times",
    "Verif.Props.c136_rk23_times",
    "Verif.Props.c136_growth",
    "Verif.Props.c136_any_method",
    "Verif.Props.c136_dop_times"
   ],
   "note": "options have the values True or False; the arguments that solve passes through and the run time are not in the returned record; material coupling is outside"
  },
  {
   "property": "C137",
   "status": "proved",
   "theorems": [
    "Verif.Props.c137_transport",
    "Verif.Props.c137_exact",
    "Verif.Props.c137_solvable",
    "Verif.Props.c137_boundary",
    "Verif.Props.c137_bounds",
    "Verif.Props.c137_left_of_source",
    "Verif.Props.c137_left_directions",
    "Verif.Props.c137_curves",
    "Verif.Props.c137_no_setting"
   ],
   "note": "quad is the exact integral; the output points are one row, as without eval_times"
  },
  {
   "property": "C138",
   "status": "proved",
   "theorems": [
    "Verif.Props.c138_power_law",
    "Verif.Props.c138_exponential",
    "Verif.Props.c138_least_squares",
    "Verif.Props.c138_warning",
    "Verif.Props.c138_triangle",
    "Verif.Props.c138_labels",
    "Verif.Props.c138_fits_fail",
    "Verif.Props.c138_transport_plots_fail",
    "Verif.Props.c138_no_triangle",
    "Verif.Props.c138_thick_fails",
    "Verif.Props.c138_energy_at_100",
    "Verif.Props.c138_curve_at_one",
    "Verif.Props.c138_session"
   ],
   "note": "errors and numbers of cells are positive; writing labels and showing the figure does not fail; linregress is modelled from scipy's documentation and fails for equal abscissas"
  },
  {
   "property": "C139",
   "status": "proved",
   "theorems": [
    "Verif.Props.c139_rule_of_widths",
    "Verif.Props.c139_residual",
    "Verif.Props.c139_error_bound",
    "Verif.Props.c139_rk45_error",
    "Verif.Props.c139_dop853_error",
    "Verif.Props.c139_consistent_error",
    "Verif.Props.c139_convergence"
   ],
   "note": "no sources, constant opacity, shells that move with constant velocity; the exponent of the bound contains the offset of directions left of the middle of their angular cell over the radius of the first shell, so for Gauss directions the limit needs directions and shells refined together (C141)"
  },
  {
   "property": "C140",
   "status": "proved",
   "theorems": [
    "Verif.Props.c140_test_fails",
    "Verif.Props.c140_test_computes",
    "Verif.Props.c140_right_test"
   ],
   "note": "real arithmetic; assert_allclose from the documentation of numpy"
  },
  {
   "property": "C141",
   "status": "proved",
   "theorems": [
    "Verif.Props.c141_separation",
    "Verif.Props.c141_narrow",
    "Verif.Props.c141_cells_below",
    "Verif.Props.c141_rule",
    "Verif.Props.c141_gauss",
    "Verif.Props.c141_lobatto",
    "Verif.Props.c141_lobatto_cells_below",
    "Verif.Props.c141_rk45_error",
    "Verif.Props.c141_dop853_error",
    "Verif.Props.c141_convergence"
   ],
   "note": "no sources, constant opacity, shells that move with constant velocity; numpy's leggauss stands for exact Gauss points and weights; the lower bound for the cells is 1/n^2 for Gauss rules and 1/(n(n-1)) for the Lobatto rules of quadrature with exact roots"
  },
  {
   "property": "C142",
   "status": "proved",
   "theorems": [
    "Verif.Props.c142_same_width",
    "Verif.Props.c142_created",
    "Verif.Props.c142_half_lost",
    "Verif.Props.c142_output_inside",
    "Verif.Props.c142_output_right",
    "Verif.Props.c142_output_left",
    "Verif.Props.c142_s2_on",
    "Verif.Props.c142_s2_inner",
    "Verif.Props.c142_s2_outer",
    "Verif.Props.c142_names",
    "Verif.Props.c142_stored_shape"
   ],
   "note": "functions the solver no longer calls; flux terms for slabs without boundary sources"
  },
  {
   "property": "C143",
   "status": "proved",
   "theorems": [
    "Verif.Props.c143_gaussian",
    "Verif.Props.c143_one_sided",
    "Verif.Props.c143_gaussian_total",
    "Verif.Props.c143_manufactured",
    "Verif.Props.c143_dipole",
    "Verif.Props.c143_dipole_moment",
    "Verif.Props.c143_dipole_width",
    "Verif.Props.c143_self_similar"
   ],
   "note": "real numbers for floats: where the dipole start divides by zero, python gives nan and the model zero"
  },
  {
   "property": "C144",
   "status": "proved",
   "theorems": [
    "Verif.Props.c144_content"
   ],
   "note": "the number of particles in the model's flux; how the quadrature of a run samples it is C112 and C113"
  },
  {
   "property": "C145",
   "status": "proved",
   "theorems": [
    "Verif.Props.c145_smooth",
    "Verif.Props.c145_ahead",
    "Verif.Props.c145_follows",
    "Verif.Props.c145_stands",
    "Verif.Props.c145_outside",
    "Verif.Props.c145_thick_square",
    "Verif.Props.c145_simple_2",
    "Verif.Props.c145_two_thirds",
    "Verif.Props.c145_derivatives",
    "Verif.Props.c145_backward",
    "Verif.Props.c145_span",
    "Verif.Props.c145_simple_2_edges"
   ],
   "note": "reads outside of an array are failures in the model; numba does not check them. The fluxes that wavespeed_estimator compares are inputs here"
  },
  {
   "property": "C146",
   "status": "proved",
   "theorems": [
    "Verif.Props.c146_outside",
    "Verif.Props.c146_shock",
    "Verif.Props.c146_odd",
    "Verif.Props.c146_one_cell",
    "Verif.Props.c146_set_func",
    "Verif.Props.c146_edges",
    "Verif.Props.c146_wraps",
    "Verif.Props.c146_runs_out",
    "Verif.Props.c146_integrand",
    "Verif.Props.c146_compared",
    "Verif.Props.c146_undoer",
    "Verif.Props.c146_gaussian_plane"
   ],
   "note": "the integrand of the source is compared with squareSourceS2 (Spec/Uncollided); the quotient 0/0 at the time of observation itself is left out, it does not change the integral"
  },
  {
   "property": "C147",
   "status": "proved",
   "theorems": [
    "Verif.Props.c147_grows",
    "Verif.Props.c147_velocity",
    "Verif.Props.c147_square",
    "Verif.Props.c147_still",
    "Verif.Props.c147_not_symmetric",
    "Verif.Props.c147_saver",
    "Verif.Props.c147_saver_wrong",
    "Verif.Props.c147_mean",
    "Verif.Props.c147_thick_gaussian",
    "Verif.Props.c147_thick_four"
   ],
   "note": "derivative_saver: equal neighbouring positions, for which it would divide by zero, are left out; coeff_con: coefficients of all directions"
  },
  {
   "property": "C148",
   "status": "proved",
   "theorems": [
    "Verif.Props.c148_gauss_quad",
    "Verif.Props.c148_weighted",
    "Verif.Props.c148_node_sphere",
    "Verif.Props.c148_node_slab",
    "Verif.Props.c148_normPns"
   ],
   "note": "zeros and exactness of the Gauss-Legendre rule of the library are hypotheses"
  },
  {
   "property": "C149",
   "status": "proved",
   "theorems": [
    "Verif.Props.c149_multiple_of_four",
    "Verif.Props.c149_symmetric",
    "Verif.Props.c149_start",
    "Verif.Props.c149_next_interval",
    "Verif.Props.c149_follows_iff",
    "Verif.Props.c149_end"
   ],
   "note": "numpy spreads arrays with one entry, so that five to seven cells do not fail; tables in order"
  },
  {
   "property": "C150",
   "status": "proved",
   "theorems": [
    "Verif.Props.c150_thin_square",
    "Verif.Props.c150_simple_thick_square",
    "Verif.Props.c150_square_fails"
   ],
   "note": ""
  }
 ]
}