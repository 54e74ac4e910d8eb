{
 "claims": [
  {
   "property": "C01",
   "status": "proved",
   "theorems": [
    "Libgrpp.binomial_exact_or_zero",
    "Libgrpp.binomial_overflow_zero",
    "Libgrpp.binomial_gt_zero",
    "Libgrpp.binomial_false_zero"
   ],
   "note": "64-bit unsigned arithmetic modelled exactly. Finding: some representable coefficients are reported as 0 (binomial_false_zero)."
  },
  {
   "property": "C02",
   "status": "proved",
   "theorems": [
    "Libgrpp.factorial_correct",
    "Libgrpp.factorial_negative",
    "Libgrpp.factorial_ratio_correct",
    "Libgrpp.double_factorial_correct",
    "Libgrpp.double_factorial_minus_one",
    "Libgrpp.double_factorial_abort_iff"
   ],
   "note": "Exact reals; abort for arguments above the table is proved."
  },
  {
   "property": "C03",
   "status": "proved",
   "theorems": [
    "Libgrpp.cartesian_dirac_complete",
    "Libgrpp.cartesian_turbomole_complete"
   ],
   "note": ""
  },
  {
   "property": "C04",
   "status": "proved",
   "theorems": [
    "Libgrpp.cartesian_orders_agree"
   ],
   "note": ""
  },
  {
   "property": "C05",
   "status": "proved",
   "theorems": [
    "Libgrpp.lookup_inverts_list",
    "Libgrpp.lookup_finds_component",
    "Libgrpp.lookup_negative_not_found"
   ],
   "note": ""
  },
  {
   "property": "C06",
   "status": "proved",
   "theorems": [
    "Libgrpp.new_shell_value",
    "Libgrpp.shell_owns_data",
    "Libgrpp.deep_copy_equal"
   ],
   "note": "Heap model with addresses chosen by the allocator."
  },
  {
   "property": "C07",
   "status": "proved",
   "theorems": [
    "Libgrpp.shell_shrink_correct",
    "Libgrpp.shell_shrink_idempotent"
   ],
   "note": ""
  },
  {
   "property": "C08",
   "status": "proved",
   "theorems": [
    "Libgrpp.new_potential_terms",
    "Libgrpp.shrink_potential_terms",
    "Libgrpp.potential_value_eq_sum",
    "Libgrpp.create_shrink_value_exact"
   ],
   "note": ""
  },
  {
   "property": "C09",
   "status": "partial",
   "theorems": [
    "Libgrpp.shrink_after_create_not_noop",
    "Libgrpp.shrink_after_create_noop_partial"
   ],
   "note": "False at |c| = 1e-14 exactly (witness); proved for all other coefficients."
  },
  {
   "property": "C10",
   "status": "partial",
   "theorems": [
    "Libgrpp.points_equal_refl",
    "Libgrpp.points_equal_symm",
    "Libgrpp.points_equal_not_transitive",
    "Libgrpp.points_equal_trans_partial"
   ],
   "note": "Transitivity is false (witness); reflexivity, symmetry and the 2e-12 bound are proved."
  },
  {
   "property": "C11",
   "status": "proved",
   "theorems": [
    "Libgrpp.daxpy_correct",
    "Libgrpp.multiply_matrices_correct"
   ],
   "note": ""
  },
  {
   "property": "C12",
   "status": "proved",
   "theorems": [
    "Libgrpp.overlap_true",
    "Libgrpp.one_electron_integrable"
   ],
   "note": "Exact reals; L up to 9 (the size the work arrays support, see C13)."
  },
  {
   "property": "C13",
   "status": "partial",
   "theorems": [
    "Libgrpp.one_electron_overflow",
    "Libgrpp.one_electron_in_bounds_partial"
   ],
   "note": "False at the documented maximum L=10: out-of-bounds access proved for every such call with primitives on both sides; in-bounds proved for L<=9."
  },
  {
   "property": "C14",
   "status": "proved",
   "theorems": [
    "Libgrpp.overlap_transpose"
   ],
   "note": "L up to 9."
  },
  {
   "property": "C15",
   "status": "proved",
   "theorems": [
    "Libgrpp.one_electron_translation"
   ],
   "note": "Equality of complete outcomes, all L; exponents positive."
  },
  {
   "property": "C16",
   "status": "proved",
   "theorems": [
    "Libgrpp.one_electron_additive",
    "Libgrpp.one_electron_scaling",
    "Libgrpp.one_electron_order"
   ],
   "note": "L up to 9."
  },
  {
   "property": "C17",
   "status": "proved",
   "theorems": [
    "Libgrpp.kinetic_true",
    "Libgrpp.one_electron_integrable"
   ],
   "note": "L up to 9."
  },
  {
   "property": "C18",
   "status": "proved",
   "theorems": [
    "Libgrpp.kinetic_transpose"
   ],
   "note": "L up to 9."
  },
  {
   "property": "C19",
   "status": "proved",
   "theorems": [
    "Libgrpp.momentum_true",
    "Libgrpp.momentum_antisymmetric",
    "Libgrpp.one_electron_integrable"
   ],
   "note": "L up to 9."
  },
  {
   "property": "C20",
   "status": "proved",
   "theorems": [
    "Libgrpp.norm_self_overlap",
    "Libgrpp.norm_unit",
    "Libgrpp.norm_depends_on_total"
   ],
   "note": ""
  },
  {
   "property": "C21",
   "status": "proved",
   "theorems": [
    "Libgrpp.diff_shell_derivative"
   ],
   "note": "Every L, every documented component order."
  },
  {
   "property": "C22",
   "status": "partial",
   "theorems": [
    "Libgrpp.overlap_gradient_true_partial",
    "Libgrpp.overlap_gradient_true_s",
    "Libgrpp.overlap_gradient_zero"
   ],
   "note": "True derivative proved for L_A<=8, L_B<=9 with out-of-bounds reads (C24) returning an arbitrary number; without that assumption for s-type bra and for all zero cases."
  },
  {
   "property": "C23",
   "status": "partial",
   "theorems": [
    "Libgrpp.overlap_gradient_restores_shell_partial",
    "Libgrpp.overlap_gradient_race",
    "Libgrpp.overlap_gradient_visible_change"
   ],
   "note": "Sequential part proved; under concurrency the property is false (lost update, visible intermediate value)."
  },
  {
   "property": "C24",
   "status": "partial",
   "theorems": [
    "Libgrpp.overlap_gradient_out_of_bounds",
    "Libgrpp.overlap_gradient_in_bounds_partial",
    "Libgrpp.grpp_gradient_out_of_bounds",
    "Libgrpp.grpp_gradient_in_bounds_partial"
   ],
   "note": "False for every bra (overlap) and every differentiated shell (GRPP) with L>0: out-of-bounds read proved; in bounds for s-type shells."
  },
  {
   "property": "C25",
   "status": "partial",
   "theorems": [
    "Libgrpp.grpp_gradient_translational_partial",
    "Libgrpp.grpp_gradient_two_centres_partial",
    "Libgrpp.grpp_gradient_true_partial"
   ],
   "note": "Translational invariance for any integral routine which returns matrices of the right size; true derivative for routines that compute a bilinear form (for the library's own routines with their errors see C87). Missing: out-of-bounds reads (C24) are assumed to return an arbitrary number, whose weight is zero."
  },
  {
   "property": "C26",
   "status": "proved",
   "theorems": [
    "Libgrpp.grpp_gradient_zero"
   ],
   "note": ""
  },
  {
   "property": "C27",
   "status": "partial",
   "theorems": [
    "Libgrpp.grpp_gradient_one_case_partial",
    "Libgrpp.grpp_gradient_two_formulas"
   ],
   "note": "False: centres within the tolerance pairwise but not transitively get two formulas added (witness); one case proved when coincidence is transitive on the given points."
  },
  {
   "property": "C28",
   "status": "proved",
   "theorems": [
    "Libgrpp.type1_gaussian_true",
    "Libgrpp.dropTiny_same"
   ],
   "note": "L up to 9 (see C31); contraction coefficients below the documented threshold 1e-14 count as zero."
  },
  {
   "property": "C29",
   "status": "proved",
   "theorems": [
    "Libgrpp.hermite_expansion"
   ],
   "note": "L up to 9 (the size of the table, see C31)."
  },
  {
   "property": "C30",
   "status": "proved",
   "theorems": [
    "Libgrpp.hermite_coulomb_table",
    "Libgrpp.hermite_inverse_square_table"
   ],
   "note": "For exact values of the auxiliary function as input of the recursion (their accuracy: C64, C65)."
  },
  {
   "property": "C31",
   "status": "partial",
   "theorems": [
    "Libgrpp.type1_in_bounds_partial",
    "Libgrpp.type1_overflow",
    "Libgrpp.type1_aborts",
    "Libgrpp.type1_integrals_fail"
   ],
   "note": "False: L=10 overflows the coefficient table; L_A+L_B>=16 with a Boys argument above 30 aborts. In bounds and returning proved for L<=9 otherwise. Point-nucleus part: C33."
  },
  {
   "property": "C32",
   "status": "proved",
   "theorems": [
    "Libgrpp.type1_linear",
    "Libgrpp.type1_null",
    "Libgrpp.type1_bad_power",
    "Libgrpp.type1_uninitialised"
   ],
   "note": "L up to 9, terms in range (see C31)."
  },
  {
   "property": "C33",
   "status": "proved",
   "theorems": [
    "Libgrpp.point_nucleus",
    "Libgrpp.point_nucleus_bilinear",
    "Libgrpp.point_nucleus_min_int",
    "Libgrpp.point_entry"
   ],
   "note": "L up to 9, Boys arguments in range (C31). Also within 1.7e-14 |Z| times the weights of the true matrix elements of -Z/r; the smallest int as charge is undefined behaviour."
  },
  {
   "property": "C34",
   "status": "partial",
   "theorems": [
    "Libgrpp.finite_entry_points_false",
    "Libgrpp.finite_entry_points",
    "Libgrpp.finite_entry_points_partial"
   ],
   "note": "False: the entry points pass an array that starts with the charge, so that the charge is used as rms radius (ball, Gaussian; the rms radius argument is ignored), as c (Fermi, bubble), and so on. Witness: two s functions at a ball. The partial theorem: only where all parameters equal the charge."
  },
  {
   "property": "C35",
   "status": "proved",
   "theorems": [
    "Libgrpp.unknown_model"
   ],
   "note": "The program ends (exit) as soon as a primitive pair is unscreened; otherwise the zero matrix, which no model enters."
  },
  {
   "property": "C36",
   "status": "proved",
   "theorems": [
    "Libgrpp.ball_nucleus"
   ],
   "note": ""
  },
  {
   "property": "C37",
   "status": "partial",
   "theorems": [
    "Libgrpp.gauss_nucleus",
    "Libgrpp.gauss_limit_partial",
    "Libgrpp.gauss_origin"
   ],
   "note": "False part: the value at r=0 is not the limit r->0 (0/0 in the program)."
  },
  {
   "property": "C38",
   "status": "proved",
   "theorems": [
    "Libgrpp.fermi_nucleus",
    "Libgrpp.bubble_zero"
   ],
   "note": "For exact S_k as input; the bubble/Fermi coincidence for any S_k routine (r=c needs S_2(0))."
  },
  {
   "property": "C39",
   "status": "partial",
   "theorems": [
    "Libgrpp.init_reported_tables_exist",
    "Libgrpp.integral_reads_right_tables",
    "Libgrpp.tables_built_at_most_once_partial",
    "Libgrpp.bessel_table_rebuilt",
    "Libgrpp.init_no_deadlock",
    "Libgrpp.init_mutual_exclusion",
    "Libgrpp.init_first_never_aborts",
    "Libgrpp.tables_race_free_partial",
    "Libgrpp.init_flag_race",
    "Libgrpp.bessel_table_race"
   ],
   "note": "Any number of threads and any schedule (sequentially consistent). Proved: tables exist whenever initialisation is reported, right table contents are read, spherical harmonic tables built at most once, mutual exclusion, no deadlock, no failed assertion without finalize. False parts, with witnesses: init-finalize-init builds the Bessel table twice; libgrpp_is_initialized races on the flag; re-initialisation races with integrals reading the Bessel table."
  },
  {
   "property": "C40",
   "status": "partial",
   "theorems": [
    "Libgrpp.params_last_write_wins",
    "Libgrpp.params_bad_order_aborts",
    "Libgrpp.params_defaults",
    "Libgrpp.params_order_used_by_new_shells",
    "Libgrpp.type2_ignores_radial_tolerance",
    "Libgrpp.type1_uses_radial_tolerance"
   ],
   "note": "False part: the radial tolerance is ignored by the type-2 radial integrals."
  },
  {
   "property": "C41",
   "status": "partial",
   "theorems": [
    "Libgrpp.grpp_frees_once_partial",
    "Libgrpp.grpp_life_returns_iff",
    "Libgrpp.grpp_double_free"
   ],
   "note": "False when an object is handed over twice (same local potential set again, one potential in two lists): double free, proved for every such history. With distinct pointers and at most 100 additions per list: proved. One heap object per potential/shell; allocation does not fail."
  },
  {
   "property": "C42",
   "status": "partial",
   "theorems": [
    "Libgrpp.grpp_add_in_bounds_partial",
    "Libgrpp.grpp_add_overflow"
   ],
   "note": "False: every history with more than 100 additions to a list writes out of bounds; in bounds up to 100."
  },
  {
   "property": "C43",
   "status": "proved",
   "theorems": [
    "Libgrpp.full_is_sum",
    "Libgrpp.full_requires_init",
    "Libgrpp.full_order"
   ],
   "note": "The four integral routines are parameters, assumed to return and to overwrite their buffers."
  },
  {
   "property": "C44",
   "status": "partial",
   "theorems": [
    "Libgrpp.type1_gradient_is_full",
    "Libgrpp.type2_gradient_is_full",
    "Libgrpp.so_gradient_is_full",
    "Libgrpp.so_gradient_value_partial",
    "Libgrpp.oc_gradient_is_full_partial"
   ],
   "note": "Outer-core: up to 100 shells (beyond: C42). Spin-orbit value: integral routines assumed to compute a bilinear form. The stub arrays are not part of the heap model."
  },
  {
   "property": "C45",
   "status": "proved",
   "theorems": [
    "Libgrpp.angular_momentum_algebra",
    "Libgrpp.angular_momentum_short"
   ],
   "note": "Any L; arrays of at least (2L+1)^2 elements, otherwise undefined behaviour."
  },
  {
   "property": "C46",
   "status": "proved",
   "theorems": [
    "Libgrpp.sphere_monomial_exact",
    "Libgrpp.sphere_monomial_formula",
    "Libgrpp.sphere_monomial_symmetric",
    "Libgrpp.sphere_monomial_unit"
   ],
   "note": "Also: aborts exactly when all exponents are even with sum 30 or more."
  },
  {
   "property": "C47",
   "status": "partial",
   "theorems": [
    "Libgrpp.angular_type2_abort_iff",
    "Libgrpp.angular_no_abort_partial",
    "Libgrpp.angular_abort_documented_range"
   ],
   "note": "False: L_A=10, L=5 aborts. Proved: exact condition for an abort, and none for L_A+L<=14."
  },
  {
   "property": "C48",
   "status": "proved",
   "theorems": [
    "Libgrpp.radial_answers_are_full_quadratures",
    "Libgrpp.radial_answer_history_independent",
    "Libgrpp.radial_finest_grid"
   ],
   "note": "Integrands are arbitrary real functions; both grids (2047 and 31 initial points)."
  },
  {
   "property": "C49",
   "status": "proved",
   "theorems": [
    "Libgrpp.radial_terminates_with_verdict",
    "Libgrpp.radial_finest_grid"
   ],
   "note": ""
  },
  {
   "property": "C50",
   "status": "partial",
   "theorems": [
    "Libgrpp.gauss_moment_odd",
    "Libgrpp.gauss_moment_even_partial",
    "Libgrpp.gauss_moment_aborts"
   ],
   "note": "Exact for all odd n and even n up to 30; false for even n >= 32: aborts."
  },
  {
   "property": "C51",
   "status": "proved",
   "theorems": [
    "Libgrpp.outer_core_projectors",
    "Libgrpp.outer_core_cross_terms",
    "Libgrpp.outer_core_symmetric"
   ],
   "note": "L<=9 for the symmetry of the matrices, any L for the projectors. The spin-orbit matrices are antisymmetric."
  },
  {
   "property": "C52",
   "status": "partial",
   "theorems": [
    "Libgrpp.outer_core_moves_shells",
    "Libgrpp.outer_core_race",
    "Libgrpp.outer_core_sequential_partial"
   ],
   "note": "False: each call moves the outer-core shells of the GRPP to its centre (proved for every successful call), and two concurrent calls on one GRPP reach a data race there, whatever their other arguments. The partial theorem: the result does not depend on where earlier calls have left the shells, so that calls one after the other are not affected."
  },
  {
   "property": "C53",
   "status": "proved",
   "theorems": [
    "Libgrpp.gfun_relation",
    "Libgrpp.gfun_relation_exact",
    "Libgrpp.gfun_large_exact"
   ],
   "note": "Small-x branch: from the order computed by series downwards; large-x branch: upwards from Dawson's function (a parameter)."
  },
  {
   "property": "C54",
   "status": "partial",
   "theorems": [
    "Libgrpp.boys_in_range_partial",
    "Libgrpp.boys_table_end",
    "Libgrpp.boys_aborts"
   ],
   "note": "False: for x>30 and order >= 16 the routine aborts (double factorial); in range and returning otherwise."
  },
  {
   "property": "C55",
   "status": "proved",
   "theorems": [
    "Libgrpp.chebyshev_series"
   ],
   "note": "Also negative degrees (0) and arrays too short (undefined behaviour)."
  },
  {
   "property": "C56",
   "status": "proved",
   "theorems": [
    "Libgrpp.fermi_sk_in_table",
    "Libgrpp.fermi_sk_overflow",
    "Libgrpp.fermi_sk_order",
    "Libgrpp.fermi_potential_in_table"
   ],
   "note": "Also: any x>=0.005 reads outside the table; the nuclear models ask for x<=0 only."
  },
  {
   "property": "C57",
   "status": "proved",
   "theorems": [
    "Libgrpp.bessel_derivative_relation",
    "Libgrpp.bessel_derivative_routine",
    "Libgrpp.bessel_lookups_in_range",
    "Libgrpp.bessel_pretabulate_in_range"
   ],
   "note": "All orders below 50 for every argument and every table content; orders >= 60 (or >= 50 for x > 16) are proved to leave the arrays."
  },
  {
   "property": "C58",
   "status": "proved",
   "theorems": [
    "Libgrpp.fortran_shells",
    "Libgrpp.fortran_potentials",
    "Libgrpp.fortran_gradients",
    "Libgrpp.fortran_outer_core_1",
    "Libgrpp.fortran_outer_core_2",
    "Libgrpp.fortran_parameters",
    "Libgrpp.fortran_nuclear_models",
    "Libgrpp.fortran_fermi_parameters"
   ],
   "note": "The same outcome in every case (also undefined behaviour, failed assertions), memory restored, every temporary released exactly once. The array of powers has num elements. Result variables of the Fermi parameters are different. Not covered: the init/finalize wrappers, which have no arguments."
  },
  {
   "property": "C59",
   "status": "proved",
   "theorems": [
    "Libgrpp.schedule_independence",
    "Libgrpp.schedule_final_memory",
    "Libgrpp.schedule_overlap"
   ],
   "note": "Overlap, kinetic, momentum, type-1, type-2 and spin-orbit routines, in any number per thread, any number of threads. Temporaries are private to a thread; the tables of libgrpp_init are constant (C39); sequentially consistent memory, with absence of data races proved. Where a routine reads parts of a shell several times, the model reads the whole shell."
  },
  {
   "property": "C60",
   "status": "proved",
   "theorems": [
    "Libgrpp.grpp_contents"
   ],
   "note": "Distinct pointers, at most 100 additions per list (otherwise C41, C42)."
  },
  {
   "property": "C61",
   "status": "partial",
   "theorems": [
    "Libgrpp.radial_type2_table",
    "Libgrpp.radial_type1_table_partial",
    "Libgrpp.radial_type1_table_collision",
    "Libgrpp.radial_type1_table_overflow"
   ],
   "note": "Type 2: all dimensions. Type 1: proved for n_max = lambda_max (the only call); false otherwise, with witnesses of an overwritten value and of an out-of-bounds store."
  },
  {
   "property": "C62",
   "status": "proved",
   "theorems": [
    "Libgrpp.radial_quadrature_converges"
   ],
   "note": "Exact reals."
  },
  {
   "property": "C63",
   "status": "proved",
   "theorems": [
    "Libgrpp.type1_true",
    "Libgrpp.local_term_weights",
    "Libgrpp.local_coulomb_accuracy"
   ],
   "note": "Exact reals; L up to 9; error bound for r^-1 from C64."
  },
  {
   "property": "C64",
   "status": "proved",
   "theorems": [
    "Libgrpp.boys_table_accuracy",
    "Libgrpp.boys_accuracy"
   ],
   "note": "All 301 x 34 literals of the source checked by the kernel against an enclosure; exact reals elsewhere."
  },
  {
   "property": "C65",
   "status": "proved",
   "theorems": [
    "Libgrpp.gfun_small_accuracy"
   ],
   "note": ""
  },
  {
   "property": "C66",
   "status": "proved",
   "theorems": [
    "Libgrpp.bubble_nucleus",
    "Libgrpp.fermi_nucleus",
    "Libgrpp.bubble_norm_pos"
   ],
   "note": "For exact S_k as input."
  },
  {
   "property": "C67",
   "status": "proved",
   "theorems": [
    "Libgrpp.estimate_fermi"
   ],
   "note": "For exact S_k as input."
  },
  {
   "property": "C68",
   "status": "partial",
   "theorems": [
    "Libgrpp.fermi_sk_table_accuracy",
    "Libgrpp.fermi_sk_accuracy_partial",
    "Libgrpp.fermi_sk_promise_false"
   ],
   "note": "False at the accuracy stated in the source comment (1e-12): error above 1e-11 at k=7, x=-0.0051. Proved: 3e-11 for all x<=0 and all orders. All 2001 x 10 literals checked by the kernel."
  },
  {
   "property": "C69",
   "status": "proved",
   "theorems": [
    "Libgrpp.fermi_potential_error",
    "Libgrpp.fermi_potential_accuracy"
   ],
   "note": "Exact reals; error of the S_k routine from C68."
  },
  {
   "property": "C70",
   "status": "proved",
   "theorems": [
    "Libgrpp.rsh_coefficients_correct",
    "Libgrpp.rsh_table_correct",
    "Libgrpp.rsh_coefficients_not_tiny",
    "Libgrpp.rsh_table_missing"
   ],
   "note": "l>40 dereferences a null pointer."
  },
  {
   "property": "C71",
   "status": "proved",
   "theorems": [
    "Libgrpp.evaluate_rsh_correct",
    "Libgrpp.evaluate_rsh_zero_vector",
    "Libgrpp.evaluate_rsh_array_correct"
   ],
   "note": ""
  },
  {
   "property": "C72",
   "status": "proved",
   "theorems": [
    "Libgrpp.rsh_orthonormal",
    "Libgrpp.rsh_complete",
    "Libgrpp.rsh_plane_wave"
   ],
   "note": ""
  },
  {
   "property": "C73",
   "status": "proved",
   "theorems": [
    "Libgrpp.angular_type1_correct",
    "Libgrpp.angular_type1_plane_wave",
    "Libgrpp.angular_type2_correct"
   ],
   "note": "Sum of exponents and angular momenta at most 29 or odd (otherwise C46, C47)."
  },
  {
   "property": "C74",
   "status": "proved",
   "theorems": [
    "Libgrpp.bessel_table_accuracy",
    "Libgrpp.bessel_accuracy",
    "Libgrpp.bessel_accuracy_20",
    "Libgrpp.bessel_accuracy_table_range",
    "Libgrpp.bessel_high_order_wrong",
    "Libgrpp.bessel_large_argument_error"
   ],
   "note": "All 96060 literals of bessel_table_0 and all coefficients of rfun_coeffs checked in the kernel against the function; the Taylor remainder is bounded analytically. Finding: order 40 at 16 < x <= 16.5 returns a value above 5 for a function bounded by 1 (bessel_high_order_wrong)."
  },
  {
   "property": "C75",
   "status": "proved",
   "theorems": [
    "Libgrpp.nuclear_numeric",
    "Libgrpp.nuclear_radial",
    "Libgrpp.nuclear_potentials"
   ],
   "note": "L_A+L_B<=14 (beyond, the angular kernel aborts, C47); |k| zero or above 1e-14; exact reals. The error of the matrix is bounded through the error of the radial integrals; those are quadrature sums on at most 8191 points whose integrand has the stated error and which converge; no bound for a fixed grid. Bubble model with exact S_k."
  },
  {
   "property": "C76",
   "status": "proved",
   "theorems": [
    "Libgrpp.angular_momentum_generates"
   ],
   "note": ""
  },
  {
   "property": "C77",
   "status": "proved",
   "theorems": [
    "Libgrpp.type2_correct",
    "Libgrpp.type2_radial_converges",
    "Libgrpp.type2_tables",
    "Libgrpp.type2_nothing_dropped"
   ],
   "note": "L+L_A, L+L_B <= 14 (beyond, the angular kernel can abort, C47); |2 alpha (A-C)| zero or above 1e-14; powers >= 0. The bound is explicit in the tabulated radial integrals; those are quadrature sums on at most 8191 points, or screening estimates below 1e-16 from any routine; no bound for a fixed grid."
  },
  {
   "property": "C78",
   "status": "proved",
   "theorems": [
    "Libgrpp.type2_one_centre"
   ],
   "note": "Shells exactly at the centre."
  },
  {
   "property": "C79",
   "status": "proved",
   "theorems": [
    "Libgrpp.spin_orbit_correct",
    "Libgrpp.spin_orbit_one_centre"
   ],
   "note": "As C77, C78."
  },
  {
   "property": "C80",
   "status": "partial",
   "theorems": [
    "Libgrpp.semilocal_needs_init",
    "Libgrpp.semilocal_no_primitives"
   ],
   "note": "False for shells without primitives: the first exponent is read from an empty array, proved for every such call."
  },
  {
   "property": "C81",
   "status": "proved",
   "theorems": [
    "Libgrpp.outer_core_correct",
    "Libgrpp.outer_core_nothing_dropped",
    "Libgrpp.outer_core_spinor",
    "Libgrpp.outer_core_needs_init"
   ],
   "note": "L<=9; powers 0, 1, 2 in the potentials, powers 0 and 1 with exact auxiliary functions (as in C63), power 2 unconditional; J=L-1/2 or L+1/2. Coefficients below 1e-14 are dropped in U P + P U (outer_core_nothing_dropped: no effect without such coefficients). Outer-core shells distinct from A and B."
  },
  {
   "property": "C82",
   "status": "proved",
   "theorems": [
    "Libgrpp.radial_norm_accuracy",
    "Libgrpp.radial_norm_out_of_range"
   ],
   "note": "All 20 literals."
  },
  {
   "property": "C83",
   "status": "proved",
   "theorems": [
    "Libgrpp.dawson_accuracy"
   ],
   "note": "Exact reals; LDBL_EPSILON enters as the stopping criterion. Every coefficient of the six tables is checked through the residual of the differential equation D' + 2xD = 1."
  },
  {
   "property": "C84",
   "status": "proved",
   "theorems": [
    "Libgrpp.gfun_accuracy",
    "Libgrpp.local_inverse_square_accuracy"
   ],
   "note": "Orders up to 32."
  },
  {
   "property": "C85",
   "status": "proved",
   "theorems": [
    "Libgrpp.fortran_overlap_of_two",
    "Libgrpp.fortran_norm_factor"
   ],
   "note": "n+l+m <= 9; documented orders; num elements in the arrays; for the norm factor the contracted function is not identically zero."
  },
  {
   "property": "C86",
   "status": "proved",
   "theorems": [
    "Libgrpp.full_grpp_values",
    "Libgrpp.full_grpp_correct",
    "Libgrpp.semilocal_spinors",
    "Libgrpp.full_grpp_needs_init"
   ],
   "note": "L<=9, L+L_A, L+L_B<=14 for semilocal and spin-orbit terms; local and outer-core powers 0, 1, 2 with L_A+L_B<=15 or Boys arguments up to 30 for power 1; coefficients zero or above 1e-14; both shells at the centre, or 2 alpha (A-C) zero or longer than 1e-14 and not both within 1e-7. The radial integrals of the semilocal terms enter the bound as tabulated (exact on one centre, otherwise sums of one of nine quadrature rules or screening estimates below 1e-16)."
  },
  {
   "property": "C87",
   "status": "partial",
   "theorems": [
    "Libgrpp.full_gradient_correct_partial",
    "Libgrpp.full_gradient_correct_s",
    "Libgrpp.full_gradient_translational_partial",
    "Libgrpp.full_gradient_undefined"
   ],
   "note": "Without a defined result for two shells with L>0 (out-of-bounds reads, C24), which is proved. Otherwise relative to some value being returned by those reads, whose weight is zero; without that assumption for two s shells. Centres must be told apart consistently by the 1e-7 comparison (C27)."
  },
  {
   "property": "C88",
   "status": "partial",
   "theorems": [
    "Libgrpp.screening_discards_large",
    "Libgrpp.screening_exact_on_centre_partial",
    "Libgrpp.screening_exact_one_centre_partial"
   ],
   "note": "False: estimates are added with the signs of the coefficients and can cancel. For every M there are two uncontracted s functions and a two-term potential for which 0 is written although the matrix element exceeds M, with the library's own screening. Partial: the estimate equals the integral for partial waves of a shell at the centre, and for one pair of primitives on one centre. Missing: a bound for single primitives away from the centre."
  },
  {
   "property": "C89",
   "status": "partial",
   "theorems": [
    "Libgrpp.quadrature_misses_large",
    "Libgrpp.radial_entry_error_partial",
    "Libgrpp.type2_error_apriori_partial",
    "Libgrpp.quadrature_bounds_exist",
    "Libgrpp.quadrature_rate"
   ],
   "note": "False: for every M and every eps > 0 there are a narrow uncontracted s function and a one-term potential for which the routine writes a number below eps although the matrix element exceeds M, whatever the screening. Partial: for all inputs whose integrals are not screened away, an a-priori bound for radial integrals and matrix elements in terms of bounds for the integrand and its derivative (which exist for all inputs); the quadrature with N nodes has an error of the order 1/N. Missing: a bound of the order of the tolerance for smooth integrands."
  },
  {
   "property": "C90",
   "status": "proved",
   "theorems": [
    "Libgrpp.memory_one_electron",
    "Libgrpp.memory_nuclear_attraction",
    "Libgrpp.memory_terms",
    "Libgrpp.memory_full_grpp",
    "Libgrpp.memory_gradients",
    "Libgrpp.memory_fortran_potentials",
    "Libgrpp.memory_fortran_pairs",
    "Libgrpp.memory_objects"
   ],
   "note": "Model/Heap: the routines reduced to allocation, release, use of blocks and control flow; decisions on numbers are arbitrary. Left out: block sizes and accesses outside a block (in the value models), failure of malloc, failed assertions, the user's Cartesian generator. A GRPP object is given objects made for it."
  },
  {
   "property": "C91",
   "status": "partial",
   "theorems": [
    "Libgrpp.finalize_keeps_memory",
    "Libgrpp.finalize_cycles_partial"
   ],
   "note": "False: 124 blocks (the tables of spherical harmonics) stay in use, for every allocator and heap. What holds: further pairs of libgrpp_init and libgrpp_finalize change nothing, so that the memory does not grow."
  },
  {
   "property": "C92",
   "status": "proved",
   "theorems": [
    "Libgrpp.fortran_module_outer_core",
    "Libgrpp.fortran_module_not_initialised"
   ],
   "note": "test_libgrpp_f90/libgrpp.f90 on top of the model of fortran.c. Same outcome, matrices and memory as the C routine on the objects made of the same arguments, whose constructors return. The library is initialised; otherwise the C routine stops, and the Fortran one returns zeros if there are no shells."
  },
  {
   "property": "C93",
   "status": "partial",
   "theorems": [
    "Libgrpp.fortran_module_gradient_missing",
    "Libgrpp.fortran_module_gradient_partial"
   ],
   "note": "False: the body of the subroutine is a comment. Whatever the derivatives are, for suitable contents before the call no array contains them afterwards. What holds: arrays and memory are unchanged."
  },
  {
   "property": "C94",
   "status": "proved",
   "theorems": [
    "Libgrpp.overlap_rounding",
    "Libgrpp.kinetic_rounding",
    "Libgrpp.momentum_rounding",
    "Libgrpp.ieee_rounds",
    "Libgrpp.overlap_double",
    "Libgrpp.overlapMaj_s",
    "Libgrpp.float_model_exact"
   ],
   "note": "Model/Float: the code over an arbitrary arithmetic; with exact arithmetic it is the model of the other claims (float_model_exact). For IEEE double a trap ends the program on overflow, underflow and invalid operations (no infinities, NaN, subnormal numbers); no fused multiply-add or extended precision; exp and pow are assumed to have a bounded relative error, sqrt is correctly rounded. Inputs are taken as exact."
  },
  {
   "property": "C95",
   "status": "proved",
   "theorems": [
    "Libgrpp.potential_rounding"
   ],
   "note": "As C94; the bound grows with alpha r^2, whose rounding is amplified by exp."
  },
  {
   "property": "C96",
   "status": "proved",
   "theorems": [
    "Libgrpp.matmul_rounding",
    "Libgrpp.daxpy_rounding",
    "Libgrpp.matmul_cancellation"
   ],
   "note": "As C94. Input matrices different from the result."
  },
  {
   "property": "C97",
   "status": "proved",
   "theorems": [
    "Libgrpp.molecular_overlap",
    "Libgrpp.molecular_kinetic",
    "Libgrpp.molecular_momentum",
    "Libgrpp.molecular_overlap_nonneg",
    "Libgrpp.molecular_kinetic_nonneg",
    "Libgrpp.molecular_momentum_antisymmetric",
    "Libgrpp.molecular_overlap_overflow",
    "Libgrpp.molecular_kinetic_overflow"
   ],
   "note": "Dimension at most 46340, so that the int index of the matrix does not overflow; beyond, undefined behaviour is proved for every list of shells (molecular_overlap_overflow, molecular_kinetic_overflow). Exact reals."
  },
  {
   "property": "C98",
   "status": "proved",
   "theorems": [
    "Libgrpp.molecular_grpp",
    "Libgrpp.molecular_grpp_deterministic",
    "Libgrpp.molecular_grpp_pairs_overflow"
   ],
   "note": "Preconditions of C86 for all pairs of shells (structure DriverInput); dimension at most 46340, fewer than 32768 shells (at 32768 and more: molecular_grpp_pairs_overflow). The parallel loop is modelled as its iterations in an arbitrary order; interleaved accesses within iterations are treated in C59, the race on the origins of outer-core shells in C52. Exact reals."
  },
  {
   "property": "C99",
   "status": "partial",
   "theorems": [
    "Libgrpp.element_lookup",
    "Libgrpp.element_lookup_case",
    "Libgrpp.element_lookup_non_ascii",
    "Libgrpp.element_symbol",
    "Libgrpp.element_round_trip_partial",
    "Libgrpp.element_round_trip_false",
    "Libgrpp.element_mass_number_partial",
    "Libgrpp.element_mass_number_false",
    "Libgrpp.read_molecule_charges"
   ],
   "note": "Lookup, case and read_molecule hold for all inputs. False of the code: entry 102 carries the symbol of niobium, so nobelium is unknown and 102 leads back to 41 (element_round_trip_false); rhodium has mass number 100 instead of 103 (element_mass_number_false); charge 131 passes the assertion of get_element_symbol but is beyond the table (element_symbol); get_element_mass_number_abundant does not check its argument. The _partial theorems hold for all other entries. Parsing of numbers by fscanf is not modelled."
  },
  {
   "property": "C100",
   "status": "partial",
   "theorems": [
    "Libgrpp.molecular_nuclear_point",
    "Libgrpp.molecular_nuclear_numeric",
    "Libgrpp.molecular_nuclear_fermi_light",
    "Libgrpp.molecular_nuclear_fermi_light_any",
    "Libgrpp.molecular_nuclear_bubble"
   ],
   "note": "Proved for point nuclei, the numerical point nucleus, ball, Gaussian, and the Fermi model in molecules without ghost atoms, hydrogen and helium. False of the code: with the Fermi model a ghost atom, hydrogen or helium makes the estimate of the parameters fail, which the driver ignores (molecular_nuclear_fermi_light, molecular_nuclear_fermi_light_any); with the bubble model the third parameter is never set (molecular_nuclear_bubble, every molecule); undefined behaviour in both cases. Preconditions of C33 and C75; dimension at most 46340. Exact reals; the error of the radial quadrature is part of the bound, as in C75."
  },
  {
   "property": "C101",
   "status": "partial",
   "theorems": [
    "Libgrpp.molecular_overlap_gradient_partial",
    "Libgrpp.molecular_overlap_gradient_s",
    "Libgrpp.molecular_overlap_gradient_undefined",
    "Libgrpp.molecular_grpp_gradient_partial",
    "Libgrpp.molecular_grpp_gradient_s",
    "Libgrpp.molecular_grpp_gradient_undefined"
   ],
   "note": "False as stated: no defined result for the overlap of any molecule with a shell of L>0 and a shell on another atom, and for the pseudopotentials of any molecule with a shell of L>0 away from a pseudopotential (out-of-bounds reads of the library, C24). Otherwise relative to some value being returned by those reads; without that assumption for s shells. L<=8; preconditions of C87; positions of atoms told apart by the comparison of the library; dimension at most 46340. Exact reals."
  },
  {
   "property": "C102",
   "status": "partial",
   "theorems": [
    "Libgrpp.matrix_file_round_trip",
    "Libgrpp.matrix_compare_verdict",
    "Libgrpp.matrix_compare_sound_partial",
    "Libgrpp.matrix_compare_complete",
    "Libgrpp.matrix_file_nan",
    "Libgrpp.matrix_compare_nan",
    "Libgrpp.matrix_file_damaged",
    "Libgrpp.matrix_file_too_large",
    "Libgrpp.matrix_file_out_of_range"
   ],
   "note": "Round trip, exact verdict and completeness hold for all matrices. Soundness is false for NaNs: they are never printed (matrix_file_nan), and a NaN read from a file equals every number (matrix_compare_nan), so that a calculation yielding NaNs can pass the tests; it is proved for finite matrices (matrix_compare_sound_partial). A damaged line silently ends the reading of a file (matrix_file_damaged). Dimension 46341 and more overflows an int (matrix_file_too_large). The conversion of double numbers to decimal digits and back is a parameter with an explicit hypothesis (DecimalIO.Faithful); fopen and calloc succeed."
  },
  {
   "property": "C103",
   "status": "partial",
   "theorems": [
    "Libgrpp.basis_read",
    "Libgrpp.basis_missing",
    "Libgrpp.basis_overrun",
    "Libgrpp.basis_truncated",
    "Libgrpp.molecule_shells",
    "Libgrpp.molecule_shells_missing",
    "Libgrpp.basis_norms",
    "Libgrpp.basis_unit_partial",
    "Libgrpp.basis_unit_false",
    "Libgrpp.basis_to_overlap"
   ],
   "note": "basis_read, molecule_shells: proved for all files and molecules. The comment in basis.c, normalisation to unity, is true for s and p functions only (basis_unit_partial, basis_unit_false). Defects found: a missing entry leads to a null dereference (molecule_shells_missing), a truncated file gives functions made from the data of the previous block (basis_truncated), blocks with more than 100 exponents or functions overrun the arrays (basis_overrun)."
  },
  {
   "property": "C104",
   "status": "partial",
   "theorems": [
    "Libgrpp.grpp_read",
    "Libgrpp.grpp_unique",
    "Libgrpp.grpp_missing",
    "Libgrpp.grpp_unpaired",
    "Libgrpp.grpp_pairs",
    "Libgrpp.grpp_mispaired",
    "Libgrpp.grpp_without_local",
    "Libgrpp.molecule_grpps",
    "Libgrpp.grpp_truncated_core",
    "Libgrpp.grpp_truncated",
    "Libgrpp.grpp_overrun",
    "Libgrpp.grpp_overrun_core",
    "Libgrpp.molecule_grpps_truncated"
   ],
   "note": "grpp_read, molecule_grpps: proved for all files and molecules. That outer-core potentials and functions of the same angular momentum are joined is proved for entries in which their numbers agree for each angular momentum (grpp_pairs); otherwise it is false: they are joined by position, so that a potential can be joined with a function of another angular momentum without a message (grpp_mispaired), and with more potentials than functions an uninitialised pointer is used (grpp_unpaired). An entry without potentials leads to a null dereference (grpp_without_local). If fewer blocks follow than the entry announces, the results of fscanf not being looked at, the behaviour is undefined (grpp_truncated_core, grpp_truncated, molecule_grpps_truncated); so it is with more than 100 terms or exponents in a block (grpp_overrun, grpp_overrun_core). Missing: files that end within a row."
  },
  {
   "property": "C105",
   "status": "partial",
   "theorems": [
    "Libgrpp.program_files",
    "Libgrpp.program_compare_matrix_partial",
    "Libgrpp.program_compare_partial",
    "Libgrpp.program_unknown",
    "Libgrpp.program_unknown_wrong",
    "Libgrpp.program_args",
    "Libgrpp.program_bad_element",
    "Libgrpp.program_missing_basis",
    "Libgrpp.program_overflow"
   ],
   "note": "program_files: proved for all files and all known arguments, for all sixteen calculations, under the preconditions of C98, C100, C101 and C106 (CalcOk); false of the code in the cases of CalcUndefined, where the behaviour of the whole program is undefined (second part of program_files): the Fermi model with ghost atoms, hydrogen or helium, the bubble model, gradients with shells of L>0 on different atoms; the same for an element without a basis set (program_missing_basis) and 46341 basis functions or more (program_overflow). The program_compare theorems need finite references printed and read exactly by the C library, see C102. False of the code: the message on an unknown argument names the first argument instead (program_unknown_wrong)."
  },
  {
   "property": "C106",
   "status": "partial",
   "theorems": [
    "Libgrpp.molecular_type1_gradient_partial",
    "Libgrpp.molecular_type2_gradient_partial",
    "Libgrpp.molecular_so_gradient_partial",
    "Libgrpp.molecular_oc_gradient_partial",
    "Libgrpp.molecular_gradient_terms_add",
    "Libgrpp.molecular_terms_sum",
    "Libgrpp.term_routines_agree",
    "Libgrpp.molecular_type1_gradient_undefined",
    "Libgrpp.molecular_type2_gradient_undefined",
    "Libgrpp.molecular_so_gradient_undefined",
    "Libgrpp.molecular_oc_gradient_undefined"
   ],
   "note": "False as stated for the reason given in C101: no defined result for any molecule with a shell of L>0 away from an atom with a pseudopotential (out-of-bounds reads of the library, C24), for the local and the outer-core routine even if the pseudopotential has no such term. Otherwise relative to some value being returned by those reads; without that assumption for s shells. The sum (molecular_gradient_terms_add) is exact. Preconditions of C101. Exact reals."
  },
  {
   "property": "C107",
   "status": "partial",
   "theorems": [
    "Libgrpp.fortran_cartesians",
    "Libgrpp.fortran_basis_size",
    "Libgrpp.fortran_overlap",
    "Libgrpp.fortran_nuclear",
    "Libgrpp.fortran_grpp_partial",
    "Libgrpp.fortran_outer_core_overflow",
    "Libgrpp.fortran_ghost_atom"
   ],
   "note": "Basis functions, overlap and nuclear attraction (point nuclei) are proved for all molecules within the preconditions of C97 and C100; the pseudopotentials for elements with at most 20 outer-core functions (preconditions of C98). Beyond 20 the local arrays of the Fortran program are overrun, whereas the driver in C succeeds (fortran_outer_core_overflow, with an instance of 21). Ghost atoms (charge 0) have no element in the arrays (fortran_ghost_atom). Starts from the arrays of the modules as the readers leave them. integer variables do not overflow. Exact reals."
  },
  {
   "property": "C108",
   "status": "partial",
   "theorems": [
    "Libgrpp.fortran_gradient_partial",
    "Libgrpp.fortran_gradient_missing",
    "Libgrpp.fortran_gradient_ignores_outer_core",
    "Libgrpp.fortran_gradient_undefined"
   ],
   "note": "False as stated for two reasons. The outer-core potentials are left out (their calls are commented out in evalints.f90): the result is the gradient for the pseudopotentials without them (fortran_gradient_partial), does not depend on them (fortran_gradient_ignores_outer_core), and the driver in C makes the sum of this and its outer-core gradients (fortran_gradient_missing); both agree if there are none. And as in C101 and C106 there is no defined result for any molecule with a shell of L>0 away from an atom with a pseudopotential (fortran_gradient_undefined); the other theorems are relative to some value being returned by the out-of-bounds reads, or to s shells. Starts from the arrays of the modules as the readers leave them, preconditions of C101, L<=9. Exact reals."
  },
  {
   "property": "C109",
   "status": "partial",
   "theorems": [
    "Libgrpp.fortran_read_molecule",
    "Libgrpp.fortran_unknown_symbol",
    "Libgrpp.fortran_symbols",
    "Libgrpp.fortran_symbols_case",
    "Libgrpp.fortran_ghost",
    "Libgrpp.fortran_basis_read",
    "Libgrpp.fortran_main_basis",
    "Libgrpp.fortran_c_shells",
    "Libgrpp.fortran_basis_lost",
    "Libgrpp.fortran_basis_overrun"
   ],
   "note": "Coordinates: proved for all files with known symbols; unknown ones stop the program. Basis sets: reading, normalisation and agreement with the driver in C are proved for all files of entries within the limits in which the last line of every entry has three values, or two of which the second is not an integer (as in all files of the repository). False otherwise: the search for the next header then runs over the end of a line and loses the next entry without a message (fortran_basis_lost). False of the code: entries that do not fit overrun the arrays (fortran_basis_overrun), a missing entry is not noticed (fortran_basis_read), ghost atoms lead to an access outside the arrays (fortran_ghost), the symbol No is unknown (fortran_symbols). The two programs differ on symbols in upper case (fortran_symbols_case) and, with several entries for an element, on which of them counts. List-directed input as described in Model/FortranFiles. Exact reals."
  },
  {
   "property": "C110",
   "status": "partial",
   "theorems": [
    "Libgrpp.fortran_rpp_read",
    "Libgrpp.fortran_rpp_closed",
    "Libgrpp.fortran_main_rpp",
    "Libgrpp.fortran_c_grpps",
    "Libgrpp.fortran_rpp_core_overrun",
    "Libgrpp.fortran_rpp_overrun",
    "Libgrpp.fortran_rpp_charge",
    "Libgrpp.fortran_rpp_stale",
    "Libgrpp.fortran_c_surplus"
   ],
   "note": "Proved for all files whose entries fit into the arrays: the first entry of an element is in the arrays, elements without entry have no pseudopotential, no entry is lost. Proved: equal to the objects of the driver in C when the numbers of outer-core functions and potentials of every angular momentum agree and there is at least one block of potentials; only the angular momentum stored with the local potential differs (0 instead of the number of blocks less one). Two parts of the statement are false and are proved false: entries outside the limits are not rejected but written outside the arrays (fortran_rpp_core_overrun, fortran_rpp_overrun; also for atoms without charge, fortran_rpp_charge); with surplus outer-core functions the Fortran program uses old contents of the arrays as potentials (fortran_rpp_stale) and has more outer-core terms than the driver in C (fortran_c_surplus). Partial: files with lines that do not follow the format are not considered."
  },
  {
   "property": "C111",
   "status": "partial",
   "theorems": [
    "Libgrpp.fortran_matrix_file",
    "Libgrpp.fortran_matrix_lost",
    "Libgrpp.fortran_compare_same",
    "Libgrpp.fortran_compare_sound_partial",
    "Libgrpp.fortran_compare_coarse"
   ],
   "note": "Reading back and the comparison of equal matrices are proved for all matrices. That only matrices which agree within the threshold pass is false: print_matrix leaves out elements up to 1e-10, the same size as the default threshold, so that differences of up to 2e-10 pass which are found between files of the driver in C (fortran_compare_coarse); NaNs are printed as zeros (fortran_matrix_lost). Proved with the larger bound threshold + 1.0001e-10 + rounding (fortran_compare_sound_partial). e30.16 prints 16 digits, not the 17 that are needed; a relative error eps is a parameter."
  },
  {
   "property": "C112",
   "status": "partial",
   "theorems": [
    "Libgrpp.fortran_program_partial",
    "Libgrpp.fortran_program_compare",
    "Libgrpp.fortran_program_undefined",
    "Libgrpp.fortran_program_overflow",
    "Libgrpp.fortran_program_print_basis",
    "Libgrpp.fortran_program_print_ecp",
    "Libgrpp.fortran_program_unknown",
    "Libgrpp.fortran_labels"
   ],
   "note": "Both programs succeed and write the same matrices of pseudopotentials, overlap and nuclear attraction, for all molecules within the limits stated (fortran_program_partial), and compare_matrices finds their files equal (fortran_program_compare). As stated the property is false in five ways. The gradients of the two programs differ by those of the outer-core terms, which the Fortran program leaves out (C108). The program always calculates gradients, and with a shell of L > 0 on an atom other than that of a pseudopotential it has undefined behaviour (fortran_program_undefined). More than 20 outer-core functions overflow a table (fortran_program_overflow). A block with 22 to 30 functions, or 20 outer-core potentials, for which the arrays have room, stops the program at a format that does not fit (fortran_program_print_basis, fortran_program_print_ecp). main.f90 prints counters of elements that do not occur, which are never set; Fresh assumes them to be zero."
  },
  {
   "property": "C113",
   "status": "partial",
   "theorems": [
    "Libgrpp.compare_command",
    "Libgrpp.compare_command_nan",
    "Libgrpp.script_verdict",
    "Libgrpp.test_passed_partial",
    "Libgrpp.test_complete",
    "Libgrpp.test_stale",
    "Libgrpp.test_stale_unknown",
    "Libgrpp.test_stale_molecule",
    "Libgrpp.test_scripts",
    "Libgrpp.test_driver_partial",
    "Libgrpp.test_cs_partial",
    "Libgrpp.test_undefined",
    "Libgrpp.test_kcs_partial",
    "Libgrpp.test_uncovered"
   ],
   "note": "The command line and the verdict of a script are proved exactly (compare_command, script_verdict), for all texts of the files; a NaN or infinite threshold, which the command line accepts, makes the program accept everything (compare_command_nan). That a script passes only if the driver has worked is false: no script looks at the exit status of the driver, and the files of an earlier run are not removed, so that a driver which fails at once (an argument it does not know, a molecule it cannot read, a failed assertion) passes the test after one good run (test_stale, test_stale_unknown, test_stale_molecule). Proved for drivers that finish: if the test passes, each reference is a file of the matrix computed, within 1e-10 + 1e-14, except for elements of the reference that are no numbers (test_passed_partial), and if the matrices agree the test passes (test_complete). For the scripts of the driver in C all files written are compared, under different names (test_scripts), which gives with C105 the statement from the input files to the references (test_driver_partial; test_cs_partial down to the true integrals); for the Fortran program test_kcs_partial, with 2e-10. If the driver reads out of bounds, as in the gradients of H2O, the test has no defined result (test_undefined). No script tests the bubble model, the gradients of parts of the pseudopotential, and the overlap and nuclear-attraction files of the Fortran program (test_uncovered)."
  },
  {
   "property": "C114",
   "status": "partial",
   "theorems": [
    "Libgrpp.screening1_bound_partial",
    "Libgrpp.screening1_exact_partial",
    "Libgrpp.screening1_order_partial",
    "Libgrpp.screening1_discards_large",
    "Libgrpp.screening1_discards_narrow",
    "Libgrpp.screening1_not_a_number",
    "Libgrpp.screening1_gives_up"
   ],
   "note": "False in three ways. Estimates are added with the signs of the coefficients and cancel (screening1_discards_large, k=0). With one positive term the estimate is below any eps although the integral exceeds any M, for narrow functions on both sides of the centre: the maximum is sought to 0.01 only and from a start which ignores directions (screening1_discards_narrow). Success is reported with a NaN for negative powers, and for orders from 4 on with small k (screening1_not_a_number). The search is given up after nine rounds (screening1_gives_up, with an instance at distances of 20 to 33). Proved: for k=0 and order 0 with coefficients that are not negative the estimate bounds the integral, for all powers and exponents (screening1_bound_partial); equal when the power is zero (screening1_exact_partial); zero for orders from 1 on, like the integral (screening1_order_partial). Missing: a bound for k>0 under a condition on the width. The routine is exported but its only call is commented out."
  },
  {
   "property": "C115",
   "status": "partial",
   "theorems": [
    "Libgrpp.driver_memory_clean",
    "Libgrpp.driver_memory_grpp_partial",
    "Libgrpp.driver_memory_grpp_leaks",
    "Libgrpp.driver_memory_grpp_accumulates",
    "Libgrpp.driver_memory_run_partial",
    "Libgrpp.driver_memory_main_partial",
    "Libgrpp.driver_memory_read_grpp",
    "Libgrpp.driver_memory_read_grpp_partial",
    "Libgrpp.driver_memory_read_grpp_undefined",
    "Libgrpp.driver_memory_program_partial",
    "Libgrpp.driver_memory_grpp_contents"
   ],
   "note": "Proved for overlap, kinetic energy, momentum, nuclear attraction and the six gradients (driver_memory_clean). False for the integrals of the pseudopotential: evaluate_grpp_integrals allocates shell_pairs and never frees it, for every input (driver_memory_grpp_leaks); n calculations lose n blocks (driver_memory_grpp_accumulates). Proved for them: no undefined behaviour, and exactly that one block is lost (driver_memory_grpp_partial), also together with any choice of the other calculations (driver_memory_run_partial) and for the whole program from reading the molecule and the basis sets to its cleanup, with given pseudopotentials (driver_memory_main_partial). Reading and deleting a pseudopotential leaves the memory as it was exactly when there are as many outer-core functions as outer-core potentials (driver_memory_read_grpp); each surplus function loses four blocks (driver_memory_read_grpp_partial), and with too few functions a pointer without value is stored (driver_memory_read_grpp_undefined). All together: driver_memory_program_partial counts the blocks lost by the whole program. What the object read holds: driver_memory_grpp_contents. The OpenMP loop is run in order; sizes of blocks (C90) and the blocks of open files are not part of the model."
  },
  {
   "property": "C116",
   "status": "partial",
   "theorems": [
    "Libgrpp.matrix_read_safe",
    "Libgrpp.matrix_compare_safe",
    "Libgrpp.matrix_file_last_line",
    "Libgrpp.matrix_file_negative",
    "Libgrpp.matrix_compare_negative"
   ],
   "note": "Safety and the meaning of repeated lines are proved for all texts (matrix_read_safe, matrix_compare_safe, matrix_file_last_line). That files without a matrix are never found equal is false: a negative dimension is accepted by read_matrix if no entry follows (matrix_file_negative), and two such files are equal for every threshold, whatever else they contain (matrix_compare_negative). Numbers beyond the range of int are excluded (C102 has the overflow of the dimension); calloc succeeds, also for zero elements; the decimal conversion of double numbers is a parameter."
  }
 ]
}
