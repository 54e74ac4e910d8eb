import Verif.Props.Angular
import Verif.Props.BasisFile
import Verif.Props.Bessel
import Verif.Props.Binomial
import Verif.Props.Cartesian
import Verif.Props.Concurrent
import Verif.Props.Dawson
import Verif.Props.DiffShell
import Verif.Props.Driver
import Verif.Props.DriverGradient
import Verif.Props.DriverGrpp
import Verif.Props.DriverHeap
import Verif.Props.DriverNuclear
import Verif.Props.DriverTerms
import Verif.Props.Elements
import Verif.Props.Factorial
import Verif.Props.FermiSk
import Verif.Props.Float
import Verif.Props.Fortran
import Verif.Props.FortranDriver
import Verif.Props.FortranFiles
import Verif.Props.FortranGradient
import Verif.Props.FortranMatrix
import Verif.Props.FortranModule
import Verif.Props.FortranProgram
import Verif.Props.FortranRpp
import Verif.Props.Full
import Verif.Props.FullLib
import Verif.Props.GaussMoment
import Verif.Props.GradientLib
import Verif.Props.Grpp
import Verif.Props.GrppFile
import Verif.Props.GrppGradient
import Verif.Props.GrppTerms
import Verif.Props.GrppTruncated
import Verif.Props.Heap
import Verif.Props.Init
import Verif.Props.LMatrix
import Verif.Props.MatrixFile
import Verif.Props.MatrixSafe
import Verif.Props.Norm
import Verif.Props.NuclearAttraction
import Verif.Props.NuclearModels
import Verif.Props.OneElectron
import Verif.Props.OuterCore
import Verif.Props.OverlapGradient
import Verif.Props.Potential
import Verif.Props.Program
import Verif.Props.QuadError
import Verif.Props.Radial
import Verif.Props.Screening
import Verif.Props.Screening1
import Verif.Props.Shell
import Verif.Props.SpecFun
import Verif.Props.SphericalHarmonics
import Verif.Props.TestScript
import Verif.Props.Type1
import Verif.Props.Type2
import Verif.Props.Utils

/-! Axioms of every theorem listed in MANIFEST.json (printed during the build). -/

#print axioms Libgrpp.binomial_exact_or_zero
#print axioms Libgrpp.binomial_overflow_zero
#print axioms Libgrpp.binomial_gt_zero
#print axioms Libgrpp.binomial_false_zero
#print axioms Libgrpp.factorial_correct
#print axioms Libgrpp.factorial_negative
#print axioms Libgrpp.factorial_ratio_correct
#print axioms Libgrpp.double_factorial_correct
#print axioms Libgrpp.double_factorial_minus_one
#print axioms Libgrpp.double_factorial_abort_iff
#print axioms Libgrpp.cartesian_dirac_complete
#print axioms Libgrpp.cartesian_turbomole_complete
#print axioms Libgrpp.cartesian_orders_agree
#print axioms Libgrpp.lookup_inverts_list
#print axioms Libgrpp.lookup_finds_component
#print axioms Libgrpp.lookup_negative_not_found
#print axioms Libgrpp.new_shell_value
#print axioms Libgrpp.shell_owns_data
#print axioms Libgrpp.deep_copy_equal
#print axioms Libgrpp.shell_shrink_correct
#print axioms Libgrpp.shell_shrink_idempotent
#print axioms Libgrpp.new_potential_terms
#print axioms Libgrpp.shrink_potential_terms
#print axioms Libgrpp.potential_value_eq_sum
#print axioms Libgrpp.create_shrink_value_exact
#print axioms Libgrpp.shrink_after_create_not_noop
#print axioms Libgrpp.shrink_after_create_noop_partial
#print axioms Libgrpp.points_equal_refl
#print axioms Libgrpp.points_equal_symm
#print axioms Libgrpp.points_equal_not_transitive
#print axioms Libgrpp.points_equal_trans_partial
#print axioms Libgrpp.daxpy_correct
#print axioms Libgrpp.multiply_matrices_correct
#print axioms Libgrpp.overlap_true
#print axioms Libgrpp.one_electron_integrable
#print axioms Libgrpp.one_electron_overflow
#print axioms Libgrpp.one_electron_in_bounds_partial
#print axioms Libgrpp.overlap_transpose
#print axioms Libgrpp.one_electron_translation
#print axioms Libgrpp.one_electron_additive
#print axioms Libgrpp.one_electron_scaling
#print axioms Libgrpp.one_electron_order
#print axioms Libgrpp.kinetic_true
#print axioms Libgrpp.kinetic_transpose
#print axioms Libgrpp.momentum_true
#print axioms Libgrpp.momentum_antisymmetric
#print axioms Libgrpp.norm_self_overlap
#print axioms Libgrpp.norm_unit
#print axioms Libgrpp.norm_depends_on_total
#print axioms Libgrpp.diff_shell_derivative
#print axioms Libgrpp.overlap_gradient_true_partial
#print axioms Libgrpp.overlap_gradient_true_s
#print axioms Libgrpp.overlap_gradient_zero
#print axioms Libgrpp.overlap_gradient_restores_shell_partial
#print axioms Libgrpp.overlap_gradient_race
#print axioms Libgrpp.overlap_gradient_visible_change
#print axioms Libgrpp.overlap_gradient_out_of_bounds
#print axioms Libgrpp.overlap_gradient_in_bounds_partial
#print axioms Libgrpp.grpp_gradient_out_of_bounds
#print axioms Libgrpp.grpp_gradient_in_bounds_partial
#print axioms Libgrpp.grpp_gradient_translational_partial
#print axioms Libgrpp.grpp_gradient_two_centres_partial
#print axioms Libgrpp.grpp_gradient_true_partial
#print axioms Libgrpp.grpp_gradient_zero
#print axioms Libgrpp.grpp_gradient_one_case_partial
#print axioms Libgrpp.grpp_gradient_two_formulas
#print axioms Libgrpp.type1_gaussian_true
#print axioms Libgrpp.dropTiny_same
#print axioms Libgrpp.hermite_expansion
#print axioms Libgrpp.hermite_coulomb_table
#print axioms Libgrpp.hermite_inverse_square_table
#print axioms Libgrpp.type1_in_bounds_partial
#print axioms Libgrpp.type1_overflow
#print axioms Libgrpp.type1_aborts
#print axioms Libgrpp.type1_integrals_fail
#print axioms Libgrpp.type1_linear
#print axioms Libgrpp.type1_null
#print axioms Libgrpp.type1_bad_power
#print axioms Libgrpp.type1_uninitialised
#print axioms Libgrpp.point_nucleus
#print axioms Libgrpp.point_nucleus_bilinear
#print axioms Libgrpp.point_nucleus_min_int
#print axioms Libgrpp.point_entry
#print axioms Libgrpp.finite_entry_points_false
#print axioms Libgrpp.finite_entry_points
#print axioms Libgrpp.finite_entry_points_partial
#print axioms Libgrpp.unknown_model
#print axioms Libgrpp.ball_nucleus
#print axioms Libgrpp.gauss_nucleus
#print axioms Libgrpp.gauss_limit_partial
#print axioms Libgrpp.gauss_origin
#print axioms Libgrpp.fermi_nucleus
#print axioms Libgrpp.bubble_zero
#print axioms Libgrpp.init_reported_tables_exist
#print axioms Libgrpp.integral_reads_right_tables
#print axioms Libgrpp.tables_built_at_most_once_partial
#print axioms Libgrpp.bessel_table_rebuilt
#print axioms Libgrpp.init_no_deadlock
#print axioms Libgrpp.init_mutual_exclusion
#print axioms Libgrpp.init_first_never_aborts
#print axioms Libgrpp.tables_race_free_partial
#print axioms Libgrpp.init_flag_race
#print axioms Libgrpp.bessel_table_race
#print axioms Libgrpp.params_last_write_wins
#print axioms Libgrpp.params_bad_order_aborts
#print axioms Libgrpp.params_defaults
#print axioms Libgrpp.params_order_used_by_new_shells
#print axioms Libgrpp.type2_ignores_radial_tolerance
#print axioms Libgrpp.type1_uses_radial_tolerance
#print axioms Libgrpp.grpp_frees_once_partial
#print axioms Libgrpp.grpp_life_returns_iff
#print axioms Libgrpp.grpp_double_free
#print axioms Libgrpp.grpp_add_in_bounds_partial
#print axioms Libgrpp.grpp_add_overflow
#print axioms Libgrpp.full_is_sum
#print axioms Libgrpp.full_requires_init
#print axioms Libgrpp.full_order
#print axioms Libgrpp.type1_gradient_is_full
#print axioms Libgrpp.type2_gradient_is_full
#print axioms Libgrpp.so_gradient_is_full
#print axioms Libgrpp.so_gradient_value_partial
#print axioms Libgrpp.oc_gradient_is_full_partial
#print axioms Libgrpp.angular_momentum_algebra
#print axioms Libgrpp.angular_momentum_short
#print axioms Libgrpp.sphere_monomial_exact
#print axioms Libgrpp.sphere_monomial_formula
#print axioms Libgrpp.sphere_monomial_symmetric
#print axioms Libgrpp.sphere_monomial_unit
#print axioms Libgrpp.angular_type2_abort_iff
#print axioms Libgrpp.angular_no_abort_partial
#print axioms Libgrpp.angular_abort_documented_range
#print axioms Libgrpp.radial_answers_are_full_quadratures
#print axioms Libgrpp.radial_answer_history_independent
#print axioms Libgrpp.radial_finest_grid
#print axioms Libgrpp.radial_terminates_with_verdict
#print axioms Libgrpp.gauss_moment_odd
#print axioms Libgrpp.gauss_moment_even_partial
#print axioms Libgrpp.gauss_moment_aborts
#print axioms Libgrpp.outer_core_projectors
#print axioms Libgrpp.outer_core_cross_terms
#print axioms Libgrpp.outer_core_symmetric
#print axioms Libgrpp.outer_core_moves_shells
#print axioms Libgrpp.outer_core_race
#print axioms Libgrpp.outer_core_sequential_partial
#print axioms Libgrpp.gfun_relation
#print axioms Libgrpp.gfun_relation_exact
#print axioms Libgrpp.gfun_large_exact
#print axioms Libgrpp.boys_in_range_partial
#print axioms Libgrpp.boys_table_end
#print axioms Libgrpp.boys_aborts
#print axioms Libgrpp.chebyshev_series
#print axioms Libgrpp.fermi_sk_in_table
#print axioms Libgrpp.fermi_sk_overflow
#print axioms Libgrpp.fermi_sk_order
#print axioms Libgrpp.fermi_potential_in_table
#print axioms Libgrpp.bessel_derivative_relation
#print axioms Libgrpp.bessel_derivative_routine
#print axioms Libgrpp.bessel_lookups_in_range
#print axioms Libgrpp.bessel_pretabulate_in_range
#print axioms Libgrpp.fortran_shells
#print axioms Libgrpp.fortran_potentials
#print axioms Libgrpp.fortran_gradients
#print axioms Libgrpp.fortran_outer_core_1
#print axioms Libgrpp.fortran_outer_core_2
#print axioms Libgrpp.fortran_parameters
#print axioms Libgrpp.fortran_nuclear_models
#print axioms Libgrpp.fortran_fermi_parameters
#print axioms Libgrpp.schedule_independence
#print axioms Libgrpp.schedule_final_memory
#print axioms Libgrpp.schedule_overlap
#print axioms Libgrpp.grpp_contents
#print axioms Libgrpp.radial_type2_table
#print axioms Libgrpp.radial_type1_table_partial
#print axioms Libgrpp.radial_type1_table_collision
#print axioms Libgrpp.radial_type1_table_overflow
#print axioms Libgrpp.radial_quadrature_converges
#print axioms Libgrpp.type1_true
#print axioms Libgrpp.local_term_weights
#print axioms Libgrpp.local_coulomb_accuracy
#print axioms Libgrpp.boys_table_accuracy
#print axioms Libgrpp.boys_accuracy
#print axioms Libgrpp.gfun_small_accuracy
#print axioms Libgrpp.bubble_nucleus
#print axioms Libgrpp.bubble_norm_pos
#print axioms Libgrpp.estimate_fermi
#print axioms Libgrpp.fermi_sk_table_accuracy
#print axioms Libgrpp.fermi_sk_accuracy_partial
#print axioms Libgrpp.fermi_sk_promise_false
#print axioms Libgrpp.fermi_potential_error
#print axioms Libgrpp.fermi_potential_accuracy
#print axioms Libgrpp.rsh_coefficients_correct
#print axioms Libgrpp.rsh_table_correct
#print axioms Libgrpp.rsh_coefficients_not_tiny
#print axioms Libgrpp.rsh_table_missing
#print axioms Libgrpp.evaluate_rsh_correct
#print axioms Libgrpp.evaluate_rsh_zero_vector
#print axioms Libgrpp.evaluate_rsh_array_correct
#print axioms Libgrpp.rsh_orthonormal
#print axioms Libgrpp.rsh_complete
#print axioms Libgrpp.rsh_plane_wave
#print axioms Libgrpp.angular_type1_correct
#print axioms Libgrpp.angular_type1_plane_wave
#print axioms Libgrpp.angular_type2_correct
#print axioms Libgrpp.bessel_table_accuracy
#print axioms Libgrpp.bessel_accuracy
#print axioms Libgrpp.bessel_accuracy_20
#print axioms Libgrpp.bessel_accuracy_table_range
#print axioms Libgrpp.bessel_high_order_wrong
#print axioms Libgrpp.bessel_large_argument_error
#print axioms Libgrpp.nuclear_numeric
#print axioms Libgrpp.nuclear_radial
#print axioms Libgrpp.nuclear_potentials
#print axioms Libgrpp.angular_momentum_generates
#print axioms Libgrpp.type2_correct
#print axioms Libgrpp.type2_radial_converges
#print axioms Libgrpp.type2_tables
#print axioms Libgrpp.type2_nothing_dropped
#print axioms Libgrpp.type2_one_centre
#print axioms Libgrpp.spin_orbit_correct
#print axioms Libgrpp.spin_orbit_one_centre
#print axioms Libgrpp.semilocal_needs_init
#print axioms Libgrpp.semilocal_no_primitives
#print axioms Libgrpp.outer_core_correct
#print axioms Libgrpp.outer_core_nothing_dropped
#print axioms Libgrpp.outer_core_spinor
#print axioms Libgrpp.outer_core_needs_init
#print axioms Libgrpp.radial_norm_accuracy
#print axioms Libgrpp.radial_norm_out_of_range
#print axioms Libgrpp.dawson_accuracy
#print axioms Libgrpp.gfun_accuracy
#print axioms Libgrpp.local_inverse_square_accuracy
#print axioms Libgrpp.fortran_overlap_of_two
#print axioms Libgrpp.fortran_norm_factor
#print axioms Libgrpp.full_grpp_values
#print axioms Libgrpp.full_grpp_correct
#print axioms Libgrpp.semilocal_spinors
#print axioms Libgrpp.full_grpp_needs_init
#print axioms Libgrpp.full_gradient_correct_partial
#print axioms Libgrpp.full_gradient_correct_s
#print axioms Libgrpp.full_gradient_translational_partial
#print axioms Libgrpp.full_gradient_undefined
#print axioms Libgrpp.screening_discards_large
#print axioms Libgrpp.screening_exact_on_centre_partial
#print axioms Libgrpp.screening_exact_one_centre_partial
#print axioms Libgrpp.quadrature_misses_large
#print axioms Libgrpp.radial_entry_error_partial
#print axioms Libgrpp.type2_error_apriori_partial
#print axioms Libgrpp.quadrature_bounds_exist
#print axioms Libgrpp.quadrature_rate
#print axioms Libgrpp.memory_one_electron
#print axioms Libgrpp.memory_nuclear_attraction
#print axioms Libgrpp.memory_terms
#print axioms Libgrpp.memory_full_grpp
#print axioms Libgrpp.memory_gradients
#print axioms Libgrpp.memory_fortran_potentials
#print axioms Libgrpp.memory_fortran_pairs
#print axioms Libgrpp.memory_objects
#print axioms Libgrpp.finalize_keeps_memory
#print axioms Libgrpp.finalize_cycles_partial
#print axioms Libgrpp.fortran_module_outer_core
#print axioms Libgrpp.fortran_module_not_initialised
#print axioms Libgrpp.fortran_module_gradient_missing
#print axioms Libgrpp.fortran_module_gradient_partial
#print axioms Libgrpp.overlap_rounding
#print axioms Libgrpp.kinetic_rounding
#print axioms Libgrpp.momentum_rounding
#print axioms Libgrpp.ieee_rounds
#print axioms Libgrpp.overlap_double
#print axioms Libgrpp.overlapMaj_s
#print axioms Libgrpp.float_model_exact
#print axioms Libgrpp.potential_rounding
#print axioms Libgrpp.matmul_rounding
#print axioms Libgrpp.daxpy_rounding
#print axioms Libgrpp.matmul_cancellation
#print axioms Libgrpp.molecular_overlap
#print axioms Libgrpp.molecular_kinetic
#print axioms Libgrpp.molecular_momentum
#print axioms Libgrpp.molecular_overlap_nonneg
#print axioms Libgrpp.molecular_kinetic_nonneg
#print axioms Libgrpp.molecular_momentum_antisymmetric
#print axioms Libgrpp.molecular_overlap_overflow
#print axioms Libgrpp.molecular_kinetic_overflow
#print axioms Libgrpp.molecular_grpp
#print axioms Libgrpp.molecular_grpp_deterministic
#print axioms Libgrpp.molecular_grpp_pairs_overflow
#print axioms Libgrpp.element_lookup
#print axioms Libgrpp.element_lookup_case
#print axioms Libgrpp.element_lookup_non_ascii
#print axioms Libgrpp.element_symbol
#print axioms Libgrpp.element_round_trip_partial
#print axioms Libgrpp.element_round_trip_false
#print axioms Libgrpp.element_mass_number_partial
#print axioms Libgrpp.element_mass_number_false
#print axioms Libgrpp.read_molecule_charges
#print axioms Libgrpp.molecular_nuclear_point
#print axioms Libgrpp.molecular_nuclear_numeric
#print axioms Libgrpp.molecular_nuclear_fermi_light
#print axioms Libgrpp.molecular_nuclear_fermi_light_any
#print axioms Libgrpp.molecular_nuclear_bubble
#print axioms Libgrpp.molecular_overlap_gradient_partial
#print axioms Libgrpp.molecular_overlap_gradient_s
#print axioms Libgrpp.molecular_overlap_gradient_undefined
#print axioms Libgrpp.molecular_grpp_gradient_partial
#print axioms Libgrpp.molecular_grpp_gradient_s
#print axioms Libgrpp.molecular_grpp_gradient_undefined
#print axioms Libgrpp.matrix_file_round_trip
#print axioms Libgrpp.matrix_compare_verdict
#print axioms Libgrpp.matrix_compare_sound_partial
#print axioms Libgrpp.matrix_compare_complete
#print axioms Libgrpp.matrix_file_nan
#print axioms Libgrpp.matrix_compare_nan
#print axioms Libgrpp.matrix_file_damaged
#print axioms Libgrpp.matrix_file_too_large
#print axioms Libgrpp.matrix_file_out_of_range
#print axioms Libgrpp.basis_read
#print axioms Libgrpp.basis_missing
#print axioms Libgrpp.basis_overrun
#print axioms Libgrpp.basis_truncated
#print axioms Libgrpp.molecule_shells
#print axioms Libgrpp.molecule_shells_missing
#print axioms Libgrpp.basis_norms
#print axioms Libgrpp.basis_unit_partial
#print axioms Libgrpp.basis_unit_false
#print axioms Libgrpp.basis_to_overlap
#print axioms Libgrpp.grpp_read
#print axioms Libgrpp.grpp_unique
#print axioms Libgrpp.grpp_missing
#print axioms Libgrpp.grpp_unpaired
#print axioms Libgrpp.grpp_pairs
#print axioms Libgrpp.grpp_mispaired
#print axioms Libgrpp.grpp_without_local
#print axioms Libgrpp.molecule_grpps
#print axioms Libgrpp.grpp_truncated_core
#print axioms Libgrpp.grpp_truncated
#print axioms Libgrpp.grpp_overrun
#print axioms Libgrpp.grpp_overrun_core
#print axioms Libgrpp.molecule_grpps_truncated
#print axioms Libgrpp.program_files
#print axioms Libgrpp.program_compare_matrix_partial
#print axioms Libgrpp.program_compare_partial
#print axioms Libgrpp.program_unknown
#print axioms Libgrpp.program_unknown_wrong
#print axioms Libgrpp.program_args
#print axioms Libgrpp.program_bad_element
#print axioms Libgrpp.program_missing_basis
#print axioms Libgrpp.program_overflow
#print axioms Libgrpp.molecular_type1_gradient_partial
#print axioms Libgrpp.molecular_type2_gradient_partial
#print axioms Libgrpp.molecular_so_gradient_partial
#print axioms Libgrpp.molecular_oc_gradient_partial
#print axioms Libgrpp.molecular_gradient_terms_add
#print axioms Libgrpp.molecular_terms_sum
#print axioms Libgrpp.term_routines_agree
#print axioms Libgrpp.molecular_type1_gradient_undefined
#print axioms Libgrpp.molecular_type2_gradient_undefined
#print axioms Libgrpp.molecular_so_gradient_undefined
#print axioms Libgrpp.molecular_oc_gradient_undefined
#print axioms Libgrpp.fortran_cartesians
#print axioms Libgrpp.fortran_basis_size
#print axioms Libgrpp.fortran_overlap
#print axioms Libgrpp.fortran_nuclear
#print axioms Libgrpp.fortran_grpp_partial
#print axioms Libgrpp.fortran_outer_core_overflow
#print axioms Libgrpp.fortran_ghost_atom
#print axioms Libgrpp.fortran_gradient_partial
#print axioms Libgrpp.fortran_gradient_missing
#print axioms Libgrpp.fortran_gradient_ignores_outer_core
#print axioms Libgrpp.fortran_gradient_undefined
#print axioms Libgrpp.fortran_read_molecule
#print axioms Libgrpp.fortran_unknown_symbol
#print axioms Libgrpp.fortran_symbols
#print axioms Libgrpp.fortran_symbols_case
#print axioms Libgrpp.fortran_ghost
#print axioms Libgrpp.fortran_basis_read
#print axioms Libgrpp.fortran_main_basis
#print axioms Libgrpp.fortran_c_shells
#print axioms Libgrpp.fortran_basis_lost
#print axioms Libgrpp.fortran_basis_overrun
#print axioms Libgrpp.fortran_rpp_read
#print axioms Libgrpp.fortran_rpp_closed
#print axioms Libgrpp.fortran_main_rpp
#print axioms Libgrpp.fortran_c_grpps
#print axioms Libgrpp.fortran_rpp_core_overrun
#print axioms Libgrpp.fortran_rpp_overrun
#print axioms Libgrpp.fortran_rpp_charge
#print axioms Libgrpp.fortran_rpp_stale
#print axioms Libgrpp.fortran_c_surplus
#print axioms Libgrpp.fortran_matrix_file
#print axioms Libgrpp.fortran_matrix_lost
#print axioms Libgrpp.fortran_compare_same
#print axioms Libgrpp.fortran_compare_sound_partial
#print axioms Libgrpp.fortran_compare_coarse
#print axioms Libgrpp.fortran_program_partial
#print axioms Libgrpp.fortran_program_compare
#print axioms Libgrpp.fortran_program_undefined
#print axioms Libgrpp.fortran_program_overflow
#print axioms Libgrpp.fortran_program_print_basis
#print axioms Libgrpp.fortran_program_print_ecp
#print axioms Libgrpp.fortran_program_unknown
#print axioms Libgrpp.fortran_labels
#print axioms Libgrpp.compare_command
#print axioms Libgrpp.compare_command_nan
#print axioms Libgrpp.script_verdict
#print axioms Libgrpp.test_passed_partial
#print axioms Libgrpp.test_complete
#print axioms Libgrpp.test_stale
#print axioms Libgrpp.test_stale_unknown
#print axioms Libgrpp.test_stale_molecule
#print axioms Libgrpp.test_scripts
#print axioms Libgrpp.test_driver_partial
#print axioms Libgrpp.test_cs_partial
#print axioms Libgrpp.test_undefined
#print axioms Libgrpp.test_kcs_partial
#print axioms Libgrpp.test_uncovered
#print axioms Libgrpp.screening1_bound_partial
#print axioms Libgrpp.screening1_exact_partial
#print axioms Libgrpp.screening1_order_partial
#print axioms Libgrpp.screening1_discards_large
#print axioms Libgrpp.screening1_discards_narrow
#print axioms Libgrpp.screening1_not_a_number
#print axioms Libgrpp.screening1_gives_up
#print axioms Libgrpp.driver_memory_clean
#print axioms Libgrpp.driver_memory_grpp_partial
#print axioms Libgrpp.driver_memory_grpp_leaks
#print axioms Libgrpp.driver_memory_grpp_accumulates
#print axioms Libgrpp.driver_memory_run_partial
#print axioms Libgrpp.driver_memory_main_partial
#print axioms Libgrpp.driver_memory_read_grpp
#print axioms Libgrpp.driver_memory_read_grpp_partial
#print axioms Libgrpp.driver_memory_read_grpp_undefined
#print axioms Libgrpp.driver_memory_program_partial
#print axioms Libgrpp.driver_memory_grpp_contents
#print axioms Libgrpp.matrix_read_safe
#print axioms Libgrpp.matrix_compare_safe
#print axioms Libgrpp.matrix_file_last_line
#print axioms Libgrpp.matrix_file_negative
#print axioms Libgrpp.matrix_compare_negative
