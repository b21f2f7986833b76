import Verif.Props.AdvanceFloat
import Verif.Props.AdvanceFloatRecovery
import Verif.Props.AdvanceImplicit
import Verif.Props.AdvanceN
import Verif.Props.AdvanceTarget
import Verif.Props.CollateralBasis
import Verif.Props.CollateralBasisExamples
import Verif.Props.Convergence
import Verif.Props.ConvergenceHighOrder
import Verif.Props.ConvergenceOrder
import Verif.Props.Coordinates
import Verif.Props.CoordinatesAdvance
import Verif.Props.CoordinatesExamples
import Verif.Props.CoordinatesGalerkin
import Verif.Props.CoordinatesSampled
import Verif.Props.CustomSchemes
import Verif.Props.Diagnostics
import Verif.Props.ExactGuess
import Verif.Props.Explicit
import Verif.Props.ExplicitMM
import Verif.Props.ExplicitRun
import Verif.Props.ExplicitTry
import Verif.Props.Factory
import Verif.Props.FomStates
import Verif.Props.FullBasis
import Verif.Props.FullBasisAdvance
import Verif.Props.FullBasisExamples
import Verif.Props.FullyDiscrete
import Verif.Props.Galerkin
import Verif.Props.GalerkinError
import Verif.Props.GalerkinErrorExplicit
import Verif.Props.GalerkinObjects
import Verif.Props.GalerkinRun
import Verif.Props.GalerkinRuns
import Verif.Props.GalerkinStability
import Verif.Props.GalerkinTry
import Verif.Props.GaussNewtonConvergence
import Verif.Props.GaussNewtonSemiLocal
import Verif.Props.HypredUpdater
import Verif.Props.Implicit
import Verif.Props.ImplicitJacobian
import Verif.Props.ImplicitNewton
import Verif.Props.ImplicitNewtonRuns
import Verif.Props.ImplicitStability
import Verif.Props.ImplicitStabilityNewton
import Verif.Props.InvariantSpace
import Verif.Props.InvariantSpaceAdvance
import Verif.Props.InvariantSpaceExamples
import Verif.Props.InvariantSpaceMass
import Verif.Props.InvariantSpaceSteady
import Verif.Props.Invariants
import Verif.Props.LeastSquares
import Verif.Props.LevenbergMarquardt
import Verif.Props.LinSolvers
import Verif.Props.LineSearch
import Verif.Props.LinearRom
import Verif.Props.LmConvergence
import Verif.Props.Lspg
import Verif.Props.LspgError
import Verif.Props.LspgGaussNewton
import Verif.Props.LspgInstances
import Verif.Props.LspgReuse
import Verif.Props.LspgRuns
import Verif.Props.MaskEmulates
import Verif.Props.MaskEmulatesExamples
import Verif.Props.MaskEmulatesSteady
import Verif.Props.MassMatrixNewton
import Verif.Props.MassMatrixRuns
import Verif.Props.MassSolved
import Verif.Props.MatrixFree
import Verif.Props.Newton
import Verif.Props.NewtonConvergence
import Verif.Props.Overloads
import Verif.Props.QR
import Verif.Props.Reconstructor
import Verif.Props.RecoveryRuns
import Verif.Props.Restart
import Verif.Props.RestartAdvance
import Verif.Props.RestartExamples
import Verif.Props.SampleMeshExact
import Verif.Props.SampleMeshExactLspg
import Verif.Props.Sampling
import Verif.Props.SamplingExamples
import Verif.Props.Sensitivity
import Verif.Props.Sharing
import Verif.Props.SharingExamples
import Verif.Props.SolverAlike
import Verif.Props.SolverAlikeExamples
import Verif.Props.SolverAlikeQR
import Verif.Props.SolverAlikeRuns
import Verif.Props.SolverMemory
import Verif.Props.SteadyMatrixFree
import Verif.Props.SteadySolve
import Verif.Props.Stencil
import Verif.Props.Subspace
import Verif.Props.Superposition
import Verif.Props.SuperpositionAdvance
import Verif.Props.SuperpositionMass
import Verif.Props.SuperpositionMassImplicit
import Verif.Props.TimeAsState
import Verif.Props.Units
import Verif.Props.UnitsClock
import Verif.Props.UnitsExamples

/-
  Axioms used by every property theorem (expected: at most propext, Classical.choice, Quot.sound).
-/
#print axioms Pressio.Props.C01_advance_n_steps_protocol
#print axioms Pressio.Props.C01_call_counts
#print axioms Pressio.Props.C01_no_steps
#print axioms Pressio.Props.C02_stops_at_first_failure
#print axioms Pressio.Props.C02_failed_step_not_observed
#print axioms Pressio.Props.C03_observer_and_guesser_transparent
#print axioms Pressio.Props.C03_fixed_dt_times
#print axioms Pressio.Props.C03_fixed_is_constant_policy
#print axioms Pressio.Props.C04_splitting_one_step_schemes
#print axioms Pressio.Props.C04_splitting_adams_bashforth_refuted
#print axioms Pressio.Props.C05_target_reached
#print axioms Pressio.Props.C05_trivial_targets
#print axioms Pressio.Props.C06_terminates
#print axioms Pressio.Props.C06_zero_step_never_returns
#print axioms Pressio.Props.C07_minimum_step_size_respected
#print axioms Pressio.Props.C08_recovery_protocol
#print axioms Pressio.Props.C08_no_time_step_failure_escapes
#print axioms Pressio.Props.C09_attempts_bounded
#print axioms Pressio.Props.C09_bound_exists
#print axioms Pressio.Props.C09_always_failing_step_is_abandoned
#print axioms Pressio.Props.C09_recovering_run_terminates
#print axioms Pressio.Props.C09_zero_minimum_never_returns
#print axioms Pressio.Props.C10_overload_without_arguments_does_not_recover_refuted
#print axioms Pressio.Props.C10_overload_without_arguments_single_attempt
#print axioms Pressio.Props.C10_variadic_recovers_partial
#print axioms Pressio.Props.C100_explicit_n_steps
#print axioms Pressio.Props.C100_explicit_target_partial
#print axioms Pressio.Props.C100_implicit_runs
#print axioms Pressio.Props.C100_implicit_n_steps
#print axioms Pressio.Props.C100_implicit_target_partial
#print axioms Pressio.Props.C100_n_steps
#print axioms Pressio.Props.C100_target_partial
#print axioms Pressio.Props.C100_implicit_clock
#print axioms Pressio.Props.C100_mass_matrix_clock
#print axioms Pressio.Props.C100_galerkin_clock
#print axioms Pressio.Props.C100_lspg_clock
#print axioms Pressio.Props.C100_hyper_reduced_lspg_clock
#print axioms Pressio.Props.C100_masked_lspg_clock
#print axioms Pressio.Props.C100_target_refuted
#print axioms Pressio.Props.C101_implicit
#print axioms Pressio.Props.C101_lspg
#print axioms Pressio.Props.C101_warm_start_refuted
#print axioms Pressio.Props.C102_hyperreduced
#print axioms Pressio.Props.C102_masked
#print axioms Pressio.Props.C102_scaled
#print axioms Pressio.Props.C102_masked_jacobian_refuted
#print axioms Pressio.Props.C103_galerkin_implicit
#print axioms Pressio.Props.C103_galerkin_implicit_mass_matrix
#print axioms Pressio.Props.C103_galerkin_explicit
#print axioms Pressio.Props.C103_lspg_gauss_newton
#print axioms Pressio.Props.C103_lspg
#print axioms Pressio.Props.C103_n_steps
#print axioms Pressio.Props.C103_target
#print axioms Pressio.Props.C103_galerkin_basis_refuted
#print axioms Pressio.Props.C104_galerkin_implicit
#print axioms Pressio.Props.C104_lspg_gauss_newton
#print axioms Pressio.Props.C104_lspg
#print axioms Pressio.Props.C104_n_steps
#print axioms Pressio.Props.C104_target
#print axioms Pressio.Props.C104_galerkin_implicit_mass_matrix
#print axioms Pressio.Props.C104_steady_galerkin
#print axioms Pressio.Props.C104_steady_lspg_gauss_newton
#print axioms Pressio.Props.C104_steady_lspg
#print axioms Pressio.Props.C105_implicit
#print axioms Pressio.Props.C105_n_steps
#print axioms Pressio.Props.C105_target
#print axioms Pressio.Props.C105_state_dependent_refuted
#print axioms Pressio.Props.C106_galerkin_implicit
#print axioms Pressio.Props.C106_galerkin_explicit
#print axioms Pressio.Props.C106_lspg
#print axioms Pressio.Props.C106_galerkin_nothing_dropped
#print axioms Pressio.Props.C106_n_steps
#print axioms Pressio.Props.C106_target
#print axioms Pressio.Props.C106_lspg_jacobian_refuted
#print axioms Pressio.Props.C106_steady_galerkin
#print axioms Pressio.Props.C106_steady_lspg
#print axioms Pressio.Props.C107_implicit
#print axioms Pressio.Props.C107_lspg
#print axioms Pressio.Props.C107_n_steps
#print axioms Pressio.Props.C107_n_steps_lspg
#print axioms Pressio.Props.C107_bdf2_refuted
#print axioms Pressio.Props.C108_galerkin_implicit
#print axioms Pressio.Props.C108_masked_implicit
#print axioms Pressio.Props.C108_galerkin_explicit
#print axioms Pressio.Props.C108_steady_galerkin
#print axioms Pressio.Props.C108_lspg
#print axioms Pressio.Props.C108_span_refuted
#print axioms Pressio.Props.C109_time_as_state
#print axioms Pressio.Props.C109_time_as_state_mass
#print axioms Pressio.Props.C109_one_way_coupling
#print axioms Pressio.Props.C11_recovered_run_equals_failure_free_run
#print axioms Pressio.Props.C11_implicit_recovered_run_equals_failure_free_run
#print axioms Pressio.Props.C110_explicit
#print axioms Pressio.Props.C110_implicit
#print axioms Pressio.Props.C110_steady
#print axioms Pressio.Props.C110_masked
#print axioms Pressio.Props.C110_lspg
#print axioms Pressio.Props.C111_superposition
#print axioms Pressio.Props.C111_sensitivity
#print axioms Pressio.Props.C111_superposition_implicit
#print axioms Pressio.Props.C111_superposition_n_steps
#print axioms Pressio.Props.C111_sensitivity_n_steps
#print axioms Pressio.Props.C111_superposition_mass
#print axioms Pressio.Props.C111_superposition_mass_implicit
#print axioms Pressio.Props.C12_no_overflow_below_max
#print axioms Pressio.Props.C12_overflow_at_max
#print axioms Pressio.Props.C13_runge_kutta_step
#print axioms Pressio.Props.C13_runge_kutta_run
#print axioms Pressio.Props.C14_adams_bashforth_run
#print axioms Pressio.Props.C14_runs_do_not_interfere
#print axioms Pressio.Props.C15_linear_problems
#print axioms Pressio.Props.C15_quadratures
#print axioms Pressio.Props.C16_strong_stability
#print axioms Pressio.Props.C16_strong_stability_run
#print axioms Pressio.Props.C17_mass_matrix_runs
#print axioms Pressio.Props.C17_factory_storage
#print axioms Pressio.Props.C18_documented_convention_refuted
#print axioms Pressio.Props.C19_run_is_ideal
#print axioms Pressio.Props.C19_every_evaluation
#print axioms Pressio.Props.C19_bdf1_residual
#print axioms Pressio.Props.C19_bdf2_residual
#print axioms Pressio.Props.C19_cn_residual
#print axioms Pressio.Props.C20_jacobian_is_derivative
#print axioms Pressio.Props.C20_jacobian_is_derivative_mass_matrix
#print axioms Pressio.Props.C20_refuted_state_dependent_mass_matrix
#print axioms Pressio.Props.C21_failed_attempt_has_no_effect
#print axioms Pressio.Props.C21_failure_iff
#print axioms Pressio.Props.C21_arbitrary_failed_attempt_has_no_effect
#print axioms Pressio.Props.C21_mass_matrix_failed_attempt_has_no_effect
#print axioms Pressio.Props.C22_refuted
#print axioms Pressio.Props.C22_other_exceptions_partial
#print axioms Pressio.Props.C22_refuted_crank_nicolson
#print axioms Pressio.Props.C23_bdf_rhs_failure_becomes_step_failure_partial
#print axioms Pressio.Props.C23_refuted_crank_nicolson
#print axioms Pressio.Props.C23_bdf_newton
#print axioms Pressio.Props.C23_refuted_line_search
#print axioms Pressio.Props.C24_reuse_bdf
#print axioms Pressio.Props.C24_reuse_arbitrary_one_state
#print axioms Pressio.Props.C24_refuted_crank_nicolson
#print axioms Pressio.Props.C25_arbitrary_run_is_ideal
#print axioms Pressio.Props.C25_history
#print axioms Pressio.Props.C26_run_is_ideal
#print axioms Pressio.Props.C26_residual
#print axioms Pressio.Props.C26_identity_mass_matrix
#print axioms Pressio.Props.C26_cn_refused
#print axioms Pressio.Props.C27_refuted
#print axioms Pressio.Props.C27_guess_replaces_yn
#print axioms Pressio.Props.C28_partition
#print axioms Pressio.Props.C28_create_explicit
#print axioms Pressio.Props.C28_create_implicit
#print axioms Pressio.Props.C28_create_implicit_mass_matrix
#print axioms Pressio.Props.C28_rom_factories
#print axioms Pressio.Props.C28_rom_factories_throw
#print axioms Pressio.Props.C28_named_factories
#print axioms Pressio.Props.C28_models_agree
#print axioms Pressio.Props.C29_rvalue_system_partial
#print axioms Pressio.Props.C29_members_partial
#print axioms Pressio.Props.C29_members_from_successive_calls
#print axioms Pressio.Props.C29_standard_implicit_members
#print axioms Pressio.Props.C29_refuted
#print axioms Pressio.Props.C30_newton_iterates
#print axioms Pressio.Props.C30_newton_chain
#print axioms Pressio.Props.C31_newton_affine
#print axioms Pressio.Props.C32_newton_other_criteria
#print axioms Pressio.Props.C33_least_squares_normal_return_unconverged
#print axioms Pressio.Props.C33_least_squares_early_return_converged_partial
#print axioms Pressio.Props.C33_newton_normal_return_unconverged
#print axioms Pressio.Props.C33_newton_breakdown_returns
#print axioms Pressio.Props.C33_newton_no_file_means_converged_partial
#print axioms Pressio.Props.C34_gauss_newton_step
#print axioms Pressio.Props.C35_gradient_is_derivative
#print axioms Pressio.Props.C36_least_squares_iterates
#print axioms Pressio.Props.C36_qr_iterates
#print axioms Pressio.Props.C36_after_max_iters
#print axioms Pressio.Props.C36_assemblies_and_updates
#print axioms Pressio.Props.C36_lm_iterates
#print axioms Pressio.Props.C37_backtracking_least_squares
#print axioms Pressio.Props.C37_backtracking_newton
#print axioms Pressio.Props.C37_least_squares_chain
#print axioms Pressio.Props.C38_least_squares_monotone
#print axioms Pressio.Props.C38_objective_nonneg
#print axioms Pressio.Props.C38_newton_monotone
#print axioms Pressio.Props.C38_tie_accepted
#print axioms Pressio.Props.C39_armijo_is_backtracking
#print axioms Pressio.Props.C39_newton_refuses
#print axioms Pressio.Props.C39_armijo_violated
#print axioms Pressio.Props.C39_armijo_updater_partial
#print axioms Pressio.Props.C39_armijo_updater_outcome_partial
#print axioms Pressio.Props.C40_accepts_exactly_decrease
#print axioms Pressio.Props.C40_lm_chain
#print axioms Pressio.Props.C40_lm_monotone
#print axioms Pressio.Props.C41_schedule1
#print axioms Pressio.Props.C41_schedule2
#print axioms Pressio.Props.C41_starts_at_one
#print axioms Pressio.Props.C42_gain_ratio_is_not_predicted
#print axioms Pressio.Props.C42_gain_ratio_sign_partial
#print axioms Pressio.Props.C43_least_squares
#print axioms Pressio.Props.C43_newton
#print axioms Pressio.Props.C44_container
#print axioms Pressio.Props.C44_quotients
#print axioms Pressio.Props.C44_least_squares
#print axioms Pressio.Props.C44_newton
#print axioms Pressio.Props.C44_first_relative
#print axioms Pressio.Props.C45_least_squares_assembly_failure
#print axioms Pressio.Props.C45_newton_assembly_failure
#print axioms Pressio.Props.C45_least_squares_trial_escapes
#print axioms Pressio.Props.C45_least_squares_escape_witness
#print axioms Pressio.Props.C45_newton_failure
#print axioms Pressio.Props.C45_newton_translates
#print axioms Pressio.Props.C45_newton_linesearch_escapes
#print axioms Pressio.Props.C46_map
#print axioms Pressio.Props.C46_map_without_translation
#print axioms Pressio.Props.C46_create_states
#print axioms Pressio.Props.C46_dimension
#print axioms Pressio.Props.C46_dimension_rows
#print axioms Pressio.Props.C47_value_semantics
#print axioms Pressio.Props.C47_view_construction_zeroes_argument
#print axioms Pressio.Props.C47_view_translation_aliased
#print axioms Pressio.Props.C47_basis_snapshot_partial
#print axioms Pressio.Props.C47_copies
#print axioms Pressio.Props.C48_accessors_partial
#print axioms Pressio.Props.C48_basis_undefined
#print axioms Pressio.Props.C49_default_rhs
#print axioms Pressio.Props.C49_default_mass_matrix_rhs
#print axioms Pressio.Props.C49_default_rhs_jacobian
#print axioms Pressio.Props.C49_default_mass_matrix_rhs_jacobian
#print axioms Pressio.Props.C49_hypred_rhs
#print axioms Pressio.Props.C49_hypred_rhs_jacobian
#print axioms Pressio.Props.C49_masked_rhs
#print axioms Pressio.Props.C49_masked_rhs_jacobian
#print axioms Pressio.Props.C49_steady_residual
#print axioms Pressio.Props.C49_steady_residual_jacobian
#print axioms Pressio.Props.C49_steady_apply_jacobian
#print axioms Pressio.Props.C49_steady_hypred
#print axioms Pressio.Props.C49_steady_masked
#print axioms Pressio.Props.C49_steady_hypred_missing
#print axioms Pressio.Props.C49_buffers_do_not_matter
#print axioms Pressio.Props.C49_jacobian_is_derivative
#print axioms Pressio.Props.C49_default_jacobian_is_derivative
#print axioms Pressio.Props.C49_hypred_jacobian_is_derivative
#print axioms Pressio.Props.C49_trial_subspace_object
#print axioms Pressio.Props.C50_projection_of_discretisation
#print axioms Pressio.Props.C50_projection_with_mass_matrix
#print axioms Pressio.Props.C51_exact_on_invariant_subspace
#print axioms Pressio.Props.C51_exact_with_mass_matrix
#print axioms Pressio.Props.C52_new_problem_ready
#print axioms Pressio.Props.C52_other_schemes_refused
#print axioms Pressio.Props.C52_run_is_ideal
#print axioms Pressio.Props.C52_every_evaluation
#print axioms Pressio.Props.C52_is_the_full_order_scheme
#print axioms Pressio.Props.C52_jacobian_is_derivative
#print axioms Pressio.Props.C52_needs_evaluation
#print axioms Pressio.Props.C53_fully_discrete_partial
#print axioms Pressio.Props.C53_fully_discrete_refuted
#print axioms Pressio.Props.C53_fully_discrete_three_states_refuted
#print axioms Pressio.Props.C53_reuse_partial
#print axioms Pressio.Props.C53_stale_state
#print axioms Pressio.Props.C53_refuted
#print axioms Pressio.Props.C53_refuted_after_failure
#print axioms Pressio.Props.C53_reuse_after_run_partial
#print axioms Pressio.Props.C53_step_one_end
#print axioms Pressio.Props.C54_run_is_ideal
#print axioms Pressio.Props.C54_is_restriction
#print axioms Pressio.Props.C55_steady
#print axioms Pressio.Props.C55_steady_jacobian_untouched
#print axioms Pressio.Props.C55_steady_masked
#print axioms Pressio.Props.C55_masked_run_is_ideal
#print axioms Pressio.Props.C55_scaled_run_is_ideal
#print axioms Pressio.Props.C55_scaled_hypred_run_is_ideal
#print axioms Pressio.Props.C56_manager_partial
#print axioms Pressio.Props.C56_pushes
#print axioms Pressio.Props.C56_n_minus_two_refuted
#print axioms Pressio.Props.C56_created_sizes
#print axioms Pressio.Props.C57_lspg_every_evaluation
#print axioms Pressio.Props.C57_accepted_states_only
#print axioms Pressio.Props.C57_new_problem_ready
#print axioms Pressio.Props.C57_first_step_older_state
#print axioms Pressio.Props.C57_lspg_run_is_ideal
#print axioms Pressio.Props.C57_galerkin_run_is_ideal
#print axioms Pressio.Props.C57_hypred_galerkin_run_is_ideal
#print axioms Pressio.Props.C58_linear_operator
#print axioms Pressio.Props.C58_matrix_operator
#print axioms Pressio.Props.C58_forcing_uninitialised
#print axioms Pressio.Props.C58_vector_operator
#print axioms Pressio.Props.C58_exception
#print axioms Pressio.Props.C58_matrix_operator_needs_linear
#print axioms Pressio.Props.C59_semi_discrete
#print axioms Pressio.Props.C59_fully_discrete
#print axioms Pressio.Props.C59_empty_file
#print axioms Pressio.Props.C59_file_round_trip
#print axioms Pressio.Props.C59_blank_line
#print axioms Pressio.Props.C59_malformed_lines
#print axioms Pressio.Props.C59_long_line
#print axioms Pressio.Props.C59_equals_run
#print axioms Pressio.Props.C60_dynamic
#print axioms Pressio.Props.C60_dynamic_views
#print axioms Pressio.Props.C60_same_view_twice
#print axioms Pressio.Props.C60_static
#print axioms Pressio.Props.C60_unavailable
#print axioms Pressio.Props.C60_size
#print axioms Pressio.Props.C60_default_and_moved
#print axioms Pressio.Props.C60_copy_value
#print axioms Pressio.Props.C60_copy_view
#print axioms Pressio.Props.C61_direct
#print axioms Pressio.Props.C61_direct_uninitialised
#print axioms Pressio.Props.C61_iterative_partial
#print axioms Pressio.Props.C61_iterative_solve_with
#print axioms Pressio.Props.C61_iteration_limit
#print axioms Pressio.Props.C61_iterative_reference
#print axioms Pressio.Props.C61_iterative_dangling
#print axioms Pressio.Props.C61_kokkos
#print axioms Pressio.Props.C61_kokkos_overwrite
#print axioms Pressio.Props.C61_geqrf_partial
#print axioms Pressio.Props.C61_geqrf_refuted
#print axioms Pressio.Props.C62_failed_explicit_step_keeps_state
#print axioms Pressio.Props.C62_factory_storage_suffices
#print axioms Pressio.Props.C62_adams_bashforth_retry_refuted
#print axioms Pressio.Props.C62_one_step_schemes_retry
#print axioms Pressio.Props.C63_without_copies_partial
#print axioms Pressio.Props.C63_own_system_partial
#print axioms Pressio.Props.C63_copy_refuted
#print axioms Pressio.Props.C63_copy_values_partial
#print axioms Pressio.Props.C63_problems_do_not_interfere_partial
#print axioms Pressio.Props.C64_lm_damped_minimiser
#print axioms Pressio.Props.C65_refuted_fom_failure_escapes
#print axioms Pressio.Props.C65_solver_failure_partial
#print axioms Pressio.Props.C66_run_is_newton_solves
#print axioms Pressio.Props.C66_newton_iterates
#print axioms Pressio.Props.C66_linear_ode
#print axioms Pressio.Props.C66_linear_two_evaluations
#print axioms Pressio.Props.C67_run_is_least_squares_solves
#print axioms Pressio.Props.C67_hypred_run_is_least_squares_solves
#print axioms Pressio.Props.C67_masked_run_is_least_squares_solves
#print axioms Pressio.Props.C67_scaled_run_is_least_squares_solves
#print axioms Pressio.Props.C67_gauss_newton_iterates
#print axioms Pressio.Props.C67_linear_fom
#print axioms Pressio.Props.C68_mgs_factorization
#print axioms Pressio.Props.C68_mgs_returns_iff
#print axioms Pressio.Props.C68_mgs_overwrites
#print axioms Pressio.Props.C68_refuted_reuse_more_columns
#print axioms Pressio.Props.C68_refuted_reuse_fewer_columns
#print axioms Pressio.Props.C68_mgs_least_squares
#print axioms Pressio.Props.C68_mgs_exact_in_gauss_newton
#print axioms Pressio.Props.C68_gauss_newton_with_mgs
#print axioms Pressio.Props.C68_tsqr_factorization
#print axioms Pressio.Props.C68_refuted_tsqr_reuse
#print axioms Pressio.Props.C68_house_least_squares
#print axioms Pressio.Props.C68_house_exact_in_gauss_newton
#print axioms Pressio.Props.C68_house_unfactored
#print axioms Pressio.Props.C68_class_choice
#print axioms Pressio.Props.C69_update
#print axioms Pressio.Props.C69_outside_stencil
#print axioms Pressio.Props.C69_meets_contract
#print axioms Pressio.Props.C69_hypred_lspg
#print axioms Pressio.Props.C70_advance_n_steps
#print axioms Pressio.Props.C70_observer_like_auxiliary
#print axioms Pressio.Props.C70_advance_to_target_point
#print axioms Pressio.Props.C70_advance_with_recovery
#print axioms Pressio.Props.C70_recovery_without_arguments
#print axioms Pressio.Props.C70_target_overloads_exclusive
#print axioms Pressio.Props.C70_target_observer_like_auxiliary
#print axioms Pressio.Props.C71_auxiliary_arguments_partial
#print axioms Pressio.Props.C71_refuted_temporaries
#print axioms Pressio.Props.C72_explicit_run
#print axioms Pressio.Props.C72_implicit_exact_solves
#print axioms Pressio.Props.C72_implicit_newton
#print axioms Pressio.Props.C73_dependence_on_data
#print axioms Pressio.Props.C74_full_order
#print axioms Pressio.Props.C74_full_order_smooth
#print axioms Pressio.Props.C74_forward_euler
#print axioms Pressio.Props.C74_runge_kutta_rough
#print axioms Pressio.Props.C74_adams_bashforth
#print axioms Pressio.Props.C74_adams_bashforth_constant_step
#print axioms Pressio.Props.C74_linear_systems
#print axioms Pressio.Props.C74_refuted_adams_bashforth_second_order
#print axioms Pressio.Props.C75_bdf1
#print axioms Pressio.Props.C75_bdf1_decay
#print axioms Pressio.Props.C75_bdf2
#print axioms Pressio.Props.C75_crank_nicolson
#print axioms Pressio.Props.C75_crank_nicolson_conserves
#print axioms Pressio.Props.C75_newton_object
#print axioms Pressio.Props.C76_bdf1_monotone
#print axioms Pressio.Props.C76_bdf2_monotone
#print axioms Pressio.Props.C76_crank_nicolson_linear
#print axioms Pressio.Props.C76_bdf1_lipschitz
#print axioms Pressio.Props.C76_crank_nicolson_lipschitz
#print axioms Pressio.Props.C76_bdf2_lipschitz
#print axioms Pressio.Props.C76_bdf2_changing_steps
#print axioms Pressio.Props.C76_refuted_bdf2_second_order
#print axioms Pressio.Props.C76_newton_object_crank_nicolson
#print axioms Pressio.Props.C77_one_step_schemes
#print axioms Pressio.Props.C77_adams_bashforth
#print axioms Pressio.Props.C77_observer_retry_refuted
#print axioms Pressio.Props.C77_clean_failure_retry
#print axioms Pressio.Props.C77_mass_matrix_one_step_schemes
#print axioms Pressio.Props.C77_mass_matrix_adams_bashforth
#print axioms Pressio.Props.C77_solver_retry_refuted
#print axioms Pressio.Props.C77_galerkin_default
#print axioms Pressio.Props.C77_galerkin_hyperreduced
#print axioms Pressio.Props.C77_galerkin_masked
#print axioms Pressio.Props.C77_galerkin_mass_matrix
#print axioms Pressio.Props.C77_galerkin_step
#print axioms Pressio.Props.C78_newton_converges
#print axioms Pressio.Props.C78_smooth_roots_are_regular
#print axioms Pressio.Props.C78_local_convergence
#print axioms Pressio.Props.C79_crank_nicolson
#print axioms Pressio.Props.C79_bdf1
#print axioms Pressio.Props.C79_bdf1_monotone
#print axioms Pressio.Props.C79_bdf2_monotone
#print axioms Pressio.Props.C79_bdf2
#print axioms Pressio.Props.C79_dissipative
#print axioms Pressio.Props.C79_crank_nicolson_order_two
#print axioms Pressio.Props.C79_bdf2_order_two
#print axioms Pressio.Props.C80_isometry
#print axioms Pressio.Props.C80_velocity_optimal
#print axioms Pressio.Props.C80_defect_optimal
#print axioms Pressio.Props.C80_dissipative
#print axioms Pressio.Props.C80_monotone
#print axioms Pressio.Props.C80_lipschitz
#print axioms Pressio.Props.C80_bdf1
#print axioms Pressio.Props.C80_bdf2
#print axioms Pressio.Props.C80_crank_nicolson
#print axioms Pressio.Props.C80_newton_object
#print axioms Pressio.Props.C80_refuted_hyperreduced
#print axioms Pressio.Props.C80_mass_matrix_bdf1
#print axioms Pressio.Props.C80_mass_matrix_bdf2
#print axioms Pressio.Props.C80_mass_matrix_velocity_optimal
#print axioms Pressio.Props.C81_bdf1_monotone
#print axioms Pressio.Props.C81_bdf2_monotone
#print axioms Pressio.Props.C81_bdf1_lipschitz
#print axioms Pressio.Props.C81_crank_nicolson_lipschitz
#print axioms Pressio.Props.C81_bdf2_lipschitz
#print axioms Pressio.Props.C81_default_galerkin_model
#print axioms Pressio.Props.C81_hyperreduced_galerkin_model
#print axioms Pressio.Props.C81_masked_galerkin_model
#print axioms Pressio.Props.C81_explicit
#print axioms Pressio.Props.C81_explicit_default_galerkin
#print axioms Pressio.Props.C81_explicit_hyperreduced_model
#print axioms Pressio.Props.C81_explicit_masked_model
#print axioms Pressio.Props.C81_mass_matrix_bdf1
#print axioms Pressio.Props.C81_mass_matrix_bdf2
#print axioms Pressio.Props.C82_residual_of_last_evaluation
#print axioms Pressio.Props.C82_bdf1_dissipative
#print axioms Pressio.Props.C82_bdf2_dissipative
#print axioms Pressio.Props.C82_bdf1_monotone
#print axioms Pressio.Props.C82_bdf2_monotone
#print axioms Pressio.Props.C82_bdf1_lipschitz
#print axioms Pressio.Props.C82_bdf2_lipschitz
#print axioms Pressio.Props.C82_gauss_newton_contraction
#print axioms Pressio.Props.C82_gauss_newton_stable
#print axioms Pressio.Props.C82_gauss_newton_leaves_best
#print axioms Pressio.Props.C82_gauss_newton_error
#print axioms Pressio.Props.C82_solver_object_runs
#print axioms Pressio.Props.C83_exact
#print axioms Pressio.Props.C83_stops_at_first_reached
#print axioms Pressio.Props.C83_never_returns
#print axioms Pressio.Props.C83_nan_target_never_returns
#print axioms Pressio.Props.C83_nan_step_never_returns
#print axioms Pressio.Props.C83_absorbed_step_never_returns
#print axioms Pressio.Props.C83_terminates
#print axioms Pressio.Props.C83_time_error
#print axioms Pressio.Props.C83_number_of_steps_partial
#print axioms Pressio.Props.C83_number_of_steps_refuted
#print axioms Pressio.Props.C83_nan_factor_retries_forever
#print axioms Pressio.Props.C84_bdf1
#print axioms Pressio.Props.C84_bdf2
#print axioms Pressio.Props.C84_bdf1_converges
#print axioms Pressio.Props.C84_bdf2_converges
#print axioms Pressio.Props.C84_bdf1_lipschitz
#print axioms Pressio.Props.C84_bdf2_lipschitz
#print axioms Pressio.Props.C85_rounding
#print axioms Pressio.Props.C85_operators
#print axioms Pressio.Props.C85_special_operators
#print axioms Pressio.Props.C85_epsilon
#print axioms Pressio.Props.C85_largest
#print axioms Pressio.Props.C85_run
#print axioms Pressio.Props.C85_checked
#print axioms Pressio.Props.C85_always_failing
#print axioms Pressio.Props.C85_abandoned
#print axioms Pressio.Props.C85_terminates
#print axioms Pressio.Props.C85_zero_minimum_retries_forever
#print axioms Pressio.Props.C85_infinite_size_retries_forever
#print axioms Pressio.Props.C85_positive_minimum_refuted
#print axioms Pressio.Props.C86_minimises_plain
#print axioms Pressio.Props.C86_minimises_weighted
#print axioms Pressio.Props.C86_minimises_compact
#print axioms Pressio.Props.C86_gauss_newton_converges
#print axioms Pressio.Props.C86_gauss_newton_qr_converges
#print axioms Pressio.Props.C86_smooth_fits_are_regular
#print axioms Pressio.Props.C86_local_convergence
#print axioms Pressio.Props.C86_large_residual_cycles
#print axioms Pressio.Props.C86_from_small_residual
#print axioms Pressio.Props.C86_qr_from_small_residual
#print axioms Pressio.Props.C87_zero_reference_is_never_met
#print axioms Pressio.Props.C87_newton_absolute_partial
#print axioms Pressio.Props.C87_newton_relative_refuted
#print axioms Pressio.Props.C87_least_squares_absolute_partial
#print axioms Pressio.Props.C87_least_squares_relative_refuted
#print axioms Pressio.Props.C88_schedule1_finds
#print axioms Pressio.Props.C88_schedule1_reaches_minimiser
#print axioms Pressio.Props.C88_schedule2_finds_partial
#print axioms Pressio.Props.C88_schedule2_stuck
#print axioms Pressio.Props.C89_solve_is_memoryless
#print axioms Pressio.Props.C89_galerkin_problem
#print axioms Pressio.Props.C89_hyperreduced_galerkin_problem
#print axioms Pressio.Props.C89_masked_galerkin_problem
#print axioms Pressio.Props.C89_lspg_problem
#print axioms Pressio.Props.C89_masked_lspg_problem
#print axioms Pressio.Props.C89_galerkin_quasi_optimal
#print axioms Pressio.Props.C89_galerkin_exact
#print axioms Pressio.Props.C89_galerkin_newton_linear
#print axioms Pressio.Props.C89_galerkin_newton
#print axioms Pressio.Props.C89_galerkin_energy
#print axioms Pressio.Props.C89_lspg_quasi_optimal
#print axioms Pressio.Props.C89_lspg_gauss_newton_linear
#print axioms Pressio.Props.C89_lspg_gauss_newton_qr_linear
#print axioms Pressio.Props.C89_galerkin_needs_ellipticity
#print axioms Pressio.Props.C90_is_newton
#print axioms Pressio.Props.C90_iterates
#print axioms Pressio.Props.C90_update_option_ignored
#print axioms Pressio.Props.C90_no_memory
#print axioms Pressio.Props.C90_other_criteria
#print axioms Pressio.Props.C90_failure
#print axioms Pressio.Props.C90_inexact_converges
#print axioms Pressio.Props.C90_inexact_linear
#print axioms Pressio.Props.C90_local_convergence
#print axioms Pressio.Props.C90_update_option_witness
#print axioms Pressio.Props.C91_residual
#print axioms Pressio.Props.C91_action
#print axioms Pressio.Props.C91_galerkin
#print axioms Pressio.Props.C91_hyperreduced_unsupported
#print axioms Pressio.Props.C91_galerkin_linear
#print axioms Pressio.Props.C92_n_steps
#print axioms Pressio.Props.C92_target
#print axioms Pressio.Props.C92_runs
#print axioms Pressio.Props.C92_n_steps_returns
#print axioms Pressio.Props.C92_target_returns
#print axioms Pressio.Props.C92_target_crank_nicolson
#print axioms Pressio.Props.C92_target_bdf1_monotone
#print axioms Pressio.Props.C92_target_dissipative
#print axioms Pressio.Props.C92_crank_nicolson_order_two
#print axioms Pressio.Props.C92_bdf2_order_two
#print axioms Pressio.Props.C93_run
#print axioms Pressio.Props.C93_qr_run
#print axioms Pressio.Props.C93_leaves_residuals
#print axioms Pressio.Props.C93_bdf1
#print axioms Pressio.Props.C93_bdf1_monotone
#print axioms Pressio.Props.C93_bdf2
#print axioms Pressio.Props.C93_target
#print axioms Pressio.Props.C93_n_steps
#print axioms Pressio.Props.C94_run_is_newton_solves
#print axioms Pressio.Props.C94_newton_iterates
#print axioms Pressio.Props.C94_same_run
#print axioms Pressio.Props.C94_bdf1_monotone
#print axioms Pressio.Props.C94_bdf2_monotone
#print axioms Pressio.Props.C94_bdf1
#print axioms Pressio.Props.C94_bdf2
#print axioms Pressio.Props.C94_dissipative
#print axioms Pressio.Props.C94_target
#print axioms Pressio.Props.C94_n_steps
#print axioms Pressio.Props.C95_best
#print axioms Pressio.Props.C95_bdf1_monotone
#print axioms Pressio.Props.C95_bdf2_monotone
#print axioms Pressio.Props.C95_bdf1
#print axioms Pressio.Props.C95_crank_nicolson
#print axioms Pressio.Props.C95_bdf2
#print axioms Pressio.Props.C95_target
#print axioms Pressio.Props.C95_n_steps
#print axioms Pressio.Props.C96_n_steps_alike
#print axioms Pressio.Props.C96_target_alike
#print axioms Pressio.Props.C96_custom_scheme
#print axioms Pressio.Props.C96_custom_newton
#print axioms Pressio.Props.C96_custom_n_steps
#print axioms Pressio.Props.C96_custom_target
#print axioms Pressio.Props.C96_hypred_lspg
#print axioms Pressio.Props.C96_lspg
#print axioms Pressio.Props.C96_lspg_target
#print axioms Pressio.Props.C96_galerkin
#print axioms Pressio.Props.C96_galerkin_target
#print axioms Pressio.Props.C96_galerkin_not_orthonormal_refuted
#print axioms Pressio.Props.C97_recovery
#print axioms Pressio.Props.C97_recovery_implicit
#print axioms Pressio.Props.C97_affine_decisive
#print axioms Pressio.Props.C97_bdf1_monotone
#print axioms Pressio.Props.C97_bdf1_dissipative
#print axioms Pressio.Props.C97_no_room_aborts
#print axioms Pressio.Props.C98_identity_weights
#print axioms Pressio.Props.C98_identity_compact
#print axioms Pressio.Props.C98_weighted_is_scaled
#print axioms Pressio.Props.C98_compact_is_scaled
#print axioms Pressio.Props.C98_qr_is_normal_equations
#print axioms Pressio.Props.C98_gauss_newton_is_newton
#print axioms Pressio.Props.C98_mgs_factors
#print axioms Pressio.Props.C98_house_factors
#print axioms Pressio.Props.C98_residual_criterion_ignores_weights
#print axioms Pressio.Props.C98_n_steps
#print axioms Pressio.Props.C98_target
#print axioms Pressio.Props.C98_implicit_runs
#print axioms Pressio.Props.C98_implicit_n_steps
#print axioms Pressio.Props.C98_implicit_target
#print axioms Pressio.Props.C98_lspg_qr_runs
#print axioms Pressio.Props.C98_lspg_qr_target
#print axioms Pressio.Props.C98_lspg_identity_weights
#print axioms Pressio.Props.C99_gauss_newton
#print axioms Pressio.Props.C99_weighted
#print axioms Pressio.Props.C99_levenberg_marquardt
#print axioms Pressio.Props.C99_newton
#print axioms Pressio.Props.C99_lspg_runs
#print axioms Pressio.Props.C99_n_steps
#print axioms Pressio.Props.C99_target
#print axioms Pressio.Props.C99_correction_criterion_refuted
#print axioms Pressio.Props.C99_levenberg_marquardt_refuted
#print axioms Pressio.Props.C99_galerkin_basis_refuted
#print axioms Pressio.Props.C99_galerkin_implicit
#print axioms Pressio.Props.C99_galerkin_implicit_mass_matrix
#print axioms Pressio.Props.C99_galerkin_explicit
#print axioms Pressio.Props.C99_galerkin_explicit_mass_matrix
#print axioms Pressio.Props.C99_hyper_reduced_lspg_runs
#print axioms Pressio.Props.C99_masked_lspg_runs
