{
 "claims": [
  {
   "property": "C01",
   "status": "proved",
   "theorems": [
    "Pressio.Props.C01_advance_n_steps_protocol",
    "Pressio.Props.C01_call_counts",
    "Pressio.Props.C01_no_steps"
   ],
   "note": "Exact characterisation of the normally returning runs (iff) for every scalar type with an addition; N <= 0 and call counts separately."
  },
  {
   "property": "C02",
   "status": "proved",
   "theorems": [
    "Pressio.Props.C02_stops_at_first_failure",
    "Pressio.Props.C02_failed_step_not_observed"
   ],
   "note": "All abnormal outcomes; the failing call is identified and nothing is called after it."
  },
  {
   "property": "C03",
   "status": "proved",
   "theorems": [
    "Pressio.Props.C03_observer_and_guesser_transparent",
    "Pressio.Props.C03_fixed_dt_times",
    "Pressio.Props.C03_fixed_is_constant_policy"
   ],
   "note": "Overloads without observer/guesser and with fixed size."
  },
  {
   "property": "C04",
   "status": "partial",
   "theorems": [
    "Pressio.Props.C04_splitting_one_step_schemes",
    "Pressio.Props.C04_splitting_adams_bashforth_refuted"
   ],
   "note": "Proved for the one-step schemes with every step size that is a function of time; refuted for AdamsBashforth2 with a concrete witness (the property as stated says so)."
  },
  {
   "property": "C05",
   "status": "proved",
   "theorems": [
    "Pressio.Props.C05_target_reached",
    "Pressio.Props.C05_trivial_targets"
   ],
   "note": "Both recovering and non-recovering loops."
  },
  {
   "property": "C06",
   "status": "proved",
   "theorems": [
    "Pressio.Props.C06_terminates",
    "Pressio.Props.C06_zero_step_never_returns"
   ],
   "note": "Termination bound, and non-termination for size 0 (runs into overflow of the 32-bit counter)."
  },
  {
   "property": "C07",
   "status": "proved",
   "theorems": [
    "Pressio.Props.C07_minimum_step_size_respected"
   ],
   "note": "For every outcome, including unbounded runs."
  },
  {
   "property": "C08",
   "status": "proved",
   "theorems": [
    "Pressio.Props.C08_recovery_protocol",
    "Pressio.Props.C08_no_time_step_failure_escapes"
   ],
   "note": "Complete case analysis of the abnormal outcomes; normal ones in C05."
  },
  {
   "property": "C09",
   "status": "proved",
   "theorems": [
    "Pressio.Props.C09_attempts_bounded",
    "Pressio.Props.C09_bound_exists",
    "Pressio.Props.C09_always_failing_step_is_abandoned",
    "Pressio.Props.C09_recovering_run_terminates",
    "Pressio.Props.C09_zero_minimum_never_returns"
   ],
   "note": "Bound on attempts, abandonment, termination of the whole run, divergence for minimum 0."
  },
  {
   "property": "C10",
   "status": "partial",
   "theorems": [
    "Pressio.Props.C10_overload_without_arguments_does_not_recover_refuted",
    "Pressio.Props.C10_overload_without_arguments_single_attempt",
    "Pressio.Props.C10_variadic_recovers_partial"
   ],
   "note": "The property is false of the code: refuted with a concrete witness; proved for the overloads with extra arguments."
  },
  {
   "property": "C11",
   "status": "proved",
   "theorems": [
    "Pressio.Props.C11_recovered_run_equals_failure_free_run",
    "Pressio.Props.C11_implicit_recovered_run_equals_failure_free_run"
   ],
   "note": "For every stepper meeting the explicit failure-transparency contract."
  },
  {
   "property": "C12",
   "status": "proved",
   "theorems": [
    "Pressio.Props.C12_no_overflow_below_max",
    "Pressio.Props.C12_overflow_at_max",
    "Pressio.Props.C06_zero_step_never_returns"
   ],
   "note": "n-steps: no overflow below the maximum, overflow at it; target point: overflow of a stalled run."
  },
  {
   "property": "C13",
   "status": "proved",
   "theorems": [
    "Pressio.Props.C13_runge_kutta_step",
    "Pressio.Props.C13_runge_kutta_run"
   ],
   "note": "One step (including the stages reported to the observer) and whole runs with any step-size policy; any field of characteristic 0, any module."
  },
  {
   "property": "C14",
   "status": "proved",
   "theorems": [
    "Pressio.Props.C14_adams_bashforth_run",
    "Pressio.Props.C14_runs_do_not_interfere"
   ],
   "note": "Whole runs with any step-size policy, independent of the initial memory."
  },
  {
   "property": "C15",
   "status": "proved",
   "theorems": [
    "Pressio.Props.C15_linear_problems",
    "Pressio.Props.C15_quadratures"
   ],
   "note": "Linear systems (Taylor polynomial of exp(hA)) and polynomial quadratures, through the model's step function."
  },
  {
   "property": "C16",
   "status": "proved",
   "theorems": [
    "Pressio.Props.C16_strong_stability",
    "Pressio.Props.C16_strong_stability_run"
   ],
   "note": "Single steps and runs; any convex functional on a real vector space."
  },
  {
   "property": "C17",
   "status": "proved",
   "theorems": [
    "Pressio.Props.C17_mass_matrix_runs",
    "Pressio.Props.C17_factory_storage"
   ],
   "note": "All four schemes, all runs."
  },
  {
   "property": "C18",
   "status": "partial",
   "theorems": [
    "Pressio.Props.C18_documented_convention_refuted",
    "Pressio.Props.C17_mass_matrix_runs"
   ],
   "note": "False of the code: refuted for every system and every solver following solve(A,b,x).  The positive part (the convention solve(M,x,f)) is C17."
  },
  {
   "property": "C19",
   "status": "proved",
   "theorems": [
    "Pressio.Props.C19_run_is_ideal",
    "Pressio.Props.C19_every_evaluation",
    "Pressio.Props.C19_bdf1_residual",
    "Pressio.Props.C19_bdf2_residual",
    "Pressio.Props.C19_cn_residual"
   ],
   "note": "Every evaluation in every run (any solver, any failures) is the textbook BDF1/BDF2/CN residual at the accepted states."
  },
  {
   "property": "C20",
   "status": "proved",
   "theorems": [
    "Pressio.Props.C20_jacobian_is_derivative",
    "Pressio.Props.C20_jacobian_is_derivative_mass_matrix",
    "Pressio.Props.C20_refuted_state_dependent_mass_matrix"
   ],
   "note": "Frechet derivative of the residual of the same evaluation; refuted for state-dependent mass matrices, which the statement does not claim."
  },
  {
   "property": "C21",
   "status": "proved",
   "theorems": [
    "Pressio.Props.C21_failed_attempt_has_no_effect",
    "Pressio.Props.C21_failure_iff",
    "Pressio.Props.C21_arbitrary_failed_attempt_has_no_effect",
    "Pressio.Props.C21_mass_matrix_failed_attempt_has_no_effect"
   ],
   "note": "Standard, mass-matrix and user-defined schemes; any solver."
  },
  {
   "property": "C22",
   "status": "partial",
   "theorems": [
    "Pressio.Props.C22_refuted",
    "Pressio.Props.C22_other_exceptions_partial",
    "Pressio.Props.C22_refuted_crank_nicolson"
   ],
   "note": "False of the code: refuted for exceptions other than solver failures; the part that holds is proved."
  },
  {
   "property": "C23",
   "status": "partial",
   "theorems": [
    "Pressio.Props.C23_bdf_rhs_failure_becomes_step_failure_partial",
    "Pressio.Props.C23_refuted_crank_nicolson",
    "Pressio.Props.C23_bdf_newton",
    "Pressio.Props.C23_refuted_line_search"
   ],
   "note": "Proved for BDF1/BDF2 with any solver that gives up on residual failures, in particular pressio's Newton with standard updates (C23_bdf_newton); refuted for CrankNicolson and for Newton with a line search (C23_refuted_line_search)."
  },
  {
   "property": "C24",
   "status": "partial",
   "theorems": [
    "Pressio.Props.C24_reuse_bdf",
    "Pressio.Props.C24_reuse_arbitrary_one_state",
    "Pressio.Props.C24_refuted_crank_nicolson"
   ],
   "note": "Proved for BDF1/BDF2 and one-state user-defined schemes; refuted for CrankNicolson."
  },
  {
   "property": "C25",
   "status": "proved",
   "theorems": [
    "Pressio.Props.C25_arbitrary_run_is_ideal",
    "Pressio.Props.C25_history"
   ],
   "note": "All runs, any number of states."
  },
  {
   "property": "C26",
   "status": "proved",
   "theorems": [
    "Pressio.Props.C26_run_is_ideal",
    "Pressio.Props.C26_residual",
    "Pressio.Props.C26_identity_mass_matrix",
    "Pressio.Props.C26_cn_refused"
   ],
   "note": "All runs; CrankNicolson with mass matrix is refused at evaluation."
  },
  {
   "property": "C27",
   "status": "partial",
   "theorems": [
    "Pressio.Props.C27_refuted",
    "Pressio.Props.C27_guess_replaces_yn"
   ],
   "note": "False of the code: refuted with a concrete witness; what the guesser really changes is characterised."
  },
  {
   "property": "C28",
   "status": "proved",
   "theorems": [
    "Pressio.Props.C28_partition",
    "Pressio.Props.C28_create_explicit",
    "Pressio.Props.C28_create_implicit",
    "Pressio.Props.C28_create_implicit_mass_matrix",
    "Pressio.Props.C28_rom_factories",
    "Pressio.Props.C28_rom_factories_throw",
    "Pressio.Props.C28_named_factories",
    "Pressio.Props.C28_models_agree"
   ],
   "note": "Complete decision tables, debug and release builds."
  },
  {
   "property": "C29",
   "status": "partial",
   "theorems": [
    "Pressio.Props.C29_rvalue_system_partial",
    "Pressio.Props.C29_members_partial",
    "Pressio.Props.C29_members_from_successive_calls",
    "Pressio.Props.C29_standard_implicit_members",
    "Pressio.Props.C29_refuted"
   ],
   "note": "False of the code: refuted for every non-empty grid; proved for the standard implicit steppers and for move-safe systems."
  },
  {
   "property": "C30",
   "status": "proved",
   "theorems": [
    "Pressio.Props.C30_newton_iterates",
    "Pressio.Props.C30_newton_chain"
   ],
   "note": "Function-given systems exactly (iterates, counts, stopping); failing systems and stateful linear solvers as a chain of updates."
  },
  {
   "property": "C31",
   "status": "proved",
   "theorems": [
    "Pressio.Props.C31_newton_affine"
   ],
   "note": "Every affine system with injective matrix; the relative criterion started at the solution is shown separately."
  },
  {
   "property": "C32",
   "status": "partial",
   "theorems": [
    "Pressio.Props.C32_newton_other_criteria"
   ],
   "note": "False of the code: refuted for Newton for every system; all criteria work for the least-squares solvers (C36_least_squares_iterates)."
  },
  {
   "property": "C33",
   "status": "partial",
   "theorems": [
    "Pressio.Props.C33_least_squares_normal_return_unconverged",
    "Pressio.Props.C33_least_squares_early_return_converged_partial",
    "Pressio.Props.C33_newton_normal_return_unconverged",
    "Pressio.Props.C33_newton_breakdown_returns",
    "Pressio.Props.C33_newton_no_file_means_converged_partial"
   ],
   "note": "False of the code: refuted for Newton and least squares; what a normal return does tell is proved."
  },
  {
   "property": "C34",
   "status": "proved",
   "theorems": [
    "Pressio.Props.C34_gauss_newton_step"
   ],
   "note": "All four Gauss-Newton variants, any system and any way the solve ends."
  },
  {
   "property": "C35",
   "status": "proved",
   "theorems": [
    "Pressio.Props.C35_gradient_is_derivative"
   ],
   "note": "For the plain and the weighted residual, over the reals."
  },
  {
   "property": "C36",
   "status": "proved",
   "theorems": [
    "Pressio.Props.C36_least_squares_iterates",
    "Pressio.Props.C36_qr_iterates",
    "Pressio.Props.C36_after_max_iters",
    "Pressio.Props.C36_assemblies_and_updates",
    "Pressio.Props.C36_lm_iterates"
   ],
   "note": "Exact iterates for standard updates; counts for all updates, systems and inner solvers."
  },
  {
   "property": "C37",
   "status": "proved",
   "theorems": [
    "Pressio.Props.C37_backtracking_least_squares",
    "Pressio.Props.C37_backtracking_newton",
    "Pressio.Props.C37_least_squares_chain"
   ],
   "note": "Line search of least-squares and Newton solvers and the chain of a whole solve."
  },
  {
   "property": "C38",
   "status": "proved",
   "theorems": [
    "Pressio.Props.C38_least_squares_monotone",
    "Pressio.Props.C38_objective_nonneg",
    "Pressio.Props.C38_newton_monotone",
    "Pressio.Props.C38_tie_accepted"
   ],
   "note": "Whole solve, however it ends."
  },
  {
   "property": "C39",
   "status": "partial",
   "theorems": [
    "Pressio.Props.C39_armijo_is_backtracking",
    "Pressio.Props.C39_newton_refuses",
    "Pressio.Props.C39_armijo_violated",
    "Pressio.Props.C39_armijo_updater_partial",
    "Pressio.Props.C39_armijo_updater_outcome_partial"
   ],
   "note": "False of the code: selecting Armijo for a least-squares solver runs backtracking, and for Newton throws (C39_armijo_is_backtracking, C39_armijo_violated, C39_newton_refuses). The Armijo updater itself (never reached) enforces the condition (C39_armijo_updater_partial) and follows Armijo's rule in every respect (C39_armijo_updater_outcome_partial)."
  },
  {
   "property": "C40",
   "status": "proved",
   "theorems": [
    "Pressio.Props.C40_accepts_exactly_decrease",
    "Pressio.Props.C40_lm_chain",
    "Pressio.Props.C40_lm_monotone"
   ],
   "note": "Both schedules, per update and over whole solves; the equation c solves and c.Hc > 0 are hypotheses of the property itself."
  },
  {
   "property": "C41",
   "status": "proved",
   "theorems": [
    "Pressio.Props.C41_schedule1",
    "Pressio.Props.C41_schedule2",
    "Pressio.Props.C41_starts_at_one"
   ],
   "note": "Any system and inner solver."
  },
  {
   "property": "C42",
   "status": "partial",
   "theorems": [
    "Pressio.Props.C42_gain_ratio_is_not_predicted",
    "Pressio.Props.C42_gain_ratio_sign_partial"
   ],
   "note": "False of the code: C42_gain_ratio_is_not_predicted; the sign is right (C42_gain_ratio_sign_partial)."
  },
  {
   "property": "C43",
   "status": "proved",
   "theorems": [
    "Pressio.Props.C43_least_squares",
    "Pressio.Props.C43_newton"
   ],
   "note": "Inner linear solver assumed not to depend on its earlier calls (NoWarmStart)."
  },
  {
   "property": "C44",
   "status": "proved",
   "theorems": [
    "Pressio.Props.C44_container",
    "Pressio.Props.C44_quotients",
    "Pressio.Props.C44_least_squares",
    "Pressio.Props.C44_newton",
    "Pressio.Props.C44_first_relative"
   ],
   "note": "Newton and least squares."
  },
  {
   "property": "C45",
   "status": "partial",
   "theorems": [
    "Pressio.Props.C45_least_squares_assembly_failure",
    "Pressio.Props.C45_newton_assembly_failure",
    "Pressio.Props.C45_least_squares_trial_escapes",
    "Pressio.Props.C45_least_squares_escape_witness",
    "Pressio.Props.C45_newton_failure",
    "Pressio.Props.C45_newton_translates",
    "Pressio.Props.C45_newton_linesearch_escapes"
   ],
   "note": "Proved for every place but one: failures at assembly are translated, whatever the update rule and wherever in the solve; failures of the objective evaluated at a trial point of a line search or a Levenberg-Marquardt update escape untranslated (refutation C45_least_squares_escape_witness, general C45_least_squares_trial_escapes)."
  },
  {
   "property": "C46",
   "status": "proved",
   "theorems": [
    "Pressio.Props.C46_map",
    "Pressio.Props.C46_map_without_translation",
    "Pressio.Props.C46_create_states",
    "Pressio.Props.C46_dimension",
    "Pressio.Props.C46_dimension_rows"
   ],
   "note": "Heap model with explicit sizes; sizes that do not match are undefined behaviour (assert)."
  },
  {
   "property": "C47",
   "status": "partial",
   "theorems": [
    "Pressio.Props.C47_value_semantics",
    "Pressio.Props.C47_view_construction_zeroes_argument",
    "Pressio.Props.C47_view_translation_aliased",
    "Pressio.Props.C47_basis_snapshot_partial",
    "Pressio.Props.C47_copies"
   ],
   "note": "False for containers with view semantics (two witnesses, for every instance); proved for value semantics, for the basis of every container type, and for copies."
  },
  {
   "property": "C48",
   "status": "partial",
   "theorems": [
    "Pressio.Props.C48_accessors_partial",
    "Pressio.Props.C48_basis_undefined"
   ],
   "note": "False of the code: basis() of every non-affine subspace dereferences a null pointer (C48_basis_undefined)."
  },
  {
   "property": "C49",
   "status": "proved",
   "theorems": [
    "Pressio.Props.C49_default_rhs",
    "Pressio.Props.C49_default_mass_matrix_rhs",
    "Pressio.Props.C49_default_rhs_jacobian",
    "Pressio.Props.C49_default_mass_matrix_rhs_jacobian",
    "Pressio.Props.C49_hypred_rhs",
    "Pressio.Props.C49_hypred_rhs_jacobian",
    "Pressio.Props.C49_masked_rhs",
    "Pressio.Props.C49_masked_rhs_jacobian",
    "Pressio.Props.C49_steady_residual",
    "Pressio.Props.C49_steady_residual_jacobian",
    "Pressio.Props.C49_steady_apply_jacobian",
    "Pressio.Props.C49_steady_hypred",
    "Pressio.Props.C49_steady_masked",
    "Pressio.Props.C49_steady_hypred_missing",
    "Pressio.Props.C49_buffers_do_not_matter",
    "Pressio.Props.C49_jacobian_is_derivative",
    "Pressio.Props.C49_default_jacobian_is_derivative",
    "Pressio.Props.C49_hypred_jacobian_is_derivative",
    "Pressio.Props.C49_trial_subspace_object"
   ],
   "note": "Default, hyper-reduced and masked systems, steady and unsteady, with and without mass matrix and Jacobian, including every exception path; derivative statement over the reals. The unfinished residual/applyJacobian of the hyper-reduced steady system is stated as such."
  },
  {
   "property": "C50",
   "status": "proved",
   "theorems": [
    "Pressio.Props.C50_projection_of_discretisation",
    "Pressio.Props.C50_projection_with_mass_matrix"
   ],
   "note": "Every evaluation in every run, including exceptions and failed attempts. Orthonormal basis without mass matrix; any basis with mass matrix (BDF1, BDF2)."
  },
  {
   "property": "C51",
   "status": "proved",
   "theorems": [
    "Pressio.Props.C51_exact_on_invariant_subspace",
    "Pressio.Props.C51_exact_with_mass_matrix"
   ],
   "note": "All explicit schemes, policies and run lengths, with and without mass matrix (then for every basis with invertible reduced mass matrix)."
  },
  {
   "property": "C52",
   "status": "proved",
   "theorems": [
    "Pressio.Props.C52_new_problem_ready",
    "Pressio.Props.C52_other_schemes_refused",
    "Pressio.Props.C52_run_is_ideal",
    "Pressio.Props.C52_every_evaluation",
    "Pressio.Props.C52_is_the_full_order_scheme",
    "Pressio.Props.C52_jacobian_is_derivative",
    "Pressio.Props.C52_needs_evaluation"
   ],
   "note": "Default unsteady LSPG, every evaluation of every run, including failed and repeated attempts and exceptions of the FOM; the solver must not accept a step without having evaluated the equations (C52_needs_evaluation shows that this is needed). Jacobian derivative over the reals."
  },
  {
   "property": "C53",
   "status": "partial",
   "theorems": [
    "Pressio.Props.C53_fully_discrete_partial",
    "Pressio.Props.C53_fully_discrete_refuted",
    "Pressio.Props.C53_fully_discrete_three_states_refuted",
    "Pressio.Props.C53_reuse_partial",
    "Pressio.Props.C53_stale_state",
    "Pressio.Props.C53_refuted",
    "Pressio.Props.C53_refuted_after_failure",
    "Pressio.Props.C53_reuse_after_run_partial",
    "Pressio.Props.C53_step_one_end"
   ],
   "note": "False of the code: C53_refuted, C53_refuted_after_failure (end to end) and C53_step_one_end with C53_stale_state (every run that ended in step 1). Proved: after any run whose last attempt was at another step the problem behaves like a new one. Fully discrete problems likewise (C53_fully_discrete_refuted, C53_fully_discrete_three_states_refuted, C53_fully_discrete_partial)."
  },
  {
   "property": "C54",
   "status": "proved",
   "theorems": [
    "Pressio.Props.C54_run_is_ideal",
    "Pressio.Props.C54_is_restriction"
   ],
   "note": "Every run; the restriction is any matrix. The updater is represented by its contract."
  },
  {
   "property": "C55",
   "status": "proved",
   "theorems": [
    "Pressio.Props.C55_steady",
    "Pressio.Props.C55_steady_jacobian_untouched",
    "Pressio.Props.C55_steady_masked",
    "Pressio.Props.C55_masked_run_is_ideal",
    "Pressio.Props.C55_scaled_run_is_ideal",
    "Pressio.Props.C55_scaled_hypred_run_is_ideal"
   ],
   "note": "Unsteady masked, scaled and scaled hyper-reduced LSPG over whole runs; steady default and masked LSPG with scaler."
  },
  {
   "property": "C56",
   "status": "partial",
   "theorems": [
    "Pressio.Props.C56_manager_partial",
    "Pressio.Props.C56_pushes",
    "Pressio.Props.C56_n_minus_two_refuted",
    "Pressio.Props.C56_created_sizes"
   ],
   "note": "False for position n-2 (C56_n_minus_two_refuted). Proved for all sequences of the other calls and sizes 2, 3, 4."
  },
  {
   "property": "C57",
   "status": "proved",
   "theorems": [
    "Pressio.Props.C57_lspg_every_evaluation",
    "Pressio.Props.C57_accepted_states_only",
    "Pressio.Props.C57_new_problem_ready",
    "Pressio.Props.C57_first_step_older_state",
    "Pressio.Props.C57_lspg_run_is_ideal",
    "Pressio.Props.C57_galerkin_run_is_ideal",
    "Pressio.Props.C57_hypred_galerkin_run_is_ideal"
   ],
   "note": "LSPG, Galerkin and hyper-reduced Galerkin, 2 and 3 states, every evaluation of every run. In the first step of a problem with three states the FOM is given zero as state n-1 (C57_first_step_older_state)."
  },
  {
   "property": "C58",
   "status": "proved",
   "theorems": [
    "Pressio.Props.C58_linear_operator",
    "Pressio.Props.C58_matrix_operator",
    "Pressio.Props.C58_forcing_uninitialised",
    "Pressio.Props.C58_vector_operator",
    "Pressio.Props.C58_exception",
    "Pressio.Props.C58_matrix_operator_needs_linear"
   ],
   "note": "Every affine (linear) operator, bases, shift and previous memory contents. Also: the matrix variant leaves the forcing it returns uninitialised (C58_forcing_uninitialised); it needs a linear operator (C58_matrix_operator_needs_linear)."
  },
  {
   "property": "C59",
   "status": "proved",
   "theorems": [
    "Pressio.Props.C59_semi_discrete",
    "Pressio.Props.C59_fully_discrete",
    "Pressio.Props.C59_empty_file",
    "Pressio.Props.C59_file_round_trip",
    "Pressio.Props.C59_blank_line",
    "Pressio.Props.C59_malformed_lines",
    "Pressio.Props.C59_long_line",
    "Pressio.Props.C59_equals_run"
   ],
   "note": "Semi-discrete BDF1 and fully discrete with two states, all trajectories, including exceptions of the FOM and of the functor that writes the result; end to end with the LSPG run (C59_equals_run); file round trip. Empty files, blank lines and long lines are stated as they are (C59_empty_file, C59_blank_line, C59_long_line), and so are lines that hold something else than numbers (C59_malformed_lines)."
  },
  {
   "property": "C60",
   "status": "proved",
   "theorems": [
    "Pressio.Props.C60_dynamic",
    "Pressio.Props.C60_dynamic_views",
    "Pressio.Props.C60_same_view_twice",
    "Pressio.Props.C60_static",
    "Pressio.Props.C60_unavailable",
    "Pressio.Props.C60_size",
    "Pressio.Props.C60_default_and_moved",
    "Pressio.Props.C60_copy_value",
    "Pressio.Props.C60_copy_view"
   ],
   "note": "Dynamic and static containers, value and view semantics, all sequences of accesses; entries that are views of one object are one slot (C60_same_view_twice)."
  },
  {
   "property": "C61",
   "status": "partial",
   "theorems": [
    "Pressio.Props.C61_direct",
    "Pressio.Props.C61_direct_uninitialised",
    "Pressio.Props.C61_iterative_partial",
    "Pressio.Props.C61_iterative_solve_with",
    "Pressio.Props.C61_iteration_limit",
    "Pressio.Props.C61_iterative_reference",
    "Pressio.Props.C61_iterative_dangling",
    "Pressio.Props.C61_kokkos",
    "Pressio.Props.C61_kokkos_overwrite",
    "Pressio.Props.C61_geqrf_partial",
    "Pressio.Props.C61_geqrf_refuted"
   ],
   "note": "False of the code for geqrf with growing sizes (C61_geqrf_refuted) and for iterative solvers whose matrix is changed or destroyed after it was set (C61_iterative_reference, C61_iterative_dangling); proved otherwise. The libraries are represented by contracts."
  },
  {
   "property": "C62",
   "status": "partial",
   "theorems": [
    "Pressio.Props.C62_failed_explicit_step_keeps_state",
    "Pressio.Props.C62_factory_storage_suffices",
    "Pressio.Props.C62_adams_bashforth_retry_refuted",
    "Pressio.Props.C62_one_step_schemes_retry"
   ],
   "note": "State kept and storage safe for all schemes; retry proved for one-step schemes and refuted for AdamsBashforth2."
  },
  {
   "property": "C63",
   "status": "partial",
   "theorems": [
    "Pressio.Props.C63_without_copies_partial",
    "Pressio.Props.C63_own_system_partial",
    "Pressio.Props.C63_copy_refuted",
    "Pressio.Props.C63_copy_values_partial",
    "Pressio.Props.C63_problems_do_not_interfere_partial"
   ],
   "note": "False of the code: a copy keeps a reference to the system of the original (C63_copy_refuted). Proved: without copies every problem uses its own system after every history; while the original lives a copy computes the right values."
  },
  {
   "property": "C64",
   "status": "proved",
   "theorems": [
    "Pressio.Props.C64_lm_damped_minimiser"
   ],
   "note": "Both schedules."
  },
  {
   "property": "C65",
   "status": "partial",
   "theorems": [
    "Pressio.Props.C65_refuted_fom_failure_escapes",
    "Pressio.Props.C65_solver_failure_partial"
   ],
   "note": "False of the code: C65_refuted_fom_failure_escapes. Failures that the solver gives up on do become TimeStepFailure."
  },
  {
   "property": "C66",
   "status": "proved",
   "theorems": [
    "Pressio.Props.C66_run_is_newton_solves",
    "Pressio.Props.C66_newton_iterates",
    "Pressio.Props.C66_linear_ode",
    "Pressio.Props.C66_linear_two_evaluations"
   ],
   "note": "All runs of BDF1, BDF2, CrankNicolson with every Newton option (C66_run_is_newton_solves); the explicit iterates for standard updates and the criteria that Newton accepts."
  },
  {
   "property": "C67",
   "status": "proved",
   "theorems": [
    "Pressio.Props.C67_run_is_least_squares_solves",
    "Pressio.Props.C67_hypred_run_is_least_squares_solves",
    "Pressio.Props.C67_masked_run_is_least_squares_solves",
    "Pressio.Props.C67_scaled_run_is_least_squares_solves",
    "Pressio.Props.C67_gauss_newton_iterates",
    "Pressio.Props.C67_linear_fom"
   ],
   "note": "All runs of the four LSPG variants, every least-squares method and option with at least one iteration; explicit iterates for Gauss-Newton with standard updates."
  },
  {
   "property": "C68",
   "status": "partial",
   "theorems": [
    "Pressio.Props.C68_mgs_factorization",
    "Pressio.Props.C68_mgs_returns_iff",
    "Pressio.Props.C68_mgs_overwrites",
    "Pressio.Props.C68_refuted_reuse_more_columns",
    "Pressio.Props.C68_refuted_reuse_fewer_columns",
    "Pressio.Props.C68_mgs_least_squares",
    "Pressio.Props.C68_mgs_exact_in_gauss_newton",
    "Pressio.Props.C68_gauss_newton_with_mgs",
    "Pressio.Props.C68_tsqr_factorization",
    "Pressio.Props.C68_refuted_tsqr_reuse",
    "Pressio.Props.C68_house_least_squares",
    "Pressio.Props.C68_house_exact_in_gauss_newton",
    "Pressio.Props.C68_house_unfactored",
    "Pressio.Props.C68_class_choice"
   ],
   "note": "Modified Gram-Schmidt function by function; TSQR and Eigen's Householder by library contract. False of the code: C68_mgs_overwrites (the caller's matrix), C68_refuted_reuse_more_columns, C68_refuted_reuse_fewer_columns, C68_refuted_tsqr_reuse. Proved for fresh objects and for reuse with as many columns or another row map."
  },
  {
   "property": "C69",
   "status": "proved",
   "theorems": [
    "Pressio.Props.C69_update",
    "Pressio.Props.C69_outside_stencil",
    "Pressio.Props.C69_meets_contract",
    "Pressio.Props.C69_hypred_lspg"
   ],
   "note": "Every process, any layout; the stop outside the stencil mesh is C69_outside_stencil. Block containers are their point-wise views."
  },
  {
   "property": "C70",
   "status": "proved",
   "theorems": [
    "Pressio.Props.C70_advance_n_steps",
    "Pressio.Props.C70_observer_like_auxiliary",
    "Pressio.Props.C70_advance_to_target_point",
    "Pressio.Props.C70_advance_with_recovery",
    "Pressio.Props.C70_recovery_without_arguments",
    "Pressio.Props.C70_target_overloads_exclusive",
    "Pressio.Props.C70_target_observer_like_auxiliary"
   ],
   "note": "Overload resolution of all 16 + 8 overloads and their bodies. Also what happens to auxiliary arguments that look like observers, and without auxiliary arguments with recovery (see C10)."
  },
  {
   "property": "C71",
   "status": "partial",
   "theorems": [
    "Pressio.Props.C71_auxiliary_arguments_partial",
    "Pressio.Props.C71_refuted_temporaries"
   ],
   "note": "False of the code for temporaries taken by value (C71_refuted_temporaries, for every type whose move changes the object); proved for arguments that are not moved from."
  },
  {
   "property": "C72",
   "status": "proved",
   "theorems": [
    "Pressio.Props.C72_explicit_run",
    "Pressio.Props.C72_implicit_exact_solves",
    "Pressio.Props.C72_implicit_newton"
   ],
   "note": "All explicit schemes, all step sizes (C72_explicit_run); implicit schemes with any solver that solves the equation, retries included (C72_implicit_exact_solves), and with an unconverged Newton solver (C72_implicit_newton). Exact arithmetic."
  },
  {
   "property": "C73",
   "status": "proved",
   "theorems": [
    "Pressio.Props.C73_dependence_on_data"
   ],
   "note": "All explicit schemes, any step sizes and Lipschitz constant, explicit constants; exact arithmetic over the reals."
  },
  {
   "property": "C74",
   "status": "partial",
   "theorems": [
    "Pressio.Props.C74_full_order",
    "Pressio.Props.C74_full_order_smooth",
    "Pressio.Props.C74_forward_euler",
    "Pressio.Props.C74_runge_kutta_rough",
    "Pressio.Props.C74_adams_bashforth",
    "Pressio.Props.C74_adams_bashforth_constant_step",
    "Pressio.Props.C74_linear_systems",
    "Pressio.Props.C74_refuted_adams_bashforth_second_order"
   ],
   "note": "Orders 1, 3, 4 of ForwardEuler, SSPRungeKutta3, RungeKutta4 for every smooth right-hand side in finite dimension, any step sizes: with a Lipschitz constant C74_full_order, without one C74_full_order_smooth; explicit constants: C74_forward_euler, C74_linear_systems; right-hand sides that are only Lipschitz: C74_runge_kutta_rough (order 2). Order 2 of AdamsBashforth2 with constant steps: C74_adams_bashforth_constant_step. False of the code for AdamsBashforth2 with changing steps (C74_refuted_adams_bashforth_second_order), where order 1 is proved (C74_adams_bashforth); nothing else is missing."
  },
  {
   "property": "C75",
   "status": "proved",
   "theorems": [
    "Pressio.Props.C75_bdf1",
    "Pressio.Props.C75_bdf1_decay",
    "Pressio.Props.C75_bdf2",
    "Pressio.Props.C75_crank_nicolson",
    "Pressio.Props.C75_crank_nicolson_conserves",
    "Pressio.Props.C75_newton_object"
   ],
   "note": "BDF1, BDF2 for dissipative right-hand sides, CrankNicolson for linear ones; for any solver that converges, and for runs with pressio's Newton object that do not reach the iteration limit (C75_newton_object). Exact arithmetic over the reals; the norm comes from an inner product."
  },
  {
   "property": "C76",
   "status": "partial",
   "theorems": [
    "Pressio.Props.C76_bdf1_monotone",
    "Pressio.Props.C76_bdf2_monotone",
    "Pressio.Props.C76_crank_nicolson_linear",
    "Pressio.Props.C76_bdf1_lipschitz",
    "Pressio.Props.C76_crank_nicolson_lipschitz",
    "Pressio.Props.C76_bdf2_lipschitz",
    "Pressio.Props.C76_bdf2_changing_steps",
    "Pressio.Props.C76_refuted_bdf2_second_order",
    "Pressio.Props.C76_newton_object_crank_nicolson"
   ],
   "note": "All three schemes, Lipschitz and monotone problems, explicit constants. False of the code for BDF2 with changing steps (C76_refuted_bdf2_second_order), where order 1 is proved (C76_bdf2_changing_steps)."
  },
  {
   "property": "C77",
   "status": "proved",
   "theorems": [
    "Pressio.Props.C77_one_step_schemes",
    "Pressio.Props.C77_adams_bashforth",
    "Pressio.Props.C77_observer_retry_refuted",
    "Pressio.Props.C77_clean_failure_retry",
    "Pressio.Props.C77_mass_matrix_one_step_schemes",
    "Pressio.Props.C77_mass_matrix_adams_bashforth",
    "Pressio.Props.C77_solver_retry_refuted",
    "Pressio.Props.C77_galerkin_default",
    "Pressio.Props.C77_galerkin_hyperreduced",
    "Pressio.Props.C77_galerkin_masked",
    "Pressio.Props.C77_galerkin_mass_matrix",
    "Pressio.Props.C77_galerkin_step"
   ],
   "note": "All four explicit schemes with and without mass matrix, as refinement of a textbook definition in which every ingredient may throw (Verif/Spec/ExplicitTry.lean)."
  },
  {
   "property": "C78",
   "status": "proved",
   "theorems": [
    "Pressio.Props.C78_newton_converges",
    "Pressio.Props.C78_smooth_roots_are_regular",
    "Pressio.Props.C78_local_convergence"
   ],
   "note": "Quantitative (C78_newton_converges: radius, rate, number of iterations, guaranteed error) and for every C2 system (C78_local_convergence). Exact arithmetic over the reals, any norm given by an injective linear map into a normed space."
  },
  {
   "property": "C79",
   "status": "proved",
   "theorems": [
    "Pressio.Props.C79_crank_nicolson",
    "Pressio.Props.C79_bdf1",
    "Pressio.Props.C79_bdf1_monotone",
    "Pressio.Props.C79_bdf2_monotone",
    "Pressio.Props.C79_bdf2",
    "Pressio.Props.C79_dissipative",
    "Pressio.Props.C79_crank_nicolson_order_two",
    "Pressio.Props.C79_bdf2_order_two"
   ],
   "note": "Quantitative for all three schemes (C79_crank_nicolson, C79_bdf1, C79_bdf2, their monotone variants, C79_dissipative), the right-hand side being tame near the solution only; for every C2 right-hand side with Lipschitz constant or monotone, order two: C79_crank_nicolson_order_two, C79_bdf2_order_two. BDF2 with constant steps (see C76). Exact arithmetic over the reals."
  },
  {
   "property": "C80",
   "status": "proved",
   "theorems": [
    "Pressio.Props.C80_isometry",
    "Pressio.Props.C80_velocity_optimal",
    "Pressio.Props.C80_defect_optimal",
    "Pressio.Props.C80_dissipative",
    "Pressio.Props.C80_monotone",
    "Pressio.Props.C80_lipschitz",
    "Pressio.Props.C80_bdf1",
    "Pressio.Props.C80_bdf2",
    "Pressio.Props.C80_crank_nicolson",
    "Pressio.Props.C80_newton_object",
    "Pressio.Props.C80_refuted_hyperreduced",
    "Pressio.Props.C80_mass_matrix_bdf1",
    "Pressio.Props.C80_mass_matrix_bdf2",
    "Pressio.Props.C80_mass_matrix_velocity_optimal"
   ],
   "note": "Default Galerkin: C80_velocity_optimal, C80_dissipative, C80_monotone, C80_lipschitz, the bounds C80_bdf1, C80_bdf2, C80_crank_nicolson, C80_newton_object; with mass matrix: C80_mass_matrix_velocity_optimal, C80_mass_matrix_bdf1, C80_mass_matrix_bdf2. The negative part of the statement, hyper-reduced Galerkin: C80_refuted_hyperreduced, a run whose state is at least (5/4)^N. Exact arithmetic over the reals."
  },
  {
   "property": "C81",
   "status": "proved",
   "theorems": [
    "Pressio.Props.C81_bdf1_monotone",
    "Pressio.Props.C81_bdf2_monotone",
    "Pressio.Props.C81_bdf1_lipschitz",
    "Pressio.Props.C81_crank_nicolson_lipschitz",
    "Pressio.Props.C81_bdf2_lipschitz",
    "Pressio.Props.C81_default_galerkin_model",
    "Pressio.Props.C81_hyperreduced_galerkin_model",
    "Pressio.Props.C81_masked_galerkin_model",
    "Pressio.Props.C81_explicit",
    "Pressio.Props.C81_explicit_default_galerkin",
    "Pressio.Props.C81_explicit_hyperreduced_model",
    "Pressio.Props.C81_explicit_masked_model",
    "Pressio.Props.C81_mass_matrix_bdf1",
    "Pressio.Props.C81_mass_matrix_bdf2"
   ],
   "note": "Implicit runs: C81_bdf1_monotone, C81_bdf2_monotone, C81_bdf1_lipschitz, C81_bdf2_lipschitz, C81_crank_nicolson_lipschitz, for the reduced model of default, hyper-reduced and masked problems (C81_*_model); explicit runs: C81_explicit and its instances. With mass matrix (default problems, monotone models): C81_mass_matrix_bdf1, C81_mass_matrix_bdf2. BDF2 with constant steps (see C76). Exact arithmetic over the reals."
  },
  {
   "property": "C82",
   "status": "proved",
   "theorems": [
    "Pressio.Props.C82_residual_of_last_evaluation",
    "Pressio.Props.C82_bdf1_dissipative",
    "Pressio.Props.C82_bdf2_dissipative",
    "Pressio.Props.C82_bdf1_monotone",
    "Pressio.Props.C82_bdf2_monotone",
    "Pressio.Props.C82_bdf1_lipschitz",
    "Pressio.Props.C82_bdf2_lipschitz",
    "Pressio.Props.C82_gauss_newton_contraction",
    "Pressio.Props.C82_gauss_newton_stable",
    "Pressio.Props.C82_gauss_newton_leaves_best",
    "Pressio.Props.C82_gauss_newton_error",
    "Pressio.Props.C82_solver_object_runs"
   ],
   "note": "Any solver: C82_residual_of_last_evaluation, C82_bdf1_dissipative, C82_bdf2_dissipative, C82_bdf1_monotone, C82_bdf2_monotone, C82_bdf1_lipschitz, C82_bdf2_lipschitz; runs with a least-squares solver object are of this kind: C82_solver_object_runs. Gauss-Newton: C82_gauss_newton_leaves_best, C82_gauss_newton_contraction, C82_gauss_newton_stable, C82_gauss_newton_error (linear full-order model, linear solver that solves the normal equations). Default LSPG (no hyper-reduction); exact arithmetic over the reals."
  },
  {
   "property": "C83",
   "status": "partial",
   "theorems": [
    "Pressio.Props.C83_exact",
    "Pressio.Props.C83_stops_at_first_reached",
    "Pressio.Props.C83_never_returns",
    "Pressio.Props.C83_nan_target_never_returns",
    "Pressio.Props.C83_nan_step_never_returns",
    "Pressio.Props.C83_absorbed_step_never_returns",
    "Pressio.Props.C83_terminates",
    "Pressio.Props.C83_time_error",
    "Pressio.Props.C83_number_of_steps_partial",
    "Pressio.Props.C83_number_of_steps_refuted",
    "Pressio.Props.C83_nan_factor_retries_forever"
   ],
   "note": "Proved: C83_exact (same function as in C05-C11), C83_stops_at_first_reached, C83_never_returns (any arithmetic), C83_terminates, C83_time_error, C83_nan_target_never_returns, C83_nan_step_never_returns, C83_absorbed_step_never_returns, C83_nan_factor_retries_forever. Partial because N equal steps of size (final - start)/N do not always make N steps: C83_number_of_steps_partial needs the accumulated rounding errors to be below the machine epsilon; C83_number_of_steps_refuted: doubles, 0 to 10 with step 0.1 makes 101 steps and ends one step beyond the target. Rounding is modelled for the independent variable only; one zero."
  },
  {
   "property": "C84",
   "status": "proved",
   "theorems": [
    "Pressio.Props.C84_bdf1",
    "Pressio.Props.C84_bdf2",
    "Pressio.Props.C84_bdf1_converges",
    "Pressio.Props.C84_bdf2_converges",
    "Pressio.Props.C84_bdf1_lipschitz",
    "Pressio.Props.C84_bdf2_lipschitz"
   ],
   "note": "C84_bdf1, C84_bdf2 (stability); C84_bdf1_converges, C84_bdf2_converges (monotone); C84_bdf1_lipschitz, C84_bdf2_lipschitz (mass matrix depending on state and time). Exact arithmetic over the reals."
  },
  {
   "property": "C85",
   "status": "proved",
   "theorems": [
    "Pressio.Props.C85_rounding",
    "Pressio.Props.C85_operators",
    "Pressio.Props.C85_special_operators",
    "Pressio.Props.C85_epsilon",
    "Pressio.Props.C85_largest",
    "Pressio.Props.C85_run",
    "Pressio.Props.C85_checked",
    "Pressio.Props.C85_always_failing",
    "Pressio.Props.C85_abandoned",
    "Pressio.Props.C85_terminates",
    "Pressio.Props.C85_zero_minimum_retries_forever",
    "Pressio.Props.C85_infinite_size_retries_forever",
    "Pressio.Props.C85_positive_minimum_refuted"
   ],
   "note": "Arithmetic against IEEE 754 as specified in Spec/Float: C85_rounding, C85_operators, C85_special_operators. Runs: C85_run, C85_checked, C85_always_failing (any arithmetic); C85_abandoned, C85_terminates (floating point). The negative part of the statement: C85_zero_minimum_retries_forever, C85_positive_minimum_refuted (double, 2^-1074 and 3/2), C85_infinite_size_retries_forever. Signed zeros are not distinguished, so a quotient by zero has the sign of a positive zero; extended-precision evaluation of expressions is not modelled."
  },
  {
   "property": "C86",
   "status": "proved",
   "theorems": [
    "Pressio.Props.C86_minimises_plain",
    "Pressio.Props.C86_minimises_weighted",
    "Pressio.Props.C86_minimises_compact",
    "Pressio.Props.C86_gauss_newton_converges",
    "Pressio.Props.C86_gauss_newton_qr_converges",
    "Pressio.Props.C86_smooth_fits_are_regular",
    "Pressio.Props.C86_local_convergence",
    "Pressio.Props.C86_large_residual_cycles",
    "Pressio.Props.C86_from_small_residual",
    "Pressio.Props.C86_qr_from_small_residual"
   ],
   "note": "C86_gauss_newton_converges (normal equations: plain, weighted, compact weighted), C86_gauss_newton_qr_converges; C86_minimises_* show which sum of squares each solver minimises; C86_smooth_fits_are_regular and C86_local_convergence: every perfect fit of full rank of a twice continuously differentiable residual. C86_from_small_residual and C86_qr_from_small_residual assume no solution: a starting point with a small residual is enough. The negative part: C86_large_residual_cycles. Real arithmetic. Levenberg-Marquardt and line searches are not covered."
  },
  {
   "property": "C87",
   "status": "partial",
   "theorems": [
    "Pressio.Props.C87_zero_reference_is_never_met",
    "Pressio.Props.C87_newton_absolute_partial",
    "Pressio.Props.C87_newton_relative_refuted",
    "Pressio.Props.C87_least_squares_absolute_partial",
    "Pressio.Props.C87_least_squares_relative_refuted"
   ],
   "note": "Proved for the absolute criteria: C87_newton_absolute_partial, C87_least_squares_absolute_partial. False of the code for every relative criterion (C87_newton_relative_refuted, C87_least_squares_relative_refuted): the relative value is 0/0, which is below no tolerance, so all iterations up to the limit are made at the solution and Newton reports that there was no convergence."
  },
  {
   "property": "C88",
   "status": "partial",
   "theorems": [
    "Pressio.Props.C88_schedule1_finds",
    "Pressio.Props.C88_schedule1_reaches_minimiser",
    "Pressio.Props.C88_schedule2_finds_partial",
    "Pressio.Props.C88_schedule2_stuck"
   ],
   "note": "Proved in full for schedule 1 (C88_schedule1_finds, C88_schedule1_reaches_minimiser). Schedule 2: proved when damping 10^7 is enough for the problem (C88_schedule2_finds_partial); false of the code otherwise (C88_schedule2_stuck): the damping is capped at 10^7 and all steps may be rejected for ever."
  },
  {
   "property": "C89",
   "status": "proved",
   "theorems": [
    "Pressio.Props.C89_solve_is_memoryless",
    "Pressio.Props.C89_galerkin_problem",
    "Pressio.Props.C89_hyperreduced_galerkin_problem",
    "Pressio.Props.C89_masked_galerkin_problem",
    "Pressio.Props.C89_lspg_problem",
    "Pressio.Props.C89_masked_lspg_problem",
    "Pressio.Props.C89_galerkin_quasi_optimal",
    "Pressio.Props.C89_galerkin_exact",
    "Pressio.Props.C89_galerkin_newton_linear",
    "Pressio.Props.C89_galerkin_newton",
    "Pressio.Props.C89_galerkin_energy",
    "Pressio.Props.C89_lspg_quasi_optimal",
    "Pressio.Props.C89_lspg_gauss_newton_linear",
    "Pressio.Props.C89_lspg_gauss_newton_qr_linear",
    "Pressio.Props.C89_galerkin_needs_ellipticity"
   ],
   "note": "Problem objects: C89_solve_is_memoryless with the five C89_*_problem theorems. Bounds: C89_galerkin_quasi_optimal, C89_lspg_quasi_optimal, C89_galerkin_energy; end to end with solver objects: C89_galerkin_newton, C89_galerkin_newton_linear, C89_lspg_gauss_newton_linear, C89_lspg_gauss_newton_qr_linear. C89_galerkin_needs_ellipticity is the counterexample without monotonicity. Exact arithmetic, exact linear solvers."
  },
  {
   "property": "C90",
   "status": "proved",
   "theorems": [
    "Pressio.Props.C90_is_newton",
    "Pressio.Props.C90_iterates",
    "Pressio.Props.C90_update_option_ignored",
    "Pressio.Props.C90_no_memory",
    "Pressio.Props.C90_other_criteria",
    "Pressio.Props.C90_failure",
    "Pressio.Props.C90_inexact_converges",
    "Pressio.Props.C90_inexact_linear",
    "Pressio.Props.C90_local_convergence",
    "Pressio.Props.C90_update_option_witness"
   ],
   "note": "C90_is_newton is the equivalence; C90_iterates, C90_other_criteria, C90_failure, C90_no_memory draw consequences; C90_update_option_ignored with C90_update_option_witness (a growing residual although backtracking is selected); C90_inexact_converges and C90_local_convergence for inexact Krylov methods, C90_inexact_linear for linear systems from every guess. The action is a function of state and direction that always answers. Exact arithmetic."
  },
  {
   "property": "C91",
   "status": "proved",
   "theorems": [
    "Pressio.Props.C91_residual",
    "Pressio.Props.C91_action",
    "Pressio.Props.C91_galerkin",
    "Pressio.Props.C91_hyperreduced_unsupported",
    "Pressio.Props.C91_galerkin_linear"
   ],
   "note": "C91_residual and C91_action say what the functions the solver calls compute, C91_galerkin is the comparison with Newton, C91_galerkin_linear the error bound, C91_hyperreduced_unsupported the throwing problem. C91_galerkin assumes that the Krylov method never throws the exception the steppers reserve for a failed time step. The masked steady problem has no such functions and does not compile with this solver. Exact arithmetic."
  },
  {
   "property": "C92",
   "status": "proved",
   "theorems": [
    "Pressio.Props.C92_n_steps",
    "Pressio.Props.C92_target",
    "Pressio.Props.C92_runs",
    "Pressio.Props.C92_n_steps_returns",
    "Pressio.Props.C92_target_returns",
    "Pressio.Props.C92_target_crank_nicolson",
    "Pressio.Props.C92_target_bdf1_monotone",
    "Pressio.Props.C92_target_dissipative",
    "Pressio.Props.C92_crank_nicolson_order_two",
    "Pressio.Props.C92_bdf2_order_two"
   ],
   "note": "C92_n_steps and C92_target say that a call is a run of attempts, C92_runs that runs of an implicit stepper with a solver are such runs, C92_n_steps_returns and C92_target_returns carry over what holds of all runs, and the others apply this to the Newton solver (with C79). No guesser is passed. With step recovery the bounds are for policies that set sizes for which no attempt fails: a Newton solver that uses up its iterations returns normally, so recovery does not notice steps that are too large. Exact arithmetic."
  },
  {
   "property": "C93",
   "status": "proved",
   "theorems": [
    "Pressio.Props.C93_run",
    "Pressio.Props.C93_qr_run",
    "Pressio.Props.C93_leaves_residuals",
    "Pressio.Props.C93_bdf1",
    "Pressio.Props.C93_bdf1_monotone",
    "Pressio.Props.C93_bdf2",
    "Pressio.Props.C93_target",
    "Pressio.Props.C93_n_steps"
   ],
   "note": "C93_run (normal equations) and C93_qr_run for every single step, C93_leaves_residuals for the residuals, C93_bdf1, C93_bdf1_monotone and C93_bdf2 (constant steps) for the error, C93_target and C93_n_steps for the advancers. No mass matrix, hyper-reduction, scaling or mask. The constants (16 b sigma, 9/7, 9/8) are those of the proof. Exact arithmetic."
  },
  {
   "property": "C94",
   "status": "proved",
   "theorems": [
    "Pressio.Props.C94_run_is_newton_solves",
    "Pressio.Props.C94_newton_iterates",
    "Pressio.Props.C94_same_run",
    "Pressio.Props.C94_bdf1_monotone",
    "Pressio.Props.C94_bdf2_monotone",
    "Pressio.Props.C94_bdf1",
    "Pressio.Props.C94_bdf2",
    "Pressio.Props.C94_dissipative",
    "Pressio.Props.C94_target",
    "Pressio.Props.C94_n_steps"
   ],
   "note": "C94_run_is_newton_solves for every mass-matrix system; C94_newton_iterates and C94_same_run for constant M; C94_bdf1_monotone, C94_bdf2_monotone, C94_bdf1, C94_bdf2 (Lipschitz) and C94_dissipative for the error, C94_target and C94_n_steps for the advancers. The Jacobian M - dt J that the code hands to the solver is the derivative of the residual only if M is constant; convergence is claimed for constant M only. Crank-Nicolson with mass matrix is refused by the code (C26_cn_refused). Exact arithmetic."
  },
  {
   "property": "C95",
   "status": "proved",
   "theorems": [
    "Pressio.Props.C95_best",
    "Pressio.Props.C95_bdf1_monotone",
    "Pressio.Props.C95_bdf2_monotone",
    "Pressio.Props.C95_bdf1",
    "Pressio.Props.C95_crank_nicolson",
    "Pressio.Props.C95_bdf2",
    "Pressio.Props.C95_target",
    "Pressio.Props.C95_n_steps"
   ],
   "note": "C95_best (projection is nearest); C95_bdf1_monotone, C95_bdf2_monotone, C95_bdf1, C95_crank_nicolson, C95_bdf2 for runs; C95_target, C95_n_steps for the advancers. The model must be well-behaved only on the states of the trial space in a tube around the projected solution; monotonicity or the Lipschitz condition is global. Exact arithmetic."
  },
  {
   "property": "C96",
   "status": "proved",
   "theorems": [
    "Pressio.Props.C96_n_steps_alike",
    "Pressio.Props.C96_target_alike",
    "Pressio.Props.C96_custom_scheme",
    "Pressio.Props.C96_custom_newton",
    "Pressio.Props.C96_custom_n_steps",
    "Pressio.Props.C96_custom_target",
    "Pressio.Props.C96_hypred_lspg",
    "Pressio.Props.C96_lspg",
    "Pressio.Props.C96_lspg_target",
    "Pressio.Props.C96_galerkin",
    "Pressio.Props.C96_galerkin_target",
    "Pressio.Props.C96_galerkin_not_orthonormal_refuted"
   ],
   "note": "C96_custom_scheme, C96_custom_newton, C96_custom_n_steps, C96_custom_target for systems; C96_lspg, C96_hypred_lspg, C96_lspg_target, C96_galerkin, C96_galerkin_target for reduced-order models; C96_n_steps_alike, C96_target_alike: advancers cannot tell alike steppers apart; C96_galerkin_not_orthonormal_refuted shows that the orthonormal basis is needed. For reduced-order models the full-order model must not throw the exceptions that steppers treat in a special way (those of LSPG problems are passed on differently: C65). Exact arithmetic."
  },
  {
   "property": "C97",
   "status": "proved",
   "theorems": [
    "Pressio.Props.C97_recovery",
    "Pressio.Props.C97_recovery_implicit",
    "Pressio.Props.C97_affine_decisive",
    "Pressio.Props.C97_bdf1_monotone",
    "Pressio.Props.C97_bdf1_dissipative",
    "Pressio.Props.C97_no_room_aborts"
   ],
   "note": "C97_recovery: any stepper object; C97_recovery_implicit: implicit steppers with any solver object, and any property of the runs; C97_bdf1_monotone, C97_bdf1_dissipative: BDF1 with a Newton object on models that can only be evaluated on a domain; C97_affine_decisive: the hypothesis that Newton's method either converges or leaves the domain, for affine models (a solve that does neither is accepted silently: C33); C97_no_room_aborts: the room for one reduction is needed. Exact arithmetic."
  },
  {
   "property": "C98",
   "status": "proved",
   "theorems": [
    "Pressio.Props.C98_identity_weights",
    "Pressio.Props.C98_identity_compact",
    "Pressio.Props.C98_weighted_is_scaled",
    "Pressio.Props.C98_compact_is_scaled",
    "Pressio.Props.C98_qr_is_normal_equations",
    "Pressio.Props.C98_gauss_newton_is_newton",
    "Pressio.Props.C98_mgs_factors",
    "Pressio.Props.C98_house_factors",
    "Pressio.Props.C98_residual_criterion_ignores_weights",
    "Pressio.Props.C98_n_steps",
    "Pressio.Props.C98_target",
    "Pressio.Props.C98_implicit_runs",
    "Pressio.Props.C98_implicit_n_steps",
    "Pressio.Props.C98_implicit_target",
    "Pressio.Props.C98_lspg_qr_runs",
    "Pressio.Props.C98_lspg_qr_target",
    "Pressio.Props.C98_lspg_identity_weights"
   ],
   "note": "C98_identity_weights, C98_identity_compact, C98_weighted_is_scaled, C98_compact_is_scaled, C98_qr_is_normal_equations, C98_gauss_newton_is_newton: single solves, any history of both objects; C98_mgs_factors, C98_house_factors: the QR classes qualify; C98_implicit_*, C98_lspg_*: runs and advancers; C98_residual_criterion_ignores_weights: why criteria on the residual are excluded for weights"
  },
  {
   "property": "C99",
   "status": "proved",
   "theorems": [
    "Pressio.Props.C99_gauss_newton",
    "Pressio.Props.C99_weighted",
    "Pressio.Props.C99_levenberg_marquardt",
    "Pressio.Props.C99_newton",
    "Pressio.Props.C99_lspg_runs",
    "Pressio.Props.C99_n_steps",
    "Pressio.Props.C99_target",
    "Pressio.Props.C99_correction_criterion_refuted",
    "Pressio.Props.C99_levenberg_marquardt_refuted",
    "Pressio.Props.C99_galerkin_basis_refuted",
    "Pressio.Props.C99_galerkin_implicit",
    "Pressio.Props.C99_galerkin_implicit_mass_matrix",
    "Pressio.Props.C99_galerkin_explicit",
    "Pressio.Props.C99_galerkin_explicit_mass_matrix",
    "Pressio.Props.C99_hyper_reduced_lspg_runs",
    "Pressio.Props.C99_masked_lspg_runs"
   ],
   "note": "C99_hyper_reduced_lspg_runs, C99_masked_lspg_runs: sampled problems; C99_n_steps, C99_target: whole calls of the advancers; C99_gauss_newton, C99_weighted, C99_newton, C99_levenberg_marquardt: single solves, any history of both objects; C99_lspg_runs, C99_galerkin_implicit, C99_galerkin_implicit_mass_matrix, C99_galerkin_explicit, C99_galerkin_explicit_mass_matrix: runs; C99_correction_criterion_refuted, C99_galerkin_basis_refuted, C99_levenberg_marquardt_refuted: what does depend on the coordinates, as the statement says"
  },
  {
   "property": "C100",
   "status": "partial",
   "theorems": [
    "Pressio.Props.C100_explicit_n_steps",
    "Pressio.Props.C100_explicit_target_partial",
    "Pressio.Props.C100_implicit_runs",
    "Pressio.Props.C100_implicit_n_steps",
    "Pressio.Props.C100_implicit_target_partial",
    "Pressio.Props.C100_n_steps",
    "Pressio.Props.C100_target_partial",
    "Pressio.Props.C100_implicit_clock",
    "Pressio.Props.C100_mass_matrix_clock",
    "Pressio.Props.C100_galerkin_clock",
    "Pressio.Props.C100_lspg_clock",
    "Pressio.Props.C100_hyper_reduced_lspg_clock",
    "Pressio.Props.C100_masked_lspg_clock",
    "Pressio.Props.C100_target_refuted"
   ],
   "note": "C100_explicit_n_steps, C100_implicit_runs, C100_implicit_n_steps, C100_n_steps and the clock theorems in full; the advancers to a target time only if the tolerance on the target is the same duration (C100_explicit_target_partial, C100_implicit_target_partial, C100_target_partial), because the code compares with an absolute machine epsilon: C100_target_refuted is a run that stops after one of five steps in one unit of time and not in the other."
  },
  {
   "property": "C101",
   "status": "proved",
   "theorems": [
    "Pressio.Props.C101_implicit",
    "Pressio.Props.C101_lspg",
    "Pressio.Props.C101_warm_start_refuted"
   ],
   "note": "C101_implicit and C101_lspg; C101_warm_start_refuted shows that the hypothesis on the linear solvers cannot be dropped. Two problems that share one stepper object are not covered (C53 is about reuse of steppers)."
  },
  {
   "property": "C102",
   "status": "proved",
   "theorems": [
    "Pressio.Props.C102_hyperreduced",
    "Pressio.Props.C102_masked",
    "Pressio.Props.C102_scaled",
    "Pressio.Props.C102_masked_jacobian_refuted"
   ],
   "note": "C102_hyperreduced, C102_masked, C102_scaled; C102_masked_jacobian_refuted shows that the hypothesis on the FOM Jacobian of masked problems cannot be dropped."
  },
  {
   "property": "C103",
   "status": "proved",
   "theorems": [
    "Pressio.Props.C103_galerkin_implicit",
    "Pressio.Props.C103_galerkin_implicit_mass_matrix",
    "Pressio.Props.C103_galerkin_explicit",
    "Pressio.Props.C103_lspg_gauss_newton",
    "Pressio.Props.C103_lspg",
    "Pressio.Props.C103_n_steps",
    "Pressio.Props.C103_target",
    "Pressio.Props.C103_galerkin_basis_refuted"
   ],
   "note": "C103_galerkin_implicit, C103_galerkin_implicit_mass_matrix, C103_galerkin_explicit, C103_lspg (and C103_lspg_gauss_newton for the full-order model with a Gauss-Newton object); C103_n_steps and C103_target lift them to the advancers; C103_galerkin_basis_refuted shows that Galerkin without mass matrix needs an orthonormal basis. VelocityFailureUnrecoverable is excluded for LSPG (C65)."
  },
  {
   "property": "C104",
   "status": "proved",
   "theorems": [
    "Pressio.Props.C104_galerkin_implicit",
    "Pressio.Props.C104_lspg_gauss_newton",
    "Pressio.Props.C104_lspg",
    "Pressio.Props.C104_n_steps",
    "Pressio.Props.C104_target",
    "Pressio.Props.C104_galerkin_implicit_mass_matrix",
    "Pressio.Props.C104_steady_galerkin",
    "Pressio.Props.C104_steady_lspg_gauss_newton",
    "Pressio.Props.C104_steady_lspg"
   ],
   "note": "C104_galerkin_implicit, C104_galerkin_implicit_mass_matrix, C104_lspg (and C104_lspg_gauss_newton for the full-order model with a Gauss-Newton object). C104_n_steps and C104_target lift them to the advancers; C104_steady_galerkin, C104_steady_lspg (and C104_steady_lspg_gauss_newton) are the steady problems. C51 is the explicit case. VelocityFailureUnrecoverable is excluded for LSPG (C65)."
  },
  {
   "property": "C105",
   "status": "proved",
   "theorems": [
    "Pressio.Props.C105_implicit",
    "Pressio.Props.C105_n_steps",
    "Pressio.Props.C105_target",
    "Pressio.Props.C105_state_dependent_refuted"
   ],
   "note": "C105_implicit, C105_n_steps, C105_target; C105_state_dependent_refuted shows that a mass matrix depending on the state must be excluded. C17 is the explicit case."
  },
  {
   "property": "C106",
   "status": "proved",
   "theorems": [
    "Pressio.Props.C106_galerkin_implicit",
    "Pressio.Props.C106_galerkin_explicit",
    "Pressio.Props.C106_lspg",
    "Pressio.Props.C106_galerkin_nothing_dropped",
    "Pressio.Props.C106_n_steps",
    "Pressio.Props.C106_target",
    "Pressio.Props.C106_lspg_jacobian_refuted",
    "Pressio.Props.C106_steady_galerkin",
    "Pressio.Props.C106_steady_lspg"
   ],
   "note": "C106_galerkin_implicit, C106_galerkin_explicit, C106_lspg, C106_galerkin_nothing_dropped, C106_n_steps, C106_target; C106_steady_galerkin, C106_steady_lspg for the steady problems; C106_lspg_jacobian_refuted shows that for unsteady LSPG the Jacobian must be evaluable where the right-hand side is."
  },
  {
   "property": "C107",
   "status": "proved",
   "theorems": [
    "Pressio.Props.C107_implicit",
    "Pressio.Props.C107_lspg",
    "Pressio.Props.C107_n_steps",
    "Pressio.Props.C107_n_steps_lspg",
    "Pressio.Props.C107_bdf2_refuted"
   ],
   "note": "C107_implicit, C107_lspg for runs of attempts; C107_n_steps, C107_n_steps_lspg for advance_n_steps with a fixed step size; C107_bdf2_refuted for BDF2, which the statement excepts."
  },
  {
   "property": "C108",
   "status": "proved",
   "theorems": [
    "Pressio.Props.C108_galerkin_implicit",
    "Pressio.Props.C108_masked_implicit",
    "Pressio.Props.C108_galerkin_explicit",
    "Pressio.Props.C108_steady_galerkin",
    "Pressio.Props.C108_lspg",
    "Pressio.Props.C108_span_refuted"
   ],
   "note": "C108_galerkin_implicit, C108_masked_implicit, C108_galerkin_explicit, C108_steady_galerkin, C108_lspg; C108_span_refuted shows that the span is needed. The advancers follow with C106_n_steps and C106_target, which lift equal runs to them."
  },
  {
   "property": "C109",
   "status": "proved",
   "theorems": [
    "Pressio.Props.C109_time_as_state",
    "Pressio.Props.C109_time_as_state_mass",
    "Pressio.Props.C109_one_way_coupling"
   ],
   "note": "C109_time_as_state, C109_time_as_state_mass (with mass matrix), C109_one_way_coupling."
  },
  {
   "property": "C110",
   "status": "proved",
   "theorems": [
    "Pressio.Props.C110_explicit",
    "Pressio.Props.C110_implicit",
    "Pressio.Props.C110_steady",
    "Pressio.Props.C110_masked",
    "Pressio.Props.C110_lspg"
   ],
   "note": "C110_explicit, C110_implicit, C110_steady, C110_masked, C110_lspg."
  },
  {
   "property": "C111",
   "status": "proved",
   "theorems": [
    "Pressio.Props.C111_superposition",
    "Pressio.Props.C111_sensitivity",
    "Pressio.Props.C111_superposition_implicit",
    "Pressio.Props.C111_superposition_n_steps",
    "Pressio.Props.C111_sensitivity_n_steps",
    "Pressio.Props.C111_superposition_mass",
    "Pressio.Props.C111_superposition_mass_implicit"
   ],
   "note": "C111_superposition, C111_superposition_mass, C111_sensitivity (explicit), C111_superposition_implicit, C111_superposition_n_steps, C111_superposition_mass_implicit, C111_sensitivity_n_steps (implicit, linear problems)."
  }
 ]
}