# Formal model of Pressio/pressio in Lean 4

This directory contains a Lean 4 model of the C++ headers in `/repo/include/pressio`
and machine-checked proofs of the properties listed in `properties.jsonl`.
`MANIFEST.json` maps every property to the theorems that establish (or refute) it.

## 1. Layout

| directory | content |
|---|---|
| `lean/Verif/Common.lean` | outcome type (value, exception, undefined behaviour, fuel exhausted), the program monad |
| `lean/Verif/Model/*.lean` | the model: one definition per C++ function, each citing file and lines |
| `lean/Verif/Spec/*.lean` | small independent specifications: textbook formulas, abstract executions, contracts of user objects and libraries |
| `lean/Verif/Lemmas/*.lean` | helper lemmas (not part of the claims) |
| `lean/Verif/Props/*.lean` | the property theorems `C01_...` with concrete instances beside them |
| `lean/Verif/Audit.lean` | `#print axioms` for every property theorem |
| `seeded/LOG.jsonl` | mutation log: edits of the model and the theorems that caught them |

To read a claim: find the property in `properties.jsonl`, its theorems in `MANIFEST.json`, and read the theorem's statement with the
definitions it uses from `Spec/` (what is meant) and `Model/` (what the code does). `Lemmas/` is not needed for that.

## 2. Modelling decisions

* **Outcomes.** A C++ call ends with a value, an exception (`Exc`, one constructor per
  pressio exception plus `runtimeError`, `outOfRange`, `other`), undefined behaviour
  (`Stop.ub`) or, for loops without a static bound, not at all. Unbounded loops are
  written with fuel and the outcome `Stop.fuel`; "terminates" means that some fuel gives
  another outcome, "never returns" that every fuel gives `Stop.fuel`. Undefined behaviour is
  never caught by a `catch`. The state reached so far is part of every outcome, so "the caller's state after an exception" is a value of the model.
* **User code.** Right-hand sides, FOM operators, step-size policies, observers, guessers,
  steppers, maskers, hyper-reducers, scalers, linear solvers are parameters. Where the C++
  code may call a stateful object (advancers, linear solvers) the callbacks act on an arbitrary shared
  "world" type and may throw. Const callbacks (`rhs`, ...) are deterministic functions that
  may throw; a FOM callback that throws may leave anything in its output argument.
* **Nonlinear solver as seen by a stepper.** An arbitrary interaction tree (`SolveTree`): a solver asks for
  residuals (and Jacobians) at states of its choice, adaptively, any finite number of times, and
  then returns or throws leaving any state. Theorems quantified over trees (C19 - C27, C50, C52 - C57) hold for every
  terminating solver. The pressio solvers themselves are modelled as programs that ask their system (`SM`); C66 and C67 plug them into the
  steppers (`Spec/SolverRun.lean: driveObj`): one solver object for a whole run, its memory carried from step to step.
* **Runs.** `drive` executes a list of attempts (step size, solver) against a stepper object with memory: an accepted attempt advances time and
  appends to the history, a `TimeStepFailure` is repeated by the next attempt, any other stop ends the run. `ideal` (`Spec/Implicit.lean`) is the
  specification: it has no memory, only the list of accepted states, and evaluates the textbook equation.
* **Scalars.** Fields / linearly ordered fields / real numbers. Floating-point rounding, NaN and
  overflow are not modelled, except for the independent variable of the advancers (C83: `Model/Float.lean`, `Model/AdvanceFloat.lean`),
  where a theorem needs no law at all (C01, C02, C12 hold for any type with an addition) and for NaN checks of norms, which are a predicate of the environment.
  `std::numeric_limits::epsilon()` is an arbitrary non-negative constant. Division by zero that the code does not guard is a separate stop in the QR model.
* **Vectors and matrices.** Modules over a field, or `n -> K` / `Matrix` when entries matter.
  `pressio::ops` kernels (in the separate pressio-ops repository) are modelled by their
  mathematical meaning (`update`, `product`, `scale`, `deep_copy`, ...).
* **Storage.** Scratch buffers, caches, trackers and stencils that live across calls are explicit
  fields of the model state, so "does not depend on old content" is a theorem.
* **Objects and aliasing.** Subspaces, stencil containers and explicit Galerkin problems are modelled over heaps with addresses, so that shared views
  (Kokkos/Tpetra semantics), references to other objects, null pointers and destroyed objects are visible (C46 - C48, C60, C63, C61).
* **Distribution.** Only where pressio's own code handles global and local ids (C69): maps are lists of global ids per process. Elsewhere a
  distributed vector is its global content.
* **Step counters** are integers with the 32-bit limit made explicit where the code increments them.
* **Libraries** are contracts stated in the theorem: an exact inner solver (`ExactLin`), QR (`ExactQR`, proved of pressio's own modified Gram-Schmidt in C68),
  Eigen's `HouseholderQR`, `TsqrAdaptor`, triangular solve, LAPACK `getrf/getrs`, `potrf/potrs`, `geqrf/ormqr` (with its workspace rule), Eigen's iterative solvers (which keep a reference to the matrix).

## 3. Trusted base

* Lean 4.33.0 kernel; axioms at most `propext`, `Classical.choice`, `Quot.sound`
  (`lean/Verif/Audit.lean` prints them for every property theorem; no own axioms, no `sorry`,
  no `native_decide`, no `bv_decide`).
* The correspondence between the C++ text and the model definitions (by reading; every
  definition cites the lines it models and states its simplifications).
* Meaning of the `pressio::ops` kernels, the library contracts named above, and of C++.
* The hypotheses of each theorem about user objects; next to each theorem an `example` meets them.

## 4. Modelled / not modelled

Files with executable code and the model modules that cite them:

| file under `include/pressio` | model |
|---|---|
| `ode/concepts/ode_others.hpp` | `Model/Overloads.lean` |
| `ode/exceptions.hpp` | `Common.lean` |
| `ode/impl/ode_advance_n_steps.hpp` | `Model/Advance.lean`, `Model/Explicit.lean`, `Model/ExplicitMM.lean`, `Model/Float.lean`, `Model/Overloads.lean` |
| `ode/impl/ode_advance_noop_guesser.hpp` | `Model/Advance.lean` |
| `ode/impl/ode_advance_noop_observer.hpp` | `Model/Advance.lean` |
| `ode/impl/ode_advance_to_target_time.hpp` | `Model/Advance.lean`, `Model/AdvanceFloat.lean`, `Model/Explicit.lean`, `Model/ExplicitMM.lean`, `Model/Float.lean`, `Model/Overloads.lean` |
| `ode/impl/ode_explicit_create_impl.hpp` | `Model/Explicit.lean`, `Model/ExplicitMM.lean`, `Model/Factory.lean` |
| `ode/impl/ode_explicit_stepper_with_mass_matrix.hpp` | `Model/ExplicitMM.lean`, `Model/Factory.lean` |
| `ode/impl/ode_explicit_stepper_without_mass_matrix.hpp` | `Model/Explicit.lean`, `Model/Factory.lean`, `Model/GalerkinObjects.lean` |
| `ode/impl/ode_implicit_create_impl.hpp` | `Model/Factory.lean`, `Model/Implicit.lean` |
| `ode/impl/ode_implicit_discrete_jacobian.hpp` | `Model/Implicit.lean` |
| `ode/impl/ode_implicit_discrete_residual.hpp` | `Model/Implicit.lean` |
| `ode/impl/ode_implicit_policy_residual_jacobian_with_mass_matrix.hpp` | `Model/Factory.lean`, `Model/Implicit.lean` |
| `ode/impl/ode_implicit_policy_residual_jacobian_without_mass_matrix.hpp` | `Model/Factory.lean`, `Model/Galerkin.lean`, `Model/Implicit.lean` |
| `ode/impl/ode_implicit_stepper_arbitrary.hpp` | `Model/Factory.lean`, `Model/Implicit.lean`, `Model/Lspg.lean`, `Model/SolveTree.lean`, `Model/SolverM.lean`, `Model/Stencil.lean` |
| `ode/impl/ode_implicit_stepper_standard.hpp` | `Model/Factory.lean`, `Model/Implicit.lean`, `Model/SolveTree.lean` |
| `ode/impl/ode_stencil_data_container_dynamic.hpp` | `Model/Implicit.lean`, `Model/Stencil.lean` |
| `ode/impl/ode_stencil_data_container_static.hpp` | `Model/Implicit.lean`, `Model/Stencil.lean` |
| `ode/ode_advance_n_steps.hpp` | `Model/Overloads.lean` |
| `ode/ode_advance_n_steps_variadic.hpp` | `Model/Overloads.lean` |
| `ode/ode_advance_n_steps_with_guesser.hpp` | `Model/Overloads.lean` |
| `ode/ode_advance_n_steps_with_guesser_variadic.hpp` | `Model/Overloads.lean` |
| `ode/ode_advance_to_target_point.hpp` | `Model/Advance.lean`, `Model/Overloads.lean` |
| `ode/ode_advance_to_target_point_variadic.hpp` | `Model/Advance.lean`, `Model/Overloads.lean` |
| `ode/ode_advance_to_target_point_with_step_recovery.hpp` | `Model/Advance.lean`, `Model/Overloads.lean` |
| `ode/ode_advance_to_target_point_with_step_recovery_variadic.hpp` | `Model/Advance.lean`, `Model/Overloads.lean` |
| `ode/ode_constants.hpp` | `Model/Implicit.lean` |
| `ode/ode_create_explicit_stepper.hpp` | `Model/Factory.lean` |
| `ode/ode_create_implicit_stepper.hpp` | `Model/Factory.lean` |
| `ode/ode_enum_and_tags.hpp` | `Model/Explicit.lean`, `Model/Factory.lean`, `Model/Stencil.lean` |
| `ode/ode_strong_types.hpp` | `Common.lean`, `Model/Advance.lean` |
| `rom/create_subspace.hpp` | `Model/Subspace.lean` |
| `rom/galerkin_steady.hpp` | `Model/Galerkin.lean`, `Model/SteadySolve.lean` |
| `rom/galerkin_unsteady_explicit.hpp` | `Model/Factory.lean`, `Model/Galerkin.lean` |
| `rom/galerkin_unsteady_implicit.hpp` | `Model/Factory.lean`, `Model/Galerkin.lean` |
| `rom/impl/galerkin_helpers.hpp` | `Model/Factory.lean` |
| `rom/impl/galerkin_steady_system_default.hpp` | `Model/Galerkin.lean`, `Model/SteadySolve.lean` |
| `rom/impl/galerkin_steady_system_hypred.hpp` | `Model/Galerkin.lean`, `Model/SteadySolve.lean` |
| `rom/impl/galerkin_steady_system_masked.hpp` | `Model/Galerkin.lean` |
| `rom/impl/galerkin_unsteady_explicit_problem.hpp` | `Model/Factory.lean`, `Model/Galerkin.lean`, `Model/GalerkinObjects.lean` |
| `rom/impl/galerkin_unsteady_fom_states_manager.hpp` | `Model/Lspg.lean` |
| `rom/impl/galerkin_unsteady_system_default_rhs_and_jacobian.hpp` | `Model/Galerkin.lean` |
| `rom/impl/galerkin_unsteady_system_default_rhs_and_jacobian_and_mm.hpp` | `Model/Galerkin.lean` |
| `rom/impl/galerkin_unsteady_system_default_rhs_only.hpp` | `Model/Galerkin.lean` |
| `rom/impl/galerkin_unsteady_system_default_rhs_with_mass_matrix.hpp` | `Model/Galerkin.lean` |
| `rom/impl/galerkin_unsteady_system_fully_discrete_fom.hpp` | `Model/Lspg.lean` |
| `rom/impl/galerkin_unsteady_system_hypred_fully_discrete_fom.hpp` | `Model/Lspg.lean` |
| `rom/impl/galerkin_unsteady_system_hypred_rhs_and_jacobian.hpp` | `Model/Galerkin.lean` |
| `rom/impl/galerkin_unsteady_system_hypred_rhs_only.hpp` | `Model/Galerkin.lean` |
| `rom/impl/galerkin_unsteady_system_masked_rhs_and_jacobian.hpp` | `Model/Galerkin.lean` |
| `rom/impl/galerkin_unsteady_system_masked_rhs_only.hpp` | `Model/Galerkin.lean` |
| `rom/impl/linear_trial_column_subspace.hpp` | `Model/Galerkin.lean`, `Model/Subspace.lean` |
| `rom/impl/lspg_helpers.hpp` | `Model/Factory.lean`, `Model/Lspg.lean` |
| `rom/impl/lspg_steady_system_default.hpp` | `Model/Lspg.lean` |
| `rom/impl/lspg_steady_system_masked.hpp` | `Model/Lspg.lean` |
| `rom/impl/lspg_unsteady_fom_states_manager.hpp` | `Model/Factory.lean`, `Model/Lspg.lean` |
| `rom/impl/lspg_unsteady_fully_discrete_system.hpp` | `Model/Lspg.lean` |
| `rom/impl/lspg_unsteady_mask_decorator.hpp` | `Model/Lspg.lean` |
| `rom/impl/lspg_unsteady_problem.hpp` | `Model/Factory.lean`, `Model/Lspg.lean` |
| `rom/impl/lspg_unsteady_reconstructor.hpp` | `Model/Reconstructor.lean` |
| `rom/impl/lspg_unsteady_rj_policy_default.hpp` | `Model/Lspg.lean` |
| `rom/impl/lspg_unsteady_rj_policy_hypred.hpp` | `Model/Lspg.lean` |
| `rom/impl/lspg_unsteady_scaling_decorator.hpp` | `Model/Lspg.lean` |
| `rom/impl/noop.hpp` | `Model/Lspg.lean` |
| `rom/linear_rom.hpp` | `Model/LinearRom.lean` |
| `rom/linear_subspace.hpp` | `Model/Subspace.lean` |
| `rom/lspg_steady.hpp` | `Model/Lspg.lean`, `Model/SteadySolve.lean` |
| `rom/lspg_unsteady.hpp` | `Model/Factory.lean`, `Model/Lspg.lean` |
| `rom/rom_lspg_unsteady_hypred_updater_trilinos.hpp` | `Model/HypredUpdater.lean` |
| `solvers_linear/impl/solvers_linear_eigen_direct_impl.hpp` | `Model/LinSolvers.lean` |
| `solvers_linear/impl/solvers_linear_eigen_iterative_impl.hpp` | `Model/LinSolvers.lean` |
| `solvers_linear/impl/solvers_linear_eigen_iterative_matrix_free_impl.hpp` | `Model/LinSolvers.lean` |
| `solvers_linear/impl/solvers_linear_iterative_base.hpp` | `Model/LinSolvers.lean` |
| `solvers_linear/impl/solvers_linear_kokkos_direct_geqrf_impl.hpp` | `Model/LinSolvers.lean` |
| `solvers_linear/impl/solvers_linear_kokkos_direct_getrs_impl.hpp` | `Model/LinSolvers.lean` |
| `solvers_linear/impl/solvers_linear_kokkos_direct_potrs_lower_impl.hpp` | `Model/LinSolvers.lean` |
| `solvers_linear/impl/solvers_linear_kokkos_direct_potrs_upper_impl.hpp` | `Model/LinSolvers.lean` |
| `solvers_nonlinear/impl/diagnostics.hpp` | `Model/Diagnostics.lean` |
| `solvers_nonlinear/impl/functions.hpp` | `Model/Nonlinear.lean`, `Model/SolverM.lean`, `Model/SteadySolve.lean` |
| `solvers_nonlinear/impl/instance_or_reference_wrapper.hpp` | `Model/Factory.lean` |
| `solvers_nonlinear/impl/internal_tags.hpp` | `Model/Nonlinear.lean` |
| `solvers_nonlinear/impl/levmar_damping.hpp` | `Model/Nonlinear.lean` |
| `solvers_nonlinear/impl/nonlinear_least_squares.hpp` | `Model/Diagnostics.lean`, `Model/Nonlinear.lean`, `Model/SolverM.lean`, `Model/SteadySolve.lean` |
| `solvers_nonlinear/impl/qr/qr_base_classes.hpp` | `Model/QR.lean` |
| `solvers_nonlinear/impl/qr/qr_concrete_classes.hpp` | `Model/QR.lean` |
| `solvers_nonlinear/impl/qr/qr_eigen_impl.hpp` | `Model/QR.lean` |
| `solvers_nonlinear/impl/qr/qr_fwd.hpp` | `Model/QR.lean` |
| `solvers_nonlinear/impl/qr/qr_tpetra_impl.hpp` | `Model/QR.lean` |
| `solvers_nonlinear/impl/qr/qr_traits.hpp` | `Model/QR.lean` |
| `solvers_nonlinear/impl/registries.hpp` | `Model/Nonlinear.lean` |
| `solvers_nonlinear/impl/root_finder.cpp` | `Model/Diagnostics.lean`, `Model/Nonlinear.lean`, `Model/SolverM.lean`, `Model/SteadySolve.lean` |
| `solvers_nonlinear/impl/solvers_tagbased_registry.hpp` | `Model/Nonlinear.lean` |
| `solvers_nonlinear/impl/updaters.hpp` | `Model/Diagnostics.lean`, `Model/Nonlinear.lean` |
| `solvers_nonlinear/solvers_create_gauss_newton.hpp` | `Model/Diagnostics.lean` |
| `solvers_nonlinear/solvers_create_levenberg_marquardt.hpp` | `Model/Diagnostics.lean` |
| `solvers_nonlinear/solvers_create_newton.hpp` | `Model/Diagnostics.lean` |
| `solvers_nonlinear/solvers_exceptions.hpp` | `Common.lean` |
| `solvers_nonlinear/solvers_nonlinear_enums_and_tags.hpp` | `Model/Diagnostics.lean` |

Not modelled:

| file | why |
|---|---|
| `ode.hpp` | includes only |
| `ode/concepts/ode_has_const_discrete_residual_jacobian_method.hpp` | compile-time concepts |
| `ode/concepts/ode_predicates_for_system.hpp` | compile-time concepts |
| `ode/concepts/ode_system.hpp` | compile-time concepts |
| `ode/impl/ode_advance_mandates.hpp` | static assertions |
| `ode/impl/ode_advance_printing_helpers.hpp` | log text |
| `ode/ode_stencil_containers.hpp` | forwards to the containers |
| `ode_advancers.hpp` | includes only |
| `ode_concepts.hpp` | includes only |
| `ode_steppers_explicit.hpp` | includes only |
| `ode_steppers_implicit.hpp` | includes only |
| `pressio_macros.hpp` | macros |
| `rom.hpp` | includes only |
| `rom/concepts_helpers.hpp` | compile-time |
| `rom/impl/ode_has_const_discrete_residual_jacobian_action_method.hpp` | compile-time |
| `rom/predicates.hpp` | compile-time |
| `rom/reduced_operators_traits.hpp` | type aliases |
| `rom/rom_concepts.hpp` | compile-time |
| `rom_concepts.hpp` | includes only |
| `rom_galerkin_steady.hpp` | includes only |
| `rom_galerkin_unsteady.hpp` | includes only |
| `rom_linear.hpp` | includes only |
| `rom_lspg_steady.hpp` | includes only |
| `rom_lspg_unsteady.hpp` | includes only |
| `rom_subspaces.hpp` | includes only |
| `solvers.hpp` | includes only |
| `solvers_linear.hpp` | includes only |
| `solvers_linear/impl/solvers_linear_solver_selector_impl.hpp` | compile-time choice of the wrapper class |
| `solvers_linear/impl/solvers_linear_traits.hpp` | compile-time choice of the Eigen/Kokkos class |
| `solvers_linear/solvers_linear_solver.hpp` | type alias |
| `solvers_linear/solvers_linear_tags.hpp` | tags |
| `solvers_nonlinear.hpp` | includes only |
| `solvers_nonlinear/impl/qr.hpp` | includes only |
| `solvers_nonlinear/solvers_concepts.hpp` | compile-time |
| `solvers_nonlinear/solvers_concepts_cxx20.hpp` | compile-time |
| `solvers_nonlinear/solvers_default_types.hpp` | type aliases |
| `solvers_nonlinear/solvers_predicates.hpp` | compile-time |
| `solvers_nonlinear_concepts.hpp` | includes only |
| `solvers_nonlinear_gaussnewton.hpp` | includes only |
| `solvers_nonlinear_levmarq.hpp` | includes only |
| `solvers_nonlinear_newton.hpp` | includes only |

Also not modelled anywhere: logging text and sinks, the numerical kernels of Eigen, Kokkos, Trilinos and pressio-ops, MPI communication, floating-point
rounding of states (only of the independent variable of the advancers, C83), memory allocation failure, threads (the library has none), sparsity formats.

## 5. Per property

| id | what is modelled | how it is proved |
|---|---|---|
| C01 | `advance_n_steps_with_dt_policy` with event log, arbitrary world | induction on the number of steps; spec = existence of an abstract execution with exactly the required log |
| C02 | same, throwing callbacks | induction, log is a strict prefix ending at the throwing call |
| C03 | overload wrappers | program equality by induction |
| C04 | explicit steppers inside the advancer | induction; witness for AB2 |
| C05, C07, C08 | `to_target_time_with_step_size_policy` with fuel and log | invariant by induction on fuel |
| C06, C09 | same | termination by a decreasing measure (Archimedean field); non-termination for every fuel |
| C10 | the four public overloads | refutation with a concrete failing stepper; `_partial` for the variadic overload |
| C11 | recovery loop against failure-transparent steppers, instance for the implicit steppers | simulation |
| C12 | 32-bit counter with `Stop.ub` | induction |
| C13, C14 | explicit steppers with storage | refinement to Butcher tableau / multistep spec, over whole runs |
| C15 | same | algebra over an arbitrary module; polynomial exactness |
| C16 | same | convexity |
| C17, C18 | mass-matrix steppers, solver as a procedure on (x,f) buffers | refinement; refutation for the other argument order |
| C19 - C27 | standard/arbitrary implicit steppers over arbitrary solver trees and attempt histories | invariant and simulation over histories (`drive = ideal`); Frechet derivative for C20; witnesses for the false ones |
| C28, C29 | factories; moved-from systems as a heap-like state | decision tables; witness |
| C30 - C33 | Newton loop as an asking program; solver object memory | refinement to an abstract iteration (`iterate`), induction on iterations; witnesses |
| C34, C35 | normal equations, QR, weights | linear algebra over ordered fields; derivatives over the reals |
| C36 - C39 | least-squares loop, line-search updaters | same refinement; witnesses |
| C40 - C42, C64 | Levenberg-Marquardt updaters and damping | invariant over iterations; sign analysis; witness for the gain ratio |
| C43, C44 | solver objects used repeatedly; diagnostics | equality of runs from different memories; invariant on the logged norms |
| C45 | failure translation | case analysis of every asking point; witness for trial evaluations |
| C46 - C48 | subspaces; value/view containers over a heap | refinement; witnesses |
| C49 - C51 | Galerkin systems, steady and unsteady, on the steppers' models | refinement to the projection spec; simulation of trajectories |
| C52 - C55 | LSPG policies, decorators, problem object | `drive = ideal` with the state manager as memory; witnesses for reuse |
| C56, C57 | FOM state manager, fully discrete systems | invariants over call sequences and runs |
| C58 | linear ROM | algebra over explicit buffers |
| C59 | reconstructor, file parser | induction over recorded trajectories; character-level round trip |
| C60 | stencil containers over a heap | invariant over access sequences |
| C61 | linear solver wrappers | state machines against library contracts, all histories |
| C62 | explicit steppers with throwing callbacks | case analysis per stage; witness for AB2 |
| C63 | object heap for explicit Galerkin problems | invariant over object histories; witness |
| C65 | LSPG with throwing FOM | witness, `_partial` |
| C66, C67 | implicit/LSPG steppers with pressio's solver objects | composition of C19/C52 with C30/C36 through `driveObj` |
| C68 | modified Gram-Schmidt loop by loop; TSQR, Householder objects | loop invariant (orthogonality, span, remaining columns); refutations for reuse |
| C69 | Trilinos hyper-reduction updater per process | closed form of the loops, then the contract of C54 |
| C70 | overload sets of the advancers, partial ordering | case analysis over argument lists, any stepper |
| C71 | forwarding of auxiliary arguments | simulation; witness for every move constructor that changes the object |
| C72 | linear functions of the states along runs of the explicit and implicit models | linearity of the update, induction over steps/records; Newton corrections stay in the kernel |
| C73 | two runs of the explicit models over the reals | perturbation of one step, discrete Gronwall (one and two step) |
| C74 | runs of the explicit models against the solution of the ODE | expansions of solution and stages in powers of the step, uniformly on compact sets; C73's recursion; cut-off for right-hand sides without a Lipschitz constant; closed form for the AB2 counterexample |
| C75 | runs of the implicit model in which every accepted step has a residual of at most tol | energy estimates (G-norm for BDF2), induction over accepted steps; end to end with the Newton object through C66 |
| C76 | the same runs against the solution of the ODE | Taylor and trapezoid remainders, the stability recursions; closed form for the BDF2 counterexample |
| C77 | steps of the explicit models with functions, observers and solvers that may throw | refinement of a textbook step in the exception monad, stage by stage |
| C78 | the Newton model of C30 on smooth systems | Taylor with Lipschitz Jacobian, quadratic error recursion, the stop criteria two-sided in terms of the error |
| C79 | the Newton object inside implicit runs (C66) on smooth right-hand sides | residuals of the iterates decrease quadratically from the last state, induction over the steps: the error bounds of C75/C76 for the steps so far keep the next solve in the region where Newton converges |
| C80 | default Galerkin problems (C49-C51) on an orthonormal basis, Euclidean inner product | the basis is an isometry, the reduced right-hand side its adjoint applied to the full-order one; then the general bounds of C75; refutation: explicit two-dimensional rotation with collocation in one row |
| C81 | Galerkin runs of all kinds, lifted to the full space | the lifted accepted states solve the full-order time-discrete equations up to dt times the defect; the bounds of C76 for runs with small residuals; explicit runs: perturbation of the update sequence (C73) by the defect at the stages |
| C82 | default unsteady LSPG runs (C52, C67), lifted to the full space | the LSPG residual at an accepted state is the full-order residual of the scheme at the reconstructed states; the general bounds of C75/C76 for runs with small residuals; Gauss-Newton on linear models: optimality of least squares (C67_linear_fom), and comparison with the zero combination for the contraction |
| C83 | binary floating-point arithmetic as exact rationals with rounding (`Model/Float.lean`); the target-time advancer over any arithmetic (`Model/AdvanceFloat.lean`) | rounding is monotone, its error is bounded, numbers of the format are fixed points; induction over the steps; refutation for 0.1 by kernel computation |
| C84 | runs of the mass-matrix stepper (C26) with any converging solver | the accepted states solve the equations of the scheme for M^-1 f up to the tolerance; a square root of M turns the energy norm into a Hilbert norm, in which the bounds of C75 and C76 apply |
| C85 | the target-time advancer with recovery over any arithmetic (C83), floating point with a specification of rounding that does not compute it | induction on the attempts and steps; a quotient by a factor above 1 is at least one unit smaller when the dividend has full precision |
| C86 | the Gauss-Newton solver objects over the reals, as sequences of iterates (C36), residual norm given by an inner product | one step by the normal equations and Taylor with Lipschitz Jacobian, induction on the updates; first iterate that meets the criterion; a two-cycle for large residuals |
| C87 | solver objects (C30, C36) started at a solution; relative diagnostics with zero reference as IEEE quotients | the iterates are constant; absolute criteria are met at the first iteration, relative ones never (0/0) |
| C88 | the Levenberg-Marquardt object run by the solver loop (C36, C40, C41) over the reals with Euclidean norms; the inner solver answers positive definite systems exactly | refinement to the sequence (state, damping, growth factor); compactness gives uniform bounds; damping large enough forces acceptance with gain at least 2, damping bounded forces a fixed decrease, so the gradient cannot stay above the tolerance; for schedule 2 a problem on which the largest damping is too small |
| C89 | steady Galerkin (default, hyper-reduced, masked) and LSPG (default, masked) problem objects with their buffers, asked by the solver objects of C30-C36 | the solve is refined to the solve of the equations (C49, C55 give every answer, whatever the buffers hold); quasi-optimality by testing the residual with differences of trial states, then the affine theorems C31, C36 for linear models; orthogonality for the energy norm and for least squares; rotation as counterexample |
| C90 | `root_solving_loop_impl` for `MatrixFreeNewtonTag` with an arbitrary Krylov method and an arbitrary action | simulation of the loop by the Newton loop whose linear solver is the Krylov method on the Jacobian, by induction on the remaining iterations; then C30, C32, C43, C45; contraction of the residual for inexact directions near a regular root |
| C91 | `GalerkinSteadyDefaultSystem::residual/applyJacobian`, `GalerkinSteadyHypRedSystem`, the matrix-free loop | C49 gives the two functions, C90 the comparison, the contraction of the residual of C90_inexact_linear with the quasi-optimality of C89 the bound; the throwing problem by evaluation |
| C92 | the loops of the advancers with a stepper object, a policy and an observer as arbitrary programs over separate parts of the state | simulation of each loop by a list of attempts, by induction on the number of steps and attempts; `driveObj` as such a list; completion by induction on the steps left; C79 for the error bounds |
| C93 | the same objects as C53, C82 and C86; conditions on the full-order model along the trial space | semi-local existence of a minimiser (compact ball, first-order condition) and local convergence of Gauss-Newton (C86_from_small_residual); induction over the steps with the distance travelled; residual of a stationary point by orthogonality; the error theorems for runs with residuals (C82) |
| C94 | the objects of C26, C76 and C79: stepper with mass matrix, Newton object; Spec/MassMatrixNewton.lean: the equations of a step, what a user sees of an attempt | refinement of the stepper to textbook steps, simulation of the two runs (with M, and without M on M^-1 f with scaled solver), then the theorems for runs without mass matrix in the energy norm |
| C95 | the objects of C49, C79 and C92: default Galerkin system, stepper, Newton object; Spec/GalerkinRuns.lean: projection onto the trial space, models well-behaved on part of it | the projected exact solution satisfies the reduced equations up to what f changes between the solution and its projection; this becomes an extra residual in the convergence theorems for inexact implicit runs |
| C96 | the steppers of C19, C25, C52, C54, C57 and the advancers of C92; Spec/CustomSchemes.lean: the built-in schemes as a user would write them, what the caller of an advancer sees | both runs equal the ideal run of their equations, and the equations agree; a bisimulation between steppers whose attempts agree carries this through solver objects and advancers |
| C97 | the recovery loop of C05/C92 with stepper objects; Spec/RecoveryRuns.lean: policies that leave room, models that can only be evaluated on a domain, decisive Newton solves | induction on the attempts of one step (sizes shrink geometrically until they succeed), then on the steps; for implicit steppers the Newton iterates of small steps stay in the region (C79), larger solves either converge or are rolled back, and the bounds of C75/C76 hold for whatever was accepted |
| C98 | the solver objects of C33-C36 on the same or on a multiplied system; Spec/SolverAlike.lean: scaled systems, linear and QR solvers that solve regular problems, corresponding options | lock-step induction over the iterations and the line search with a relation between the two solver states; runs and advancers by the step-by-step comparison of C96, restricted to sizes with regular equations |
| C99 | two solver objects on one system in two affine coordinates, two LSPG or Galerkin problems on two descriptions of one trial space; Spec/Coordinates.lean: when descriptions contain the same states, what of a run is compared | lock-step induction over iterations, line searches and damping schedules with states related by the change of coordinates; runs by the same over steps; Galerkin through the projection theorems of C50, C51 |
| C100 | one equation on two clocks and in two units of state, with the steppers, solvers and advancers of the model; Spec/Units.lean: translation of times, sizes, states and calls | simulation relation between the two runs, by induction over steps, attempts with recovery and solver iterations; refutation by a concrete pair of runs |
| C101 | a program with families of problems, solver objects and linear solvers, driven by an arbitrary schedule; Spec/Sharing.lean: the shared memories | induction over the schedule with invariants of all problems and all solver objects; the solves do not depend on the memory of the objects (C43) |
| C102 | the policies of LSPG (default, hyper-reduced, masked, scaled) and the weighted least-squares solvers; Spec/Sampling.lean: stencil and sample meshes, weights | the sampled equations are a matrix times the full ones; the two solves agree call by call (C98); induction over the steps |
| C103 | the default Galerkin and LSPG problems with a square basis, and steppers on the full-order system | the reduced equations are the full-order equations in other coordinates; C99 for solver objects, C98 for Newton and Gauss-Newton, C51 for explicit schemes; induction over the steps |
| C104 | the default Galerkin and LSPG problems on trial spaces that the full-order model does not leave, and steppers on the full-order system | the residuals of a step are in the range of the basis and its Jacobians map it into itself, so full-order corrections are reduced corrections; iterates, then steps, by induction |
| C105 | implicit steppers with mass matrix M(t), and without for M(t)^-1 f, with Newton objects | the equations of a step are those of the other, combined by the mass matrix at the end of the step; Newton does not see invertible combinations (C99) |
| C106 | masked and hyper-reduced Galerkin and LSPG problems, any solver object | both problems compute the same functions of the reduced state (C49), or the same equations of a step (C54, C55, C102); equal equations give equal runs |
| C107 | implicit steppers and LSPG problems with solver objects, advance_n_steps | attempts are solves of equations (C19, C52, C54, C55), which for BDF1 and CrankNicolson contain the last accepted state only; solves do not depend on the past of the solver object (C43); a call of advance_n_steps is a run of attempts (C92) that is determined by its outcome |
| C108 | Galerkin and LSPG problems on a sample mesh, with a hyper-reduction operator or weights that reconstruct with a collateral basis | the reduced operators of the hyper-reduced problem are those of the default problem (C49, and linear algebra); equal functions have equal runs (C106); for LSPG the equations on the full mesh are those on the sample mesh times a matrix, and such a matrix can be moved into the weights of the solver (C98, C102) |
| C109 | explicit steppers with and without mass matrix in advance_n_steps | runs are those of the textbook schemes (C13, C14, C17); the stage times of the tableaux are their row sums and the weights add up to 1, so the carried time is the time of every stage; uncoupled parts by the lifting of runs along a projection (C51) |
| C110 | hyper-reduced Galerkin problems (explicit, implicit, steady) with a code for a sample mesh, against the full-order problem | explicit: lifting of runs (C51) with the recovered coordinates; implicit and steady: C108 with the trial basis as collateral basis, then C104 |
| C111 | explicit steppers in advance_n_steps | superposition: lifting of runs (C51) from the run of the two problems side by side along their projections and combination; sensitivities: the stages and steps of the textbook schemes (C13, C14) map curves with a velocity to curves with the velocity that the linearised problem computes, by induction on stages and steps; implicit superposition: every record solves the equation of the scheme (C66), the equations superpose and have one solution, by induction on the records; carried to calls of advance_n_steps with a fixed step size; mass matrices by solving for the time derivative (C17, C105) |

Properties that turn out to be false of the code are kept as stated; the negation is proved with a concrete witness or for a whole class of inputs, and
the largest part that holds is proved (suffix `_partial` where it is only a part of the statement).

## 6. What the proofs found in the code

| where | what | theorem |
|---|---|---|
| `advance_to_target_point_with_step_recovery` without extra arguments | calls the loop with recovery disabled: a failed step ends the run | `C10_overload_without_arguments_does_not_recover_refuted` |
| target-point loops | a step size or minimum of 0 never returns (counter overflow) | `C06_zero_step_never_returns`, `C09_zero_minimum_never_returns` |
| `advance_n_steps` | the largest 32-bit count overflows the loop counter | `C12_overflow_at_max` |
| target-point loops | the stop test uses the machine epsilon as a duration: in a large unit of time the loop stops before the target | `C100_target_refuted` |
| Adams-Bashforth 2 | splitting a run restarts with an Euler step; after a throwing right-hand side the stored previous one may be corrupted | `C04_splitting_adams_bashforth_refuted`, `C62_adams_bashforth_retry_refuted` |
| explicit steppers with mass matrix | call `solve(M, x, f)`, not the documented `solve(A, b, x)` | `C18_documented_convention_refuted` |
| implicit steppers | exceptions other than solver failures can leave the state changed; CrankNicolson evaluates the right-hand side outside the translated block and keeps it across runs | `C22_refuted`, `C23_refuted_crank_nicolson`, `C24_refuted_crank_nicolson` |
| implicit steppers with guesser | the guess becomes the previous state in the equation | `C27_refuted` |
| state-dependent mass matrix | the Jacobian omits the derivative of the mass matrix | `C20_refuted_state_dependent_mass_matrix` |
| factories | a system passed as a temporary is used after it was moved from (explicit steppers, user-defined schemes, mass-matrix policy) | `C29_refuted` |
| Newton | criteria on gradient/objective and AfterMaxIters never return normally (`std::out_of_range`); normal return at the iteration limit and at line-search breakdown | `C32_newton_other_criteria`, `C33_newton_normal_return_unconverged`, `C33_newton_breakdown_returns` |
| least squares | `Update::Armijo` runs plain backtracking (and Newton refuses it) | `C39_armijo_is_backtracking`, `C39_armijo_violated` |
| Levenberg-Marquardt | the gain ratio divides by `|J c|^2/2`; the predicted decrease is `|J c|^2/2 + damp c'Dc` | `C42_gain_ratio_is_not_predicted` |
| line searches, LM | failures of the system at trial points escape untranslated | `C45_least_squares_escape_witness`, `C45_newton_linesearch_escapes`, `C23_refuted_line_search` |
| subspaces | `basis()` of a non-affine subspace dereferences null; with view containers construction zeroes the argument and the translation stays aliased | `C48_basis_undefined`, `C47_view_construction_zeroes_argument`, `C47_view_translation_aliased` |
| LSPG problems | a second run after one that ended in step 1 starts from a stale state; FOM failures are not translated | `C53_refuted`, `C65_refuted_fom_failure_escapes` |
| FOM state manager | setting position n-2 in a manager of four states writes outside its storage | `C56_n_minus_two_refuted` |
| linear ROM | forcing of the matrix variant is uninitialised | `C58_forcing_uninitialised` |
| reconstructor | an empty file is undefined behaviour (first row of an empty list) | `C59_empty_file` |
| linear solvers | the geqrf wrapper sizes its workspace once, so a larger matrix later fails; Eigen iterative solvers keep a reference to the matrix | `C61_geqrf_refuted`, `C61_iterative_reference`, `C61_iterative_dangling` |
| explicit Galerkin problems | copies keep a reference into the original | `C63_copy_refuted` |
| Adams-Bashforth 2 | coefficients for constant steps are used for any steps: first order only when the step changes | `C74_refuted_adams_bashforth_second_order` |
| Adams-Bashforth 2 | a step repeated after its right-hand-side observer threw is a ForwardEuler step (without mass matrix); a throwing linear solver that had written changes the repeated step (with mass matrix) | `C77_observer_retry_refuted`, `C77_solver_retry_refuted` |
| BDF2 | coefficients for constant steps are used for any steps: `y' = 1` is not integrated exactly, first order only when the step changes | `C76_refuted_bdf2_second_order` |
| advancers | auxiliary arguments passed as temporaries are forwarded (moved) at every step | `C71_refuted_temporaries` |
| QR | modified Gram-Schmidt overwrites its const argument; Q is not resized when only the number of columns changes | `C68_mgs_overwrites`, `C68_refuted_reuse_more_columns`, `C68_refuted_tsqr_reuse` |
