{"id": "C01", "title": "advance_n_steps call protocol", "statement": "advance_n_steps with N steps calls the observer exactly N+1 times (0 first with the initial state, then after each step), the stepper exactly N times with consecutive step numbers 1..N, and each call for step k is preceded by exactly one dt-policy call and one guesser call for the same step and start time; the time given to step k+1 and to observer k is the time of step k plus the dt used for it. For N<=0 only the initial observation happens and the state is untouched.", "quantifier": "every stepper with arbitrary internal state, every step-size policy, observer, guesser, every N and start time, and every scalar type with an addition (no field laws, so rounding is covered)", "why_tests_cant": "A test fixes one stepper and one N; the protocol must hold for every number of steps and every stateful callback.", "anchors": ["include/pressio/ode/impl/ode_advance_n_steps.hpp: advance_n_steps_with_dt_policy, advance_n_steps_with_fixed_dt", "include/pressio/ode/ode_advance_n_steps.hpp: advance_n_steps", "include/pressio/ode/ode_advance_n_steps_with_guesser.hpp: advance_n_steps_with_pre_step_guesser"]}
{"id": "C02", "title": "advance_n_steps stops at the first exception", "statement": "If the stepper throws at step k, advance_n_steps propagates that exception, steps 1..k-1 have been observed, step k has not been observed and no later callback is made.", "quantifier": "every stepper, every failing step k and every exception value", "why_tests_cant": "The crash point can be any step of any run.", "anchors": ["include/pressio/ode/impl/ode_advance_n_steps.hpp: advance_n_steps_with_dt_policy, advance_n_steps_with_fixed_dt"]}
{"id": "C03", "title": "advance_n_steps overload equivalence", "statement": "The fixed-step overload behaves as the step-size-policy overload with a policy that always returns that size; the overloads without observer (guesser) leave the same final state as those with any observer (with a guesser that does not modify the state); with a fixed dt the time observed at step k is start + k*dt.", "quantifier": "all steppers, states, N, dt and observers", "why_tests_cant": "Equivalence of two programs over all inputs.", "anchors": ["include/pressio/ode/ode_advance_n_steps.hpp: advance_n_steps (4 overloads)", "include/pressio/ode/ode_advance_n_steps_with_guesser.hpp", "include/pressio/ode/impl/ode_advance_n_steps.hpp: advance_n_steps_with_dt_policy, advance_n_steps_with_fixed_dt"]}
{"id": "C04", "title": "Splitting a run of a one-step explicit scheme", "statement": "For ForwardEuler, SSPRungeKutta3 and RungeKutta4, advancing N steps and then M steps (starting from the reached time, with the same stepper object) gives the same final state and time as advancing N+M steps. A user expects the same from AdamsBashforth2, for which it is false: the second run restarts with an Euler step.", "quantifier": "all right-hand sides, states, start times, dt, N and M", "why_tests_cant": "Equality of trajectories of every length for every right-hand side.", "anchors": ["include/pressio/ode/impl/ode_explicit_stepper_without_mass_matrix.hpp: ExplicitStepperNoMassMatrixImpl", "include/pressio/ode/impl/ode_advance_n_steps.hpp: advance_n_steps_with_dt_policy, advance_n_steps_with_fixed_dt"]}
{"id": "C05", "title": "advance_to_target_point reaches the target", "statement": "If advance_to_target_point returns normally and final>start, the last observed time t satisfies |t-final|<=eps or t>final, every earlier observed time is < final-eps, step numbers are consecutive from 0, and the overshoot t-final is smaller than the last step size used (up to eps). With final==start nothing is called; with final<start it throws before calling anything.", "quantifier": "all steppers, step-size policies, start and final times", "why_tests_cant": "The number of steps is not bounded and depends on the policy.", "anchors": ["include/pressio/ode/impl/ode_advance_to_target_time.hpp: to_target_time_with_step_size_policy", "include/pressio/ode/ode_advance_to_target_point.hpp: advance_to_target_point"]}
{"id": "C06", "title": "advance_to_target_point terminates for step sizes bounded below", "statement": "If the policy always sets dt >= d > 0 and the stepper does not throw, advance_to_target_point returns after at most ceil((final-start)/d) steps. If the policy keeps setting dt=0 it never returns.", "quantifier": "all policies with a positive lower bound, all steppers, all final times", "why_tests_cant": "Termination is a liveness property over unbounded executions.", "anchors": ["include/pressio/ode/impl/ode_advance_to_target_time.hpp: to_target_time_with_step_size_policy"]}
{"id": "C07", "title": "Minimum step size is never violated", "statement": "In advance_to_target_point(_with_step_recovery) every call to the stepper uses a dt that is >= the minimum allowed step size most recently set by the policy (0 when the policy cannot set it); a smaller dt makes the call throw without calling the stepper.", "quantifier": "all policies, steppers, failure patterns", "why_tests_cant": "The violating combination of policy value and number of failures may occur at any step.", "anchors": ["include/pressio/ode/impl/ode_advance_to_target_time.hpp: to_target_time_with_step_size_policy"]}
{"id": "C08", "title": "Step recovery protocol", "statement": "With recovery enabled, the attempts made for one step have sizes dt, dt/f, dt/f^2, ... with the same start time and step number until one succeeds; the time is then advanced by exactly the size that succeeded; only TimeStepFailure is retried and any other exception escapes at once; a reduction factor <= 1 is rejected before the stepper is called.", "quantifier": "all sequences of failures and successes, all policies", "why_tests_cant": "Every failure schedule must be covered.", "anchors": ["include/pressio/ode/impl/ode_advance_to_target_time.hpp: to_target_time_with_step_size_policy", "include/pressio/ode/ode_advance_to_target_point_with_step_recovery_variadic.hpp"]}
{"id": "C09", "title": "Step recovery terminates", "statement": "If the policy sets a positive minimum step size and the stepper always fails, a step is abandoned with an exception after finitely many attempts (at most k, as soon as dt/f^k < minimum). With minimum 0 (its default) and a stepper that always fails the call never returns.", "quantifier": "all dt, f>1, minDt>0", "why_tests_cant": "Termination over an unbounded number of retries.", "anchors": ["include/pressio/ode/impl/ode_advance_to_target_time.hpp: to_target_time_with_step_size_policy"]}
{"id": "C10", "title": "Every with_step_recovery overload recovers", "statement": "A call to advance_to_target_point_with_step_recovery retries a failed step with a smaller dt, whether or not extra arguments are forwarded to the stepper. (False of the code: the overloads without extra arguments run the non-recovering loop and never pass the minimum size and factor to the policy.)", "quantifier": "all overloads, all steppers that fail at least once", "why_tests_cant": "Requires every failing stepper; the overload without arguments is the case the suite does not exercise with failures.", "anchors": ["include/pressio/ode/ode_advance_to_target_point_with_step_recovery.hpp: advance_to_target_point_with_step_recovery", "include/pressio/ode/ode_advance_to_target_point_with_step_recovery_variadic.hpp: advance_to_target_point_with_step_recovery"]}
{"id": "C11", "title": "Recovered runs equal failure-free runs of the accepted steps", "statement": "When the stepper restores state on TimeStepFailure (as the implicit steppers do), a recovering run observes exactly the states and times produced by a run made only of the successful attempts.", "quantifier": "all steppers satisfying the failure-transparency contract, all failure schedules", "why_tests_cant": "Quantifies over all failure schedules and run lengths.", "anchors": ["include/pressio/ode/impl/ode_advance_to_target_time.hpp: to_target_time_with_step_size_policy", "include/pressio/ode/impl/ode_implicit_stepper_standard.hpp: ImplicitStepperStandardImpl"]}
{"id": "C12", "title": "Step counter range", "statement": "advance_n_steps executes without integer overflow for every StepCount smaller than the largest 32-bit value; at the largest value the loop increments past it (undefined behaviour). advance_to_target_point overflows when more than that many steps are needed.", "quantifier": "all 32-bit step counts", "why_tests_cant": "2^31 steps cannot be run in a unit test.", "anchors": ["include/pressio/ode/impl/ode_advance_n_steps.hpp: advance_n_steps_with_dt_policy, advance_n_steps_with_fixed_dt", "include/pressio/ode/impl/ode_advance_to_target_time.hpp: to_target_time_with_step_size_policy", "include/pressio/ode/ode_strong_types.hpp: StepCount"]}
{"id": "C13", "title": "Explicit Runge-Kutta steps compute the textbook method", "statement": "One step of ForwardEuler, SSPRungeKutta3 (Shu-Osher) and RungeKutta4 maps (y,t,dt) to the value of the general explicit Runge-Kutta formula for the corresponding Butcher tableau, evaluating the right-hand side at the tableau's stage times in order, independently of the content of the stepper's scratch storage, and reports each stage to the right-hand-side observer with stage index 0..s-1 and that stage's time.", "quantifier": "all right-hand sides, states in any vector space over a field of characteristic 0, times, step sizes, scratch contents", "why_tests_cant": "A convergence test samples one ODE; the algebraic identity must hold for all f.", "anchors": ["include/pressio/ode/impl/ode_explicit_stepper_without_mass_matrix.hpp: doStepImpl(ForwardEuler|SSPRungeKutta3|RungeKutta4), rk4_stage_update_impl"]}
{"id": "C14", "title": "Adams-Bashforth 2 uses the two latest right-hand sides", "statement": "Over every run with step numbers 1,2,...,N the AdamsBashforth2 stepper makes an Euler step first and then y_{n+1} = y_n + dt(3/2 f_n - 1/2 f_{n-1}) with f_n, f_{n-1} the right-hand sides evaluated at the two latest accepted states and times; a run that starts again at step 1 does not depend on earlier runs.", "quantifier": "all right-hand sides, N, dt sequences and previous contents of the stepper", "why_tests_cant": "Needs induction over the history of the stepper.", "anchors": ["include/pressio/ode/impl/ode_explicit_stepper_without_mass_matrix.hpp: doStepImpl(AdamsBashforth2)"]}
{"id": "C15", "title": "Order of the explicit schemes on linear systems and quadratures", "statement": "On y'=Ay (A any linear operator) one step of ForwardEuler, SSPRungeKutta3, RungeKutta4 equals the Taylor polynomial of exp(dt A) of degree 1, 3, 4; on y'=p(t) with p a polynomial of degree at most 0, 2, 3 it is exact.", "quantifier": "all linear operators on all vector spaces, all polynomials of the given degree, all t and dt", "why_tests_cant": "Identities over all operators and polynomials.", "anchors": ["include/pressio/ode/impl/ode_explicit_stepper_without_mass_matrix.hpp"]}
{"id": "C16", "title": "SSPRungeKutta3 is strong-stability preserving", "statement": "If a forward Euler step of size dt does not increase a convex functional at any state and time, neither does a SSPRungeKutta3 step of size dt; hence it is non-increasing along every run.", "quantifier": "all convex functionals, all right-hand sides satisfying the Euler bound, all run lengths", "why_tests_cant": "Quantifies over functionals and right-hand sides.", "anchors": ["include/pressio/ode/impl/ode_explicit_stepper_without_mass_matrix.hpp: doStepImpl(SSPRungeKutta3)"]}
{"id": "C17", "title": "Explicit steppers with mass matrix", "statement": "With a linear solver called as solve(M, x, f) that returns the exact solution, every explicit scheme with mass matrix M(y,t) takes the same steps as the scheme without mass matrix applied to M(y,t)^{-1} f(y,t), over every run.", "quantifier": "all mass matrices, right-hand sides, schemes, run lengths", "why_tests_cant": "Equivalence of two steppers over all systems and runs.", "anchors": ["include/pressio/ode/impl/ode_explicit_stepper_with_mass_matrix.hpp: ExplicitStepperWithMassMatrixImpl"]}
{"id": "C18", "title": "One linear-solver convention", "statement": "A linear solver object that follows the convention documented for pressio's linear solvers, solve(A, b, x), can be passed wherever pressio accepts a linear solver. (False of the explicit steppers with mass matrix, which call solve(M, x, f): the right-hand side is overwritten and the solution never updated.)", "quantifier": "all mass matrices, states, right-hand sides", "why_tests_cant": "The suite's own solvers use the other argument order, so no test sees it.", "anchors": ["include/pressio/ode/impl/ode_explicit_stepper_with_mass_matrix.hpp: doStepImpl", "include/pressio/solvers_linear/impl/solvers_linear_eigen_direct_impl.hpp: solve", "include/pressio/solvers_nonlinear/impl/functions.hpp: solve_newton_step"]}
{"id": "C19", "title": "Implicit steppers present the textbook residual", "statement": "In every run with consecutive step numbers, whatever states and however many times the nonlinear solver queries it, the residual presented at step n is that of BDF1, BDF2 (BDF1 at the first step) or CrankNicolson formed with the states accepted at the previous one or two steps and the current dt and times.", "quantifier": "all right-hand sides, all nonlinear solvers (any adaptive query sequence), all run lengths", "why_tests_cant": "Quantifies over solver behaviours and histories.", "anchors": ["include/pressio/ode/impl/ode_implicit_stepper_standard.hpp: ImplicitStepperStandardImpl", "include/pressio/ode/impl/ode_implicit_policy_residual_jacobian_without_mass_matrix.hpp: ResidualJacobianStandardPolicy", "include/pressio/ode/impl/ode_implicit_discrete_residual.hpp"]}
{"id": "C20", "title": "Implicit Jacobian is the derivative of the residual", "statement": "Whenever the user's Jacobian is the Frechet derivative of the user's right-hand side, the Jacobian returned by residualAndJacobian is the derivative of the returned residual with respect to the state, for BDF1, BDF2 and CrankNicolson, with and (for a state-independent mass matrix) without mass matrix.", "quantifier": "all normed spaces, differentiable right-hand sides, states, dt", "why_tests_cant": "A finite-difference test samples points; the identity is analytic.", "anchors": ["include/pressio/ode/impl/ode_implicit_discrete_jacobian.hpp", "include/pressio/ode/impl/ode_implicit_discrete_residual.hpp"]}
{"id": "C21", "title": "Failed implicit step is rolled back", "statement": "If the nonlinear solver reports NonlinearSolveFailure, the implicit stepper (BDF1, BDF2, CrankNicolson, user-defined with 2, 3 or 4 states) throws TimeStepFailure, the state has the value it had before the call, and everything the stepper does afterwards is as if the failed attempt had not happened.", "quantifier": "all nonlinear solvers, all residual query sequences, any number of failed attempts at any steps with any dt", "why_tests_cant": "Crash points and histories are unbounded.", "anchors": ["include/pressio/ode/impl/ode_implicit_stepper_standard.hpp: doStepImpl", "include/pressio/ode/impl/ode_implicit_stepper_arbitrary.hpp: rollBackStates"]}
{"id": "C22", "title": "Every exception from an implicit step leaves the state unchanged", "statement": "If a step of an implicit stepper throws, whatever the exception, the state has the value it had before the call. (False of the code: only NonlinearSolveFailure is caught; an unrecoverable right-hand-side failure under CrankNicolson is not translated and escapes with a partially updated state.)", "quantifier": "all exceptions from user callbacks at all query points", "why_tests_cant": "Needs every throw point inside the solver loop.", "anchors": ["include/pressio/ode/impl/ode_implicit_stepper_standard.hpp: doStepImpl", "include/pressio/ode/impl/ode_implicit_policy_residual_jacobian_without_mass_matrix.hpp: compute_cn"]}
{"id": "C23", "title": "Unrecoverable right-hand-side failures become recoverable step failures", "statement": "When the user's rhs throws VelocityFailureUnrecoverable during residual evaluation the residual policy reports ResidualEvaluationFailureUnrecoverable, the nonlinear solver reports NonlinearSolveFailure and the stepper TimeStepFailure, so that a recovering advancer retries. True for BDF1 and BDF2; false for CrankNicolson and for LSPG, whose policies do not translate it.", "quantifier": "all states and times at which the right-hand side may fail", "why_tests_cant": "The failing evaluation can be any of an unbounded sequence.", "anchors": ["include/pressio/ode/impl/ode_implicit_policy_residual_jacobian_without_mass_matrix.hpp", "include/pressio/solvers_nonlinear/impl/nonlinear_least_squares.hpp", "include/pressio/rom/impl/lspg_unsteady_rj_policy_default.hpp"]}
{"id": "C24", "title": "Re-using an implicit stepper object", "statement": "Running a second simulation with the same stepper object gives the same result as with a fresh stepper. True for BDF1 and BDF2; false for CrankNicolson when the last step number of the previous run equals the first of the next one (two one-step runs): the cached right-hand side of the old state is used.", "quantifier": "all pairs of runs, right-hand sides, solvers", "why_tests_cant": "History-dependent: requires a particular pair of runs.", "anchors": ["include/pressio/ode/impl/ode_implicit_policy_residual_jacobian_without_mass_matrix.hpp: stepTracker_"]}
{"id": "C25", "title": "User-defined implicit scheme sees the right history", "statement": "In every run with consecutive steps, with failed attempts interleaved, the user's discrete residual callback at step n receives step number, end time, dt, the trial state and the accepted states y_n, y_{n-1}, y_{n-2} (as many as requested).", "quantifier": "all histories, n in {2,3,4}, all failure patterns", "why_tests_cant": "Needs induction over histories.", "anchors": ["include/pressio/ode/impl/ode_implicit_stepper_arbitrary.hpp: StepperArbitrary"]}
{"id": "C26", "title": "Implicit residuals with mass matrix", "statement": "With a mass matrix the BDF1/BDF2 residual is M(y,t)(y + c_n y_n + c_{n-1} y_{n-1}) + c_f dt f(y,t), reduces to the residual without mass matrix when M is the identity, and CrankNicolson is refused with an exception at the first evaluation.", "quantifier": "all mass matrices, right-hand sides, states", "why_tests_cant": "Algebraic identity for all M and f.", "anchors": ["include/pressio/ode/impl/ode_implicit_policy_residual_jacobian_with_mass_matrix.hpp", "include/pressio/ode/impl/ode_implicit_discrete_residual.hpp"]}
{"id": "C27", "title": "Pre-step guesser only changes the solver's initial guess", "statement": "With an implicit stepper, overwriting the state in the pre-step guesser changes only the starting point of the nonlinear solve, not the discrete equation. (False of the code: the stepper records the overwritten state as y_n.)", "quantifier": "all guessers, right-hand sides, solvers", "why_tests_cant": "A converged solve hides it unless the guess differs from y_n and the equation is inspected.", "anchors": ["include/pressio/ode/impl/ode_advance_n_steps.hpp: advance_n_steps_with_dt_policy, advance_n_steps_with_fixed_dt", "include/pressio/ode/impl/ode_implicit_stepper_standard.hpp: doStepImpl"]}
{"id": "C28", "title": "Scheme selection errors", "statement": "create_explicit_stepper throws for every scheme that is not explicit and selects the requested scheme otherwise; create_implicit_stepper likewise; the Galerkin/LSPG factories reject unsupported schemes. is_explicit_scheme and is_implicit_scheme partition the schemes.", "quantifier": "all schemes and factories", "why_tests_cant": "Decision table over every scheme and factory, including those only reachable by mistake.", "anchors": ["include/pressio/ode/ode_enum_and_tags.hpp", "include/pressio/ode/impl/ode_explicit_create_impl.hpp", "include/pressio/ode/impl/ode_implicit_create_impl.hpp", "include/pressio/rom/impl/galerkin_helpers.hpp", "include/pressio/rom/impl/lspg_helpers.hpp"]}
{"id": "C29", "title": "Systems passed by value to a factory", "statement": "A stepper created from an rvalue system uses the same right-hand side sizes as one created from an lvalue. (False of the code for systems that own storage: the constructor moves the system into the member and then asks the moved-from argument to create the operators.)", "quantifier": "all systems, all explicit/arbitrary/mass-matrix constructors", "why_tests_cant": "Use-after-move is only visible for types whose moved-from state differs.", "anchors": ["include/pressio/ode/impl/ode_explicit_stepper_without_mass_matrix.hpp: constructors", "include/pressio/ode/impl/ode_implicit_stepper_arbitrary.hpp: constructor", "include/pressio/ode/impl/ode_implicit_policy_residual_jacobian_with_mass_matrix.hpp: constructor"]}
{"id": "C30", "title": "Newton iteration and stopping", "statement": "newton solve: every update is state += c with J(x)c = -r(x); at most maxIters iterations are made; if it stops because of the tolerance, the chosen diagnostic evaluated at the returned state is below the tolerance (the correction computed last is not applied); the number of linear solves equals the number of iterations.", "quantifier": "all systems, linear solvers, tolerances, initial states, criteria", "why_tests_cant": "Loop invariant for arbitrary many iterations.", "anchors": ["include/pressio/solvers_nonlinear/impl/root_finder.cpp: root_solving_loop_impl"]}
{"id": "C31", "title": "Newton solves affine systems in one update", "statement": "For r(x)=Ax+b with A injective, an exact linear solver, any positive tolerance on residual or correction and maxIters>=2, solve returns normally from any initial state: either the criterion is met at the initial state, which is returned unchanged, or the returned state has r(x)=0 and equals the state after one update.", "quantifier": "all affine systems and initial states", "why_tests_cant": "All sizes and coefficients.", "anchors": ["include/pressio/solvers_nonlinear/impl/root_finder.cpp"]}
{"id": "C32", "title": "Every stop criterion can be used with every solver", "statement": "setStopCriterion accepts any Stop value and solve then stops accordingly. (False for Newton: Stop::AfterMaxIters and the criteria on gradient and objective make solve throw std::out_of_range at the end of the first iteration.)", "quantifier": "all Stop values, all solvers, all systems", "why_tests_cant": "Decision over all criteria and all systems.", "anchors": ["include/pressio/solvers_nonlinear/impl/root_finder.cpp: mustStop", "include/pressio/solvers_nonlinear/solvers_nonlinear_enums_and_tags.hpp: stop_criterion_to_public_diagnostic", "include/pressio/solvers_nonlinear/impl/diagnostics.hpp"]}
{"id": "C33", "title": "Normal return means converged", "statement": "If solve returns normally the stopping diagnostic is below tolerance. (False: reaching the iteration limit or a line-search breakdown also return normally, and the implicit stepper then accepts the step.)", "quantifier": "all solves", "why_tests_cant": "Non-convergence must be exhibited for a given maxIters and system.", "anchors": ["include/pressio/solvers_nonlinear/impl/root_finder.cpp", "include/pressio/solvers_nonlinear/impl/nonlinear_least_squares.hpp", "include/pressio/ode/impl/ode_implicit_stepper_standard.hpp"]}
{"id": "C34", "title": "Gauss-Newton step minimises the linearised residual", "statement": "The correction computed by the Gauss-Newton solvers (normal equations, QR, weighted, compact weighted) from an exact inner solver minimises |J c + r|^2 (resp. the weighted norm) over all c.", "quantifier": "all Jacobians, residuals, symmetric positive semidefinite weights, competitors c", "why_tests_cant": "Optimality against every competitor.", "anchors": ["include/pressio/solvers_nonlinear/impl/functions.hpp: compute_*_operators, compute_correction"]}
{"id": "C35", "title": "Reported gradient and objective agree", "statement": "The gradient computed by the least-squares solvers is the derivative of the objective they report (1/2|r|^2, 1/2 r.Wr with symmetric constant W, 1/2|Wr|^2) whenever the user's Jacobian is the derivative of the residual.", "quantifier": "all differentiable residuals", "why_tests_cant": "Analytic identity.", "anchors": ["include/pressio/solvers_nonlinear/impl/functions.hpp: compute_gradient, compute_nonlinearls_objective"]}
{"id": "C36", "title": "Least-squares loop iteration count and applied updates", "statement": "With Stop::AfterMaxIters the least-squares solvers perform maxIters iterations. The operators are assembled maxIters times, but only maxIters-1 updates reach the state; in general the correction of the iteration that stops is never applied, and no more than maxIters iterations are ever made.", "quantifier": "all systems, updaters, maxIters", "why_tests_cant": "Loop invariant for every maxIters.", "anchors": ["include/pressio/solvers_nonlinear/impl/nonlinear_least_squares.hpp: nonlin_ls_solving_loop_impl"]}
{"id": "C37", "title": "Line-search backtracking", "statement": "Backtracking tries steps 1, 1/2, 1/4, ... and accepts the first one whose objective is <= zeta times the current objective; it evaluates the objective at most 10 times; if none is acceptable it reports LineSearchStepTooSmall and the state is unchanged.", "quantifier": "all objectives, states, corrections, zeta", "why_tests_cant": "All objective functions.", "anchors": ["include/pressio/solvers_nonlinear/impl/updaters.hpp: BacktrackStrictlyDecreasingObjectiveUpdater"]}
{"id": "C38", "title": "Line-search solves never increase the objective", "statement": "A least-squares (or Newton) solve with backtracking and zeta<=1 returns a state whose objective is not larger than at the initial state, however it ends; the name's strict decrease holds only if no tie occurs.", "quantifier": "all systems, inner solvers, iteration limits", "why_tests_cant": "Monotonicity along unbounded iterations.", "anchors": ["include/pressio/solvers_nonlinear/impl/updaters.hpp", "include/pressio/solvers_nonlinear/impl/nonlinear_least_squares.hpp", "include/pressio/solvers_nonlinear/impl/root_finder.cpp"]}
{"id": "C39", "title": "Selecting Update::Armijo enforces the Armijo condition", "statement": "With Update::Armijo every accepted step satisfies f(x+alpha p)-f(x) <= 1e-4 alpha g.p. (False: the least-squares solver constructs the backtracking updater for Armijo too; Newton refuses Armijo.)", "quantifier": "all systems", "why_tests_cant": "Needs an objective on which the two rules differ.", "anchors": ["include/pressio/solvers_nonlinear/impl/nonlinear_least_squares.hpp: solve_with_line_search_impl", "include/pressio/solvers_nonlinear/impl/updaters.hpp: ArmijoUpdater"]}
{"id": "C40", "title": "Levenberg-Marquardt accepts exactly the decreasing steps", "statement": "With the correction solving (H + damp diag H)c = -g and c.Hc > 0, both schedules accept a step iff it strictly decreases the objective; a rejected step leaves the state unchanged; hence the objective is non-increasing over the whole solve.", "quantifier": "all systems, damping values, iterations", "why_tests_cant": "Sign analysis for all matrices and loops of any length.", "anchors": ["include/pressio/solvers_nonlinear/impl/updaters.hpp: lm_gain_factor, LMSchedule1Updater, LMSchedule2Updater"]}
{"id": "C41", "title": "Levenberg-Marquardt damping stays in range", "statement": "The damping starts at 1 in every solve and stays positive for ever; schedule 2 keeps it within [1e-7,1e7]; under schedule 1 an accepted step multiplies it by a factor in [1/3,2) and the k-th consecutive rejection multiplies it by 2^k.", "quantifier": "all sequences of gain factors", "why_tests_cant": "Invariant over unbounded iterations.", "anchors": ["include/pressio/solvers_nonlinear/impl/updaters.hpp", "include/pressio/solvers_nonlinear/impl/functions.hpp: reset_for_new_solve_loop"]}
{"id": "C42", "title": "Levenberg-Marquardt gain ratio compares actual and predicted reduction", "statement": "The ratio driving the damping is the actual decrease over the decrease predicted by the quadratic model. (False of the code: its denominator is -1/2 c.Hc instead of -(1/2 c.Hc + damp c.Dc); the sign is right, the magnitude is not.)", "quantifier": "all H, g, damp, c", "why_tests_cant": "Algebraic identity.", "anchors": ["include/pressio/solvers_nonlinear/impl/updaters.hpp: lm_gain_factor"]}
{"id": "C43", "title": "Repeated solves with the same solver object", "statement": "A solve depends only on its arguments and on the configured options: not on diagnostics, damping or scratch left by earlier solves of the same object.", "quantifier": "all histories of earlier solves", "why_tests_cant": "History dependence.", "anchors": ["include/pressio/solvers_nonlinear/impl/nonlinear_least_squares.hpp", "include/pressio/solvers_nonlinear/impl/root_finder.cpp", "include/pressio/solvers_nonlinear/impl/diagnostics.hpp", "include/pressio/solvers_nonlinear/impl/registries.hpp"]}
{"id": "C44", "title": "Relative diagnostics", "statement": "In each solve the relative norm reported at iteration k is the absolute norm divided by that of the first iteration of the same solve (1 at the first iteration when it is nonzero).", "quantifier": "all norm sequences and repeated solves", "why_tests_cant": "All sequences.", "anchors": ["include/pressio/solvers_nonlinear/impl/diagnostics.hpp: InternalDiagnosticDataWithAbsoluteRelativeTracking"]}
{"id": "C45", "title": "Failures inside the nonlinear solver", "statement": "ResidualEvaluationFailureUnrecoverable or NaNs met while assembling the system make solve throw NonlinearSolveFailure and never escape as themselves. True during assembly; false when the failure happens in an objective evaluation of the line search or of the LM trial step.", "quantifier": "all failure points", "why_tests_cant": "Every evaluation in the loop is a crash point.", "anchors": ["include/pressio/solvers_nonlinear/impl/nonlinear_least_squares.hpp", "include/pressio/solvers_nonlinear/impl/updaters.hpp"]}
{"id": "C46", "title": "Trial subspace map", "statement": "mapFromReducedState gives Phi x + s for an affine subspace and Phi x otherwise, mapFromReducedStateWithoutTranslation gives Phi x, createFullStateFromReducedState agrees with mapFromReducedState, and the results do not depend on the previous content of the output; createReducedState/createFullState give zero vectors of the right sizes; dimension is the number of basis vectors.", "quantifier": "all bases, translations, reduced states and output contents", "why_tests_cant": "Identity over all inputs.", "anchors": ["include/pressio/rom/impl/linear_trial_column_subspace.hpp: TrialColumnSubspace", "include/pressio/rom/linear_subspace.hpp: LinearSubspace"]}
{"id": "C47", "title": "Subspaces are immutable snapshots", "statement": "After construction, changing the user's basis or translation objects does not change the subspace, and construction does not change the user's objects. (False for containers with view semantics and an lvalue translation: the translation is copy-constructed, not cloned, and set to zero for a non-affine space.)", "quantifier": "all histories of writes by the user after construction, value and view container types", "why_tests_cant": "Aliasing depends on the container type and on later writes.", "anchors": ["include/pressio/rom/impl/linear_trial_column_subspace.hpp: constructors, setShiftToZeroIfNonAffine", "include/pressio/rom/linear_subspace.hpp: constructors"]}
{"id": "C48", "title": "basis() and basisOfTranslatedSpace()", "statement": "On every subspace object both accessors return the basis given at construction. (False of the code: basis() dereferences a null pointer when the space is not affine.)", "quantifier": "all subspaces", "why_tests_cant": "UB on a specific branch.", "anchors": ["include/pressio/rom/impl/linear_trial_column_subspace.hpp: basis"]}
{"id": "C49", "title": "Galerkin operators", "statement": "The reduced residual/rhs is Phi^T r(Phi x + s), the reduced Jacobian is its derivative, the reduced mass matrix is Phi^T M Phi, for the default, hyper-reduced and masked steady and unsteady systems.", "quantifier": "all FOMs, bases, translations, reduced states, maskers, hyper-reducers", "why_tests_cant": "Identity over all inputs.", "anchors": ["include/pressio/rom/impl/galerkin_steady_system_default.hpp", "include/pressio/rom/impl/galerkin_unsteady_system_default_rhs_and_jacobian.hpp", "include/pressio/rom/impl/galerkin_unsteady_system_default_rhs_and_jacobian_and_mm.hpp", "include/pressio/rom/impl/galerkin_unsteady_system_hypred_rhs_and_jacobian.hpp", "include/pressio/rom/impl/galerkin_unsteady_system_masked_rhs_and_jacobian.hpp"]}
{"id": "C50", "title": "Galerkin projection commutes with implicit time discretisation", "statement": "With orthonormal basis the implicit Galerkin residual at every step equals Phi^T applied to the FOM's discrete residual at the reconstructed states; with the reduced mass matrix this holds for every basis.", "quantifier": "all FOMs, bases, histories, dt, schemes", "why_tests_cant": "Identity over all histories.", "anchors": ["include/pressio/rom/galerkin_unsteady_implicit.hpp", "include/pressio/ode/impl/ode_implicit_discrete_residual.hpp"]}
{"id": "C51", "title": "Explicit Galerkin is exact on invariant subspaces", "statement": "With orthonormal basis, if the FOM velocity at every point of the affine trial space lies in the span of the basis, the reconstructed ROM trajectory equals the FOM trajectory computed with the same explicit scheme, for every number of steps.", "quantifier": "all FOMs with an invariant affine subspace, all explicit schemes, all run lengths", "why_tests_cant": "Trajectory equality for every number of steps.", "anchors": ["include/pressio/rom/galerkin_unsteady_explicit.hpp", "include/pressio/rom/impl/galerkin_unsteady_system_default_rhs_only.hpp"]}
{"id": "C52", "title": "LSPG residual and Jacobian", "statement": "In every run with consecutive step numbers the unsteady LSPG residual presented to the solver equals the FOM's BDF residual at the reconstructed current and previous states (previous states being those accepted), and the LSPG Jacobian is its derivative with respect to the reduced state.", "quantifier": "all FOMs, bases, solvers, query sequences, failed attempts, run lengths", "why_tests_cant": "Invariant linking two stencils over all histories.", "anchors": ["include/pressio/rom/impl/lspg_unsteady_rj_policy_default.hpp", "include/pressio/rom/impl/lspg_unsteady_fom_states_manager.hpp"]}
{"id": "C53", "title": "Re-using an LSPG or fully-discrete problem", "statement": "Running a second simulation with the same LSPG/fully-discrete problem object gives the same residuals as with a fresh one. (False when the last step number of the previous run equals the first of the next one: the reconstructed FOM state of the old run is kept as y_n.)", "quantifier": "all pairs of runs", "why_tests_cant": "History dependent.", "anchors": ["include/pressio/rom/impl/lspg_unsteady_rj_policy_default.hpp: stepTracker_", "include/pressio/rom/impl/lspg_unsteady_fully_discrete_system.hpp: doFomStatesReconstruction", "include/pressio/rom/impl/galerkin_unsteady_system_fully_discrete_fom.hpp"]}
{"id": "C54", "title": "Hyper-reduced LSPG is the restriction of LSPG", "statement": "If the hyper-reduction updater combines the sample-mesh operand with the restriction of the stencil-mesh operand and the FOM's sample rhs is the restriction of its full rhs, the hyper-reduced residual and Jacobian are the restrictions of the full ones.", "quantifier": "all FOMs, sample meshes, histories", "why_tests_cant": "Identity over all inputs.", "anchors": ["include/pressio/rom/impl/lspg_unsteady_rj_policy_hypred.hpp", "include/pressio/rom/rom_lspg_unsteady_hypred_updater_trilinos.hpp"]}
{"id": "C55", "title": "Masked and scaled LSPG", "statement": "Masked LSPG returns the mask of the unmasked residual and Jacobian, scaled LSPG applies the user's scaler once, after assembly, to both, using the reconstructed current state; the Jacobian is left untouched when it is not requested.", "quantifier": "all maskers, scalers, FOMs", "why_tests_cant": "Identity over all callbacks.", "anchors": ["include/pressio/rom/impl/lspg_unsteady_mask_decorator.hpp", "include/pressio/rom/impl/lspg_unsteady_scaling_decorator.hpp", "include/pressio/rom/impl/lspg_steady_system_default.hpp", "include/pressio/rom/impl/lspg_steady_system_masked.hpp"]}
{"id": "C56", "title": "FOM state history", "statement": "The FOM-state manager holds at n, n-1, n-2 the full states of the last reduced states pushed, and each reconstruct-at-position call only writes that position. (False for the n-2 position: it writes past the end.)", "quantifier": "all sequences of pushes, all stencil sizes", "why_tests_cant": "Sequence invariant and an out-of-bounds write.", "anchors": ["include/pressio/rom/impl/lspg_unsteady_fom_states_manager.hpp"]}
{"id": "C57", "title": "Fully discrete Galerkin and LSPG", "statement": "For 2 and 3 stencil states, in every run with consecutive step numbers, the FOM's discrete residual is called with the reconstructed trial state and the reconstructed accepted states, and the reduced operators are its projection (Galerkin) or itself (LSPG).", "quantifier": "all FOMs, histories, failed attempts", "why_tests_cant": "Invariant over histories.", "anchors": ["include/pressio/rom/impl/galerkin_unsteady_system_fully_discrete_fom.hpp", "include/pressio/rom/impl/lspg_unsteady_fully_discrete_system.hpp"]}
{"id": "C58", "title": "Linear ROM operators", "statement": "For an affine FOM operator the reduced matrix, shift and forcing computed from operator applications satisfy L^T(A(R x + s)) = Mat x + shift + forcing for every x; for the linear variant likewise without forcing.", "quantifier": "all affine operators, bases, shifts, x", "why_tests_cant": "Identity over all operators.", "anchors": ["include/pressio/rom/linear_rom.hpp: RomLinearThingy"]}
{"id": "C59", "title": "Reconstructed residuals equal those of the run", "statement": "The residual and Jacobian-times-basis written by the LSPG reconstructor at step i equal the BDF1 LSPG residual and Jacobian at the recorded states i-1, i and times.", "quantifier": "all recorded trajectories", "why_tests_cant": "All trajectory lengths.", "anchors": ["include/pressio/rom/impl/lspg_unsteady_reconstructor.hpp"]}
{"id": "C60", "title": "Stencil containers", "statement": "The stencil containers map n+1, n, n-1, n-2 to distinct slots (when they are built from distinct objects), reading a slot returns the last value written to it, and all slots start at zero.", "quantifier": "all sizes, all sequences of writes", "why_tests_cant": "All sequences.", "anchors": ["include/pressio/ode/impl/ode_stencil_data_container_dynamic.hpp", "include/pressio/ode/impl/ode_stencil_data_container_static.hpp"]}
{"id": "C61", "title": "Linear solver state", "statement": "solve(A,b,x) uses exactly A, independent of matrices set earlier; solve(b,x) uses the last matrix set; A and b are not modified (unless the overwrite variant is called); the iterative solvers stop after at most the configured number of iterations.", "quantifier": "all sequences of calls", "why_tests_cant": "History of calls.", "anchors": ["include/pressio/solvers_linear/impl/solvers_linear_eigen_direct_impl.hpp", "include/pressio/solvers_linear/impl/solvers_linear_eigen_iterative_impl.hpp", "include/pressio/solvers_linear/impl/solvers_linear_kokkos_direct_getrs_impl.hpp"]}
{"id": "C62", "title": "Failed explicit step", "statement": "If a user right-hand side (or right-hand-side observer) throws during a step of any explicit scheme, the caller's state is unchanged, the stepper never indexes outside the storage made by the factory, and repeating the step gives what the step would have given without the failure. (The last part is false for AdamsBashforth2 when the throwing call had written into its output: the stored previous right-hand side is replaced by that partial output.)", "quantifier": "all right-hand sides throwing at any stage, schemes, states, step sizes", "why_tests_cant": "Needs every failure point and every partial output.", "anchors": ["include/pressio/ode/impl/ode_explicit_stepper_without_mass_matrix.hpp: doStepImpl (4 schemes)"]}
{"id": "C63", "title": "Copies of explicit Galerkin problems", "statement": "A copy of an explicit Galerkin problem (or one it was moved to) advances its own system and does not depend on the object it was copied from. (False: the stepper inside keeps a reference to the system of the original object, so the copy shares its buffers and dangles once the original is destroyed.)", "quantifier": "all copies and moves of problems", "why_tests_cant": "Object identity and lifetime; results can look right in a test.", "anchors": ["include/pressio/rom/impl/galerkin_unsteady_explicit_problem.hpp: GalerkinUnsteadyExplicitProblem, GalerkinUnsteadyWithMassMatrixExplicitProblem"]}
{"id": "C64", "title": "Levenberg-Marquardt step", "statement": "With an inner solver that solves the linear system exactly, the correction used in each Levenberg-Marquardt iteration minimises |J c + r|^2 + damp * c.D c (D the diagonal of J^T J) over all c, the damping of every iteration being positive; the state moves by that correction or not at all.", "quantifier": "all systems, both schedules, all solves of all solver objects", "why_tests_cant": "Optimality over all corrections at each iterate.", "anchors": ["include/pressio/solvers_nonlinear/impl/functions.hpp: compute_correction (LevenbergMarquardtNormalEqTag)", "include/pressio/solvers_nonlinear/impl/updaters.hpp: LMSchedule1Updater, LMSchedule2Updater"]}
{"id": "C65", "title": "Full-order failures in LSPG", "statement": "When the full-order right-hand side throws VelocityFailureUnrecoverable during an LSPG step, the step reports TimeStepFailure and leaves the last accepted state, as for the implicit steppers, so that an advancer with step size recovery retries. (False: the LSPG policies do not translate the exception; it passes through the solver and the stepper and ends the run.)", "quantifier": "all full-order models failing at any evaluation, solvers, states, attempts", "why_tests_cant": "Needs a failure at every evaluation of every attempt.", "anchors": ["include/pressio/rom/impl/lspg_unsteady_rj_policy_default.hpp", "include/pressio/rom/impl/lspg_unsteady_rj_policy_hypred.hpp", "include/pressio/ode/impl/ode_implicit_policy_residual_jacobian_without_mass_matrix.hpp"]}
{"id": "C66", "title": "Implicit stepping with a Newton solver, end to end", "statement": "Advancing an ODE with BDF1, BDF2 or CrankNicolson and one Newton solver object for all steps: every attempted step is a call of that solver on the equation of the scheme with the accepted states, starting at the last accepted state; the accepted state is the Newton iterate at which the criterion was first met (or the last one allowed), with right-hand side and Jacobian evaluated at exactly the iterates; for a linear ODE and an exact linear solver the accepted state satisfies the equation of the scheme exactly, unless the criterion was already met at the last accepted state.", "quantifier": "all right-hand sides, solver options, histories of stepper and solver object, sequences of step sizes", "why_tests_cant": "Relates two stateful objects over whole runs, for every right-hand side.", "anchors": ["include/pressio/ode/impl/ode_implicit_stepper_standard.hpp", "include/pressio/solvers_nonlinear/impl/root_finder.cpp", "include/pressio/ode/impl/ode_advance_to_target_time.hpp"]}
{"id": "C67", "title": "Unsteady LSPG with a least-squares solver, end to end", "statement": "Advancing a default, hyper-reduced, masked or scaled unsteady LSPG problem with one least-squares solver object for all steps: every attempted step is a call of that solver on the LSPG equations with the accepted reduced states, starting at the last accepted one; with Gauss-Newton the accepted state is the Gauss-Newton iterate at which the criterion was first met; for a linear full-order model and exactly solved normal equations the accepted state minimises the time-discrete full-order residual over the trial subspace, unless the criterion was already met at the last accepted state.", "quantifier": "all full-order models, subspaces, solver options with at least one iteration, histories of problem and solver object (problem not left in step 1), sequences of step sizes", "why_tests_cant": "Relates problem, stepper and solver objects over whole runs; the optimality claim is over all reduced states.", "anchors": ["include/pressio/rom/impl/lspg_unsteady_problem.hpp", "include/pressio/rom/impl/lspg_unsteady_rj_policy_default.hpp", "include/pressio/solvers_nonlinear/impl/nonlinear_least_squares.hpp"]}
{"id": "C68", "title": "QR solver objects", "statement": "After computeThin(A) a QR object holds a thin QR factorisation of exactly A (A = Q R, orthonormal columns of Q, R upper triangular with nonzero diagonal) whatever the object was used for before; applyQTranspose(v,y) and solve(y,c) then give the unique least-squares solution of A c = v whenever the columns of A are independent; computeThin does not modify A; as the QR solver of Gauss-Newton every correction is a least-squares correction. (False in two ways: the modified Gram-Schmidt object overwrites A although it takes it by const reference; modified Gram-Schmidt and TSQR objects reused on a matrix with the same row map but another number of columns access columns that do not exist or mix sizes.)", "quantifier": "all matrices with independent columns, right-hand sides, earlier uses of the object", "why_tests_cant": "Orthogonality and optimality for all matrices; the reuse failure needs a particular history.", "anchors": ["include/pressio/solvers_nonlinear/impl/qr/qr_tpetra_impl.hpp: ModGramSchmidtMVTpetra, TpetraMVTSQR, TpetraBlockMVTSQR", "include/pressio/solvers_nonlinear/impl/qr/qr_eigen_impl.hpp: QRHouseholderDenseEigenMatrix", "include/pressio/solvers_nonlinear/impl/qr/qr_traits.hpp", "include/pressio/solvers_nonlinear/impl/functions.hpp: compute_correction (GaussNewtonQrTag)"]}
{"id": "C69", "title": "Hyper-reduction updater for distributed containers", "statement": "HypRedUpdaterTrilinos replaces every entry of the sample-mesh operand by a times itself plus b times the stencil-mesh entry with the same global id and column, on every process, for any local numbering, provided the stencil mesh of each process contains its sample points; nothing else is written; otherwise the behaviour is undefined (only an assertion guards it). Hence hyper-reduced LSPG with this updater solves the equations restricted to the sample points.", "quantifier": "all distributions of the two meshes, numbers of processes, local orders, columns, coefficients", "why_tests_cant": "Every layout of two distributed maps.", "anchors": ["include/pressio/rom/rom_lspg_unsteady_hypred_updater_trilinos.hpp: HypRedUpdaterTrilinos"]}
{"id": "C70", "title": "Advancer overloads", "statement": "A call of advance_n_steps, advance_n_steps_with_pre_step_guesser, advance_to_target_point or advance_to_target_point_with_step_recovery with a step size or policy, optional guesser and observer, and auxiliary arguments that the stepper accepts compiles unambiguously and uses exactly these objects in these roles, also for steppers that would accept the observer as an auxiliary argument; an auxiliary argument that can be called like an observer is taken for the observer.", "quantifier": "all argument types (any combination of concepts), steppers (any set of accepted auxiliary arguments), objects", "why_tests_cant": "Ranges over all combinations of argument and stepper types.", "anchors": ["include/pressio/ode/ode_advance_n_steps.hpp", "include/pressio/ode/ode_advance_n_steps_variadic.hpp", "include/pressio/ode/ode_advance_n_steps_with_guesser.hpp", "include/pressio/ode/ode_advance_n_steps_with_guesser_variadic.hpp", "include/pressio/ode/ode_advance_to_target_point_variadic.hpp", "include/pressio/ode/ode_advance_to_target_point_with_step_recovery_variadic.hpp"]}
{"id": "C71", "title": "Auxiliary arguments of advancers", "statement": "Auxiliary arguments given to an advancer reach the stepper unchanged at every step and every attempt. (False: they are forwarded again at every step, so an argument passed as a temporary to a stepper that takes it by value is moved from in the first step and the later steps get the moved-from object.)", "quantifier": "all argument types with any move constructor, steppers, numbers of steps", "why_tests_cant": "Depends on value categories and on what a move leaves behind; invisible for types whose move is a copy.", "anchors": ["include/pressio/ode/impl/ode_advance_n_steps.hpp: advance_n_steps_with_dt_policy", "include/pressio/ode/impl/ode_advance_to_target_time.hpp: to_target_time_with_step_size_policy"]}
{"id": "C72", "title": "Linear invariants are conserved", "statement": "If a linear function of the state (total mass, total charge) has zero time derivative along every state and time, every explicit scheme keeps it exactly equal to its initial value at every observation, for any step sizes; so do BDF1, BDF2 and CrankNicolson when the accepted state solves the equation of the scheme, and also with a Newton solver that is stopped before it has converged, if the Jacobian has the same property and the linear systems are solved exactly.", "quantifier": "all right-hand sides, linear functions, step size sequences, states, numbers of steps, Newton options with standard updates", "why_tests_cant": "Exact conservation for all runs of all problems with an invariant.", "anchors": ["include/pressio/ode/impl/ode_explicit_stepper_without_mass_matrix.hpp", "include/pressio/ode/impl/ode_implicit_discrete_residual.hpp", "include/pressio/ode/impl/ode_implicit_stepper_standard.hpp", "include/pressio/solvers_nonlinear/impl/root_finder.cpp"]}
{"id": "C73", "title": "Continuous dependence of explicit runs on data", "statement": "Two runs of an explicit scheme with the same step sizes, from different initial states and with right-hand sides that differ by at most eps, the first one Lipschitz with constant L, differ at time t by at most exp(g L (t-start)) (initial difference + g (t-start) eps), with g=1 for the one-step schemes and g=2 for AdamsBashforth2: no scheme amplifies errors more than (a fixed multiple of) the differential equation does.", "quantifier": "all Lipschitz right-hand sides, non-negative step sizes, initial states, numbers of steps, observers, previous contents of the stepper", "why_tests_cant": "A bound uniform in the number of steps and over all right-hand sides.", "anchors": ["include/pressio/ode/impl/ode_explicit_stepper_without_mass_matrix.hpp", "include/pressio/ode/impl/ode_advance_n_steps.hpp"]}
{"id": "C74", "title": "Convergence of explicit runs with the order of the scheme", "statement": "For a smooth right-hand side the states observed in a run of an explicit scheme with step sizes at most H differ from the solution at the observed times by at most a constant times H^p plus the (amplified) initial error, with p=1 for ForwardEuler, 2 for AdamsBashforth2, 3 for SSPRungeKutta3 and 4 for RungeKutta4. (False for AdamsBashforth2 with step sizes that change: its coefficients are those for constant steps, and the order drops to 1.)", "quantifier": "all smooth right-hand sides (without a Lipschitz constant: for step sizes below some bound and initial states near the solution), step size sequences, initial states, numbers of steps", "why_tests_cant": "Asymptotic statement over all step sizes and problems.", "anchors": ["include/pressio/ode/impl/ode_explicit_stepper_without_mass_matrix.hpp: doStepImpl (all overloads)", "include/pressio/ode/impl/ode_advance_n_steps.hpp"]}
{"id": "C75", "title": "Stability of implicit runs on dissipative problems", "statement": "If the right-hand side is dissipative (the inner product of f(y,t) and y is never positive) and every accepted step has been solved to a residual of at most tol, then with BDF1 the norm of the accepted state never exceeds the initial one by more than tol per step, and with BDF2 it stays within sqrt(2) times the initial one plus 6 tol per step, for arbitrarily large, changing step sizes and any number of failed attempts in between; the same bound as for BDF1 holds for CrankNicolson on linear problems, where the norm is conserved when f is conservative; with BDF1 strictly dissipative problems decay by 1/(1+lambda dt) in every step.", "quantifier": "all dissipative right-hand sides (any stiffness), step sizes, solvers, failures, numbers of steps", "why_tests_cant": "Unconditional stability is a statement about all step sizes and all stiff problems.", "anchors": ["include/pressio/ode/impl/ode_implicit_discrete_residual.hpp", "include/pressio/ode/impl/ode_implicit_stepper_standard.hpp", "include/pressio/ode/impl/ode_implicit_policy_residual_jacobian_without_mass_matrix.hpp"]}
{"id": "C76", "title": "Convergence of implicit runs with the order of the scheme", "statement": "If every accepted step has been solved to a residual of at most tol, the accepted states differ from the solution of the differential equation by at most a constant times H^p (p=1 for BDF1, 2 for BDF2 and CrankNicolson), plus the initial error, plus a multiple of tol per step: for Lipschitz right-hand sides with steps small compared to the Lipschitz constant, and for monotone right-hand sides (BDF1, BDF2) or linear dissipative ones (CrankNicolson) without any restriction of the step size and any exponential growth. Failed attempts have no influence. (False for BDF2 when the step size changes: its coefficients are those for constant steps, so that not even y'=1 is integrated exactly, and the order is 1.)", "quantifier": "all such right-hand sides with smooth solutions, step sizes, solvers, failures, numbers of steps", "why_tests_cant": "Asymptotic statement over all step sizes and problems.", "anchors": ["include/pressio/ode/impl/ode_implicit_discrete_residual.hpp", "include/pressio/ode/ode_constants.hpp", "include/pressio/ode/impl/ode_implicit_stepper_standard.hpp"]}
{"id": "C77", "title": "Explicit steps report the first failure", "statement": "A step of any explicit scheme, with or without mass matrix, shows the right-hand-side observer exactly the stages of the textbook method up to the first failure of the user's functions, of the observer or of the linear solver, throws exactly the exception of that failure and leaves the caller's state unchanged; without a failure it leaves the textbook value. A failed AdamsBashforth2 step can be repeated with the result it would have had if the right-hand side threw without having written (without mass matrix), or if the user's functions or the observer threw (with mass matrix); otherwise the repetition is a different step: after a throwing observer without mass matrix it is a ForwardEuler step.", "quantifier": "all right-hand sides, mass matrices, observers and linear solvers throwing at any stage with any partial output, schemes, states, step sizes, step numbers, contents of the storage", "why_tests_cant": "Needs every failure point of every stage.", "anchors": ["include/pressio/ode/impl/ode_explicit_stepper_without_mass_matrix.hpp: doStepImpl", "include/pressio/ode/impl/ode_explicit_stepper_with_mass_matrix.hpp: doStepImpl"]}
{"id": "C78", "title": "Newton converges quadratically near a regular root", "statement": "Near a root with regular Jacobian of a twice continuously differentiable system, Newton's method with standard updates and an exact linear solver converges quadratically: from every sufficiently close initial guess the solve returns normally, with each of the four stopping criteria and every positive tolerance, after a number of iterations that depends on the tolerance only (provided the iteration limit allows it), and the error of the returned state is at most a constant times the tolerance. With the relative criteria the initial guess must not be the root itself.", "quantifier": "all smooth systems, regular roots, initial guesses near them, tolerances, criteria, linear solvers exact on regular systems, norms from which the criteria are measured", "why_tests_cant": "Asymptotic statement over all systems and all initial guesses.", "anchors": ["include/pressio/solvers_nonlinear/impl/root_finder.cpp: root_solving_loop_impl", "include/pressio/solvers_nonlinear/impl/functions.hpp: compute_correction", "include/pressio/solvers_nonlinear/impl/updaters.hpp: DefaultUpdater"]}
{"id": "C79", "title": "Implicit runs with a Newton solver complete and converge", "statement": "For twice continuously differentiable right-hand sides, small enough steps and tolerances, and an iteration limit above a number that depends on the tolerance only, a run of an implicit stepper with one Newton object (standard updates, criterion on the norm of the residual, exact linear solver) does all its steps: no step fails or uses up the iterations. On Lipschitz problems (and monotone ones with BDF1 and BDF2) the states then converge to the solution of the differential equation with the order of the scheme; on dissipative problems they stay bounded with BDF1 and BDF2.", "quantifier": "all such right-hand sides, numbers of steps, step sizes, tolerances, initial states, exact linear solvers, previous contents of the stepper and the Newton object", "why_tests_cant": "Convergence of every one of arbitrarily many solves, started from the previous results.", "anchors": ["include/pressio/ode/impl/ode_implicit_stepper_standard.hpp", "include/pressio/ode/impl/ode_implicit_discrete_residual.hpp", "include/pressio/ode/impl/ode_implicit_discrete_jacobian.hpp", "include/pressio/solvers_nonlinear/impl/root_finder.cpp: root_solving_loop_impl"]}
{"id": "C80", "title": "Galerkin models inherit the stability of the full-order model", "statement": "With a trial subspace whose basis is orthonormal (and, for the energy bounds, without affine shift), the default Galerkin reduced velocity is the one whose lift is closest to the full-order velocity at the reconstructed state; dissipativity, monotonicity and Lipschitz constants of the full-order right-hand side carry over to the reduced one with the same constants, so implicit Galerkin runs (BDF1, BDF2, and CrankNicolson for linear full-order models) have the unconditional bounds of the full-order schemes, for any converging solver and for pressio's Newton object. With a mass matrix (constant, symmetric positive definite) the same holds in the energy norm of the mass matrix, for any independent basis, with BDF1 and BDF2. Not true of hyper-reduced problems: with an inconsistent sampling operator a run for a norm-preserving full-order model can grow exponentially.", "quantifier": "all full-order models of these kinds, orthonormal bases of any size, reduced states, step sizes, solvers, failures, numbers of steps", "why_tests_cant": "Unconditional stability over all step sizes, models and subspaces.", "anchors": ["include/pressio/rom/impl/galerkin_unsteady_system_default_rhs_and_jacobian.hpp", "include/pressio/rom/galerkin_unsteady_implicit.hpp", "include/pressio/rom/impl/galerkin_unsteady_system_hypred_rhs_and_jacobian.hpp"]}
{"id": "C81", "title": "Error of Galerkin runs bounded by the projection defect met during the run", "statement": "The reconstructed states of a Galerkin run (default, hyper-reduced or masked, implicit or explicit; default implicit also with a constant mass matrix, in the energy norm) differ from the solution of the full-order model by at most the error of the time scheme applied to the full-order model, plus the initial projection error, plus time times the largest defect between the lifted reduced velocity and the full-order velocity at the states the run itself visited (with the amplification of the Lipschitz constant, or none for monotone problems). If the trial space is invariant, only the error of the time scheme remains.", "quantifier": "all full-order models (Lipschitz or monotone), trial subspaces, hyper-reduction operators, maskers, schemes, step sizes, converging solvers, numbers of steps", "why_tests_cant": "An error bound over all models, subspaces and run lengths.", "anchors": ["include/pressio/rom/galerkin_unsteady_implicit.hpp", "include/pressio/rom/galerkin_unsteady_explicit.hpp", "include/pressio/rom/impl/galerkin_unsteady_system_default_rhs_only.hpp", "include/pressio/rom/impl/galerkin_unsteady_system_masked_rhs_and_jacobian.hpp"]}
{"id": "C82", "title": "Stability and error of LSPG runs from the residuals they leave", "statement": "The reconstructed states of a default unsteady LSPG run (BDF1 with any steps, BDF2 with constant steps) satisfy the time-discrete full-order equations up to the residual left at each accepted state, which is the one returned by the last evaluation if the solver ended with an evaluation at its result. Hence for dissipative models the reconstructed states stay bounded by the initial state plus the accumulated residuals, and for monotone or Lipschitz models they differ from the full-order solution by the initial projection error, the error of the scheme and the accumulated residuals. With a Gauss-Newton solver object on a linear full-order model the residual left is the smallest possible over the trial subspace, and for a linear dissipative model, BDF1 and a linear trial subspace (any basis) the norm of the reconstructed state never increases, whatever the step sizes and the stopping criterion.", "quantifier": "all full-order models of these kinds, trial subspaces, step sizes, solvers, failures, stopping criteria, numbers of steps", "why_tests_cant": "Stability and error bounds over all models, subspaces and run lengths.", "anchors": ["include/pressio/rom/lspg_unsteady.hpp", "include/pressio/rom/impl/lspg_unsteady_rj_policy_default.hpp", "include/pressio/rom/impl/lspg_unsteady_problem.hpp", "include/pressio/solvers_nonlinear/impl/functions.hpp"]}
{"id": "C83", "title": "Advancing in floating-point arithmetic", "statement": "With an independent variable of a binary floating-point type (round to nearest even, overflow, infinities, NaN): a call that advances to a target time in which nothing fails stops at the first computed time that is within the machine epsilon of the target or beyond it, with one stepper call and one observer call for each computed time, the times being the rounded sums of the previous time and the step size. It returns if every step size is at least twice the rounding error of such a sum. With N equal steps that end at the target and accumulated rounding errors below the machine epsilon it makes N steps. It never returns for step sizes below half a unit in the last place of the time, for a target that is not a number, or once the policy has set a step size that is not a number; a reduction factor that is not a number passes the check and a failing step is then retried forever.", "quantifier": "all binary formats (precision, exponent range), start and final times, policies, steppers, observers, numbers of steps", "why_tests_cant": "Rounding depends on the exact values; calls that never return cannot be observed by a test.", "anchors": ["include/pressio/ode/impl/ode_advance_to_target_time.hpp", "include/pressio/ode/ode_advance_to_target_point.hpp", "include/pressio/ode/impl/ode_advance_n_steps.hpp"]}
{"id": "C84", "title": "Stability and convergence of implicit runs with a mass matrix", "statement": "For M y' = f(y,t) with a constant symmetric positive definite M (x.Mx >= mu x.x), BDF1 (any steps) and BDF2 (constant steps for convergence): if every accepted step has converged (Euclidean norm of the residual at most tol), then for f with f(y).y <= 0 the energy norm sqrt(y.My) of the state grows by at most tol/sqrt(mu) per step (BDF2: at most sqrt 2 times the initial one plus six times this), whatever the step sizes; for monotone f the states differ from the exact solution, in the energy norm, by the initial error plus the accumulated tolerance plus a first-order (BDF1) or second-order (BDF2) term. For a mass matrix depending on state and time with uniformly bounded inverse and M^-1 f Lipschitz, the same orders hold with exponential growth in time. Systems and solvers may throw in any step.", "quantifier": "all mass matrices, right-hand sides of these kinds, step sizes, solvers, failures, numbers of steps, dimensions", "why_tests_cant": "Bounds over all problems, step sizes and run lengths.", "anchors": ["include/pressio/ode/impl/ode_implicit_stepper_standard.hpp", "include/pressio/ode/impl/ode_implicit_policy_residual_jacobian_with_mass_matrix.hpp", "include/pressio/ode/impl/ode_implicit_discrete_residual.hpp"]}
{"id": "C85", "title": "Step-size recovery in floating-point arithmetic", "statement": "Advancing to a target time with step recovery in floating-point arithmetic (rounding to nearest even, infinities, NaN): a call that returns has tried, in every step, exactly the sizes dt, dt/f, (dt/f)/f, ... computed in machine arithmetic, none of them below the minimum, and added the last one to the time; it has stopped at the first time within the machine epsilon of the target or beyond. A size below the minimum or a factor <= 1 is refused before the stepper is called. If sizes, factors and minima are finite and the minimum is a number with full precision, a step that always fails is abandoned with an exception after finitely many attempts, and with minima above twice the rounding error of the time every call ends, whatever steps fail. None of this extends to a minimum of zero, to a positive minimum below the smallest number with full precision, or to an infinite size: there a failing step can be retried forever.", "quantifier": "all formats, start and target times, policies, steppers, observers, failures, numbers of attempts and steps", "why_tests_cant": "Retries that never end cannot be observed by a test, and rounding only matters for particular values.", "anchors": ["include/pressio/ode/impl/ode_advance_to_target_time.hpp", "include/pressio/ode/ode_advance_to_target_point.hpp"]}
{"id": "C86", "title": "Gauss-Newton converges near a regular solution", "statement": "Let x' be a point at which the gradient of the (possibly weighted) sum of squares vanishes and the Jacobian has full column rank and is Lipschitz nearby, and let the residual left at x' be small compared with the curvature. A Gauss-Newton solver (normal equations, QR, weighted, compact weighted; standard updates; inner solver exact for positive definite or full-rank systems) started close to x' converges: the error of each update is bounded by a quadratic term plus a linear term proportional to the residual at x', so convergence is quadratic for perfect fits. solve returns normally after a number of evaluations known from the tolerance, without a termination file, and the error of the returned state is bounded by a constant times the tolerance (its square root for the objective). For large residuals this is false: there are problems with a single minimum and full rank where the iteration cycles forever.", "quantifier": "all residual functions and Jacobians with these properties, weights, initial guesses within the distance, criteria that can recognise the solution, tolerances, iteration limits, solver objects and their past", "why_tests_cant": "Tests check single problems from single initial guesses; convergence is a statement about neighbourhoods and limits.", "anchors": ["include/pressio/solvers_nonlinear/impl/nonlinear_least_squares.hpp", "include/pressio/solvers_nonlinear/impl/functions.hpp", "include/pressio/solvers_nonlinear/impl/updaters.hpp", "include/pressio/solvers_nonlinear/solvers_create_gauss_newton.hpp"]}
{"id": "C87", "title": "An exact initial guess is accepted at once", "statement": "If solve is called with an initial guess that already is a solution (a root for Newton, a stationary point for least squares) and the solver stops on the correction, gradient, residual or objective with a positive tolerance, then it returns that state unchanged after one evaluation, without a report of missing convergence.", "quantifier": "all residual functions and Jacobians, solutions, linear solvers that answer zero to a zero right-hand side, criteria, tolerances, iteration limits, solver objects and their past", "why_tests_cant": "Tests start away from the solution, where the relative criteria are well defined; the statement is about every problem at an exceptional point which steady states and restarts reach.", "anchors": ["include/pressio/solvers_nonlinear/impl/diagnostics.hpp", "include/pressio/solvers_nonlinear/impl/root_finder.cpp", "include/pressio/solvers_nonlinear/impl/nonlinear_least_squares.hpp", "include/pressio/solvers_nonlinear/solvers_nonlinear_enums_and_tags.hpp"]}
{"id": "C88", "title": "Levenberg-Marquardt finds a stationary point from every initial guess", "statement": "On a smooth least-squares problem (twice continuously differentiable residual with its Jacobian; only a bounded set of points has a residual not larger than that of the initial guess; no column of the Jacobian vanishes at a point of that set that is not stationary) the Levenberg-Marquardt solver, with an exact inner solver and a limit on the iterations that is large enough, ends at a point where the norm of the gradient is below the tolerance and the residual is not larger than at the initial guess, without a report of missing convergence; if that set has only one stationary point, the result is as close to it as one likes for small tolerances.", "quantifier": "all such problems of all sizes, initial guesses, positive tolerances, absolute and relative gradient criteria, both damping schedules, solver objects and their past", "why_tests_cant": "Global convergence is a statement about infinite sequences of accepted and rejected steps; a test sees finitely many problems and guesses.", "anchors": ["include/pressio/solvers_nonlinear/impl/updaters.hpp", "include/pressio/solvers_nonlinear/impl/levmar_damping.hpp", "include/pressio/solvers_nonlinear/impl/nonlinear_least_squares.hpp", "include/pressio/solvers_nonlinear/impl/functions.hpp"]}
{"id": "C89", "title": "Steady reduced problems give solutions as good as the trial space allows", "statement": "Solving a steady reduced problem with a pressio solver is solving the reduced equations, whatever the buffers of the problem object contained and whatever it was asked before: the solve ends as it would for the equations themselves, with the same state. For a full-order residual that is strongly monotone (constant alpha) and Lipschitz (constant Lambda) and a basis with independent columns (constant sigma), every reduced state whose Galerkin residual is at most tol is at most Lambda/alpha times the best possible distance plus 2 tol/(alpha sigma) away from the full-order solution; Newton with the absolute residual criterion leaves such a state whenever it returns normally without a report of missing convergence, and on linear models it always does so, from every guess; for symmetric models the exact Galerkin solution is the best one in the energy norm. For LSPG it is enough that the full-order residual determines the state: Gauss-Newton (normal equations, weighted, compact weighted, QR) on linear models returns normally from every guess with the smallest residual of the trial space, and the error is at most Lambda/alpha times the best possible one plus the tolerance term. Without monotonicity Galerkin has no such bound: a well-conditioned full-order model exists for which the Galerkin problem accepts every guess while LSPG finds the solution.", "quantifier": "all full-order models with these constants, bases, translations, initial guesses, tolerances, solver objects and problem objects with any past", "why_tests_cant": "The bounds relate the computed state to the best point of the trial space and to an exact solution that a test does not have, for all models and guesses.", "anchors": ["include/pressio/rom/impl/galerkin_steady_system_default.hpp", "include/pressio/rom/impl/galerkin_steady_system_hypred.hpp", "include/pressio/rom/impl/galerkin_steady_system_masked.hpp", "include/pressio/rom/impl/lspg_steady_system_default.hpp", "include/pressio/rom/impl/lspg_steady_system_masked.hpp", "include/pressio/solvers_nonlinear/impl/root_finder.cpp", "include/pressio/solvers_nonlinear/impl/nonlinear_least_squares.hpp"]}
{"id": "C90", "title": "Matrix-free Newton-Krylov is Newton with the Krylov method as linear solver", "statement": "For a system whose applyJacobian computes the action of the Jacobian, the matrix-free Newton-Krylov solver does what the Newton solver with standard updates does when its linear solver is the same Krylov method applied to the Jacobian: it ends in the same way (also when the system or the Krylov method fails), with the same state, correction, termination file and diagnostics, and evaluates the residual, and never the Jacobian, at the same points. The update criterion selected by the user has no effect, and neither have earlier solves unless the Krylov method starts from its old answer. Criteria on gradient or objective always throw. When the Krylov method leaves at most a fraction eta < 1 of the right-hand side, every solve that starts close enough to a regular root reduces the residual in each iteration by a factor close to eta, returns normally without termination file after a number of iterations known in advance, and leaves an error proportional to the tolerance.", "quantifier": "all systems (also failing ones), Krylov methods, options, solver objects with any past, states; for convergence all smooth systems, regular roots, eta < 1, tolerances and close initial guesses", "why_tests_cant": "A test runs one Krylov method on one system and cannot show that no option changes the updates, nor bound the iterations for every inexact inner solver.", "anchors": ["include/pressio/solvers_nonlinear/impl/root_finder.cpp", "include/pressio/solvers_nonlinear/solvers_create_newton.hpp", "include/pressio/solvers_linear/impl/solvers_linear_eigen_iterative_matrix_free_impl.hpp"]}
{"id": "C91", "title": "Steady Galerkin problems with the matrix-free solver", "statement": "Solving a default steady Galerkin problem with the matrix-free Newton-Krylov solver ends as solving it with Newton's method and the same Krylov method as linear solver: in the same way, with the same reduced state, after evaluations at the same states, whatever the problem object was used for before. For a linear elliptic full-order model and a full-rank basis every solve, from every guess, with a Krylov method that leaves at most a fraction eta < 1 of the right-hand side, returns normally after a number of iterations known in advance, and the lifted solution is as close to the full-order solution as any state of the trial space, up to the ratio of the constants of the model and a term proportional to the tolerance. The hyper-reduced steady problem offers the functions the matrix-free solver calls, but solving it always throws and leaves the state unchanged.", "quantifier": "all full-order models with residual, Jacobian and Jacobian action, trial subspaces, Krylov methods, options, solver and problem objects with any past, guesses; for the error bound all linear elliptic models, full-rank bases, eta < 1 and tolerances", "why_tests_cant": "A test compares two solvers on one model; it cannot show that they agree for every model, nor bound the iterations for every inexact inner solver.", "anchors": ["include/pressio/rom/impl/galerkin_steady_system_default.hpp", "include/pressio/rom/impl/galerkin_steady_system_hypred.hpp", "include/pressio/solvers_nonlinear/impl/root_finder.cpp", "include/pressio/solvers_nonlinear/impl/functions.hpp"]}
{"id": "C92", "title": "Advancers with implicit steppers, from the call to the error", "statement": "Whatever a stepper object, a step-size policy and an observer do, a call of an advancer is a run of attempts of sizes that the policy can ask for: the stepper is called for these attempts and no others, each starting from where the previous one left the objects; the observer sees the initial state and exactly the accepted ones; the caller is left with the state of the last attempt; nothing is attempted after a failure, except that with step recovery a failed step is attempted again. So what holds of all such runs of an implicit stepper with one solver object holds of everything an advancer shows: with a Newton solver and steps that are small enough, advance_n_steps and advance_to_target_point (with and without recovery) return, after the requested number of steps or near the target, and every observed state is as close to the solution of the differential equation as the scheme and the tolerance allow (order two for Crank-Nicolson and BDF2), or bounded for dissipative models.", "quantifier": "all stepper objects, policies and observers (which may throw at any call), numbers of steps, start and target times; for the error bounds all tame Lipschitz, monotone or dissipative models, exact linear solvers, tolerances, policies with sizes in an interval and initial states", "why_tests_cant": "A test runs a few steps of one model; it cannot show that every observed state of every run obeys the bound, nor what happens for every pattern of failures.", "anchors": ["include/pressio/ode/impl/ode_advance_n_steps.hpp", "include/pressio/ode/impl/ode_advance_to_target_time.hpp", "include/pressio/ode/impl/ode_implicit_stepper_standard.hpp", "include/pressio/solvers_nonlinear/impl/root_finder.cpp"]}
{"id": "C93", "title": "Unsteady LSPG on nonlinear full-order models, solved by Gauss-Newton, from the call to the error", "statement": "Default unsteady LSPG (BDF1 or BDF2) with one Gauss-Newton solver object (normal equations, weighted or not, or QR; absolute criterion on the correction or on the gradient; standard updates) for all steps.  Let the basis be independent, the full-order right-hand side smooth near the trial space within some distance of the initial reduced state, and the steps small enough for the number of steps.  Then no step fails, each step ends after a number of evaluations fixed in advance, and each accepted reduced state is, up to the tolerance, the minimiser of the time-discrete full-order residual of its step over all reduced states in a ball around the previous one: no starting point near the solution has to be assumed.  If the right-hand side is nowhere further than delta from the range of the basis, the reconstructed states differ from the exact solution of the full-order model by the initial error, a multiple of delta, the error of the scheme and a multiple of the tolerance per step (Lipschitz or monotone models); advance_n_steps and advance_to_target_point return and every observed state obeys the bound.", "quantifier": "all full-order models that are well-behaved near the trial space, bases, exact inner solvers, tolerances, sequences of step sizes with room in the ball, initial states; for the advancers all policies with sizes in an interval", "why_tests_cant": "A test runs a few steps of one model with one basis; it cannot show that every Gauss-Newton iteration of every step converges to a minimiser, nor bound the error of all runs.", "anchors": ["include/pressio/rom/impl/lspg_unsteady_rj_policy_default.hpp", "include/pressio/rom/impl/lspg_unsteady_problem.hpp", "include/pressio/solvers_nonlinear/impl/nonlinear_least_squares.hpp", "include/pressio/ode/impl/ode_advance_to_target_time.hpp"]}
{"id": "C94", "title": "Implicit steppers with mass matrix and a Newton object: runs complete and converge", "statement": "An implicit stepper (BDF1, BDF2) for a system with mass matrix, driven with one Newton solver object for all steps.  For every such system (mass matrix depending on state and time, evaluations that may fail) each attempted step is exactly one call of Newton's method on the textbook equations of that step, from the previous state.  With constant mass matrix M of M y' = f(y,t) the iterates are those of Newton's method on M(y - y_n) - dt f = 0, and the run is, state by state and evaluation by evaluation, the run without mass matrix on M^-1 f with a solver that multiplies by M before it takes norms and solves.  If M is symmetric positive definite and f well-behaved near the exact solution, the run completes for all step sizes up to a bound, each step after a number of evaluations fixed in advance, and the states differ from the exact solution in the energy norm of M by the initial error, the error of the scheme and tol / sqrt(mu) per step, mu the smallest eigenvalue of M; for dissipative f the energy stays bounded.  advance_to_target_point and advance_n_steps return and every observed state obeys the bound.", "quantifier": "all mass-matrix systems and histories; all constant symmetric positive definite mass matrices, monotone or Lipschitz right-hand sides, exact inner solvers, tolerances, sequences of step sizes, initial states; for the advancers all policies with sizes in an interval", "why_tests_cant": "A test runs some steps with one mass matrix; it cannot show that Newton converges at every step of every run nor bound the error in terms of the mass matrix.", "anchors": ["include/pressio/ode/impl/ode_implicit_policy_residual_jacobian_with_mass_matrix.hpp", "include/pressio/ode/impl/ode_implicit_stepper_standard.hpp", "include/pressio/ode/impl/ode_implicit_discrete_residual.hpp", "include/pressio/ode/impl/ode_implicit_discrete_jacobian.hpp", "include/pressio/solvers_nonlinear/impl/root_finder.cpp"]}
{"id": "C95", "title": "Implicit Galerkin problems with a Newton object: runs complete and reconstructed states are as near to the exact solution as the trial space allows", "statement": "A default unsteady Galerkin problem, implicit in time (BDF1, BDF2, CrankNicolson), on a nonlinear full-order model, with an orthonormal affine trial space and one Newton solver object for all steps.  Let psi be the exact solution of the full-order model and let the trial space contain at every time a state within d of psi(t).  If the model is well-behaved on the states of the trial space near psi, the run completes for all step sizes up to a bound, each step after a number of evaluations fixed in advance, and every reconstructed full-order state differs from psi by at most d plus a constant times (initial error, the error of the scheme, one tolerance per step, and Lipschitz constant times d times elapsed time).  For monotone models the constant does not grow with time.  advance_to_target_point and advance_n_steps return, and every observed reduced state obeys the bound.  No other state of the trial space is nearer to a full-order state than its orthogonal projection.", "quantifier": "all full-order models, monotone or Lipschitz, all orthonormal affine trial spaces, exact inner solvers, tolerances, sequences of step sizes (constant for BDF2), initial reduced states; for the advancers all policies with sizes in an interval", "why_tests_cant": "A test compares one reduced run with one full run; it cannot show that the reduced run is near the full solution for every trial space that approximates it well, nor that Newton converges at every step.", "anchors": ["include/pressio/rom/impl/galerkin_unsteady_system_default_rhs_and_jacobian.hpp", "include/pressio/ode/impl/ode_implicit_stepper_standard.hpp", "include/pressio/ode/impl/ode_implicit_discrete_residual.hpp", "include/pressio/solvers_nonlinear/impl/root_finder.cpp", "include/pressio/ode/impl/ode_advance_to_target_time.hpp"]}
{"id": "C96", "title": "User-defined schemes that spell out a built-in scheme give the same runs", "statement": "A user who writes the discrete residual and Jacobian of BDF1, BDF2 or CrankNicolson themselves, and passes them to the stepper for user-defined schemes with at least as many states as the scheme needs, gets exactly the run of the built-in stepper: the same evaluations and answers, the same accepted states, the same exceptions, the same rolled back steps, whatever the solver, the step sizes and the failures of the right-hand side.  The same holds for fully discrete LSPG problems (default and on a sample mesh) against the built-in LSPG problems with BDF1 and BDF2, and for fully discrete Galerkin problems with orthonormal basis against the built-in implicit Galerkin problems (discretising and projecting commute).  Through advance_n_steps and advance_to_target_point, with and without recovery, the caller sees the same: result, final state, sequence of calls of observers, policies and stepper, and the state of their own objects.  Without orthonormal basis the two Galerkin problems differ.", "quantifier": "all systems and full-order models, schemes, numbers of states, solvers or solver objects with memory, step size policies and observers (which may throw), step counts, target times, initial contents of the stepper objects", "why_tests_cant": "A test compares two runs; it cannot show that no history, failure pattern or previous use of the objects makes two code paths differ that share almost no code.", "anchors": ["include/pressio/ode/impl/ode_implicit_stepper_arbitrary.hpp", "include/pressio/ode/impl/ode_implicit_stepper_standard.hpp", "include/pressio/rom/impl/lspg_unsteady_fully_discrete_system.hpp", "include/pressio/rom/impl/lspg_unsteady_rj_policy_default.hpp", "include/pressio/rom/impl/lspg_unsteady_rj_policy_hypred.hpp", "include/pressio/rom/impl/galerkin_unsteady_system_fully_discrete_fom.hpp", "include/pressio/rom/impl/galerkin_unsteady_system_default_rhs_and_jacobian.hpp", "include/pressio/ode/impl/ode_advance_n_steps.hpp", "include/pressio/ode/impl/ode_advance_to_target_time.hpp"]}
{"id": "C97", "title": "Step recovery completes runs whenever small steps succeed", "statement": "If every attempt of a step of size at most h0 succeeds, and larger attempts either succeed or throw TimeStepFailure, then advance_to_target_point_with_step_recovery returns, at a time between final_time - eps and final_time + H, whatever sizes up to H the policy asks for, provided that the minimum size of the policy leaves room for one reduction of a size above h0; the number of accepted steps and of attempts is bounded in advance.  In particular an implicit BDF1 run with a Newton object on a model that can only be evaluated on a domain (elsewhere the right-hand side throws) reaches the target, if small steps stay in a region of the domain around the exact solution: attempts that leave the domain are rolled back and retried, and everything that is observed satisfies the same error bound (monotone problems) or stability bound (dissipative problems) as for a model that can be evaluated everywhere.  If the minimum size does not leave that room, the call can abort although steps of the minimum size would succeed.", "quantifier": "all stepper objects, policies (sizes, minimum sizes and factors may vary from step to step), observers, models and domains, Newton objects, tolerances, initial states and target times", "why_tests_cant": "A test tries one model and one policy; whether retries always end in an accepted step, the state is always put back, and the error stays bounded over every pattern of failures is a statement about all of them.", "anchors": ["include/pressio/ode/impl/ode_advance_to_target_time.hpp", "include/pressio/ode/ode_advance_to_target_point_with_step_recovery.hpp", "include/pressio/ode/impl/ode_implicit_stepper_standard.hpp", "include/pressio/solvers_nonlinear/impl/root_finder.cpp"]}
{"id": "C98", "title": "Solvers of different kinds agree where they should", "statement": "A weighted Gauss-Newton solver with the identity as weighting operator does the same as a Gauss-Newton solver (residuals measured in the Euclidean norm); with weights W = M^T M it does the same as a Gauss-Newton solver on the system multiplied by M, and so does the compact weighted solver with operator M, for every criterion that is not about the residual; a Gauss-Newton solver with QR does the same as one with normal equations where Jacobians have full column rank; on square systems with regular Jacobians a Gauss-Newton solver does the same as a Newton solver with corresponding options. Same means: same outcome, result and evaluations of the system, in the same order. So exchanging the solvers does not change runs of implicit steppers or LSPG problems, nor what the advancers do.", "quantifier": "all systems (also throwing ones), options, tolerances, states, linear solvers that solve regular systems, QR objects (modified Gram-Schmidt and Householder are shown to qualify), histories of both objects, schemes, step sizes, policies and observers", "why_tests_cant": "Tests run each solver on its own few problems; that two of them take the same path through every iteration, line search and failure on every problem is a statement about all of them.", "anchors": ["include/pressio/solvers_nonlinear/impl/functions.hpp", "include/pressio/solvers_nonlinear/impl/nonlinear_least_squares.hpp", "include/pressio/solvers_nonlinear/impl/root_finder.cpp", "include/pressio/solvers_nonlinear/impl/updaters.hpp", "include/pressio/solvers_nonlinear/impl/qr/qr_tpetra_impl.hpp", "include/pressio/solvers_nonlinear/impl/qr/qr_eigen_impl.hpp"]}
{"id": "C99", "title": "Reduced models do not depend on the coordinates of the trial space", "statement": "Two trial spaces that contain the same FOM states, described by different bases and reference states, give the same reduced model. LSPG runs with a Gauss-Newton object, implicit Galerkin runs with mass matrix and a Newton object, and explicit Galerkin runs with mass matrix go through the same FOM states, accept and fail in the same steps, and evaluate the FOM at the same states in the same order; so do implicit and explicit Galerkin runs without mass matrix on orthonormal bases. Single solves with Newton, Gauss-Newton and weighted Gauss-Newton objects visit the same points in any affine coordinates, with Levenberg-Marquardt objects after any change of the scales of the coordinates. Criteria on corrections and gradients must measure the same in both coordinates; where they do not, where a basis of a Galerkin problem without mass matrix is not orthonormal, and for Levenberg-Marquardt in other coordinates, results do depend on the description.", "quantifier": "all FOMs (also throwing ones), pairs of trial spaces with the same states, schemes, step sizes with regular equations, options, tolerances, linear solvers that solve regular systems, histories of the solver objects, initial states", "why_tests_cant": "Tests use one basis per problem; that another basis of the same space gives the same trajectory, step by step and through every failure, is a statement about pairs of runs for all bases.", "anchors": ["include/pressio/rom/impl/linear_trial_column_subspace.hpp", "include/pressio/rom/impl/lspg_unsteady_rj_policy_default.hpp", "include/pressio/rom/impl/galerkin_unsteady_system_default_rhs_and_jacobian.hpp", "include/pressio/rom/impl/galerkin_unsteady_system_default_rhs_and_jacobian_and_mm.hpp", "include/pressio/rom/impl/galerkin_unsteady_system_default_rhs_only.hpp", "include/pressio/rom/impl/galerkin_unsteady_system_default_rhs_with_mass_matrix.hpp", "include/pressio/solvers_nonlinear/impl/functions.hpp", "include/pressio/solvers_nonlinear/impl/updaters.hpp"]}
{"id": "C100", "title": "Runs do not depend on the units of time and state", "statement": "The equation dy/dt = f(y, t) and the same equation in other units (t = rate t' + origin, y = B y' + a) give the same simulation: from the same initial state through the same step sizes, explicit steppers and implicit steppers with a Newton object go through the same states at the same times, accept and fail in the same steps in the same way and evaluate at the same states, if solver norms measure the same; for changes of the clock only, this holds with any solver object, also for systems with mass matrix, Galerkin problems and LSPG problems (default, hyper-reduced, masked). Calls of advance_n_steps with the same policy and observer agree: same end, same states, same calls of policy, observer and stepper in the same order. The advancers to a target time agree if their tolerance on reaching the target is the same duration in both units; the code uses the machine epsilon as this duration in whatever unit, so with a large unit of time they stop early (refuted; proved for changes of state units and time origin).", "quantifier": "all right-hand sides (also throwing ones), clocks, invertible changes of state units, schemes, policies, observers, numbers of steps and target times, solver options and histories of the objects", "why_tests_cant": "Tests run problems in one system of units with times of order one; that the numbers chosen for a second or a meter do not matter is a statement about pairs of runs for all units, and the early stop at small time scales shows in no test.", "anchors": ["include/pressio/ode/impl/ode_advance_to_target_time.hpp", "include/pressio/ode/impl/ode_advance_n_steps.hpp", "include/pressio/ode/impl/ode_explicit_stepper_without_mass_matrix.hpp", "include/pressio/ode/impl/ode_implicit_policy_residual_jacobian_without_mass_matrix.hpp", "include/pressio/rom/impl/lspg_unsteady_rj_policy_default.hpp", "include/pressio/rom/impl/galerkin_unsteady_system_default_rhs_and_jacobian.hpp"]}
{"id": "C101", "title": "Solver objects can be shared between problems", "statement": "In a program with any number of time-dependent problems (ODEs, Galerkin problems, problems with mass matrix; or LSPG problems: default, hyper-reduced, masked), any number of nonlinear solver objects of any kinds, and any number of linear solvers, problems may share a solver object and solver objects may share a linear solver, and steps of the problems may be made in any order: if the linear solvers have no warm start, every problem goes through exactly the run (accepted states, times, failures, evaluations with their answers) that it goes through in a program of its own with objects of its own. Failures, exceptions and the pasts of the objects do not leak from one problem to another. With a linear solver that starts from its last answer this is false (refuted by a concrete program).", "quantifier": "all families of problems, schemes, step sizes and schedules (interleavings), all assignments of solver objects to problems and of linear solvers to solver objects, all solver kinds and options, all user functions (also throwing ones)", "why_tests_cant": "Tests use one problem with one solver; independence of whatever another problem did with the shared object is a statement about all interleavings and all intermediate memories of the objects.", "anchors": ["include/pressio/solvers_nonlinear/impl/registries.hpp", "include/pressio/solvers_nonlinear/impl/nonlinear_least_squares.hpp", "include/pressio/solvers_nonlinear/impl/root_finder.cpp", "include/pressio/solvers_nonlinear/impl/diagnostics.hpp", "include/pressio/solvers_nonlinear/impl/instance_or_reference_wrapper.hpp", "include/pressio/ode/impl/ode_implicit_policy_residual_jacobian_without_mass_matrix.hpp"]}
{"id": "C102", "title": "Sampling the equations of LSPG and weighing them in the solver give the same runs", "statement": "An LSPG problem whose equations are sampled in the problem and solved by a Gauss-Newton solver goes through the same run (accepted states, times, failures, exceptions, evaluation points) as the plain LSPG problem of the full-mesh code solved by a weighted Gauss-Newton solver whose weights select the sample (weights M^T M, or compact weights M), with the same linear solver, norm of reduced states and options. This holds for hyper-reduced problems (states on a stencil mesh, right-hand side on a sample mesh computed from the stencil values), for masked problems, and for problems with a constant scaling operator. For masked problems it needs a FOM whose Jacobian can be evaluated wherever its right-hand side can (refuted otherwise by a concrete run: the masked problem evaluates the Jacobian also when it is not asked for). The stopping criterion must not be about the residual, because the solver reports the unweighted one.", "quantifier": "all meshes, stencil meshes and sample meshes, all trial spaces, FOM functions (also throwing ones), schemes, lists of step sizes, weights of the form M^T M, line searches, tolerances, linear solvers, used or new solver objects", "why_tests_cant": "The two programs have nothing in common at the level of calls (other policies, other operators, other sizes): a test can compare them for one problem and one mesh, not for all problems, meshes, options and failures.", "anchors": ["include/pressio/rom/impl/lspg_unsteady_rj_policy_hypred.hpp", "include/pressio/rom/impl/lspg_unsteady_rj_policy_default.hpp", "include/pressio/rom/impl/lspg_unsteady_mask_decorator.hpp", "include/pressio/rom/impl/lspg_unsteady_scaling_decorator.hpp", "include/pressio/solvers_nonlinear/impl/functions.hpp"]}
{"id": "C103", "title": "A reduced model whose trial space is the whole space reproduces the full-order run", "statement": "If the basis is square and the trial space is the whole full-order space, the reduced problem reproduces the full-order model: with the same initial state, scheme, step sizes and options, the reconstructed states, the times, the failed steps with their exceptions and the full-order states where the model is evaluated are those of a stepper applied directly to the full-order system. Galerkin without mass matrix, implicit (BDF1, BDF2, CrankNicolson with a Newton object, Euclidean norms) and explicit (all schemes), needs an orthonormal basis (refuted for others); Galerkin with mass matrix and LSPG allow any invertible basis. For LSPG with Gauss-Newton the full-order run uses a Newton object: full-order Newton and LSPG with Gauss-Newton take the same steps.", "quantifier": "all full-order models (also throwing ones) whose step matrices are regular, all square bases and reference states, schemes, lists of step sizes, tolerances, criteria and line searches, initial states, linear solvers, used or new solver objects", "why_tests_cant": "The usual sanity test of a reduced model compares the two runs for one model and one basis with a tolerance; the identity of the runs, including failures and evaluation points, for all models and bases is not testable.", "anchors": ["include/pressio/rom/impl/galerkin_unsteady_system_default_rhs_and_jacobian.hpp", "include/pressio/rom/impl/galerkin_unsteady_system_default_rhs_only.hpp", "include/pressio/rom/impl/lspg_unsteady_rj_policy_default.hpp", "include/pressio/solvers_nonlinear/impl/root_finder.cpp", "include/pressio/solvers_nonlinear/impl/functions.hpp"]}
{"id": "C104", "title": "Implicit Galerkin and LSPG are exact on invariant trial spaces", "statement": "If the full-order model does not leave the trial space (at its states the right-hand side is in the range of the basis and the Jacobian maps this range into itself), the reduced run is the full-order run: from the same state of the trial space, with the same scheme, step sizes and options, the reconstructed states, the times, the failed steps with their exceptions and the full-order states where the model is evaluated are those of a stepper applied directly to the full-order system, iteration by iteration. Galerkin (BDF1, BDF2, CrankNicolson, orthonormal basis, Newton objects with Euclidean norms); Galerkin with mass matrix (BDF1, BDF2, any basis, M^-1 f in the range of the basis, Newton with full steps and a criterion on the correction); LSPG (BDF1, BDF2, any linearly independent basis, Gauss-Newton) against the full-order model with a Newton object. The reduced problem may be of any smaller size. The same for steady problems whose residuals at the states of the trial space are in the range of the basis.", "quantifier": "all full-order models (also nonlinear, time-dependent and throwing ones), trial spaces and reference states that are invariant, with regular step matrices; all schemes, lists of step sizes, tolerances, criteria on residuals or corrections, line searches, initial states of the trial space, linear solvers, used or new solver objects", "why_tests_cant": "A test compares final states for one model with a tolerance; that converged and unconverged iterations, failures and evaluation points agree for all invariant spaces needs the structure of the equations of a step.", "anchors": ["include/pressio/rom/impl/galerkin_unsteady_system_default_rhs_and_jacobian.hpp", "include/pressio/rom/impl/lspg_unsteady_rj_policy_default.hpp", "include/pressio/solvers_nonlinear/impl/root_finder.cpp", "include/pressio/solvers_nonlinear/impl/functions.hpp"]}
{"id": "C105", "title": "Implicit runs with a mass matrix are the runs of the equation solved for the time derivative", "statement": "For M(t) y' = f(y,t) with invertible M(t), an implicit stepper with mass matrix (BDF1, BDF2) and a stepper without mass matrix for y' = M(t)^-1 f(y,t), each with a Newton object with the same options whose linear solver solves regular systems, go through the same run: the same states in every step, the same failed steps with the same exceptions, and evaluations at the same states, for criteria that measure the same for both (corrections always do). The same holds for calls of the advancers. For mass matrices that depend on the state this is false, because the Jacobian of the stepper leaves out the derivative of the mass matrix: refuted by a concrete step.", "quantifier": "all right-hand sides (also throwing ones) and Jacobians, invertible mass matrices changing in time, lists of step sizes with regular step matrices, options, initial states, linear solvers, memory of used or new objects, policies, observers, targets", "why_tests_cant": "A test compares one final state with a tolerance; that all iterates, failures and evaluations agree for every right-hand side and mass matrix is a statement about the equations of the step.", "anchors": ["include/pressio/ode/impl/ode_implicit_policy_residual_jacobian_with_mass_matrix.hpp", "include/pressio/ode/impl/ode_implicit_policy_residual_jacobian_without_mass_matrix.hpp", "include/pressio/ode/impl/ode_implicit_discrete_residual.hpp", "include/pressio/ode/impl/ode_implicit_discrete_jacobian.hpp", "include/pressio/solvers_nonlinear/impl/root_finder.cpp"]}
{"id": "C106", "title": "A masked problem emulates the hyper-reduced problem", "statement": "Given a full-mesh code, a code that computes the same right-hand side and Jacobian rows on a sample mesh from the state on its stencil mesh, and a masker that keeps the entries on the sample mesh: the masked problem of the full-mesh code and the hyper-reduced problem of the sample-mesh code on the restricted trial space go through the same run. This holds for implicit Galerkin (BDF1, BDF2, Crank-Nicolson) and explicit Galerkin with any hyper-reduction operator, also depending on time, and for LSPG with an updater that selects the sample mesh, provided the Jacobian can be evaluated where the right-hand side can; with any solver object: same states, failures, exceptions, points of evaluation, same end and same calls of policy and observer in all advancers. With the projection by the transposed basis and nothing dropped, the hyper-reduced Galerkin run is that of the default problem. Calls of solve with steady masked and hyper-reduced Galerkin and LSPG problems end in the same way with the same state, after the same evaluations with the same answers.", "quantifier": "all full-mesh and sample-mesh codes (also throwing), restrictions, trial spaces, hyper-reduction operators, schemes, solver programs that only talk to the system, step sizes, initial states, contents of members, policies, observers", "why_tests_cant": "Masks are used to try out hyper-reduction without a sample-mesh code; a test compares numbers for one mesh, one code and one solver.", "anchors": ["include/pressio/rom/impl/galerkin_unsteady_system_masked_rhs_and_jacobian.hpp", "include/pressio/rom/impl/galerkin_unsteady_system_hypred_rhs_and_jacobian.hpp", "include/pressio/rom/impl/galerkin_unsteady_system_masked_rhs_only.hpp", "include/pressio/rom/impl/galerkin_unsteady_system_hypred_rhs_only.hpp", "include/pressio/rom/impl/lspg_unsteady_mask_decorator.hpp", "include/pressio/rom/impl/lspg_unsteady_rj_policy_hypred.hpp"]}
{"id": "C107", "title": "Runs of one-step implicit schemes can be checkpointed and restarted", "statement": "A run of an implicit stepper with BDF1 or CrankNicolson (ODEs, Galerkin problems, problems with mass matrix) or of an LSPG problem with BDF1 (default, hyper-reduced, masked) may be interrupted after any number of accepted and recoverably failed attempts, and continued in another process from the time and state it reached: with a new stepper or problem object and any other solver object with the same options it makes exactly the attempts that the uninterrupted run makes: same times, sizes, outcomes, states, evaluations and answers. N + N' steps of fixed size in one call of advance_n_steps, or in two calls, end in the same way with the same state, and the observers see the same times and states. For BDF2 this is false, because a new stepper begins with a step of BDF1 (refuted by a concrete run).", "quantifier": "all right-hand sides and full-order models (also throwing), schemes as stated, solver kinds, options and pasts of solver objects, linear solvers without warm start, lists of step sizes before and after the interruption, initial states, numbers of steps, observers that do not throw", "why_tests_cant": "A test interrupts one run at one point; hidden state of steppers, problems and solvers would show only in other runs (the cached right-hand side of CrankNicolson and the stored full-order states of LSPG are such state, keyed by step numbers that begin again).", "anchors": ["include/pressio/ode/impl/ode_implicit_stepper_standard.hpp", "include/pressio/ode/impl/ode_implicit_policy_residual_jacobian_without_mass_matrix.hpp", "include/pressio/ode/impl/ode_advance_n_steps.hpp", "include/pressio/rom/impl/lspg_unsteady_rj_policy_default.hpp", "include/pressio/rom/impl/lspg_unsteady_rj_policy_hypred.hpp", "include/pressio/rom/impl/lspg_unsteady_mask_decorator.hpp"]}
{"id": "C108", "title": "Hyper-reduction with a collateral basis loses nothing where the basis spans the right-hand sides", "statement": "If the hyper-reduction operator reconstructs a vector on the full mesh from its entries on the sample mesh with a collateral basis and then projects on the trial basis (empirical interpolation, gappy POD), if on the trial space the full-order right-hand side and its derivatives along the trial space lie in the span of the collateral basis, and if coefficients can be recovered from the sampled rows, then the hyper-reduced Galerkin problem of a code that computes the sampled entries only, the masked Galerkin problem of the full-mesh code, and the default Galerkin problem of the full-mesh code go through the same run: same states, recoverable failures, exceptions and evaluations (implicit schemes with any solver object; explicit schemes: same states and observations; steady problems: same outcome of solve and same evaluations). For LSPG: the hyper-reduced problem solved by weighted Gauss-Newton (weights given in full, or compactly) whose weights reconstruct with the collateral basis goes through the same run as the full problem solved by Gauss-Newton, if the collateral basis also spans the trial basis and the criterion is not the norm of the residual. Without the span the runs differ (refuted by a concrete run).", "quantifier": "all full-order models (also throwing) and sample-mesh codes with the same entries, all trial spaces (affine or linear), sample and stencil meshes, collateral bases and left inverses of their sampled rows, schemes, solver objects and their states, step sizes, initial states; for LSPG BDF1 and BDF2", "why_tests_cant": "A test compares one run of one model within a tolerance; exactness needs that sampling, reconstruction, projection, and the combination of states on stencil and sample mesh fit together at every step.", "anchors": ["include/pressio/rom/impl/galerkin_unsteady_system_hypred_rhs_and_jacobian.hpp", "include/pressio/rom/impl/galerkin_unsteady_system_hypred_rhs_only.hpp", "include/pressio/rom/impl/galerkin_unsteady_system_masked_rhs_and_jacobian.hpp", "include/pressio/rom/impl/galerkin_unsteady_system_default_rhs_and_jacobian.hpp", "include/pressio/rom/impl/galerkin_steady_system_hypred.hpp", "include/pressio/rom/impl/lspg_unsteady_rj_policy_hypred.hpp", "include/pressio/rom/impl/lspg_unsteady_rj_policy_default.hpp"]}
{"id": "C109", "title": "Time may be carried as a state in explicit runs, and uncoupled parts do not disturb each other", "statement": "For every explicit scheme and step-size policy, the run on y' = f(y, t) and the run on the autonomous system (y, s)' = (f(y, s), 1) from (y0, start) complete, end in the same state y, and show the observer the same states at the same times; the time carried as a state equals the reported time at every observation. The same holds with an invertible mass matrix M(y, t) and a linear solver called as the steppers do. In a system of two parts of which the first does not read the second, the run of the whole shows in the first part exactly the run of the first part alone.", "quantifier": "all explicit schemes, right-hand sides, mass matrices invertible at all states and times, initial states and times, step-size policies (also changing sizes), numbers of steps below the range of the step counter, contents of the storage of the steppers", "why_tests_cant": "A wrong stage time is invisible for autonomous right-hand sides and only degrades the order otherwise; a test with a tolerance or for one right-hand side does not see it.", "anchors": ["include/pressio/ode/impl/ode_explicit_stepper_without_mass_matrix.hpp", "include/pressio/ode/impl/ode_explicit_stepper_with_mass_matrix.hpp", "include/pressio/ode/impl/ode_advance_n_steps.hpp"]}
{"id": "C110", "title": "On an invariant trial space a code for a sample mesh reproduces the full-order runs", "statement": "If the full-order right-hand side stays in the range of the trial basis on the trial space, a code evaluates it correctly on a sample mesh, and the hyper-reduction operator recovers reduced coordinates from the sampled rows of the basis, then the hyper-reduced Galerkin run, which never touches the full mesh, is the full-order run: for explicit schemes (any basis) the full-order run shows the observer, at the same times, the reconstructions of the reduced states; for implicit schemes with Newton objects with Euclidean norms and the same options (orthonormal basis), the same full-order states, accepted and failed steps and points of evaluation; for steady problems the same end of the solve, state and points of evaluation. The same for masked problems, and for hyper-reduced LSPG with a weighted Gauss-Newton object whose weights recover and reconstruct (any basis, criterion about the correction).", "quantifier": "all full-order models (which may throw in the implicit case), sample and stencil meshes, trial spaces (linear or affine), hyper-reduction matrices that recover the coordinates, schemes, step sizes for which the matrices of the scheme are regular, initial states, numbers of steps, solver options, contents of all buffers", "why_tests_cant": "A test compares one sample mesh on one problem within a tolerance; that hyper-reduction adds no error of its own is a statement about all sample meshes that determine the coordinates.", "anchors": ["include/pressio/rom/impl/galerkin_unsteady_system_hypred_rhs_only.hpp", "include/pressio/rom/impl/galerkin_unsteady_system_hypred_rhs_and_jacobian.hpp", "include/pressio/rom/impl/galerkin_steady_system_hypred.hpp", "include/pressio/rom/impl/galerkin_unsteady_system_masked_rhs_and_jacobian.hpp", "include/pressio/rom/impl/lspg_unsteady_rj_policy_hypred.hpp"]}
{"id": "C111", "title": "Runs on linear problems superpose, and explicit runs on the linearised problem are the derivatives of the runs", "statement": "For every explicit scheme and step-size policy: on linear problems y' = A(t) y + b(t) the run from a combination of initial states, driven by the same combination of forcings, shows the observer at the same times the combinations of the states of the separate runs. This includes explicit steppers with an invertible mass matrix M(t) that does not depend on the state. The same holds for BDF1, BDF2 and CrankNicolson with a Newton solver that takes full steps with exact linear solves and a zero absolute tolerance, when the matrices 1 - c A(t) of the scheme are regular: all steps are accepted and the states are the combinations; with a fixed step size advance_n_steps returns and shows its observer the combinations at the same times. With a mass matrix M(t) this holds for BDF1 and BDF2, with the norm of the correction as criterion. There the run from the varied part of the data is the derivative of the final state with respect to the parameter that scales it. For a right-hand side that depends differentiably on a parameter and on the state, and initial states that depend differentiably on the parameter, the run on the linearised problem (state and sensitivity side by side) completes, its state is that of the run, and its sensitivity is the derivative of the final state of the run with respect to the parameter.", "quantifier": "all explicit schemes, linear right-hand sides and pairs of linear maps; all implicit schemes, lists of step sizes, matrices A(t), forcings, coefficients and idle stepper and solver objects; all right-hand sides differentiable in parameter and state on real normed spaces, differentiable families of initial states, step-size policies, initial times, numbers of steps below the range of the step counter, contents of the storage of the steppers", "why_tests_cant": "A test can compare a difference quotient with one computed sensitivity within a tolerance; the derivative is a limit over all parameters, and superposition is over all pairs of states.", "anchors": ["include/pressio/ode/impl/ode_explicit_stepper_without_mass_matrix.hpp", "include/pressio/ode/impl/ode_advance_n_steps.hpp", "include/pressio/ode/impl/ode_implicit_stepper_standard.hpp"]}
