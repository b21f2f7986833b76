import Verif.Model.SolveTree
import Verif.Model.Explicit

/-
  Model of the standard implicit stepper and its residual/Jacobian policies:
  `include/pressio/ode/impl/ode_implicit_stepper_standard.hpp`,
  `ode_implicit_policy_residual_jacobian_without_mass_matrix.hpp`, `ode_implicit_policy_residual_jacobian_with_mass_matrix.hpp`,
  `ode_implicit_discrete_residual.hpp`, `ode_implicit_discrete_jacobian.hpp`,
  `ode_stencil_data_container_dynamic.hpp`.

  Simplifications: one field `K` for the scalar and the independent variable; `ops` kernels by their meaning.
-/
namespace Pressio.Model.Implicit
set_option autoImplicit false
open Pressio
open Pressio.Model.Explicit (Scheme)

variable {K Y R J P A Mt : Type}

/-! ### Stencil containers -/

/-- `stencilStates(ode::n())`, `stencilStates(ode::nMinusOne())`, ...: slot `i` of the container that starts at `n`
    (`include/pressio/ode/impl/ode_stencil_data_container_dynamic.hpp:167-206`), or slot `i` of the one that starts at `n+1`
    (`:86-126`).  Outside of the container: undefined behaviour (an `assert` in debug builds). -/
def slot {σ V : Type} (get : σ → List V) (i : Nat) : Prog σ V := fun s =>
  match (get s)[i]? with
  | some v => .ok v s
  | none => .stop (.ub "stencil slot out of range") s

/-! ### The stepper -/

/-- Members of `ImplicitStepperStandardImpl` (`include/pressio/ode/impl/ode_implicit_stepper_standard.hpp:70-92`):
    `t_np1_`, `dt_`, `step_number_`, `recovery_state_`, `stencil_states_`, `stencil_rhs_`, and the members of the policy object. -/
structure SMem (K Y R P : Type) where
  tnp1 : K
  dt : K
  step : Int
  recovery : Y
  states : List Y
  rhs : List R
  pol : P
deriving DecidableEq, Repr

/-- A residual/Jacobian policy (`rj_policy_`), called as
    `policy(name, state, stencil_states, stencil_rhs, t_np1, step, dt, R, J)`; it may change its own mutable members
    and `stencil_rhs`. Called at `include/pressio/ode/impl/ode_implicit_stepper_standard.hpp:167-176`. -/
abbrev Policy (K Y R P A : Type) := Scheme → Y → List Y → K → Int → K → Bool → Prog (List R × P) A

/-- `residualAndJacobian` (`include/pressio/ode/impl/ode_implicit_stepper_standard.hpp:167-176`) -/
def residualAndJacobian (name : Scheme) (policy : Policy K Y R P A) (y : Y) (wantJ : Bool) : Prog (SMem K Y R P) A := fun m =>
  match policy name y m.states m.tnp1 m.step m.dt wantJ (m.rhs, m.pol) with
  | .ok a (r, p) => .ok a { m with rhs := r, pol := p }
  | .stop h (r, p) => .stop h { m with rhs := r, pol := p }

/-- state during a step: the caller's state, the stepper, the evaluations made by the solver (ghost). Members: `include/pressio/ode/impl/ode_implicit_stepper_standard.hpp:70-92`. -/
abbrev ISt (K Y R P A : Type) := SolveSt Y (SMem K Y R P) A

/-- write slot `i` of `stencil_states_` (`include/pressio/ode/impl/ode_implicit_stepper_standard.hpp:207-208,250-251,261-264,280,306-307`) -/
def setState (i : Nat) (v : Y) : Prog (ISt K Y R P A) Unit := fun s =>
  if i < s.mem.states.length then .ok () { s with mem := { s.mem with states := s.mem.states.set i v } }
  else .stop (.ub "stencil slot out of range") s

/-- read slot `i` of `stencil_states_` (`include/pressio/ode/impl/ode_implicit_stepper_standard.hpp:217-218,263,272-280,316`) -/
def getState (i : Nat) : Prog (ISt K Y R P A) Y := slot (fun s => s.mem.states) i

/-- assignment to the caller's state (`include/pressio/ode/impl/ode_implicit_stepper_standard.hpp:218,276,279,316`) -/
def setY (y : Y) : Prog (ISt K Y R P A) Unit := Prog.modify (fun s => { s with y := y })

/-- `solver.solve(*this, odeState, args...)` (`include/pressio/ode/impl/ode_implicit_stepper_standard.hpp:211,268,310`, `include/pressio/ode/impl/ode_implicit_stepper_arbitrary.hpp:127`) -/
def solve (name : Scheme) (policy : Policy K Y R P A) (solver : Y → SolveTree Y A) : Prog (ISt K Y R P A) Unit := fun s =>
  (solver s.y).run (residualAndJacobian name policy) s

/-- first three assignments of every `doStepImpl` (`include/pressio/ode/impl/ode_implicit_stepper_standard.hpp:202-204,234-236,301-303`) -/
def setTimes [Add K] (t dt : K) (n : Int) : Prog (ISt K Y R P A) Unit :=
  Prog.modify (fun s => { s with mem := { s.mem with dt := dt, tnp1 := t + dt, step := n } })

/-- `doStepImpl(BDF1, ...)` (`include/pressio/ode/impl/ode_implicit_stepper_standard.hpp:179-222`) -/
def stepBDF1 [Add K] (policy : Policy K Y R P A) (solver : Y → SolveTree Y A) (t dt : K) (n : Int) : Prog (ISt K Y R P A) Unit := do
  setTimes t dt n
  let s ← Prog.get
  setState 0 s.y
  Prog.catchE (solve .BDF1 policy solver) (fun e =>
    if e = .nonlinearSolveFailure then
      some (do
        let yn ← getState 0
        setY yn
        Prog.throwE .timeStepFailure)
    else none)

/-- `doStepImpl(BDF2, ...)` (`include/pressio/ode/impl/ode_implicit_stepper_standard.hpp:224-285`) -/
def stepBDF2 [Add K] (policy : Policy K Y R P A) (solver : Y → SolveTree Y A) (t dt : K) (n : Int) : Prog (ISt K Y R P A) Unit := do
  setTimes t dt n
  let s ← Prog.get
  if n = 1 then
    setState 0 s.y
  else do
    let yn ← getState 0
    setState 1 yn
    setState 0 s.y
  Prog.catchE (solve .BDF2 policy solver) (fun e =>
    if e = .nonlinearSolveFailure then
      some (do
        let yn ← getState 0
        let ynm1 ← getState 1
        if n = 1 then
          setY yn
        else do
          setY yn
          setState 0 ynm1
        Prog.throwE .timeStepFailure)
    else none)

/-- `doStepImpl(CrankNicolson, ...)` (`include/pressio/ode/impl/ode_implicit_stepper_standard.hpp:287-319`) -/
def stepCN [Add K] (policy : Policy K Y R P A) (solver : Y → SolveTree Y A) (t dt : K) (n : Int) : Prog (ISt K Y R P A) Unit := do
  setTimes t dt n
  let s ← Prog.get
  setState 0 s.y
  Prog.catchE (solve .CrankNicolson policy solver) (fun e =>
    if e = .nonlinearSolveFailure then
      some (do
        let yn ← getState 0
        setY yn
        Prog.throwE .timeStepFailure)
    else none)

/-- `operator()` (`include/pressio/ode/impl/ode_implicit_stepper_standard.hpp:131-161`); other names fall through (they cannot be created) -/
def doStep [Add K] (name : Scheme) (policy : Policy K Y R P A) (solver : Y → SolveTree Y A) (t dt : K) (n : Int) :
    Prog (ISt K Y R P A) Unit :=
  match name with
  | .BDF1 => stepBDF1 policy solver t dt n
  | .BDF2 => stepBDF2 policy solver t dt n
  | .CrankNicolson => stepCN policy solver t dt n
  | _ => pure ()

/-- Constructors and `create_implicit_stepper_impl`
    (`include/pressio/ode/impl/ode_implicit_stepper_standard.hpp:101-128`, `ode_implicit_create_impl.hpp:54-78`): stencil
    containers set to zero (`ode_stencil_data_container_dynamic.hpp:70-76,148-154`), times and step number value-initialised, `recovery_state_` whatever
    `createState()` returned. -/
def createImplicit [Zero K] [Zero Y] [Zero R] (name : Scheme) (rec : Y) (pol : P) : Except Exc (SMem K Y R P) :=
  match name with
  | .BDF1 => .ok ⟨0, 0, 0, rec, [0], [], pol⟩
  | .BDF2 => .ok ⟨0, 0, 0, rec, [0, 0], [], pol⟩
  | .CrankNicolson => .ok ⟨0, 0, 0, rec, [0], [0, 0], pol⟩
  | _ => .error (.runtimeError "invalid StepScheme")

/-! ### Discrete residuals and Jacobians -/
section
variable [Field K] [AddCommGroup Y] [Module K Y]

/-- `discrete_residual(BDF1, ...)` (`include/pressio/ode/impl/ode_implicit_discrete_residual.hpp:72-86`): on entry `R` holds `f`.  The coefficients of this and the following functions
    are in `include/pressio/ode/ode_constants.hpp:78-102` -/
def discreteResidualBDF1 (ynp1 f yn : Y) (dt : K) : Y := ((-1:K) * dt) • f + (1:K) • ynp1 + (-1:K) • yn

/-- `discrete_residual(BDF2, ...)` (`include/pressio/ode/impl/ode_implicit_discrete_residual.hpp:151-169`) -/
def discreteResidualBDF2 (ynp1 f yn ynm1 : Y) (dt : K) : Y :=
  (((-2:K) / 3) * dt) • f + (1:K) • ynp1 + ((-4:K) / 3) • yn + ((1:K) / 3) • ynm1

/-- `discrete_residual(CrankNicolson, ...)` (`include/pressio/ode/impl/ode_implicit_discrete_residual.hpp:242-268`).
    The old content `r` of `R` is multiplied by 0. -/
def discreteResidualCN (r ynp1 yn fn fnp1 : Y) (dt : K) : Y :=
  (0:K) • r + (1:K) • ynp1 + (-1:K) • yn + (((-1:K) / 2) * dt) • fn + (((-1:K) / 2) * dt) • fnp1

variable [AddCommGroup J] [Module K J] [One J]

/-- `discrete_jacobian(BDF1, jac, dt)` (`include/pressio/ode/impl/ode_implicit_discrete_jacobian.hpp:65-75`) -/
def discreteJacobianBDF1 (jac : J) (dt : K) : J := ((-1:K) * dt) • jac + (1:K) • (1:J)
/-- `discrete_jacobian(BDF2, jac, dt)` (`include/pressio/ode/impl/ode_implicit_discrete_jacobian.hpp:112-122`) -/
def discreteJacobianBDF2 (jac : J) (dt : K) : J := (((-2:K) / 3) * dt) • jac + (1:K) • (1:J)
/-- `discrete_jacobian(CrankNicolson, jac, dt)` (`include/pressio/ode/impl/ode_implicit_discrete_jacobian.hpp:160-171`) -/
def discreteJacobianCN (jac : J) (dt : K) : J := (((-1:K) / 2) * dt) • jac + (1:K) • (1:J)

/-! ### Policy without mass matrix -/

/-- A user system: `rhsAndJacobian(y, t, f, J)` returns `f(y,t)` (and the Jacobian if asked for), or throws leaving some content in `f`.
    Simplification: the result does not depend on the old content of the buffers. Called at `include/pressio/ode/impl/ode_implicit_policy_residual_jacobian_without_mass_matrix.hpp:158,195,211,249,254,259`. -/
structure ISystem (K Y J : Type) where
  eval : Y → K → Bool → Except (Exc × Y) (Y × Option J)

/-- Memory of the policy: `stepTracker_`, initially -1
    (`include/pressio/ode/impl/ode_implicit_policy_residual_jacobian_without_mass_matrix.hpp:268-270`). -/
structure PMem where
  tracker : Int
deriving DecidableEq, Repr

/-- the policy when created (`include/pressio/ode/impl/ode_implicit_policy_residual_jacobian_without_mass_matrix.hpp:270`) -/
def freshPMem : PMem := ⟨-1⟩

/-- `try { p } catch (VelocityFailureUnrecoverable const &){ throw ResidualEvaluationFailureUnrecoverable(); }`
    (`include/pressio/ode/impl/ode_implicit_policy_residual_jacobian_without_mass_matrix.hpp:154-169,195-223`,
    `ode_implicit_policy_residual_jacobian_with_mass_matrix.hpp:154-168,187-211`) -/
def catchVelocity {σ α : Type} (p : Prog σ α) : Prog σ α :=
  Prog.catchE p (fun e =>
    if e = .velocityFailureUnrecoverable then some (Prog.throwE .residualEvaluationFailureUnrecoverable) else none)

/-- `systemObj_.get().rhsAndJacobian(y, t, R, Jo)` with the caller's buffers (`include/pressio/ode/impl/ode_implicit_policy_residual_jacobian_without_mass_matrix.hpp:158,195,211`) -/
def evalSys {σ : Type} (sys : ISystem K Y J) (y : Y) (t : K) (w : Bool) : Prog σ (Y × Option J) := fun s =>
  match sys.eval y t w with
  | .ok a => .ok a s
  | .error (e, _) => .stop (.exc e) s

/-- read `stencilStates(i)` inside a policy (`include/pressio/ode/impl/ode_implicit_policy_residual_jacobian_without_mass_matrix.hpp:247` and `include/pressio/ode/impl/ode_implicit_discrete_residual.hpp:83,124,165-166,210-211,259`) -/
def readState {σ : Type} (states : List Y) (i : Nat) : Prog σ Y := fun s =>
  match states[i]? with
  | some v => .ok v s
  | none => .stop (.ub "stencil slot out of range") s

/-- read `stencilVelocities`: slot 0 is `n+1`, slot 1 is `n` (`include/pressio/ode/impl/ode_implicit_policy_residual_jacobian_without_mass_matrix.hpp:246,252`) -/
def readRhs (i : Nat) : Prog (List Y × P) Y := slot (fun s => s.1) i

/-- `rhsAndJacobian(y, t, stencilVelocities(i), Jo)`: the output buffer is a slot of the stencil, left with some content by a throwing call (`include/pressio/ode/impl/ode_implicit_policy_residual_jacobian_without_mass_matrix.hpp:249,254,259`) -/
def evalIntoRhs (sys : ISystem K Y J) (i : Nat) (y : Y) (t : K) (w : Bool) : Prog (List Y × P) (Option J) := fun s =>
  if i < s.1.length then
    match sys.eval y t w with
    | .ok (f, j) => .ok j (s.1.set i f, s.2)
    | .error (e, junk) => .stop (.exc e) (s.1.set i junk, s.2)
  else .stop (.ub "stencil slot out of range") s

/-- `compute_impl_bdf1` (`include/pressio/ode/impl/ode_implicit_policy_residual_jacobian_without_mass_matrix.hpp:139-170`) -/
def computeBDF1 (sys : ISystem K Y J) (y : Y) (states : List Y) (tnp1 : K) (step : Int) (dt : K) (w : Bool) :
    Prog (List Y × PMem) (Y × Option J) :=
  catchVelocity (do
    Prog.modify (fun s => (s.1, { s.2 with tracker := step }))
    let (f, jac) ← evalSys sys y tnp1 w
    let yn ← readState states 0
    pure (discreteResidualBDF1 y f yn dt, jac.map (fun j => discreteJacobianBDF1 j dt)))

/-- `compute_impl_bdf2` (`include/pressio/ode/impl/ode_implicit_policy_residual_jacobian_without_mass_matrix.hpp:173-225`) -/
def computeBDF2 (sys : ISystem K Y J) (y : Y) (states : List Y) (tnp1 : K) (step : Int) (dt : K) (w : Bool) :
    Prog (List Y × PMem) (Y × Option J) := do
  Prog.modify (fun s => (s.1, { s.2 with tracker := step }))
  if step = 1 then
    catchVelocity (do
      let (f, jac) ← evalSys sys y tnp1 w
      let yn ← readState states 0
      pure (discreteResidualBDF1 y f yn dt, jac.map (fun j => discreteJacobianBDF1 j dt)))
  else
    catchVelocity (do
      let (f, jac) ← evalSys sys y tnp1 w
      let yn ← readState states 0
      let ynm1 ← readState states 1
      pure (discreteResidualBDF2 y f yn ynm1 dt, jac.map (fun j => discreteJacobianBDF2 j dt)))

/-- `compute_impl_cn` (`include/pressio/ode/impl/ode_implicit_policy_residual_jacobian_without_mass_matrix.hpp:228-266`).
    The two branches on `Jo` differ only in passing it on. The old content of `R` is taken to be 0 (it is multiplied by 0). -/
def computeCN (sys : ISystem K Y J) (y : Y) (states : List Y) (tnp1 : K) (step : Int) (dt : K) (w : Bool) :
    Prog (List Y × PMem) (Y × Option J) := do
  let s ← Prog.get
  if s.2.tracker ≠ step then do
    let yn ← readState states 0
    let tn := tnp1 - dt
    let _ ← evalIntoRhs sys 1 yn tn false
  else pure ()
  let jac ← evalIntoRhs sys 0 y tnp1 w
  let yn ← readState states 0
  let fn ← readRhs 1
  let fnp1 ← readRhs 0
  Prog.modify (fun s => (s.1, { s.2 with tracker := step }))
  pure (discreteResidualCN 0 y yn fn fnp1 dt, jac.map (fun j => discreteJacobianCN j dt))

/-- `operator()` and `trampoline`
    (`include/pressio/ode/impl/ode_implicit_policy_residual_jacobian_without_mass_matrix.hpp:96-137`) -/
def standardPolicy (sys : ISystem K Y J) : Policy K Y Y PMem (Y × Option J) := fun name y states tnp1 step dt w =>
  match name with
  | .BDF1 => computeBDF1 sys y states tnp1 step dt w
  | .BDF2 => computeBDF2 sys y states tnp1 step dt w
  | .CrankNicolson => computeCN sys y states tnp1 step dt w
  | _ => Prog.throwE (.runtimeError "Invalid step scheme")

/-! ### Policy with mass matrix -/

/-- A user system with mass matrix: `massMatrixAndRhsAndJacobian(y, t, M, f, J)`; a throwing call leaves some content in `M` and `f`.
    `Mt` is the type of mass matrices. Called at `include/pressio/ode/impl/ode_implicit_policy_residual_jacobian_with_mass_matrix.hpp:156-157,189-190`. -/
structure IMMSystem (K Y J Mt : Type) where
  eval : Y → K → Bool → Except (Exc × Mt × Y) (Mt × Y × Option J)

/-- Members of the policy: `stepTracker_`, `scratchState_`, `massMatrix_`, `rhs_`
    (`include/pressio/ode/impl/ode_implicit_policy_residual_jacobian_with_mass_matrix.hpp:214-219`). -/
structure MMMem (Y Mt : Type) where
  tracker : Int
  scratch : Y
  mass : Mt
  f : Y
deriving DecidableEq, Repr

/-- `massMatrixAndRhsAndJacobian(y, t, massMatrix_, rhs_, Jo)` (`include/pressio/ode/impl/ode_implicit_policy_residual_jacobian_with_mass_matrix.hpp:156-157,189-190`) -/
def evalMM (sys : IMMSystem K Y J Mt) (y : Y) (t : K) (w : Bool) : Prog (List Y × MMMem Y Mt) (Option J) := fun s =>
  match sys.eval y t w with
  | .ok (m, f, j) => .ok j (s.1, { s.2 with mass := m, f := f })
  | .error (e, m, f) => .stop (.exc e) (s.1, { s.2 with mass := m, f := f })

variable (act : Mt → Y → Y) (asJac : Mt → J)

/-- `discrete_residual(BDF1, ..., M, ...)` (`include/pressio/ode/impl/ode_implicit_discrete_residual.hpp:109-132`), `act M x` is the product `M x`;
    `ops::product` with `beta = 0` overwrites `R` -/
def residualMMBDF1 (ynp1 yn : Y) (dt : K) : Prog (List Y × MMMem Y Mt) Y := do
  Prog.modify (fun s => (s.1, { s.2 with scratch := (0:K) • s.2.scratch + (1:K) • ynp1 + (-1:K) • yn }))
  let s ← Prog.get
  pure ((1:K) • act s.2.mass s.2.scratch + ((-1:K) * dt) • s.2.f)

/-- `discrete_residual(BDF2, ..., M, ...)` (`include/pressio/ode/impl/ode_implicit_discrete_residual.hpp:192-219`) -/
def residualMMBDF2 (ynp1 yn ynm1 : Y) (dt : K) : Prog (List Y × MMMem Y Mt) Y := do
  Prog.modify (fun s => (s.1, { s.2 with scratch := (0:K) • s.2.scratch + (1:K) • ynp1 + ((-4:K) / 3) • yn + ((1:K) / 3) • ynm1 }))
  let s ← Prog.get
  pure ((1:K) • act s.2.mass s.2.scratch + (((-2:K) / 3) * dt) • s.2.f)

/-- `discrete_jacobian(BDF1, jac, M, dt)` (`include/pressio/ode/impl/ode_implicit_discrete_jacobian.hpp:89-99`), `asJac M` is `M` as a Jacobian -/
def jacobianMMBDF1 (jac : J) (M : Mt) (dt : K) : J := ((-1:K) * dt) • jac + (1:K) • asJac M
/-- `discrete_jacobian(BDF2, jac, M, dt)` (`include/pressio/ode/impl/ode_implicit_discrete_jacobian.hpp:136-147`) -/
def jacobianMMBDF2 (jac : J) (M : Mt) (dt : K) : J := (((-2:K) / 3) * dt) • jac + (1:K) • asJac M

/-- `compute_impl_bdf1` (`include/pressio/ode/impl/ode_implicit_policy_residual_jacobian_with_mass_matrix.hpp:140-169`) -/
def computeMMBDF1 (sys : IMMSystem K Y J Mt) (y : Y) (states : List Y) (tnp1 : K) (step : Int) (dt : K) (w : Bool) :
    Prog (List Y × MMMem Y Mt) (Y × Option J) :=
  catchVelocity (do
    Prog.modify (fun s => (s.1, { s.2 with tracker := step }))
    let jac ← evalMM sys y tnp1 w
    let yn ← readState states 0
    let r ← residualMMBDF1 act y yn dt
    let s ← Prog.get
    pure (r, jac.map (fun j => jacobianMMBDF1 asJac j s.2.mass dt)))

/-- `compute_impl_bdf2` (`include/pressio/ode/impl/ode_implicit_policy_residual_jacobian_with_mass_matrix.hpp:171-212`) -/
def computeMMBDF2 (sys : IMMSystem K Y J Mt) (y : Y) (states : List Y) (tnp1 : K) (step : Int) (dt : K) (w : Bool) :
    Prog (List Y × MMMem Y Mt) (Y × Option J) := do
  Prog.modify (fun s => (s.1, { s.2 with tracker := step }))
  catchVelocity (do
    let jac ← evalMM sys y tnp1 w
    if step = 1 then do
      let yn ← readState states 0
      let r ← residualMMBDF1 act y yn dt
      let s ← Prog.get
      pure (r, jac.map (fun j => jacobianMMBDF1 asJac j s.2.mass dt))
    else do
      let yn ← readState states 0
      let ynm1 ← readState states 1
      let r ← residualMMBDF2 act y yn ynm1 dt
      let s ← Prog.get
      pure (r, jac.map (fun j => jacobianMMBDF2 asJac j s.2.mass dt)))

/-- `operator()` (`include/pressio/ode/impl/ode_implicit_policy_residual_jacobian_with_mass_matrix.hpp:107-137`).  For a name outside of the three
    the C++ function returns without writing `R`; such a stepper cannot be created, here: undefined. -/
def massMatrixPolicy (sys : IMMSystem K Y J Mt) : Policy K Y Y (MMMem Y Mt) (Y × Option J) := fun name y states tnp1 step dt w =>
  match name with
  | .BDF1 => computeMMBDF1 act asJac sys y states tnp1 step dt w
  | .BDF2 => computeMMBDF2 act asJac sys y states tnp1 step dt w
  | .CrankNicolson => Prog.throwE (.runtimeError "CrankNicolson with mass matrix not yet implemented")
  | _ => Prog.undef "residual not written"

end

/-! ### Stepper for user-defined schemes -/

/-- A user-defined fully discrete system: `discreteResidualAndJacobian(step, t, dt, R, J, y_{n+1}, y_n, ...)`; the last argument is the
    list of previous states, newest first. Called at `include/pressio/ode/impl/ode_implicit_stepper_arbitrary.hpp:146-147,165-167,186-188`. -/
structure ASystem (K Y A : Type) where
  eval : Int → K → K → Bool → Y → List Y → Except Exc A

/-- Members of `StepperArbitrary` (`include/pressio/ode/impl/ode_implicit_stepper_arbitrary.hpp:76-84`). -/
structure AMem (K Y : Type) where
  t : K
  dt : K
  step : Int
  states : List Y
  recovery : Y
deriving DecidableEq, Repr

/-- `residualAndJacobian` for 1, 2, 3 auxiliary states
    (`include/pressio/ode/impl/ode_implicit_stepper_arbitrary.hpp:136-193`) -/
def arbResidual (sys : ASystem K Y A) (numAux : Nat) (y : Y) (w : Bool) : Prog (AMem K Y) A := fun m =>
  let tr := fun e => if e = Exc.discreteTimeResidualFailureUnrecoverable then Exc.residualEvaluationFailureUnrecoverable else e
  match numAux, m.states with
  | 1, [yn] =>
    match sys.eval m.step m.t m.dt w y [yn] with
    | .ok a => .ok a m
    | .error e => .stop (.exc (tr e)) m
  | 2, [yn, ynm1] =>
    match sys.eval m.step m.t m.dt w y [yn, ynm1] with
    | .ok a => .ok a m
    | .error e => .stop (.exc (tr e)) m
  | 3, [yn, ynm1, ynm2] =>
    match sys.eval m.step m.t m.dt w y [yn, ynm1, ynm2] with
    | .ok a => .ok a m
    | .error e => .stop (.exc (tr e)) m
  | _, _ => .stop (.ub "no overload") m

/-- `updateAuxiliaryStorage<nAux>` (`include/pressio/ode/impl/ode_implicit_stepper_arbitrary.hpp:196-206,217-228,240-252`) -/
def updateAux (numAux : Nat) (y : Y) (m : AMem K Y) : Option (AMem K Y) :=
  match numAux, m.states with
  | 1, [yn] => some { m with recovery := yn, states := [y] }
  | 2, [yn, ynm1] => some { m with recovery := ynm1, states := [y, yn] }
  | 3, [yn, ynm1, ynm2] => some { m with recovery := ynm2, states := [y, yn, ynm1] }
  | _, _ => none

/-- `rollBackStates<nAux>` (`include/pressio/ode/impl/ode_implicit_stepper_arbitrary.hpp:208-215,230-238,254-264`):
    the new value of the caller's state and the members -/
def rollBack (numAux : Nat) (m : AMem K Y) : Option (Y × AMem K Y) :=
  match numAux, m.states with
  | 1, [yn] => some (yn, { m with states := [m.recovery] })
  | 2, [yn, ynm1] => some (yn, { m with states := [ynm1, m.recovery] })
  | 3, [yn, ynm1, ynm2] => some (yn, { m with states := [ynm1, ynm2, m.recovery] })
  | _, _ => none

/-- `operator()` (`include/pressio/ode/impl/ode_implicit_stepper_arbitrary.hpp:111-134`) -/
def arbStep [Add K] (sys : ASystem K Y A) (numAux : Nat) (solver : Y → SolveTree Y A) (t dt : K) (n : Int) :
    Prog (SolveSt Y (AMem K Y) A) Unit := fun s =>
  match updateAux numAux s.y { s.mem with dt := dt, t := t + dt, step := n } with
  | none => .stop (.ub "no overload") s
  | some m =>
    match (solver s.y).run (arbResidual sys numAux) { s with mem := m } with
    | .ok _ s' => .ok () s'
    | .stop h s' =>
      if h = .exc .nonlinearSolveFailure then
        match rollBack numAux s'.mem with
        | none => .stop (.ub "no overload") s'
        | some (y, m') => .stop (.exc .timeStepFailure) { s' with y := y, mem := m' }
      else .stop h s'

/-- Constructor (`include/pressio/ode/impl/ode_implicit_stepper_arbitrary.hpp:92-96`,
    `include/pressio/ode/impl/ode_stencil_data_container_static.hpp:70-96`): zero states -/
def createArbitrary [Zero K] [Zero Y] (numAux : Nat) (rec : Y) : AMem K Y := ⟨0, 0, 0, List.replicate numAux 0, rec⟩

end Pressio.Model.Implicit
