import Verif.Model.Explicit
import Verif.Model.ExplicitMM
import Verif.Model.Implicit

/-
  Model of the factory functions: which scheme is accepted, and how the objects handed to them are stored.
-/
namespace Pressio.Model.Factory
set_option autoImplicit false
open Pressio
open Pressio.Model.Explicit (Scheme)

/-- What a factory call does: returns a stepper (problem) of the given scheme, throws, or stops in an `assert` (debug builds only). Outcomes of `include/pressio/ode/impl/ode_explicit_create_impl.hpp:54-83` and the other factories below. -/
inductive Made where
  | made (s : Scheme)
  | thrown (what : String)
  | aborted
deriving DecidableEq, Repr

/-- `is_implicit_scheme` (`include/pressio/ode/ode_enum_and_tags.hpp:78-81`) -/
def isImplicit (s : Scheme) : Bool := !s.isExplicit

/-- `assert(c)`: no effect when `NDEBUG` is defined (`debug = false`). E.g. `include/pressio/ode/ode_create_implicit_stepper.hpp:73,105,140`. -/
def assertThen (debug c : Bool) (k : Made) : Made := if debug && !c then .aborted else k

/-- `impl::create_explicit_stepper` (`include/pressio/ode/impl/ode_explicit_create_impl.hpp:54-83`), both overloads of
    `create_explicit_stepper` (`include/pressio/ode/ode_create_explicit_stepper.hpp:60-116`) -/
def createExplicitStepper (name : Scheme) : Made :=
  if name = .ForwardEuler then .made .ForwardEuler
  else if name = .RungeKutta4 then .made .RungeKutta4
  else if name = .AdamsBashforth2 then .made .AdamsBashforth2
  else if name = .SSPRungeKutta3 then .made .SSPRungeKutta3
  else .thrown "create_explicit_stepper: invalid StepScheme enum value"

/-- `impl::create_implicit_stepper_impl` (`include/pressio/ode/impl/ode_implicit_create_impl.hpp:54-78`) -/
def createImplicitStepperImpl (name : Scheme) : Made :=
  if name = .BDF1 then .made .BDF1
  else if name = .BDF2 then .made .BDF2
  else if name = .CrankNicolson then .made .CrankNicolson
  else .thrown "create_implicit_stepper: invalid StepScheme enum value"

/-- `create_implicit_stepper(name, system)` (1) and `create_implicit_stepper(name, policy)`
    (`include/pressio/ode/ode_create_implicit_stepper.hpp:69-93,136-156`) -/
def createImplicitStepper (debug : Bool) (name : Scheme) : Made :=
  assertThen debug (name = .BDF1 || name = .BDF2 || name = .CrankNicolson) (createImplicitStepperImpl name)

/-- `create_implicit_stepper(name, system)` (2), systems with mass matrix (`include/pressio/ode/ode_create_implicit_stepper.hpp:101-126`) -/
def createImplicitStepperMM (debug : Bool) (name : Scheme) : Made :=
  assertThen debug (name = .BDF1 || name = .BDF2) (createImplicitStepperImpl name)

/-- auxiliary functions `create_forward_euler_stepper`, ... (`include/pressio/ode/ode_create_explicit_stepper.hpp:118-142`) and `create_bdf1_stepper`, ...
    (`include/pressio/ode/ode_create_implicit_stepper.hpp:161-177`): the scheme is fixed by the name -/
def createNamed (debug : Bool) (s : Scheme) : Made :=
  if s.isExplicit then createExplicitStepper s else createImplicitStepper debug s

/-- explicit Galerkin problems: `valid_scheme_for_explicit_galerkin_else_throw`, then the stepper
    (`include/pressio/rom/impl/galerkin_helpers.hpp:7-13`, `include/pressio/rom/galerkin_unsteady_explicit.hpp:34,66,93,124`,
    `include/pressio/rom/impl/galerkin_unsteady_explicit_problem.hpp:24-28,61-65`) -/
def createGalerkinExplicit (name : Scheme) : Made :=
  if !name.isExplicit then .thrown "requires an explicit stepper" else createExplicitStepper name

/-- implicit Galerkin problems, semi-discrete (`include/pressio/rom/impl/galerkin_helpers.hpp:15-21`, `include/pressio/rom/galerkin_unsteady_implicit.hpp:33-48,68-90,100-121,133-147`);
    `mm`: with mass matrix -/
def createGalerkinImplicit (debug mm : Bool) (name : Scheme) : Made :=
  if !isImplicit name then .thrown "requires an implicit stepper"
  else if mm then createImplicitStepperMM debug name else createImplicitStepper debug name

/-- unsteady LSPG, semi-discrete: `valid_scheme_for_lspg_else_throw`, the states manager, the stepper
    (`include/pressio/rom/impl/lspg_helpers.hpp:7-14`, `include/pressio/rom/lspg_unsteady.hpp:24-50`, `include/pressio/rom/impl/lspg_unsteady_fom_states_manager.hpp:176-205`,
    `include/pressio/rom/impl/lspg_unsteady_problem.hpp:50-66`) -/
def createLspg (debug : Bool) (name : Scheme) : Made :=
  if name ≠ .BDF1 ∧ name ≠ .BDF2 then .thrown "LSPG currently accepting BDF1 or BDF2"
  else if name = .BDF1 ∨ name = .BDF2 ∨ name = .CrankNicolson then createImplicitStepper debug name
  else .thrown "Unsteady LSPG prob members: Invalid enum value"

/-! ### How the system is stored -/

/-- A user's system type with its move constructor: `moved s` is what is left in an object `s` that has been moved from;
    `createState`, `createRhs`, `createMassMatrix` as functions of the object. What the constructors below use: `include/pressio/ode/impl/ode_explicit_stepper_without_mass_matrix.hpp:83-117`, `include/pressio/ode/impl/ode_explicit_stepper_with_mass_matrix.hpp:91-131`. -/
structure SystemType (σ V M : Type) where
  moved : σ → σ
  createState : σ → V
  createRhs : σ → V
  createMassMatrix : σ → M

/-- how the argument was passed: an lvalue is stored by reference, an rvalue is moved into the member
    (`include/pressio/solvers_nonlinear/impl/instance_or_reference_wrapper.hpp:61-106`) -/
inductive Passed where
  | lvalue
  | rvalue
deriving DecidableEq, Repr

variable {σ V M : Type}

/-- After `systemObj_(std::forward<SystemType>(systemObj))`: the object seen by the member, and the object seen by the constructor's parameter (`include/pressio/ode/impl/ode_explicit_stepper_without_mass_matrix.hpp:86,94,105,114` with `include/pressio/solvers_nonlinear/impl/instance_or_reference_wrapper.hpp:61-106`) -/
def storeSystem (T : SystemType σ V M) (p : Passed) (s : σ) : σ × σ :=
  match p with
  | .lvalue => (s, s)
  | .rvalue => (s, T.moved s)

/-- Constructors of the explicit stepper without mass matrix (`include/pressio/ode/impl/ode_explicit_stepper_without_mass_matrix.hpp:83-117`): the stored system,
    `rhsInstances_`, `auxiliaryState_`.  All are created from the parameter, after the member has been initialised from it. -/
def ctorExplicit (T : SystemType σ V M) (p : Passed) (name : Scheme) (s : σ) : σ × List V × V :=
  let (member, param) := storeSystem T p s
  let n := match name with | .ForwardEuler => 1 | .RungeKutta4 => 4 | .AdamsBashforth2 => 2 | .SSPRungeKutta3 => 1 | _ => 0
  (member, List.replicate n (T.createRhs param), T.createState param)

/-- Constructors of the explicit stepper with mass matrix (`include/pressio/ode/impl/ode_explicit_stepper_with_mass_matrix.hpp:91-131`): stored system,
    `rhsInstance_`, `xInstances_`, `massMatrix_`. -/
def ctorExplicitMM (T : SystemType σ V M) (p : Passed) (name : Scheme) (s : σ) : σ × V × List V × M :=
  let (member, param) := storeSystem T p s
  (member, T.createRhs param, List.replicate (Model.ExplicitMM.numX name) (T.createState param), T.createMassMatrix param)

/-- Constructor of the stepper for user-defined schemes (`include/pressio/ode/impl/ode_implicit_stepper_arbitrary.hpp:92-96`): stored system, one auxiliary state per
    slot (zeroed copies of it), `recoveryState_`. -/
def ctorArbitrary (T : SystemType σ V M) (p : Passed) (numAux : Nat) (s : σ) : σ × List V × V :=
  let (member, param) := storeSystem T p s
  (member, List.replicate numAux (T.createState param), T.createState param)

/-- Constructor of the policy with mass matrix (`include/pressio/ode/impl/ode_implicit_policy_residual_jacobian_with_mass_matrix.hpp:74-79`): stored system,
    `scratchState_`, `massMatrix_`, `rhs_`. -/
def ctorPolicyMM (T : SystemType σ V M) (p : Passed) (s : σ) : σ × V × M × V :=
  let (member, param) := storeSystem T p s
  (member, T.createState param, T.createMassMatrix param, T.createRhs param)

/-- Constructor of the policy without mass matrix (`include/pressio/ode/impl/ode_implicit_policy_residual_jacobian_without_mass_matrix.hpp:73-74,80-94`) followed by that of the
    stepper (`include/pressio/ode/impl/ode_implicit_stepper_standard.hpp:101-128`): everything is created through the stored system. -/
def ctorStandardImplicit (T : SystemType σ V M) (p : Passed) (numStates : Nat) (s : σ) : σ × List V × V :=
  let (member, _) := storeSystem T p s
  (member, List.replicate numStates (T.createState member), T.createState member)

end Pressio.Model.Factory
