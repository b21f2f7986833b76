import Verif.Model.Advance
import Mathlib.Algebra.Module.Basic

/-
  Model of the explicit steppers without mass matrix
  (`include/pressio/ode/impl/ode_explicit_stepper_without_mass_matrix.hpp`).

  Simplifications: `scalar_type` of the state and `IndVarType` are one field `K`; the state and right-hand
  side types are one `K`-module `Y`; `ops::update` is the linear combination it documents, `ops::deep_copy` an assignment.
-/
namespace Pressio.Model.Explicit
set_option autoImplicit false
open Pressio

/-- `StepScheme` (`include/pressio/ode/ode_enum_and_tags.hpp:54-63`). -/
inductive Scheme where
  | ForwardEuler | RungeKutta4 | AdamsBashforth2 | SSPRungeKutta3
  | BDF1 | BDF2 | CrankNicolson | ImplicitArbitrary
deriving DecidableEq, Repr

/-- `is_explicit_scheme` (`include/pressio/ode/ode_enum_and_tags.hpp:65-76`). -/
def Scheme.isExplicit : Scheme → Bool
  | .ForwardEuler => true
  | .RungeKutta4 => true
  | .AdamsBashforth2 => true
  | .SSPRungeKutta3 => true
  | _ => false

/-- A user system without mass matrix: `rhs(y, t, f)` is a program on the buffer `f` it is given (it may read the old content,
    may write part of it and throw). Called at `include/pressio/ode/impl/ode_explicit_stepper_without_mass_matrix.hpp:179,208,218,246,254,263,298,305,312,319`. -/
structure System (K Y : Type) where
  rhs : Y → K → Prog Y Unit

/-- One call of the right-hand-side observer: step number, stage index, time, content. Made at `include/pressio/ode/impl/ode_explicit_stepper_without_mass_matrix.hpp:180,209,219,247,255,264,299,306,313,320`. -/
structure RhsEv (K Y : Type) where
  step : Int
  stage : Nat
  time : K
  f : Y
deriving DecidableEq, Repr

/-- Memory during a step: the caller's state `odeState`, the members `rhsInstances_`
    (a `std::vector`) and `auxiliaryState_`
    (`include/pressio/ode/impl/ode_explicit_stepper_without_mass_matrix.hpp:71-75`), and the log of right-hand-side
    observer calls (ghost). -/
structure ESt (K Y : Type) where
  y : Y
  rhs : List Y
  aux : Y
  log : List (RhsEv K Y)
deriving DecidableEq, Repr

variable {K Y : Type}

/-- `rhsInstances_[i]`: out of range is undefined behaviour (`include/pressio/ode/impl/ode_explicit_stepper_without_mass_matrix.hpp:74,178,207,213-214,237,282-285`) -/
def rhsAt (i : Nat) : Prog (ESt K Y) Y := fun s =>
  match s.rhs[i]? with
  | some b => .ok b s
  | none => .stop (.ub "rhsInstances_ out of range") s

/-- `systemObj_.get().rhs(y, t, rhsInstances_[i])` (`include/pressio/ode/impl/ode_explicit_stepper_without_mass_matrix.hpp:179,208,218,246,254,263,298,305,312,319`) -/
def evalInto (sys : System K Y) (i : Nat) (y : Y) (t : K) : Prog (ESt K Y) Unit := fun s =>
  match s.rhs[i]? with
  | none => .stop (.ub "rhsInstances_ out of range") s
  | some b =>
    match sys.rhs y t b with
    | .ok _ b' => .ok () { s with rhs := s.rhs.set i b' }
    | .stop h b' => .stop h { s with rhs := s.rhs.set i b' }

/-- `rhsObserver(stepNumber, IntermediateStepCount(stage), t, rhsInstances_[i])`; the observer may throw (`include/pressio/ode/impl/ode_explicit_stepper_without_mass_matrix.hpp:180,209,219,247,255,264,299,306,313,320`) -/
def observe (obs : RhsEv K Y → Except Exc Unit) (step : Int) (stage : Nat) (t : K) (i : Nat) : Prog (ESt K Y) Unit := do
  let f ← rhsAt i
  Prog.modify (fun s => { s with log := s.log ++ [⟨step, stage, t, f⟩] })
  Prog.ofExcept (obs ⟨step, stage, t, f⟩)

/-- the dummy observer of the overload without observer
    (`include/pressio/ode/impl/ode_explicit_stepper_without_mass_matrix.hpp:126-130`) -/
def dummyObserver : RhsEv K Y → Except Exc Unit := fun _ => .ok ()

/-- assignment to `odeState` (`include/pressio/ode/impl/ode_explicit_stepper_without_mass_matrix.hpp:185,210,220,266-269,323-325`) -/
def setY (y : Y) : Prog (ESt K Y) Unit := Prog.modify (fun s => { s with y := y })
/-- assignment to `auxiliaryState_` (`include/pressio/ode/impl/ode_explicit_stepper_without_mass_matrix.hpp:249-251,257-260,303,310,317`) -/
def setAux (y : Y) : Prog (ESt K Y) Unit := Prog.modify (fun s => { s with aux := y })
/-- `ops::deep_copy(rhsInstances_[j], rhsInstances_[i])` (`include/pressio/ode/impl/ode_explicit_stepper_without_mass_matrix.hpp:216`) -/
def copyRhs (j i : Nat) : Prog (ESt K Y) Unit := fun s =>
  match s.rhs[i]?, s.rhs[j]? with
  | some b, some _ => .ok () { s with rhs := s.rhs.set j b }
  | _, _ => .stop (.ub "rhsInstances_ out of range") s

section
variable [Field K] [AddCommGroup Y] [Module K Y]

/-- ForwardEuler (`include/pressio/ode/impl/ode_explicit_stepper_without_mass_matrix.hpp:167-187`) -/
def stepFE (sys : System K Y) (obs : RhsEv K Y → Except Exc Unit) (t h : K) (n : Int) : Prog (ESt K Y) Unit := do
  let s ← Prog.get
  evalInto sys 0 s.y t
  observe obs n 0 t 0
  let f ← rhsAt 0
  setY ((1:K) • s.y + h • f)

/-- AdamsBashforth2 (`include/pressio/ode/impl/ode_explicit_stepper_without_mass_matrix.hpp:189-223`) -/
def stepAB2 (sys : System K Y) (obs : RhsEv K Y → Except Exc Unit) (t h : K) (n : Int) : Prog (ESt K Y) Unit := do
  let s ← Prog.get
  let cfn := ((3:K) / 2) * h
  let cfnm1 := ((-1:K) / 2) * h
  if n = 1 then
    evalInto sys 0 s.y t
    observe obs n 0 t 0
    let f ← rhsAt 0
    setY ((1:K) • s.y + h • f)
  else
    copyRhs 1 0
    evalInto sys 0 s.y t
    observe obs n 0 t 0
    let fn ← rhsAt 0
    let fnm1 ← rhsAt 1
    setY ((1:K) • s.y + cfn • fn + cfnm1 • fnm1)

/-- SSPRungeKutta3 (`include/pressio/ode/impl/ode_explicit_stepper_without_mass_matrix.hpp:225-271`) -/
def stepSSPRK3 (sys : System K Y) (obs : RhsEv K Y → Except Exc Unit) (t h : K) (n : Int) : Prog (ESt K Y) Unit := do
  let s ← Prog.get
  let tHalf := t + h / 2
  let tNext := t + h
  evalInto sys 0 s.y t
  observe obs n 0 t 0
  let f0 ← rhsAt 0
  setAux ((0:K) • s.aux + (1:K) • s.y + h • f0)
  let s1 ← Prog.get
  evalInto sys 0 s1.aux tNext
  observe obs n 1 tNext 0
  let f1 ← rhsAt 0
  setAux (((1:K) / 4) • s1.aux + ((3:K) / 4) • s.y + (((1:K) / 4) * h) • f1)
  let s2 ← Prog.get
  evalInto sys 0 s2.aux tHalf
  observe obs n 2 tHalf 0
  let f2 ← rhsAt 0
  setY (((1:K) / 3) • s.y + ((2:K) / 3) • s2.aux + (((2:K) / 3) * h) • f2)

/-- `rk4_stage_update_impl` (`include/pressio/ode/impl/ode_explicit_stepper_without_mass_matrix.hpp:328-337`):
    `auxiliaryState_ = 0*auxiliaryState_ + 1*odeState + c*rhsInstances_[i]` -/
def rk4Stage (i : Nat) (c : K) : Prog (ESt K Y) Unit := do
  let f ← rhsAt i
  let s ← Prog.get
  setAux ((0:K) • s.aux + (1:K) • s.y + c • f)

/-- RungeKutta4 (`include/pressio/ode/impl/ode_explicit_stepper_without_mass_matrix.hpp:273-326`) -/
def stepRK4 (sys : System K Y) (obs : RhsEv K Y → Except Exc Unit) (t h : K) (n : Int) : Prog (ESt K Y) Unit := do
  let s ← Prog.get
  let hHalf := h / 2
  let tHalf := t + hHalf
  let tNext := t + h
  let h6 := h / 6
  let h3 := h / 3
  evalInto sys 0 s.y t
  observe obs n 0 t 0
  rk4Stage 0 hHalf
  let s1 ← Prog.get
  evalInto sys 1 s1.aux tHalf
  observe obs n 1 tHalf 1
  rk4Stage 1 hHalf
  let s2 ← Prog.get
  evalInto sys 2 s2.aux tHalf
  observe obs n 2 tHalf 2
  rk4Stage 2 h
  let s3 ← Prog.get
  evalInto sys 3 s3.aux tNext
  observe obs n 3 tNext 3
  let f1 ← rhsAt 0
  let f2 ← rhsAt 1
  let f3 ← rhsAt 2
  let f4 ← rhsAt 3
  setY ((1:K) • s.y + h6 • f1 + h3 • f2 + h3 • f3 + h6 • f4)

/-- `operator()` (`include/pressio/ode/impl/ode_explicit_stepper_without_mass_matrix.hpp:135-164`): dispatch on the scheme;
    any other value of the enumeration falls through (it cannot be created). -/
def doStep (sys : System K Y) (scheme : Scheme) (obs : RhsEv K Y → Except Exc Unit) (t h : K) (n : Int) :
    Prog (ESt K Y) Unit :=
  match scheme with
  | .ForwardEuler => stepFE sys obs t h n
  | .RungeKutta4 => stepRK4 sys obs t h n
  | .AdamsBashforth2 => stepAB2 sys obs t h n
  | .SSPRungeKutta3 => stepSSPRK3 sys obs t h n
  | _ => pure ()

/-- Size of `rhsInstances_` set by the constructors
    (`include/pressio/ode/impl/ode_explicit_stepper_without_mass_matrix.hpp:83-117`). -/
def numRhs : Scheme → Nat
  | .ForwardEuler => 1
  | .RungeKutta4 => 4
  | .AdamsBashforth2 => 2
  | .SSPRungeKutta3 => 1
  | _ => 0

/-- Constructors and `create_explicit_stepper`
    (`include/pressio/ode/impl/ode_explicit_stepper_without_mass_matrix.hpp:83-117`,
    `include/pressio/ode/impl/ode_explicit_create_impl.hpp:54-83`): the members are what the user's `createRhs()`
    and `createState()` return (arbitrary content `r i`, `a`); a scheme that is not explicit is refused.  That the
    constructors read the system after having moved from it is modelled separately (`Verif/Model/Factory.lean`). -/
def createExplicit (scheme : Scheme) (r : Nat → Y) (a : Y) : Except Exc (List Y × Y) :=
  match scheme with
  | .ForwardEuler => .ok ([r 0], a)
  | .RungeKutta4 => .ok ([r 0, r 1, r 2, r 3], a)
  | .AdamsBashforth2 => .ok ([r 0, r 1], a)
  | .SSPRungeKutta3 => .ok ([r 0], a)
  | _ => .error (.runtimeError "invalid StepScheme")

/-- The stepper as called by an advancer: its members (and the ghost log) are part of the advancer's world. Called at `include/pressio/ode/impl/ode_advance_n_steps.hpp:97-100` and `include/pressio/ode/impl/ode_advance_to_target_time.hpp:152-155,171-174`. -/
def asStepper (sys : System K Y) (scheme : Scheme) (obs : RhsEv K Y → Except Exc Unit) :
    K → Int → K → Prog (Y × (List Y × Y × List (RhsEv K Y))) Unit := fun t n h x =>
  match doStep sys scheme obs t h n ⟨x.1, x.2.1, x.2.2.1, x.2.2.2⟩ with
  | .ok _ s => .ok () (s.y, (s.rhs, s.aux, s.log))
  | .stop h s => .stop h (s.y, (s.rhs, s.aux, s.log))

end
end Pressio.Model.Explicit
