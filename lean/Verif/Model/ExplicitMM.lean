import Verif.Model.Explicit

/-
  Model of the explicit steppers with mass matrix
  (`include/pressio/ode/impl/ode_explicit_stepper_with_mass_matrix.hpp`).

  Simplifications as in `Verif/Model/Explicit.lean`; `Mt` is the mass-matrix type.
-/
namespace Pressio.Model.ExplicitMM
set_option autoImplicit false
open Pressio Pressio.Model.Explicit

/-- A user system with mass matrix: `massMatrixAndRhs(y, t, M, f)` writes the two buffers `M` and `f`; it may throw. Called at `include/pressio/ode/impl/ode_explicit_stepper_with_mass_matrix.hpp:219,253` and in the other `doStepImpl`. -/
structure MMSystem (K Y Mt : Type) where
  massMatrixAndRhs : Y → K → Prog (Mt × Y) Unit

/-- A linear solver object as the steppers see it: `solve(M, arg2, arg3)` acts on the two objects passed second and third. Called at `include/pressio/ode/impl/ode_explicit_stepper_with_mass_matrix.hpp:221,255` and in the other `doStepImpl`. -/
abbrev LinSolve (Y Mt : Type) := Mt → Prog (Y × Y) Unit

/-- Memory during a step: the caller's `odeState` and the members `rhsInstance_`, `xInstances_`, `massMatrix_`
    (`include/pressio/ode/impl/ode_explicit_stepper_with_mass_matrix.hpp:74-84`), with the log of right-hand-side observer calls (ghost). -/
structure MSt (K Y Mt : Type) where
  y : Y
  f : Y
  x : List Y
  M : Mt
  log : List (RhsEv K Y)
deriving DecidableEq, Repr

variable {K Y Mt : Type}

/-- `xInstances_[i]` (`include/pressio/ode/impl/ode_explicit_stepper_with_mass_matrix.hpp:81,217,252`) -/
def xAt (i : Nat) : Prog (MSt K Y Mt) Y := fun s =>
  match s.x[i]? with
  | some b => .ok b s
  | none => .stop (.ub "xInstances_ out of range") s

/-- `systemObj_.get().massMatrixAndRhs(y, t, massMatrix_, rhsInstance_)` (`include/pressio/ode/impl/ode_explicit_stepper_with_mass_matrix.hpp:219,253`) -/
def evalMM (sys : MMSystem K Y Mt) (y : Y) (t : K) : Prog (MSt K Y Mt) Unit := fun s =>
  match sys.massMatrixAndRhs y t (s.M, s.f) with
  | .ok _ (M, f) => .ok () { s with M := M, f := f }
  | .stop h (M, f) => .stop h { s with M := M, f := f }

/-- `rhsObserver(stepNumber, IntermediateStepCount(stage), t, rhsInstance_)` (`include/pressio/ode/impl/ode_explicit_stepper_with_mass_matrix.hpp:220,254`) -/
def observeMM (obs : RhsEv K Y → Except Exc Unit) (step : Int) (stage : Nat) (t : K) : Prog (MSt K Y Mt) Unit := do
  let s ← Prog.get
  Prog.modify (fun s => { s with log := s.log ++ [⟨step, stage, t, s.f⟩] })
  Prog.ofExcept (obs ⟨step, stage, t, s.f⟩)

/-- `solver.solve(massMatrix_, xInstances_[i], rhsInstance_)`
    (`include/pressio/ode/impl/ode_explicit_stepper_with_mass_matrix.hpp:221,255,267,305,312,319,356,364,372,380`) -/
def solveInto (ls : LinSolve Y Mt) (i : Nat) : Prog (MSt K Y Mt) Unit := fun s =>
  match s.x[i]? with
  | none => .stop (.ub "xInstances_ out of range") s
  | some x =>
    match ls s.M (x, s.f) with
    | .ok _ (x', f') => .ok () { s with x := s.x.set i x', f := f' }
    | .stop h (x', f') => .stop h { s with x := s.x.set i x', f := f' }

/-- assignment to `odeState` (`include/pressio/ode/impl/ode_explicit_stepper_with_mass_matrix.hpp:227,258`) -/
def setY (y : Y) : Prog (MSt K Y Mt) Unit := Prog.modify (fun s => { s with y := y })

/-- assignment to `xInstances_[i]` (`include/pressio/ode/impl/ode_explicit_stepper_with_mass_matrix.hpp:221,255` and the stage updates of the other `doStepImpl`) -/
def setX (i : Nat) (v : Y) : Prog (MSt K Y Mt) Unit := fun s =>
  if i < s.x.length then .ok () { s with x := s.x.set i v } else .stop (.ub "xInstances_ out of range") s

section
variable [Field K] [AddCommGroup Y] [Module K Y]

/-- ForwardEuler (`include/pressio/ode/impl/ode_explicit_stepper_with_mass_matrix.hpp:200-228`) -/
def stepFE (sys : MMSystem K Y Mt) (ls : LinSolve Y Mt) (obs : RhsEv K Y → Except Exc Unit) (t h : K) (n : Int) :
    Prog (MSt K Y Mt) Unit := do
  let s ← Prog.get
  evalMM sys s.y t
  observeMM obs n 0 t
  solveInto ls 0
  let x ← xAt 0
  setY ((1:K) • s.y + h • x)

/-- AdamsBashforth2 (`include/pressio/ode/impl/ode_explicit_stepper_with_mass_matrix.hpp:230-276`) -/
def stepAB2 (sys : MMSystem K Y Mt) (ls : LinSolve Y Mt) (obs : RhsEv K Y → Except Exc Unit) (t h : K) (n : Int) :
    Prog (MSt K Y Mt) Unit := do
  let s ← Prog.get
  if n = 1 then
    evalMM sys s.y t
    observeMM obs n 0 t
    solveInto ls 0
    let x ← xAt 0
    setY ((1:K) • s.y + h • x)
  else
    let xOld ← xAt 0
    setX 1 xOld
    evalMM sys s.y t
    observeMM obs n 0 t
    solveInto ls 0
    let cfn := ((3:K) / 2) * h
    let cfnm1 := ((-1:K) / 2) * h
    let xn ← xAt 0
    let xnm1 ← xAt 1
    setY ((1:K) • s.y + cfn • xn + cfnm1 • xnm1)

/-- SSPRungeKutta3 (`include/pressio/ode/impl/ode_explicit_stepper_with_mass_matrix.hpp:278-322`) -/
def stepSSPRK3 (sys : MMSystem K Y Mt) (ls : LinSolve Y Mt) (obs : RhsEv K Y → Except Exc Unit) (t h : K) (n : Int) :
    Prog (MSt K Y Mt) Unit := do
  let s ← Prog.get
  let tHalf := t + h / 2
  let tNext := t + h
  evalMM sys s.y t
  observeMM obs n 0 t
  solveInto ls 0
  let x0 ← xAt 0
  let aux0 ← xAt 1
  setX 1 ((0:K) • aux0 + (1:K) • s.y + h • x0)
  let aux1 ← xAt 1
  evalMM sys aux1 tNext
  observeMM obs n 1 tNext
  solveInto ls 0
  let x1 ← xAt 0
  setX 1 (((1:K) / 4) • aux1 + ((3:K) / 4) • s.y + (((1:K) / 4) * h) • x1)
  let aux2 ← xAt 1
  evalMM sys aux2 tHalf
  observeMM obs n 2 tHalf
  solveInto ls 0
  let x2 ← xAt 0
  setY (((1:K) / 3) • s.y + ((2:K) / 3) • aux2 + (((2:K) / 3) * h) • x2)

/-- `rk4_stage_update_impl` (`include/pressio/ode/impl/ode_explicit_stepper_with_mass_matrix.hpp:387-398`) on `xInstances_[4]` -/
def rk4Stage (i : Nat) (c : K) : Prog (MSt K Y Mt) Unit := do
  let s ← Prog.get
  let x ← xAt i
  let aux ← xAt 4
  setX 4 ((0:K) • aux + (1:K) • s.y + c • x)

/-- RungeKutta4 (`include/pressio/ode/impl/ode_explicit_stepper_with_mass_matrix.hpp:324-385`) -/
def stepRK4 (sys : MMSystem K Y Mt) (ls : LinSolve Y Mt) (obs : RhsEv K Y → Except Exc Unit) (t h : K) (n : Int) :
    Prog (MSt K Y Mt) Unit := do
  let s ← Prog.get
  let hHalf := h / 2
  let tHalf := t + hHalf
  let tNext := t + h
  let h6 := h / 6
  let h3 := h / 3
  evalMM sys s.y t
  observeMM obs n 0 t
  solveInto ls 0
  rk4Stage 0 hHalf
  let a1 ← xAt 4
  evalMM sys a1 tHalf
  observeMM obs n 1 tHalf
  solveInto ls 1
  rk4Stage 1 hHalf
  let a2 ← xAt 4
  evalMM sys a2 tHalf
  observeMM obs n 2 tHalf
  solveInto ls 2
  rk4Stage 2 h
  let a3 ← xAt 4
  evalMM sys a3 tNext
  observeMM obs n 3 tNext
  solveInto ls 3
  let x1 ← xAt 0
  let x2 ← xAt 1
  let x3 ← xAt 2
  let x4 ← xAt 3
  setY ((1:K) • s.y + h6 • x1 + h3 • x2 + h3 • x3 + h6 • x4)

/-- `operator()` (`include/pressio/ode/impl/ode_explicit_stepper_with_mass_matrix.hpp:166-196`) -/
def doStep (sys : MMSystem K Y Mt) (ls : LinSolve Y Mt) (scheme : Scheme) (obs : RhsEv K Y → Except Exc Unit) (t h : K) (n : Int) :
    Prog (MSt K Y Mt) Unit :=
  match scheme with
  | .ForwardEuler => stepFE sys ls obs t h n
  | .AdamsBashforth2 => stepAB2 sys ls obs t h n
  | .RungeKutta4 => stepRK4 sys ls obs t h n
  | .SSPRungeKutta3 => stepSSPRK3 sys ls obs t h n
  | _ => pure ()

/-- Constructors (`include/pressio/ode/impl/ode_explicit_stepper_with_mass_matrix.hpp:91-131`) and
    `create_explicit_stepper` (`include/pressio/ode/impl/ode_explicit_create_impl.hpp:54-83`): `rhsInstance_`,
    `xInstances_`, `massMatrix_` are what the user's `createRhs`, `createState`, `createMassMatrix` return. -/
def createExplicitMM (scheme : Scheme) (r : Y) (a : Nat → Y) (m : Mt) : Except Exc (Y × List Y × Mt) :=
  match scheme with
  | .ForwardEuler => .ok (r, [a 0], m)
  | .RungeKutta4 => .ok (r, [a 0, a 1, a 2, a 3, a 4], m)
  | .AdamsBashforth2 => .ok (r, [a 0, a 1], m)
  | .SSPRungeKutta3 => .ok (r, [a 0, a 1], m)
  | _ => .error (.runtimeError "invalid StepScheme")

/-- number of `xInstances_` (`include/pressio/ode/impl/ode_explicit_stepper_with_mass_matrix.hpp:91-131`) -/
def numX : Scheme → Nat
  | .ForwardEuler => 1
  | .RungeKutta4 => 5
  | .AdamsBashforth2 => 2
  | .SSPRungeKutta3 => 2
  | _ => 0

/-- The stepper (with its linear solver bound as extra argument) as called by an advancer. Called at `include/pressio/ode/impl/ode_advance_n_steps.hpp:97-100` and `include/pressio/ode/impl/ode_advance_to_target_time.hpp:152-155,171-174` with the linear solver in `args`. -/
def asStepperMM (sys : MMSystem K Y Mt) (ls : LinSolve Y Mt) (scheme : Scheme) (obs : RhsEv K Y → Except Exc Unit) :
    K → Int → K → Prog (Y × (Y × List Y × Mt × List (RhsEv K Y))) Unit := fun t n h x =>
  match doStep sys ls scheme obs t h n ⟨x.1, x.2.1, x.2.2.1, x.2.2.2.1, x.2.2.2.2⟩ with
  | .ok _ s => .ok () (s.y, (s.f, s.x, s.M, s.log))
  | .stop h s => .stop h (s.y, (s.f, s.x, s.M, s.log))

end
end Pressio.Model.ExplicitMM
