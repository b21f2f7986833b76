import Verif.Common
import Mathlib.Algebra.Order.Field.Basic

/-
  Model of the pressio advancers (`include/pressio/ode/ode_advance_*.hpp` and
  `include/pressio/ode/impl/ode_advance_{n_steps,to_target_time}.hpp`).
-/
namespace Pressio.Model.Advance
set_option autoImplicit false
open Pressio

/-- Step-size triple owned by the advancer and passed to the policy by reference:
    `StepSize`, `StepSizeMinAllowedValue`, `StepSizeScalingFactor`
    (`include/pressio/ode/ode_strong_types.hpp:72-112`). -/
structure DtVars (T : Type) where
  dt : T
  minDt : T
  factor : T
deriving DecidableEq, Repr

/-- The calls made by an advancer to user objects, in order.  `setDt` carries the step,
    the start time and the value the policy left in `dt` (`setVars`: in the three step-size variables of
    the target-time advancer); `guess` the state before the guess;
    `step` the state before the step and the `dt` used; `obs` the observed time and state. The calls are those at `include/pressio/ode/impl/ode_advance_n_steps.hpp:77-103` and `include/pressio/ode/impl/ode_advance_to_target_time.hpp:118-178`; the log itself has no counterpart. -/
inductive Ev (T Y : Type) where
  | setDt (step : Int) (time : T) (dtOut : T)
  | setVars (step : Int) (time : T) (out : DtVars T)
  | guess (step : Int) (time : T) (y : Y)
  | step (step : Int) (time : T) (dt : T) (y : Y)
  | obs (step : Int) (time : T) (y : Y)
deriving DecidableEq, Repr

/-- What lives during an advance call: the user's world (everything user objects can modify, including
    the stepper's own members), the ODE state passed by reference, and the log of calls (ghost). The arguments of `include/pressio/ode/impl/ode_advance_n_steps.hpp:65-72` and `include/pressio/ode/impl/ode_advance_to_target_time.hpp:92-98`. -/
structure St (W T Y : Type) where
  w : W
  y : Y
  log : List (Ev T Y)
deriving DecidableEq, Repr

/-- The user objects given to an advancer.  Each may read and modify the world `W` and may throw.

    * `dtPolicy3` models `dtPolicy(step, startTime, dt)`: `dt` is passed by reference, so the old value is an input;
    * `dtPolicy5` models `dtPolicy(step, startTime, dt, minDt, scalingFactor)`;
    * `guesser(step, startTime, state)` may overwrite the state;
    * `stepper(state, startTime, step, dt, args...)`: may have modified state and members when it throws;
      forwarded extra arguments are part of `W`;
    * `observer(step, time, state)`: the state is `const`. The parameters of `include/pressio/ode/impl/ode_advance_n_steps.hpp:65-72` and `include/pressio/ode/impl/ode_advance_to_target_time.hpp:92-98`. -/
structure Calls (W T Y : Type) where
  dtPolicy3 : Int → T → T → Prog W T
  dtPolicy5 : Int → T → DtVars T → Prog W (DtVars T)
  guesser : Int → T → Prog (Y × W) Unit
  stepper : T → Int → T → Prog (Y × W) Unit
  observer : Int → T → Y → Prog W Unit

variable {W T Y : Type}

/-- run user code that can only touch the world. Calls of policies and observers: `include/pressio/ode/impl/ode_advance_n_steps.hpp:77,88-90,103`. -/
def onW {α : Type} (p : Prog W α) : Prog (St W T Y) α := fun s =>
  match p s.w with
  | .ok a w => .ok a { s with w := w }
  | .stop h w => .stop h { s with w := w }

/-- run user code that can touch the ODE state and the world. Calls of guessers and steppers: `include/pressio/ode/impl/ode_advance_n_steps.hpp:95-100`. -/
def onYW {α : Type} (p : Prog (Y × W) α) : Prog (St W T Y) α := fun s =>
  match p (s.y, s.w) with
  | .ok a (y, w) => .ok a { s with y := y, w := w }
  | .stop h (y, w) => .stop h { s with y := y, w := w }

/-- ghost: append to the call log. No counterpart: records the calls at `include/pressio/ode/impl/ode_advance_n_steps.hpp:77-103` and `include/pressio/ode/impl/ode_advance_to_target_time.hpp:118-178`. -/
def emit (e : Ev T Y) : Prog (St W T Y) Unit := fun s => .ok () { s with log := s.log ++ [e] }

/-- call the observer: `observer(step, time, odeState)` (`include/pressio/ode/impl/ode_advance_n_steps.hpp:77,103`, `include/pressio/ode/impl/ode_advance_to_target_time.hpp:118,178`) -/
def callObs (c : Calls W T Y) (step : Int) (time : T) : Prog (St W T Y) Unit := fun s =>
  (do emit (.obs step time s.y); onW (c.observer step time s.y) : Prog (St W T Y) Unit) s

/-- call the guesser (`include/pressio/ode/impl/ode_advance_n_steps.hpp:95`) -/
def callGuess (c : Calls W T Y) (step : Int) (time : T) : Prog (St W T Y) Unit := fun s =>
  (do emit (.guess step time s.y); onYW (c.guesser step time) : Prog (St W T Y) Unit) s

/-- call the stepper (`include/pressio/ode/impl/ode_advance_n_steps.hpp:97-100`, `include/pressio/ode/impl/ode_advance_to_target_time.hpp:152-155,171-174`) -/
def callStep (c : Calls W T Y) (time : T) (step : Int) (dt : T) : Prog (St W T Y) Unit := fun s =>
  (do emit (.step step time dt s.y); onYW (c.stepper time step dt) : Prog (St W T Y) Unit) s

/-- The body of the loop `for( ; step <= numSteps; ++step)` of `advance_n_steps_with_dt_policy`
    (`include/pressio/ode/impl/ode_advance_n_steps.hpp:83-104`); the first argument is the
    number of iterations still to be made.  `++step` on the largest `int32_t` is undefined
    behaviour.  The debug print of lines 91 is omitted. -/
def nLoop [Add T] (c : Calls W T Y) : Nat → Int → T → T → Prog (St W T Y) Unit
  | 0, _, _, _ => pure ()
  | k+1, step, time, dt => do
    let dt' ← onW (c.dtPolicy3 step time dt)
    emit (.setDt step time dt')
    callGuess c step time
    callStep c time step dt'
    callObs c step (time + dt')
    if step = int32Max then Prog.undef "signed overflow of step counter"
    else nLoop c k (step+1) (time + dt') dt'

/-- `advance_n_steps_with_dt_policy` (`include/pressio/ode/impl/ode_advance_n_steps.hpp:65-105`).
    `numSteps` is any `int32_t`; `dt` starts value-initialised (`zero`). -/
def advanceN [Add T] (zero : T) (c : Calls W T Y) (numSteps : Int) (start : T) : Prog (St W T Y) Unit := do
  callObs c 0 start
  nLoop c numSteps.toNat 1 start zero

/-- `advance_n_steps_with_fixed_dt` (`include/pressio/ode/impl/ode_advance_n_steps.hpp:116-139`): the
    step-size policy becomes the lambda that assigns the fixed size. -/
def advanceNFixed [Add T] (zero : T) (c : Calls W T Y) (numSteps : Int) (start stepSize : T) :
    Prog (St W T Y) Unit :=
  advanceN zero { c with dtPolicy3 := fun _ _ _ => pure stepSize } numSteps start

/-- `NoOpStateObserver` (`include/pressio/ode/impl/ode_advance_noop_observer.hpp:54-62`) -/
def noopObserver : Int → T → Y → Prog W Unit := fun _ _ _ => pure ()
/-- `NoOpStateGuesser` (`include/pressio/ode/impl/ode_advance_noop_guesser.hpp:54-63`) -/
def noopGuesser : Int → T → Prog (Y × W) Unit := fun _ _ => pure ()

/-- The recovery loop for one step: `while(!needStop){ try{ stepper(...) } catch(TimeStepFailure){...} }`
    (`include/pressio/ode/impl/ode_advance_to_target_time.hpp:146-168`).  Returns the `dt` that
    succeeded.  Fuel bounds the number of attempts. -/
def recoverLoop [Div T] [LT T] [DecidableLT T] (c : Calls W T Y) (time : T) (step : Int)
    (minDt factor : T) : Nat → T → Prog (St W T Y) T
  | 0, _ => Prog.noFuel
  | fuel+1, dt => do
    let done ← Prog.catchE (do callStep c time step dt; pure true)
      (fun e => if e = Exc.timeStepFailure then some (pure false) else none)
    if done then pure dt
    else
      let dt' := dt / factor
      if dt' < minDt then
        Prog.throwE (.runtimeError "violation of minimum time step while recovering")
      else recoverLoop c time step minDt factor fuel dt'

/-- `call_dt_policy<useExtraArgs>` (`include/pressio/ode/impl/ode_advance_to_target_time.hpp:56-82`):
    five-argument call with recovery, three-argument call without. -/
def callDtPolicy (recovery : Bool) (c : Calls W T Y) (step : Int) (time : T) (v : DtVars T) :
    Prog (St W T Y) (DtVars T) :=
  if recovery then onW (c.dtPolicy5 step time v)
  else do
    let dt' ← onW (c.dtPolicy3 step time v.dt)
    pure { v with dt := dt' }

/-- `if (enableTimeStepRecovery) {...} else { stepper(...) }`
    (`include/pressio/ode/impl/ode_advance_to_target_time.hpp:146-175`): returns the size used. -/
def attempt [Div T] [LT T] [DecidableLT T] (recovery : Bool) (c : Calls W T Y) (time : T) (step : Int)
    (v : DtVars T) (fuel : Nat) : Prog (St W T Y) T :=
  if recovery then recoverLoop c time step v.minDt v.factor fuel v.dt
  else do
    callStep c time step v.dt
    pure v.dt

/-- The `while (condition)` loop of `to_target_time_with_step_size_policy`
    (`include/pressio/ode/impl/ode_advance_to_target_time.hpp:124-187`), with fuel for the number of
    iterations and of attempts per step.  `eps` is `std::numeric_limits<IndVarType>::epsilon()`.
    `step++` on the largest `int32_t` is undefined behaviour. -/
def tLoop [Field T] [LinearOrder T] (recovery : Bool) (eps final : T) (c : Calls W T Y) :
    Nat → Int → T → DtVars T → Prog (St W T Y) T
  | 0, _, _, _ => Prog.noFuel
  | fuel+1, step, time, v => do
    let v' ← callDtPolicy recovery c step time v
    emit (.setVars step time v')
    if v'.dt < v'.minDt then
      Prog.throwE (.runtimeError "time step size smaller than the minimum value")
    else if recovery = true ∧ v'.factor ≤ 1 then
      Prog.throwE (.runtimeError "time step size reduction factor must be > 1")
    else
      let dtUsed ← attempt recovery c time step v' (fuel+1)
      let time' := time + dtUsed
      callObs c step time'
      let stop := decide (|time' - final| ≤ eps) || decide (time' > final)
      if step = int32Max then Prog.undef "signed overflow of step counter"
      else if stop then pure time'
      else tLoop recovery eps final c fuel (step+1) time' { v' with dt := dtUsed }

/-- `to_target_time_with_step_size_policy<enableTimeStepRecovery>`
    (`include/pressio/ode/impl/ode_advance_to_target_time.hpp:92-188`).  Returns the reached time (the
    C++ function returns nothing; the value is the last observed time). -/
def advanceT [Field T] [LinearOrder T] (recovery : Bool) (eps : T) (c : Calls W T Y)
    (fuel : Nat) (start final : T) : Prog (St W T Y) T :=
  if final < start then Prog.throwE (.runtimeError "final time < start time")
  else if final = start then pure start
  else do
    callObs c 0 start
    tLoop recovery eps final c fuel 1 start ⟨0, 0, 1⟩

/-- `advance_to_target_point` (`include/pressio/ode/ode_advance_to_target_point.hpp:60-108`; the
    variadic overloads in `ode_advance_to_target_point_variadic.hpp:60-122` forward the extra
    arguments to the stepper): recovery disabled. -/
def advanceToTargetPoint [Field T] [LinearOrder T] (eps : T) (c : Calls W T Y) (fuel : Nat)
    (start final : T) : Prog (St W T Y) T := advanceT false eps c fuel start final

/-- `advance_to_target_point_with_step_recovery` without extra arguments
    (`include/pressio/ode/ode_advance_to_target_point_with_step_recovery.hpp:68-110`): the implementation
    is instantiated with `enableTimeStepRecovery = false` (lines 77-78 and 105-106).  The policy is then called
    with three arguments (`ode_advance_to_target_time.hpp:81`), so the call only compiles for a policy that can be
    called both with three and with five arguments; for any other policy it is a compile-time error. -/
def advanceToTargetPointWithStepRecovery [Field T] [LinearOrder T] (eps : T) (c : Calls W T Y)
    (fuel : Nat) (start final : T) : Prog (St W T Y) T := advanceT false eps c fuel start final

/-- `advance_to_target_point_with_step_recovery` with extra arguments
    (`include/pressio/ode/ode_advance_to_target_point_with_step_recovery_variadic.hpp:71-123`):
    instantiated with `enableTimeStepRecovery = true`. -/
def advanceToTargetPointWithStepRecoveryVariadic [Field T] [LinearOrder T] (eps : T) (c : Calls W T Y)
    (fuel : Nat) (start final : T) : Prog (St W T Y) T := advanceT true eps c fuel start final

end Pressio.Model.Advance
