import Verif.Model.Advance
import Verif.Model.Float

/-
  The target-time advancer (`include/pressio/ode/impl/ode_advance_to_target_time.hpp`) for any type of the independent variable: the same function as
  `Verif/Model/Advance.lean`, with the C++ operators of the type instead of those of an ordered field.  (`advanceN` there only needs an addition.)
-/
namespace Pressio.Model.AdvanceFloat
set_option autoImplicit false
open Pressio Pressio.Model.Advance

/-- the operators of `IndVarType` the advancer uses (`include/pressio/ode/impl/ode_advance_to_target_time.hpp:101-105,115,133,138,160-161,177,181-184`) -/
structure Arith (T : Type) where
  zero : T
  one : T
  add : T → T → T
  sub : T → T → T
  div : T → T → T
  abs : T → T
  lt : T → T → Bool
  le : T → T → Bool
  eq : T → T → Bool

/-- exact arithmetic. Reading of `include/pressio/ode/impl/ode_advance_to_target_time.hpp:101-184` used in `Advance.lean`. -/
def exact (T : Type) [Field T] [LinearOrder T] : Arith T where
  zero := 0
  one := 1
  add := (· + ·)
  sub := (· - ·)
  div := (· / ·)
  abs := fun a => |a|
  lt := fun a b => decide (a < b)
  le := fun a b => decide (a ≤ b)
  eq := fun a b => decide (a = b)

/-- floating-point arithmetic. Reading of `include/pressio/ode/impl/ode_advance_to_target_time.hpp:101-184` for `IndVarType` `double` or `float`. -/
def float (F : Float.Fmt) : Arith Float.Fl where
  zero := .fin 0
  one := .fin 1
  add := Float.add F
  sub := Float.sub F
  div := Float.div F
  abs := Float.abs
  lt := Float.lt
  le := Float.le
  eq := Float.eq

variable {W T Y : Type}

/-- the recovery loop (`include/pressio/ode/impl/ode_advance_to_target_time.hpp:146-168`) -/
def recoverLoop (A : Arith T) (c : Calls W T Y) (time : T) (step : Int) (minDt factor : T) : Nat → T → Prog (St W T Y) T
  | 0, _ => Prog.noFuel
  | fuel+1, dt => do
    let done ← Prog.catchE (do callStep c time step dt; pure true)
      (fun e => if e = Exc.timeStepFailure then some (pure false) else none)
    if done then pure dt
    else
      let dt' := A.div dt factor
      if A.lt dt' minDt then
        Prog.throwE (.runtimeError "violation of minimum time step while recovering")
      else recoverLoop A c time step minDt factor fuel dt'

/-- one step, with or without recovery (`include/pressio/ode/impl/ode_advance_to_target_time.hpp:146-175`) -/
def attempt (A : Arith T) (recovery : Bool) (c : Calls W T Y) (time : T) (step : Int) (v : DtVars T) (fuel : Nat) : Prog (St W T Y) T :=
  if recovery then recoverLoop A c time step v.minDt v.factor fuel v.dt
  else do
    callStep c time step v.dt
    pure v.dt

/-- the test after a step (`include/pressio/ode/impl/ode_advance_to_target_time.hpp:180-184`) -/
def reached (A : Arith T) (eps final time : T) : Bool := A.le (A.abs (A.sub time final)) eps || A.lt final time

/-- the `while (condition)` loop (`include/pressio/ode/impl/ode_advance_to_target_time.hpp:124-187`) -/
def tLoop (A : Arith T) (recovery : Bool) (eps final : T) (c : Calls W T Y) : Nat → Int → T → DtVars T → Prog (St W T Y) T
  | 0, _, _, _ => Prog.noFuel
  | fuel+1, step, time, v => do
    let v' ← callDtPolicy recovery c step time v
    emit (.setVars step time v')
    if A.lt v'.dt v'.minDt then
      Prog.throwE (.runtimeError "time step size smaller than the minimum value")
    else if recovery && A.le v'.factor A.one then
      Prog.throwE (.runtimeError "time step size reduction factor must be > 1")
    else
      let dtUsed ← attempt A recovery c time step v' (fuel+1)
      let time' := A.add time dtUsed
      callObs c step time'
      if step = int32Max then Prog.undef "signed overflow of step counter"
      else if reached A eps final time' then pure time'
      else tLoop A recovery eps final c fuel (step+1) time' { v' with dt := dtUsed }

/-- `to_target_time_with_step_size_policy` (`include/pressio/ode/impl/ode_advance_to_target_time.hpp:92-188`) -/
def advanceT (A : Arith T) (recovery : Bool) (eps : T) (c : Calls W T Y) (fuel : Nat) (start final : T) : Prog (St W T Y) T :=
  if A.lt final start then Prog.throwE (.runtimeError "final time < start time")
  else if A.eq final start then pure start
  else do
    callObs c 0 start
    tLoop A recovery eps final c fuel 1 start ⟨A.zero, A.zero, A.one⟩

end Pressio.Model.AdvanceFloat
