import Verif.Spec.Implicit
import Verif.Spec.Lspg
import Verif.Spec.AdvanceDrive

/-
  User-defined schemes that spell out a built-in one, for systems and for full-order models, and what the caller of an advancer can see.
-/
namespace Pressio.Spec.CustomSchemes
set_option autoImplicit false
open Pressio Pressio.Model.Implicit Pressio.Model.Advance
open Pressio.Model.Explicit (Scheme)
open scoped Matrix

/-- the number of previous states that the equations of the scheme contain -/
def history : Scheme → Nat
  | .BDF2 => 2
  | _ => 1

/-- the implicit schemes -/
def IsImplicit (name : Scheme) : Prop := name = .BDF1 ∨ name = .BDF2 ∨ name = .CrankNicolson

/-- a user who writes a discrete residual reports the failure of the right-hand side with the exception for discrete residuals -/
def asDiscrete (e : Exc) : Exc := if e = .velocityFailureUnrecoverable then .discreteTimeResidualFailureUnrecoverable else e

section
variable {K Y J : Type} [Field K] [AddCommGroup Y] [Module K Y] [AddCommGroup J] [Module K J] [One J]

/-- What a user who writes the scheme for `y' = f(y, t)` themselves returns from `discreteResidualAndJacobian(step, t, dt, ..., y, previous states)`; `t` is the time at the end of the step; BDF2 starts with a step of BDF1. -/
def spelled (name : Scheme) (sys : ISystem K Y J) (step : Int) (t dt : K) (w : Bool) (y : Y) (prev : List Y) : Except Exc (Y × Option J) :=
  match name, prev with
  | .BDF1, yn :: _ =>
    match sys.eval y t w with
    | .ok (f, j) => .ok (y - yn - dt • f, j.map (fun j => 1 - dt • j))
    | .error (e, _) => .error (asDiscrete e)
  | .BDF2, yn :: ynm1 :: _ =>
    match sys.eval y t w with
    | .ok (f, j) =>
      if step = 1 then .ok (y - yn - dt • f, j.map (fun j => 1 - dt • j))
      else .ok (y - ((4:K)/3) • yn + ((1:K)/3) • ynm1 - ((2:K)/3 * dt) • f, j.map (fun j => 1 - ((2:K)/3 * dt) • j))
    | .error (e, _) => .error (asDiscrete e)
  | .CrankNicolson, yn :: _ =>
    match sys.eval yn (t - dt) false with
    | .error (e, _) => .error e
    | .ok (fn, _) =>
      match sys.eval y t w with
      | .ok (f, j) => .ok (y - yn - (dt / 2) • (f + fn), j.map (fun j => 1 - (dt / 2) • j))
      | .error (e, _) => .error e
  | _, _ => .error (.runtimeError "not an implicit scheme")

/-- the user's system is that, for a stepper with `numAux` previous states -/
def Spells (name : Scheme) (numAux : Nat) (sys : ISystem K Y J) (asys : ASystem K Y (Y × Option J)) : Prop :=
  ∀ step t dt w y prev, prev.length = numAux → asys.eval step t dt w y prev = spelled name sys step t dt w y prev

/-- the right-hand side does not throw the exceptions that belong to steppers: `TimeStepFailure`, `DiscreteTimeResidualFailureUnrecoverable` -/
def Mannered (sys : ISystem K Y J) : Prop := ∀ y t w e junk, sys.eval y t w = .error (e, junk) → e ≠ .timeStepFailure ∧ e ≠ .discreteTimeResidualFailureUnrecoverable
end

section
variable {K m p : Type} [Field K] [Fintype m]

/-- The same for a full-order model with right-hand side `f` on the sample mesh and states on the stencil mesh; `E` restricts from one to the other (`E = 1`: no sampling). -/
def spelledRes (E : Matrix p m K) (name : Scheme) (f : (m → K) → K → Except Exc (p → K)) (step : Int) (t dt : K) (y : m → K) (prev : List (m → K)) : Except Exc (p → K) :=
  match name, prev with
  | .BDF1, yn :: _ => do
    let v ← f y t
    pure (E *ᵥ (y - yn) - dt • v)
  | .BDF2, yn :: ynm1 :: _ => do
    let v ← f y t
    pure (if step = 1 then E *ᵥ (y - yn) - dt • v else E *ᵥ (y - ((4:K)/3) • yn + ((1:K)/3) • ynm1) - ((2:K)/3 * dt) • v)
  | .CrankNicolson, yn :: _ => do
    let vn ← f yn (t - dt)
    let v ← f y t
    pure (E *ᵥ (y - yn) - (dt / 2) • (v + vn))
  | _, _ => .error (.runtimeError "not an implicit scheme")

def spelledJac (E : Matrix p m K) (name : Scheme) (Df : (m → K) → K → Except Exc (Matrix p m K)) (step : Int) (t dt : K) (y : m → K) (_prev : List (m → K)) : Except Exc (Matrix p m K) := do
  let D ← Df y t
  pure (match name with
    | .BDF2 => if step = 1 then E - dt • D else E - ((2:K)/3 * dt) • D
    | .CrankNicolson => E - (dt / 2) • D
    | _ => E - dt • D)

/-- the full-order model throws none of the exceptions that steppers treat in a special way -/
def Plain {Z : Type} (f : (m → K) → K → Except Exc Z) : Prop := ∀ y t, f y t ≠ .error .timeStepFailure ∧ f y t ≠ .error .discreteTimeResidualFailureUnrecoverable ∧ f y t ≠ .error .velocityFailureUnrecoverable
end

/-- What the caller of an advancer can see of the call: whether it returned (and at which time) or how it ended, the state, the log of all calls, and the rest of the world; not the insides of the stepper. -/
def visible {M U K Y α : Type} (r : Res (St (M × U) K Y) α) : Except Stop α × Y × List (Ev K Y) × U :=
  (match r with
    | .ok a _ => .ok a
    | .stop h _ => .error h, r.state.y, r.state.log, r.state.w.2)

end Pressio.Spec.CustomSchemes
