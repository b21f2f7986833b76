import Verif.Model.Implicit

/-
  Specification of implicit time stepping, independent of the steppers' storage.

  * the textbook residuals and Jacobians;
  * what a nonlinear solver does when it is given a mathematical residual *function* (`outcome`);
  * the ideal sequence of attempts of a run (`ideal`): every attempt of every step is the solver applied to the textbook
    residual of the accepted states.

  The theorems say that driving the modelled stepper objects gives exactly the ideal sequence.
-/
namespace Pressio.Spec.Implicit
set_option autoImplicit false
open Pressio Pressio.Model.Implicit
open Pressio.Model.Explicit (Scheme)

variable {K Y J A S : Type}

/-! ### Textbook formulas -/
section
variable [Field K] [AddCommGroup Y] [Module K Y] [AddCommGroup J] [Module K J] [One J]

/-- backward Euler: `y_{n+1} - y_n - dt f_{n+1}` -/
def bdf1Res (dt : K) (ynp1 yn f : Y) : Y := ynp1 - yn - dt • f
/-- BDF2: `y_{n+1} - 4/3 y_n + 1/3 y_{n-1} - 2/3 dt f_{n+1}` -/
def bdf2Res (dt : K) (ynp1 yn ynm1 f : Y) : Y :=
  ynp1 - ((4:K)/3) • yn + ((1:K)/3) • ynm1 - ((2:K)/3 * dt) • f
/-- Crank-Nicolson: `y_{n+1} - y_n - dt/2 (f_{n+1} + f_n)` -/
def cnRes (dt : K) (ynp1 yn fnp1 fn : Y) : Y := ynp1 - yn - (dt / 2) • (fnp1 + fn)

def bdf1Jac (dt : K) (j : J) : J := 1 - dt • j
def bdf2Jac (dt : K) (j : J) : J := 1 - ((2:K)/3 * dt) • j
def cnJac (dt : K) (j : J) : J := 1 - (dt / 2) • j

/-- failure of the right-hand side as reported to the solver by the BDF residuals -/
def reported (e : Exc) : Exc :=
  if e = .velocityFailureUnrecoverable then .residualEvaluationFailureUnrecoverable else e

/-- What one evaluation of the discrete equations at `y` must give in a step from time `t` to `t + dt`, when the accepted
    states are `hist` (newest first, so its length is the step number): the textbook residual and, if wanted, Jacobian; or the
    exception of the user's right-hand side (translated for the BDF schemes). -/
def textbook (name : Scheme) (sys : ISystem K Y J) (hist : List Y) (t dt : K) (y : Y) (w : Bool) : Except Exc (Y × Option J) :=
  match name, hist with
  | .BDF1, yn :: _ =>
    match sys.eval y (t + dt) w with
    | .ok (f, j) => .ok (bdf1Res dt y yn f, j.map (bdf1Jac dt))
    | .error (e, _) => .error (reported e)
  | .BDF2, [yn] =>
    match sys.eval y (t + dt) w with
    | .ok (f, j) => .ok (bdf1Res dt y yn f, j.map (bdf1Jac dt))
    | .error (e, _) => .error (reported e)
  | .BDF2, yn :: ynm1 :: _ =>
    match sys.eval y (t + dt) w with
    | .ok (f, j) => .ok (bdf2Res dt y yn ynm1 f, j.map (bdf2Jac dt))
    | .error (e, _) => .error (reported e)
  | .CrankNicolson, yn :: _ =>
    match sys.eval yn t false with
    | .error (e, _) => .error e
    | .ok (fn, _) =>
      match sys.eval y (t + dt) w with
      | .ok (f, j) => .ok (cnRes dt y yn f fn, j.map (cnJac dt))
      | .error (e, _) => .error e
  | _, _ => .error (.runtimeError "not an implicit scheme")

variable {Mt : Type} (act : Mt → Y → Y) (asJac : Mt → J)

/-- the same with mass matrix, BDF1 and BDF2: `M (y_{n+1} - y_n) - dt f`, `M (y_{n+1} - 4/3 y_n + 1/3 y_{n-1}) - 2/3 dt f`, with
    `M = M(y_{n+1}, t_{n+1})`; Jacobians `M - dt df/dy`, `M - 2/3 dt df/dy` -/
def textbookMM (name : Scheme) (sys : IMMSystem K Y J Mt) (hist : List Y) (t dt : K) (y : Y) (w : Bool) : Except Exc (Y × Option J) :=
  match name, hist with
  | .BDF1, yn :: _ =>
    match sys.eval y (t + dt) w with
    | .ok (M, f, j) => .ok (act M (y - yn) - dt • f, j.map (fun j => asJac M - dt • j))
    | .error (e, _, _) => .error (reported e)
  | .BDF2, [yn] =>
    match sys.eval y (t + dt) w with
    | .ok (M, f, j) => .ok (act M (y - yn) - dt • f, j.map (fun j => asJac M - dt • j))
    | .error (e, _, _) => .error (reported e)
  | .BDF2, yn :: ynm1 :: _ =>
    match sys.eval y (t + dt) w with
    | .ok (M, f, j) => .ok (act M (y - ((4:K)/3) • yn + ((1:K)/3) • ynm1) - ((2:K)/3 * dt) • f,
        j.map (fun j => asJac M - ((2:K)/3 * dt) • j))
    | .error (e, _, _) => .error (reported e)
  | _, _ => .error (.runtimeError "not an implicit scheme")
end

/-- User-defined schemes: the user's function is called with the step number, the time at the end of the step, the step size, the
    unknown and the latest `numAux` states: accepted ones first, then what the storage contained initially (`init`). -/
def arbitrary [Add K] (sys : ASystem K Y A) (numAux : Nat) (init : List Y) (hist : List Y) (t dt : K) (y : Y) (w : Bool) :
    Except Exc A :=
  match sys.eval hist.length (t + dt) dt w y ((hist ++ init).take numAux) with
  | .ok a => .ok a
  | .error e => .error (if e = .discreteTimeResidualFailureUnrecoverable then .residualEvaluationFailureUnrecoverable else e)

/-! ### A solver applied to a function -/

/-- Result of a solver run: why it stopped (`none`: returned), the value left in the state, the evaluations made. -/
structure Outcome (Y A : Type) where
  stop : Option Stop
  y : Y
  queries : List (Query Y A)

/-- the solver applied to a residual function `F` -/
def outcome (F : Y → Bool → Except Exc A) : SolveTree Y A → Outcome Y A
  | .ret y => ⟨none, y, []⟩
  | .stop h y => ⟨some h, y, []⟩
  | .ask x w k =>
    let r := outcome F (k (F x w))
    ⟨r.stop, r.y, ⟨x, w, F x w⟩ :: r.queries⟩

/-- The solver does not itself throw `TimeStepFailure` (which is for steppers to throw), as long as the equations do not. -/
def Honest : SolveTree Y A → Prop
  | .ret _ => True
  | .stop h _ => h ≠ .exc .timeStepFailure
  | .ask _ _ k => ∀ a, (∀ e, a = .error e → e ≠ .timeStepFailure) → Honest (k a)

/-! ### Runs -/

/-- one attempt at a step: its size and the behaviour of the nonlinear solver in it (different attempts may use different solvers) -/
structure Attempt (K Y A : Type) where
  dt : K
  solver : Y → SolveTree Y A

/-- What happened in an attempt: the accepted states before it (newest first; the step number is their number), the start time,
    the size, the evaluations of the equations made by the solver, how it ended, and the state left in the caller's object. -/
structure Record (K Y A : Type) where
  hist : List Y
  t : K
  dt : K
  queries : List (Query Y A)
  stop : Option Stop
  y : Y

/-- Drive a stepper object through a list of attempts, as the advancers do: an attempt that returns is accepted and the next one starts a
    new step; after `TimeStepFailure` the next attempt repeats the step; anything else ends the run. `y` and `mem` are
    the caller's state object and the stepper object. -/
def drive [Add K] (step : (Y → SolveTree Y A) → K → K → Int → Prog (SolveSt Y S A) Unit) :
    List (Attempt K Y A) → K → List Y → Y → S → List (Record K Y A)
  | [], _, _, _, _ => []
  | a :: rest, t, hist, y, mem =>
    match step a.solver t a.dt hist.length ⟨y, mem, []⟩ with
    | .ok _ s => ⟨hist, t, a.dt, s.log, none, s.y⟩ :: drive step rest (t + a.dt) (s.y :: hist) s.y s.mem
    | .stop (.exc .timeStepFailure) s =>
      ⟨hist, t, a.dt, s.log, some (.exc .timeStepFailure), s.y⟩ :: drive step rest t hist s.y s.mem
    | .stop h s => [⟨hist, t, a.dt, s.log, some h, s.y⟩]

/-- The ideal run for equations `F hist t dt`: no storage; a failed solve leaves the state as it was. -/
def ideal [Add K] (F : List Y → K → K → Y → Bool → Except Exc A) : List (Attempt K Y A) → K → Y → List Y → List (Record K Y A)
  | [], _, _, _ => []
  | a :: rest, t, y, prev =>
    let o := outcome (F (y :: prev) t a.dt) (a.solver y)
    match o.stop with
    | none => ⟨y :: prev, t, a.dt, o.queries, none, o.y⟩ :: ideal F rest (t + a.dt) o.y (y :: prev)
    | some (.exc .nonlinearSolveFailure) =>
      ⟨y :: prev, t, a.dt, o.queries, some (.exc .timeStepFailure), y⟩ :: ideal F rest t y prev
    | some h => [⟨y :: prev, t, a.dt, o.queries, some h, o.y⟩]

/-- the states accepted so far, newest first, in a run from `y0` whose records so far are `pre` -/
def accepted (y0 : Y) (pre : List (Record K Y A)) : List Y := ((pre.filter (fun r => r.stop.isNone)).map (·.y)).reverse ++ [y0]

/-- start time plus the sizes of the accepted steps -/
def timeAfter [Add K] (t0 : K) (pre : List (Record K Y A)) : K := (pre.filter (fun r => r.stop.isNone)).foldl (fun t r => t + r.dt) t0

/-- the stepper object after the run -/
def driveEnd [Add K] (step : (Y → SolveTree Y A) → K → K → Int → Prog (SolveSt Y S A) Unit) :
    List (Attempt K Y A) → K → List Y → Y → S → S
  | [], _, _, _, mem => mem
  | a :: rest, t, hist, y, mem =>
    match step a.solver t a.dt hist.length ⟨y, mem, []⟩ with
    | .ok _ s => driveEnd step rest (t + a.dt) (s.y :: hist) s.y s.mem
    | .stop (.exc .timeStepFailure) s => driveEnd step rest t hist s.y s.mem
    | .stop _ s => s.mem

/-- The solver reacts to `ResidualEvaluationFailureUnrecoverable` from an evaluation by giving up with `NonlinearSolveFailure` (pressio's
    solvers do so when the residual is evaluated in the main loop). -/
def GivesUpOnResidualFailure : SolveTree Y A → Prop
  | .ret _ => True
  | .stop _ _ => True
  | .ask _ _ k => (∃ y, k (.error .residualEvaluationFailureUnrecoverable) = .stop (.exc .nonlinearSolveFailure) y) ∧
      ∀ a, GivesUpOnResidualFailure (k a)

/-- The solver lets exceptions that it does not know pass through: in particular `VelocityFailureUnrecoverable`. -/
def PassesOnVelocityFailure : SolveTree Y A → Prop
  | .ret _ => True
  | .stop _ _ => True
  | .ask _ _ k => (∃ y, k (.error .velocityFailureUnrecoverable) = .stop (.exc .velocityFailureUnrecoverable) y) ∧
      ∀ a, PassesOnVelocityFailure (k a)

end Pressio.Spec.Implicit
