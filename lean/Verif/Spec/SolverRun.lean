import Verif.Spec.Implicit
import Verif.Spec.NonlinearObjects

/-
  Runs of implicit steppers in which every step is solved by one and the same pressio solver object (the usual program: create a stepper, create a solver, hand both to an advancer).
-/
namespace Pressio
set_option autoImplicit false

/-- the evaluations that a computation makes when the system is the function `F` -/
def Ask.asked {X A ρ : Type} (F : X → Bool → Except Exc A) : Ask X A ρ → List (Query X A)
  | .ret _ => []
  | .ask x w k => ⟨x, w, F x w⟩ :: (k (F x w)).asked F

/-- memory of a solver object after a call in which its evaluations got these answers (`dflt`: never used, for lists that are too short) -/
def Ask.replay {X A σ : Type} (dflt : σ) : Ask X A (Res σ Unit) → List (Except Exc A) → σ
  | .ret r, _ => r.state
  | .ask _ _ k, a :: l => (k a).replay dflt l
  | .ask _ _ _, [] => dflt

namespace Spec.SolverRun
open Pressio Pressio.Spec.Implicit
open Pressio.Model.Nonlinear (Env Cfg Reg Ans SP Tag)
open Pressio.Spec.Nonlinear (Sys NewtonObj LsObj)

variable {K m n p L S : Type}

/-- the behaviour of `solver.solve(system, y)` of a solver object with memory `reg`, as seen by the system -/
def solverOf (solve : SP K m n p L Unit) (reg : Reg K m n p L) (y : n → K) : SolveTree (n → K) (Ans K m n) :=
  (solve { reg with x := y }).toTree Reg.x

/-- Drive a stepper object through attempts of the given sizes, all of them with the solver object whose memory is `reg` at the beginning: like `Spec.Implicit.drive`; after each attempt the memory of the solver
    object is what its program makes of the answers that it got. -/
def driveObj [Add K] (step : ((n → K) → SolveTree (n → K) (Ans K m n)) → K → K → Int → Prog (SolveSt (n → K) S (Ans K m n)) Unit) (solve : SP K m n p L Unit) :
    List K → K → List (n → K) → (n → K) → S → Reg K m n p L → List (Record K (n → K) (Ans K m n))
  | [], _, _, _, _, _ => []
  | dt :: rest, t, hist, y, mem, reg =>
    match step (solverOf solve reg) t dt hist.length ⟨y, mem, []⟩ with
    | .ok _ s => ⟨hist, t, dt, s.log, none, s.y⟩ :: driveObj step solve rest (t + dt) (s.y :: hist) s.y s.mem ((solve { reg with x := y }).replay reg (s.log.map (·.ans)))
    | .stop (.exc .timeStepFailure) s =>
      ⟨hist, t, dt, s.log, some (.exc .timeStepFailure), s.y⟩ :: driveObj step solve rest t hist s.y s.mem ((solve { reg with x := y }).replay reg (s.log.map (·.ans)))
    | .stop h s => [⟨hist, t, dt, s.log, some h, s.y⟩]

/-- the inner (linear or QR) solver of a least-squares method does not throw `TimeStepFailure`, which is for steppers to throw -/
def InnerHonest (env : Env K m n p L) : Tag → Prop
  | .gnQr => (∀ J s, (env.qrThin J s).stop? ≠ some (.exc .timeStepFailure)) ∧ (∀ r s, (env.qrApplyQT r s).stop? ≠ some (.exc .timeStepFailure)) ∧
      (∀ b s, (env.qrSolve b s).stop? ≠ some (.exc .timeStepFailure))
  | _ => ∀ A b s, (env.lin A b s).stop? ≠ some (.exc .timeStepFailure)

/-- an evaluation answers with the Jacobian exactly when it is asked for it -/
def WellTyped (F : (n → K) → Bool → Except Exc (Ans K m n)) : Prop := ∀ x w r j, F x w = .ok (r, j) → j.isSome = w

/-- the system whose evaluations are the function `F` -/
def sysOf (F : (n → K) → Bool → Except Exc (Ans K m n)) : Sys K m n where
  resJac := fun x =>
    match F x true with
    | .ok (r, some j) => .ok (r, j)
    | .ok (_, none) => .error (.other 0)
    | .error e => .error e
  res := fun x => (F x false).map Prod.fst

/-- what an attempt makes of the end of the solve: a failed solve is reported as `TimeStepFailure`, everything else unchanged -/
def stepStop : Option Stop → Option Stop
  | some (.exc .nonlinearSolveFailure) => some (.exc .timeStepFailure)
  | h => h

end Spec.SolverRun
end Pressio
