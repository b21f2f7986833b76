import Verif.Spec.SolverRun
import Mathlib.Logic.Function.Basic

/-
  Programs with several time-dependent problems, several nonlinear solver objects and several linear solver objects, in which problems share solver objects and solver objects share linear solvers.
-/
namespace Pressio.Spec.Sharing
set_option autoImplicit false
open Pressio Pressio.Spec.Implicit Pressio.Spec.SolverRun
open Pressio.Model.Nonlinear (Reg Ans SP)

/-- where a run stands: time, accepted states (newest first), the user's state, memory of the stepper object -/
structure Going (K Y S : Type) where
  t : K
  hist : List Y
  y : Y
  mem : S

variable {K m n p L ι σ ℓ : Type}

/-- a solver object at the beginning of a call: its own memory, and the memory of the linear solver that it refers to -/
def withLinear (reg : Reg K m n p L) (l : L) : Reg K m n p L := { reg with lin := l }

/-- A program that makes attempts for several problems in any order (`schedule`: which problem, and with which step size).  The attempts of problem `k` use the nonlinear solver object `solverFor k`; solver object `s` holds a reference to the linear solver `linearFor s`.  What is
    shared is the memory: the next attempt with the same solver object finds its memory as the last one left it, and the same for linear solvers.  A problem whose attempt ended with something else than `TimeStepFailure` is given up (`none`), the others go on. -/
def driveShared [Add K] [DecidableEq ι] [DecidableEq σ] [DecidableEq ℓ] {S : ι → Type} (step : ∀ k, ((n → K) → SolveTree (n → K) (Ans K m n)) → K → K → Int → Prog (SolveSt (n → K) (S k) (Ans K m n)) Unit)
    (solve : σ → SP K m n p L Unit) (solverFor : ι → σ) (linearFor : σ → ℓ) :
    List (ι × K) → (∀ k, Option (Going K (n → K) (S k))) → (σ → Reg K m n p L) → (ℓ → L) → List (ι × Record K (n → K) (Ans K m n))
  | [], _, _, _ => []
  | (k, dt) :: rest, w, regs, lins =>
    match w k with
    | none => driveShared step solve solverFor linearFor rest w regs lins
    | some ⟨t, hist, y, mem⟩ =>
      let s := solverFor k
      let reg := withLinear (regs s) (lins (linearFor s))
      let after := fun log : List (Query (n → K) (Ans K m n)) => (solve s { reg with x := y }).replay reg (log.map (·.ans))
      match step k (solverOf (solve s) reg) t dt hist.length ⟨y, mem, []⟩ with
      | .ok _ a => (k, ⟨hist, t, dt, a.log, none, a.y⟩) ::
          driveShared step solve solverFor linearFor rest (Function.update w k (some ⟨t + dt, a.y :: hist, a.y, a.mem⟩)) (Function.update regs s (after a.log)) (Function.update lins (linearFor s) (after a.log).lin)
      | .stop (.exc .timeStepFailure) a => (k, ⟨hist, t, dt, a.log, some (.exc .timeStepFailure), a.y⟩) ::
          driveShared step solve solverFor linearFor rest (Function.update w k (some ⟨t, hist, a.y, a.mem⟩)) (Function.update regs s (after a.log)) (Function.update lins (linearFor s) (after a.log).lin)
      | .stop h a => (k, ⟨hist, t, dt, a.log, some h, a.y⟩) ::
          driveShared step solve solverFor linearFor rest (Function.update w k none) (Function.update regs s (after a.log)) (Function.update lins (linearFor s) (after a.log).lin)

/-- what belongs to problem `k` -/
def part {α : Type} [DecidableEq ι] (k : ι) (l : List (ι × α)) : List α := (l.filter (fun a => a.1 = k)).map (·.2)

end Pressio.Spec.Sharing
