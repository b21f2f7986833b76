import Verif.Spec.Nonlinear

/-
  Solver objects: what a program holds after creating a solver and calling it any number of times, and the calls themselves.
-/
namespace Pressio.Spec.Nonlinear
set_option autoImplicit false
open Pressio Pressio.Model.Nonlinear

variable {K m n p L : Type} [Field K] [LinearOrder K] [Fintype m] [Fintype n] [Fintype p]

/-- `solver.solve(sys, x)` of a Newton solver: outcome, and memory afterwards (with the caller's state in field `x`) -/
def runNewton (env : Env K m n p L) (cfg : Cfg K) (sys : Sys K m n) (s : Reg K m n p L) : Res (Reg K m n p L) Unit :=
  SM.run sys.toF (Model.Nonlinear.newtonSolve env cfg) s

/-- the same for a matrix-free Newton solver -/
def runMatrixFree (env : Env K m n p L) (cfg : Cfg K) (sys : Sys K m n) (s : Reg K m n p L) : Res (Reg K m n p L) Unit :=
  SM.run sys.toF (Model.Nonlinear.matrixFreeSolve env cfg) s

/-- the same for a least-squares solver -/
def runLs [DecidableEq n] (env : Env K m n p L) (cfg : Cfg K) (sys : Sys K m n) (tag : Tag) (s : Reg K m n p L) : Res (Reg K m n p L) Unit :=
  SM.run sys.toF (Model.Nonlinear.lsSolve env cfg tag) s

/-- A Newton solver object about to be called: just created (every buffer arbitrary), or already used in solves of any systems with any options, which
    ended in any way; the next call may bring any state. -/
inductive NewtonObj : Reg K m n p L → Prop
  | created (s : Reg K m n p L) : s.diag = newContainer newtonDiagnostics → NewtonObj s
  | used (env : Env K m n p L) (cfg : Cfg K) (sys : Sys K m n) (s : Reg K m n p L) (x : n → K) : NewtonObj s → NewtonObj { (runNewton env cfg sys s).state with x := x }
  | usedMatrixFree (env : Env K m n p L) (cfg : Cfg K) (sys : Sys K m n) (s : Reg K m n p L) (x : n → K) : NewtonObj s →
      NewtonObj { (runMatrixFree env cfg sys s).state with x := x }

/-- The same for least-squares solver objects. -/
inductive LsObj [DecidableEq n] : Reg K m n p L → Prop
  | created (s : Reg K m n p L) : s.diag = newContainer leastSquaresDiagnostics → LsObj s
  | used (env : Env K m n p L) (cfg : Cfg K) (sys : Sys K m n) (tag : Tag) (s : Reg K m n p L) (x : n → K) : LsObj s → LsObj { (runLs env cfg sys tag s).state with x := x }

/-- same outcome and, if normal, same answer `f` -/
def SameAnswer {α σ : Type} (f : σ → α) (R R' : Res σ Unit) : Prop := R.stop? = R'.stop? ∧ (R.stop? = none → f R.state = f R'.state)

/-- The inner solver of the method gives the same answer (or the same exception) whatever it did before and whatever its output vectors contained: no warm start. -/
def NoWarmStart (env : Env K m n p L) : Tag → Prop
  | .gnQr => ∀ r J st st', SameAnswer Prod.fst (qrNegated env r J st) (qrNegated env r J st')
  | _ => ∀ A b st st', SameAnswer Prod.fst (env.lin A b st) (env.lin A b st')

end Pressio.Spec.Nonlinear
