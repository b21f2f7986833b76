import Verif.Model.Galerkin
import Verif.Model.Lspg
import Verif.Model.Nonlinear

/-
  Model of a call `solver.solve(problem, state)` where `problem` is a steady reduced problem made by one of the functions `create_steady_problem`
  (`include/pressio/rom/galerkin_steady.hpp:19-76`, `include/pressio/rom/lspg_steady.hpp`), and the solver one of the pressio nonlinear solvers: the solver's evaluations
  run the problem's `residualAndJacobian`, whose buffers persist from one evaluation to the next.
-/
namespace Pressio.Model.SteadySolve
set_option autoImplicit false
open Pressio Pressio.Model.Galerkin
open Pressio.Model.Nonlinear (Reg Ans SP)

variable {K m p q n L P S : Type}

/-- `problem.residualAndJacobian(x, R, Jo)` of a Galerkin problem, as the solver sees it: what it finds in its own residual and Jacobian afterwards (`include/pressio/rom/impl/galerkin_steady_system_default.hpp:81-111`).  The
    output arguments are the fields `r`, `J` of the memory. -/
def galerkinEval (f : (n → K) → Bool → Prog (GSt K m p q n) Unit) (x : n → K) (w : Bool) : Prog (GSt K m p q n) (Ans K n n) := fun s =>
  match f x w s with
  | .ok _ s' => .ok (s'.r, if w then some s'.J else none) s'
  | .stop h s' => .stop h s'

/-- A Galerkin problem as the matrix-free solver sees it: the evaluations without Jacobian, the only ones it makes, are calls of `problem.residual(x, R)` (`include/pressio/solvers_nonlinear/impl/functions.hpp:52-58`,
    `include/pressio/rom/impl/galerkin_steady_system_default.hpp:70-79`, `include/pressio/rom/impl/galerkin_steady_system_hypred.hpp:95-99`). -/
def matrixFreeEval (res : (n → K) → Prog (GSt K m p q n) Unit) (f : (n → K) → Bool → Prog (GSt K m p q n) Unit) (x : n → K) (w : Bool) : Prog (GSt K m p q n) (Ans K n n) :=
  if w then galerkinEval f x true else galerkinEval (fun x _ => res x) x false

/-- `solver.solve(problem, state)` (`include/pressio/solvers_nonlinear/impl/root_finder.cpp:348-374`, `include/pressio/solvers_nonlinear/impl/nonlinear_least_squares.hpp:170-277`): `solve` is the program of the solver, `reg` the
    memory of the solver object, `ans` the problem's `residualAndJacobian`, `mem` the memory of the problem object, `x` the caller's state. -/
def solveSteady (solve : SP K m n P L Unit) (reg : Reg K m n P L) (ans : (n → K) → Bool → Prog S (Ans K m n)) (x : n → K) (mem : S) :
    Res (SolveSt (n → K) S (Ans K m n)) Unit :=
  ((solve { reg with x := x }).toTree Reg.x).run ans ⟨x, mem, []⟩

end Pressio.Model.SteadySolve
