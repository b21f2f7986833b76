import Verif.Common

/-
  A nonlinear solver as seen by the object whose equations it solves.

  `solver.solve(system, state)` may call `system.residualAndJacobian(x, R, J)` any finite number of times, at states of its
  choice depending on the answers (and on exceptions it catches), and then returns or throws, leaving some value in `state`.
-/
namespace Pressio
set_option autoImplicit false

/-- Solver behaviour. `Y`: state type, `A`: what one evaluation returns. Stands for the user's solver called at `include/pressio/ode/impl/ode_implicit_stepper_standard.hpp:211,268,310` and `include/pressio/ode/impl/ode_implicit_stepper_arbitrary.hpp:127`. -/
inductive SolveTree (Y A : Type) : Type where
  /-- return with this value in `state` -/
  | ret (y : Y)
  /-- throw (or other stop) with this value in `state` -/
  | stop (h : Stop) (y : Y)
  /-- evaluate at `x` (with the Jacobian if `wantJ`); the continuation gets the answer, or the exception thrown by the evaluation -/
  | ask (x : Y) (wantJ : Bool) (k : Except Exc A → SolveTree Y A)

/-- One evaluation made by the solver: where, with Jacobian or not, and what it got. A call of `include/pressio/ode/impl/ode_implicit_stepper_standard.hpp:167-176` or `include/pressio/ode/impl/ode_implicit_stepper_arbitrary.hpp:136-193`. -/
structure Query (Y A : Type) where
  x : Y
  wantJ : Bool
  ans : Except Exc A
deriving Repr

/-- State while a solver runs: the caller's state, the memory of the system object, and the evaluations so far (ghost). The objects in scope of the call at `include/pressio/ode/impl/ode_implicit_stepper_arbitrary.hpp:127`. -/
structure SolveSt (Y S A : Type) where
  y : Y
  mem : S
  log : List (Query Y A)

/-- Run a solver against a system whose evaluation is the program `ans`. What happens in the call at `include/pressio/ode/impl/ode_implicit_stepper_arbitrary.hpp:127`. -/
def SolveTree.run {Y S A : Type} (ans : Y → Bool → Prog S A) : SolveTree Y A → Prog (SolveSt Y S A) Unit
  | .ret y => fun s => .ok () { s with y := y }
  | .stop h y => fun s => .stop h { s with y := y }
  | .ask x w k => fun s =>
    match ans x w s.mem with
    | .ok a m => (k (.ok a)).run ans { s with mem := m, log := s.log ++ [⟨x, w, .ok a⟩] }
    | .stop (.exc e) m => (k (.error e)).run ans { s with mem := m, log := s.log ++ [⟨x, w, .error e⟩] }
    | .stop h m => .stop h { s with mem := m }

end Pressio
