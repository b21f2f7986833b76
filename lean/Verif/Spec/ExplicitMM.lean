import Verif.Spec.Explicit
import Verif.Model.ExplicitMM
import Mathlib.Logic.Function.Defs

/-
  Contracts of the user's mass-matrix system and of the linear solver.
-/
namespace Pressio.Spec.ExplicitMM
set_option autoImplicit false
open Pressio Pressio.Model.ExplicitMM

variable {K Y Mt : Type}

/-- the system fills `M` with `M(y,t)` and `f` with `f(y,t)`, whatever they contained -/
def ComputesMM (sys : MMSystem K Y Mt) (M : Y → K → Mt) (f : Y → K → Y) : Prop :=
  ∀ y t b, sys.massMatrixAndRhs y t b = .ok () (M y t, f y t)

/-- the solver on invertible matrices, called as the steppers do: `solve(M, x, f)` returns with `act M x = f` in the second argument and leaves the third unchanged -/
def SolvesMxf (act : Mt → Y → Y) (ls : LinSolve Y Mt) : Prop :=
  ∀ M, Function.Bijective (act M) → ∀ x f, ∃ x', ls M (x, f) = .ok () (x', f) ∧ act M x' = f

/-- the solver on invertible matrices, following the convention of pressio's linear solvers: `solve(A, b, x)` returns with `act A x = b` in the third argument
    and leaves the second unchanged -/
def SolvesAbx (act : Mt → Y → Y) (ls : LinSolve Y Mt) : Prop :=
  ∀ A, Function.Bijective (act A) → ∀ b x, ∃ x', ls A (b, x) = .ok () (b, x') ∧ act A x' = b

end Pressio.Spec.ExplicitMM
