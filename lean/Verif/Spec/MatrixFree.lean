import Verif.Spec.NonlinearObjects
import Verif.Spec.NewtonConvergence
import Verif.Model.SteadySolve

/-
  Words for the matrix-free Newton solver.
-/
namespace Pressio.Spec.Nonlinear
set_option autoImplicit false
open Pressio Pressio.Model.Nonlinear Matrix

variable {K m n p L : Type} [Field K] [LinearOrder K] [Fintype m] [Fintype n] [Fintype p]

/-- an evaluation of the system, without the Jacobian -/
def dropJ (q : Query (n → K) (Ans K m n)) : Query (n → K) (Ans K m n) := ⟨q.x, false, q.ans.map (fun a => (a.1, none))⟩

/-- The Krylov method as a linear solver for matrices: it is given the action of the matrix. -/
def krylovLinJ (env : Env K m n p L) (A : Matrix m n K) (b : m → K) : Prog ((n → K) × L) Unit := fun (c, l) =>
  match env.krylov (fun v out => out + A *ᵥ v) b c with
  | .ok _ c' => .ok () (c', l)
  | .stop h c' => .stop h (c', l)

/-- `applyJacobian(x, v, out)`, called with a zeroed `out`, gives `J v` where `J` is the Jacobian of the system at `x` -/
def ActsAsJacobian (env : Env K m n p L) (sys : Sys K m n) : Prop := ∀ x r J, sys.resJac x = .ok (r, J) → ∀ v, env.applyJac x v 0 = J *ᵥ v

/-- the action of the Jacobian that the matrix-free solver finds is what the problem's `applyJacobian(x, v, out)` computes, whatever the memory of the problem object -/
def ActionOf {q : Type} (env : Env K n n p L) (f : (n → K) → (n → K) → Prog (Model.Galerkin.GSt K m m q n) Unit) : Prop :=
  ∀ x v s, ∃ s', f x v s = .ok () s' ∧ s'.r = env.applyJac x v 0

end Pressio.Spec.Nonlinear

namespace Pressio.Spec.NewtonConvergence
set_option autoImplicit false
open Pressio.Model.Nonlinear

/-- When the residual norm, `r0` at the beginning, has been reduced by the factor `q`, the criterion is met.  `η`: relative residual left by the Krylov method; `Λ'`: bound of the Jacobians. -/
def InexactReached (stop : StopCrit) (tol β Λ' η r0 q : ℝ) : Prop :=
  match stop with
  | .WhenAbsolutel2NormOfCorrectionBelowTolerance => 4 * β * r0 * q < tol
  | .WhenRelativel2NormOfCorrectionBelowTolerance => 4 * β * Λ' * q < (1 - η) * tol
  | .WhenAbsolutel2NormOfResidualBelowTolerance => r0 * q < tol
  | .WhenRelativel2NormOfResidualBelowTolerance => q < tol
  | _ => False

/-- The norm of the residual that a met criterion guarantees. -/
noncomputable def inexactResidual (stop : StopCrit) (tol β Λ' η r0 : ℝ) : ℝ :=
  match stop with
  | .WhenAbsolutel2NormOfCorrectionBelowTolerance => Λ' * tol / (1 - η)
  | .WhenRelativel2NormOfCorrectionBelowTolerance => 4 * β * Λ' * tol * r0 / (1 - η)
  | .WhenAbsolutel2NormOfResidualBelowTolerance => tol
  | .WhenRelativel2NormOfResidualBelowTolerance => tol * r0
  | _ => 0

end Pressio.Spec.NewtonConvergence
