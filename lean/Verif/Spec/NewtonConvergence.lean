import Mathlib.Analysis.Calculus.FDeriv.Basic
import Mathlib.Topology.Algebra.Module.FiniteDimension
import Mathlib.LinearAlgebra.Matrix.ToLin
import Mathlib.Analysis.Normed.Module.FiniteDimension
import Verif.Spec.Nonlinear

/-
  What "close to a regular root" means for Newton's method, and what the stop criteria promise there.  The norm of the vectors is `‖ι v‖`: with `ι` the embedding into Euclidean space it is the `l2` norm of the code.
-/
namespace Pressio.Spec.NewtonConvergence
set_option autoImplicit false
open Matrix Pressio.Model.Nonlinear

variable {E n : Type} [NormedAddCommGroup E] [NormedSpace ℝ E] [Fintype n] [DecidableEq n]

/-- `J x` is the Jacobian of `r` at `x` -/
def IsJacobian {m : Type} [Fintype m] (r : (n → ℝ) → m → ℝ) (J : (n → ℝ) → Matrix m n ℝ) (x : n → ℝ) : Prop := HasFDerivAt r (Matrix.toLin' (J x)).toContinuousLinearMap x

/-- `x'` is a root of `r`, its Jacobian there has an inverse with norm at most `β` and is itself bounded by `Λ`; within the distance `ρ` the matrix `J` is the Jacobian and has the Lipschitz constant `γ`; and `ρ` is
    small enough. -/
structure RegularRoot (ι : (n → ℝ) →ₗ[ℝ] E) (r : (n → ℝ) → n → ℝ) (J : (n → ℝ) → Matrix n n ℝ) (x' : n → ℝ) (β Λ γ ρ : ℝ) : Prop where
  root : r x' = 0
  jac : ∀ x, ‖ι (x - x')‖ ≤ ρ → IsJacobian r J x
  inv : ∀ v, ‖ι v‖ ≤ β * ‖ι (J x' *ᵥ v)‖
  bound : ∀ v, ‖ι (J x' *ᵥ v)‖ ≤ Λ * ‖ι v‖
  lip : ∀ x y v, ‖ι (x - x')‖ ≤ ρ → ‖ι (y - x')‖ ≤ ρ → ‖ι (J x *ᵥ v - J y *ᵥ v)‖ ≤ γ * ‖ι (x - y)‖ * ‖ι v‖
  β0 : 0 < β
  Λ0 : 0 ≤ Λ
  γ0 : 0 ≤ γ
  small : β * γ * ρ ≤ 1 / 2

/-- When the error has been reduced by the factor `q`, the criterion is met. -/
def Reached (stop : StopCrit) (tol β Λ ρ q : ℝ) : Prop :=
  match stop with
  | .WhenAbsolutel2NormOfCorrectionBelowTolerance => 3 / 2 * ρ * q < tol
  | .WhenRelativel2NormOfCorrectionBelowTolerance => 3 * q < tol
  | .WhenAbsolutel2NormOfResidualBelowTolerance => 5 / 4 * Λ * ρ * q < tol
  | .WhenRelativel2NormOfResidualBelowTolerance => 5 / 3 * Λ * β * q < tol
  | _ => False

/-- The error that a met criterion guarantees; `e0` is the error of the initial guess. -/
noncomputable def errorBound (stop : StopCrit) (tol β Λ e0 : ℝ) : ℝ :=
  match stop with
  | .WhenAbsolutel2NormOfCorrectionBelowTolerance => 2 * tol
  | .WhenRelativel2NormOfCorrectionBelowTolerance => 3 * tol * e0
  | .WhenAbsolutel2NormOfResidualBelowTolerance => 4 / 3 * β * tol
  | .WhenRelativel2NormOfResidualBelowTolerance => 5 / 3 * Λ * β * tol * e0
  | _ => 0

/-- criteria relative to the first iteration -/
def isRelative : StopCrit → Bool
  | .WhenRelativel2NormOfCorrectionBelowTolerance | .WhenRelativel2NormOfResidualBelowTolerance => true
  | _ => false

end Pressio.Spec.NewtonConvergence
