import Mathlib.Analysis.Calculus.ContDiff.Defs
import Verif.Spec.LevenbergMarquardt
import Verif.Spec.GaussNewtonConvergence

/-
  The least-squares problems on which Levenberg-Marquardt can be expected to find a stationary point, and what finding one means.
-/
namespace Pressio.Spec.LmConvergence
set_option autoImplicit false
open Pressio Matrix Pressio.Model.Nonlinear Pressio.Spec.Nonlinear Pressio.Spec.NewtonConvergence Pressio.Spec.LevenbergMarquardt
open Pressio.Spec.Reduced (eu)

variable {m n p L : Type} [Fintype m] [Fintype n] [DecidableEq n] [Fintype p]

/-- gradient of `‖r x‖^2 / 2` -/
def gradAt (r : (n → ℝ) → m → ℝ) (J : (n → ℝ) → Matrix m n ℝ) (x : n → ℝ) : n → ℝ := (J x)ᵀ *ᵥ r x

/-- the points whose residual is not larger than that of `x0` -/
def level (r : (n → ℝ) → m → ℝ) (x0 : n → ℝ) : Set (n → ℝ) := {x | ‖eu m (r x)‖ ≤ ‖eu m (r x0)‖}

/-- A smooth least-squares problem: the residual is twice continuously differentiable and `J` is its Jacobian; only a bounded set of points has a residual not larger than that of the initial guess; and at none of them that is not
    stationary a column of the Jacobian vanishes (else the damped matrix is singular there). -/
structure Smooth (r : (n → ℝ) → m → ℝ) (J : (n → ℝ) → Matrix m n ℝ) (x0 : n → ℝ) : Prop where
  diff : ContDiff ℝ 2 r
  jac : ∀ x, IsJacobian r J x
  bounded : ∃ B, ∀ x ∈ level r x0, ‖eu n x‖ ≤ B
  columns : ∀ x ∈ level r x0, gradAt r J x ≠ 0 → ∀ j, ∃ i, J x i j ≠ 0

/-- what holds at every point of `S`: gradient at least `ε`, residual at most `R`, Jacobian bounded by `h`, squares of the norms of its columns at least `δ`, and a quadratic upper bound for steps not longer than `ρ` -/
structure LmBounds (r : (n → ℝ) → m → ℝ) (J : (n → ℝ) → Matrix m n ℝ) (S : Set (n → ℝ)) (ε R h δ Λ ρ : ℝ) : Prop where
  ε0 : 0 < ε
  R0 : 0 < R
  h0 : 0 < h
  δ0 : 0 < δ
  Λ0 : 0 ≤ Λ
  ρ0 : 0 < ρ
  grad : ∀ x ∈ S, ε ≤ ‖eu n ((J x)ᵀ *ᵥ r x)‖
  res : ∀ x ∈ S, ‖eu m (r x)‖ ≤ R
  bound : ∀ x ∈ S, ∀ v, ‖eu m (J x *ᵥ v)‖ ≤ h * ‖eu n v‖
  col : ∀ x ∈ S, ∀ i, δ ≤ ((J x)ᵀ * J x) i i
  descent : ∀ x ∈ S, ∀ c, ‖eu n c‖ ≤ ρ → ‖eu m (r (x + c))‖ ^ 2 / 2 ≤ ‖eu m (r x)‖ ^ 2 / 2 + ((J x)ᵀ *ᵥ r x) ⬝ᵥ c + Λ / 2 * ‖eu n c‖ ^ 2

/-- damping from which on steps have at least the decrease of the linearisation -/
noncomputable def enoughDamping (R h δ Λ ρ : ℝ) : ℝ := Λ / (2 * δ) + h * R / (δ * ρ)

/-- the two criteria on the gradient, and the norm that they ask for -/
def onGradient : StopCrit → Bool
  | .WhenAbsolutel2NormOfGradientBelowTolerance | .WhenRelativel2NormOfGradientBelowTolerance => true
  | _ => false
noncomputable def asked (stop : StopCrit) (tol g0 : ℝ) : ℝ := if stop = .WhenRelativel2NormOfGradientBelowTolerance then tol * g0 else tol

/-- What a `solve` that begins with the memory `s` and ends with `res` has found: it returned normally, without writing the termination file, at a point where the norm of the gradient is below the requested one and the residual is
    not larger than at the initial guess, after at most `N` updates. -/
def Finds (cfg : Cfg ℝ) (r : (n → ℝ) → m → ℝ) (J : (n → ℝ) → Matrix m n ℝ) (N : Nat) (s : Reg ℝ m n p L) (res : Res (Reg ℝ m n p L) Unit) : Prop :=
  res.stop? = none ∧ res.state.files = s.files ∧ ‖eu n (gradAt r J res.state.x)‖ < asked cfg.stop cfg.tol ‖eu n (gradAt r J s.x)‖ ∧ res.state.x ∈ level r s.x ∧
  res.state.log.length ≤ s.log.length + 2 * N + 1

end Pressio.Spec.LmConvergence
