import Mathlib.Analysis.InnerProductSpace.Basic
import Mathlib.LinearAlgebra.Matrix.PosDef
import Verif.Spec.NewtonConvergence
import Verif.Spec.ReducedModel

/-
  What "close to a regular solution" means for the Gauss-Newton solvers, and what the stop criteria promise there.  Residuals are measured by `‖ι r‖`: `ι` is the embedding into Euclidean space, or, with weights, the
  one whose inner product is the weighted one.
-/
namespace Pressio.Spec.GaussNewtonConvergence
set_option autoImplicit false
open Pressio Matrix Pressio.Model.Nonlinear Pressio.Spec.Nonlinear Pressio.Spec.NewtonConvergence
open Pressio.Spec.Reduced (eu)
open scoped InnerProductSpace

variable {E m n p L : Type} [NormedAddCommGroup E] [InnerProductSpace ℝ E] [Fintype m] [Fintype n] [DecidableEq n] [Fintype p]

/-- The solver with this tag minimises `‖ι r‖^2 / 2`: its objective, its gradient and the matrix of its linear system are those of that function (the matrix without second derivatives). -/
structure Minimises (env : Env ℝ m n p L) (tag : Tag) (ι : (m → ℝ) →ₗ[ℝ] E) : Prop where
  obj : ∀ r, objOf env tag r = ‖ι r‖ ^ 2 / 2
  grad : ∀ r J v, gradOf env tag r J ⬝ᵥ v = ⟪ι r, ι (J *ᵥ v)⟫_ℝ
  hess : ∀ J d v w, (hessOf env tag J d *ᵥ v) ⬝ᵥ w = ⟪ι (J *ᵥ v), ι (J *ᵥ w)⟫_ℝ

/-- At `x'` the gradient of `‖ι (r x)‖^2 / 2` vanishes, the Jacobian has full column rank (`‖v‖ ≤ β ‖J x' v‖`) and is bounded by `Λ`; within the distance `ρ` the matrix `J` is the Jacobian and has the Lipschitz constant
    `γ`; and the distance `ρ` and the residual that is left at `x'` are small enough. -/
structure RegularFit (ι : (m → ℝ) →ₗ[ℝ] E) (r : (n → ℝ) → m → ℝ) (J : (n → ℝ) → Matrix m n ℝ) (x' : n → ℝ) (β Λ γ ρ : ℝ) : Prop where
  stationary : ∀ v, ⟪ι (r x'), ι (J x' *ᵥ v)⟫_ℝ = 0
  jac : ∀ x, ‖eu n (x - x')‖ ≤ ρ → IsJacobian r J x
  inv : ∀ v, ‖eu n v‖ ≤ β * ‖ι (J x' *ᵥ v)‖
  bound : ∀ v, ‖ι (J x' *ᵥ v)‖ ≤ Λ * ‖eu n v‖
  lip : ∀ x y v, ‖eu n (x - x')‖ ≤ ρ → ‖eu n (y - x')‖ ≤ ρ → ‖ι (J x *ᵥ v - J y *ᵥ v)‖ ≤ γ * ‖eu n (x - y)‖ * ‖eu n v‖
  β0 : 0 < β
  Λ0 : 0 ≤ Λ
  γ0 : 0 ≤ γ
  small : β * γ * ρ + 4 * β ^ 2 * γ * ‖ι (r x')‖ ≤ 1 / 2

/-- factor by which `k` updates reduce the error: quadratic when the fit is perfect (`σ = 0`), linear otherwise -/
noncomputable def reduction (σ : ℝ) (k : Nat) : ℝ := if σ = 0 then (1 / 2) ^ (2 ^ k - 1) else (1 / 2) ^ k

/-- criteria that can recognise the solution: correction and gradient always; the objective when the fit is perfect; the residual when, moreover, there are no weights -/
def recognises (stop : StopCrit) (tag : Tag) (σ : ℝ) : Prop :=
  match stop with
  | .WhenAbsolutel2NormOfCorrectionBelowTolerance | .WhenRelativel2NormOfCorrectionBelowTolerance => True
  | .WhenAbsolutel2NormOfGradientBelowTolerance | .WhenRelativel2NormOfGradientBelowTolerance => True
  | .WhenAbsoluteObjectiveBelowTolerance | .WhenRelativeObjectiveBelowTolerance => σ = 0
  | .WhenAbsolutel2NormOfResidualBelowTolerance | .WhenRelativel2NormOfResidualBelowTolerance => σ = 0 ∧ (tag = .gn ∨ tag = .gnQr)
  | .AfterMaxIters => False

/-- criteria relative to the first iteration -/
def relative : StopCrit → Bool
  | .WhenRelativel2NormOfCorrectionBelowTolerance | .WhenRelativel2NormOfResidualBelowTolerance | .WhenRelativel2NormOfGradientBelowTolerance | .WhenRelativeObjectiveBelowTolerance => true
  | _ => false

/-- When the error has been reduced by the factor `q`, the criterion is met. -/
def Enough (stop : StopCrit) (tol β Λ ρ q : ℝ) : Prop :=
  match stop with
  | .WhenAbsolutel2NormOfCorrectionBelowTolerance => 3 / 2 * ρ * q < tol
  | .WhenRelativel2NormOfCorrectionBelowTolerance => 3 * q < tol
  | .WhenAbsolutel2NormOfGradientBelowTolerance => 27 / 8 * Λ ^ 2 * ρ * q < tol
  | .WhenRelativel2NormOfGradientBelowTolerance => 27 * Λ ^ 2 * β ^ 2 * q < tol
  | .WhenAbsolutel2NormOfResidualBelowTolerance => 5 / 4 * Λ * ρ * q < tol
  | .WhenRelativel2NormOfResidualBelowTolerance => 5 / 3 * Λ * β * q < tol
  | .WhenAbsoluteObjectiveBelowTolerance => 25 / 32 * Λ ^ 2 * ρ ^ 2 * q ^ 2 < tol
  | .WhenRelativeObjectiveBelowTolerance => 25 / 9 * Λ ^ 2 * β ^ 2 * q ^ 2 < tol
  | .AfterMaxIters => False

/-- The error that a met criterion guarantees; `e0` is the error of the initial guess. -/
noncomputable def fitError (stop : StopCrit) (tol β Λ e0 : ℝ) : ℝ :=
  match stop with
  | .WhenAbsolutel2NormOfCorrectionBelowTolerance => 2 * tol
  | .WhenRelativel2NormOfCorrectionBelowTolerance => 3 * tol * e0
  | .WhenAbsolutel2NormOfGradientBelowTolerance => 8 * β ^ 2 * tol
  | .WhenRelativel2NormOfGradientBelowTolerance => 27 * Λ ^ 2 * β ^ 2 * tol * e0
  | .WhenAbsolutel2NormOfResidualBelowTolerance => 4 / 3 * β * tol
  | .WhenRelativel2NormOfResidualBelowTolerance => 5 / 3 * Λ * β * tol * e0
  | .WhenAbsoluteObjectiveBelowTolerance => 4 / 3 * β * Real.sqrt (2 * tol)
  | .WhenRelativeObjectiveBelowTolerance => 5 / 3 * Λ * β * Real.sqrt tol * e0
  | .AfterMaxIters => 0

/-- What the theorems below promise of a `solve` that begins with the memory `s` and ends with `res`: it returns normally, without writing the termination file, within the error that belongs to the criterion; the system has
    been evaluated at most `k + 1` times, at the points of a sequence `it` that starts at the initial guess and whose errors satisfy the recursion, and the last of these points is the result. -/
def ConvergesTo (ι : (m → ℝ) →ₗ[ℝ] E) (cfg : Cfg ℝ) (r : (n → ℝ) → m → ℝ) (J : (n → ℝ) → Matrix m n ℝ) (x' : n → ℝ) (β Λ γ : ℝ) (k : Nat) (s : Reg ℝ m n p L) (res : Res (Reg ℝ m n p L) Unit) : Prop :=
  res.stop? = none ∧ res.state.files = s.files ∧ ‖eu n (res.state.x - x')‖ ≤ fitError cfg.stop cfg.tol β Λ ‖eu n (s.x - x')‖ ∧
  ∃ (it : Nat → n → ℝ) (j : Nat), it 0 = s.x ∧
    (∀ a, ‖eu n (it (a + 1) - x')‖ ≤ β * γ * ‖eu n (it a - x')‖ ^ 2 + 4 * β ^ 2 * γ * ‖ι (r x')‖ * ‖eu n (it a - x')‖) ∧
    (∀ a, ‖eu n (it a - x')‖ ≤ ‖eu n (s.x - x')‖ * reduction ‖ι (r x')‖ a) ∧
    j ≤ k ∧ res.state.x = it j ∧ res.state.log = s.log ++ (List.range (j + 1)).map (fun a => ⟨it a, true, .ok (r (it a), some (J (it a)))⟩)

end Pressio.Spec.GaussNewtonConvergence
