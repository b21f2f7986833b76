import Verif.Model.SteadySolve
import Verif.Spec.ReducedModel
import Verif.Spec.NonlinearObjects

/-
  Specification of steady reduced problems: what a problem object has to do, and the assumptions on the full-order residual under which reduced solutions are as good as the trial space allows.
-/
namespace Pressio.Spec.SteadySolve
set_option autoImplicit false
open Pressio Matrix Pressio.Model.Galerkin Pressio.Spec.Galerkin
open Pressio.Spec.Reduced (eu)
open Pressio.Model.Nonlinear (Ans Cfg StopCrit)

variable {E K m p n S : Type} [NormedAddCommGroup E] [NormedSpace ℝ E] [Fintype m] [Fintype p] [Fintype n]

/-- whatever its memory, the problem object answers with the residual `r x`, and with the matrix `J x` exactly when it is asked for -/
def Serves (ans : (n → K) → Bool → Prog S (Ans K m n)) (r : (n → K) → m → K) (J : (n → K) → Matrix m n K) : Prop :=
  ∀ x w s, ∃ s', ans x w s = .ok (r x, if w then some (J x) else none) s'

/-- a full-order residual is strongly monotone with constant `α` and Lipschitz with constant `Λ` (for `f y = A y + b`: `A` coercive and bounded) -/
structure Elliptic (f : (m → ℝ) → m → ℝ) (α Λ : ℝ) : Prop where
  pos : 0 < α
  mono : ∀ y z, α * ‖eu m (y - z)‖ ^ 2 ≤ (f y - f z) ⬝ᵥ (y - z)
  lip : ∀ y z, ‖eu m (f y - f z)‖ ≤ Λ * ‖eu m (y - z)‖

/-- a full-order residual determines the state: `α ‖y - z‖ ≤ ‖ι (f y - f z)‖ ≤ Λ ‖y - z‖` -/
structure Conditioned (ι : (p → ℝ) →ₗ[ℝ] E) (f : (m → ℝ) → p → ℝ) (α Λ : ℝ) : Prop where
  pos : 0 < α
  below : ∀ y z, α * ‖eu m (y - z)‖ ≤ ‖ι (f y - f z)‖
  above : ∀ y z, ‖ι (f y - f z)‖ ≤ Λ * ‖eu m (y - z)‖

/-- the columns of the basis are linearly independent: `σ ‖x‖ ≤ ‖Phi x‖` -/
structure FullRank (S : Trial ℝ m n) (σ : ℝ) : Prop where
  pos : 0 < σ
  below : ∀ x, σ * ‖eu n x‖ ≤ ‖eu m (S.basis *ᵥ x)‖

/-- criteria that the initial guess never meets: a number of at least two iterations, and relative criteria with a tolerance of at most one -/
def Corrects (cfg : Cfg ℝ) : Prop :=
  (cfg.stop = .AfterMaxIters ∧ 2 ≤ cfg.maxIters) ∨
  (cfg.stop ∈ [StopCrit.WhenRelativel2NormOfResidualBelowTolerance, .WhenRelativel2NormOfCorrectionBelowTolerance, .WhenRelativel2NormOfGradientBelowTolerance, .WhenRelativeObjectiveBelowTolerance] ∧ cfg.tol ≤ 1)

/-- what the criterion leaves open: the tolerance for the absolute gradient criterion, nothing for criteria that force a correction of a linear problem -/
noncomputable def slack (cfg : Cfg ℝ) : ℝ := if cfg.stop = .WhenAbsolutel2NormOfGradientBelowTolerance then cfg.tol else 0

end Pressio.Spec.SteadySolve
