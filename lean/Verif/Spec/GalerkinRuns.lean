import Verif.Spec.ReducedModel
import Verif.Spec.NewtonConvergence

/-
  Galerkin runs: best approximation in the trial space, and full-order models that are well-behaved on part of the trial space.
-/
namespace Pressio.Spec.GalerkinRuns
set_option autoImplicit false
open Pressio Matrix Pressio.Model.Galerkin Pressio.Spec.Galerkin Pressio.Spec.Reduced Pressio.Spec.NewtonConvergence

variable {m n : Type} [Fintype m] [Fintype n] [DecidableEq m] [DecidableEq n]

/-- coordinates of the orthogonal projection of a full-order state onto the trial space (orthonormal basis) -/
noncomputable def coords (S : Trial ℝ m n) (y : m → ℝ) : n → ℝ := S.basisᵀ *ᵥ (y - lift S 0)

/-- the orthogonal projection itself (`C95_best`: no state of the trial space is nearer) -/
noncomputable def best (S : Trial ℝ m n) (y : m → ℝ) : m → ℝ := lift S (coords S y)

/-- On the states of the trial space that lie in `V`, between the times `a` and `b`: `Df` is the Jacobian of the full-order right-hand side `f`, with Lipschitz constant `γ`, and `f` is bounded by `F`. -/
structure TrialTame (S : Trial ℝ m n) (f : (m → ℝ) → ℝ → m → ℝ) (Df : (m → ℝ) → ℝ → Matrix m m ℝ) (V : Set (m → ℝ)) (a b γ F : ℝ) : Prop where
  jac : ∀ t ∈ Set.Icc a b, ∀ x, lift S x ∈ V → IsJacobian (fun y => f y t) (fun y => Df y t) (lift S x)
  lip : ∀ t ∈ Set.Icc a b, ∀ x z, lift S x ∈ V → lift S z ∈ V → ∀ v, ‖eu m (Df (lift S x) t *ᵥ v - Df (lift S z) t *ᵥ v)‖ ≤ γ * ‖eu m (lift S x - lift S z)‖ * ‖eu m v‖
  bound : ∀ t ∈ Set.Icc a b, ∀ x, lift S x ∈ V → ‖eu m (f (lift S x) t)‖ ≤ F
  γ0 : 0 ≤ γ
  F0 : 0 ≤ F

/-- the states of the trial space within the distance `d` of the projections of the states `ψ t`, `a ≤ t ≤ b` -/
def Tube (S : Trial ℝ m n) (ψ : ℝ → m → ℝ) (a b d : ℝ) : Set (m → ℝ) := {y | ∃ t ∈ Set.Icc a b, ∃ x, y = lift S x ∧ ‖eu m y - eu m (best S (ψ t))‖ ≤ d}

end Pressio.Spec.GalerkinRuns
