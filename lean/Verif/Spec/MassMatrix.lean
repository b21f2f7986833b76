import Mathlib.LinearAlgebra.Matrix.NonsingularInverse
import Mathlib.Analysis.SpecialFunctions.Pow.Real
import Mathlib.Analysis.Calculus.Deriv.Basic
import Mathlib.Analysis.Calculus.Deriv.Pi

/-
  What is needed to state stability and convergence of problems `M y' = f(y, t)` with a constant mass matrix.
-/
namespace Pressio.Spec.MassMatrix
set_option autoImplicit false
open Matrix

variable {n : Type} [Fintype n] [DecidableEq n]

/-- `M` is symmetric and `x·Mx ≥ μ x·x` with `μ > 0`, as for the mass matrix of a finite-element discretisation -/
structure SPD (M : Matrix n n ℝ) (μ : ℝ) : Prop where
  symm : Mᵀ = M
  pos : 0 < μ
  coercive : ∀ x : n → ℝ, μ * (x ⬝ᵥ x) ≤ x ⬝ᵥ (M *ᵥ x)

/-- energy norm `√(x·Mx)` -/
noncomputable def energy (M : Matrix n n ℝ) (x : n → ℝ) : ℝ := Real.sqrt (x ⬝ᵥ (M *ᵥ x))

/-- `M ψ' = f(ψ, t)` on `[a, b]` -/
structure Solves (M : Matrix n n ℝ) (f : (n → ℝ) → ℝ → n → ℝ) (ψ ψ' : ℝ → n → ℝ) (a b : ℝ) : Prop where
  deriv : ∀ s ∈ Set.Icc a b, HasDerivAt ψ (ψ' s) s
  equation : ∀ s ∈ Set.Icc a b, M *ᵥ ψ' s = f (ψ s) s

/-- the derivative of the solution is Lipschitz in the energy norm -/
def Smooth1 (M : Matrix n n ℝ) (ψ' : ℝ → n → ℝ) (C a b : ℝ) : Prop :=
  ∀ s ∈ Set.Icc a b, ∀ u ∈ Set.Icc a b, energy M (ψ' s - ψ' u) ≤ C * |s - u|

/-- the time derivative `M⁻¹ f(ψ, t)` of the solution has itself a derivative `ψ''`, bounded by `C2` and Lipschitz with constant `C3` in the energy norm -/
structure Smooth2 (M : Matrix n n ℝ) (f : (n → ℝ) → ℝ → n → ℝ) (ψ ψ'' : ℝ → n → ℝ) (C2 C3 a b : ℝ) : Prop where
  deriv : ∀ s ∈ Set.Icc a b, HasDerivAt (fun s => M⁻¹ *ᵥ f (ψ s) s) (ψ'' s) s
  bound : ∀ s ∈ Set.Icc a b, energy M (ψ'' s) ≤ C2
  lip : ∀ s ∈ Set.Icc a b, ∀ u ∈ Set.Icc a b, energy M (ψ'' s - ψ'' u) ≤ C3 * |s - u|

end Pressio.Spec.MassMatrix
