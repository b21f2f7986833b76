import Verif.Spec.NewtonConvergence

/-
  Right-hand sides for which Newton's method is well-behaved in the equations of the implicit schemes.
-/
namespace Pressio.Spec.ImplicitNewtonRuns
set_option autoImplicit false
open Matrix Pressio.Spec.NewtonConvergence Pressio.Model.Nonlinear

variable {E n : Type} [NormedAddCommGroup E] [NormedSpace ℝ E] [Fintype n] [DecidableEq n]

/-- On the set `U` and between the times `a` and `b`: `Df` is the Jacobian of `f`, with Lipschitz constant `γ`; `f` is bounded by `F`; and for all `c` up to the largest step size `H` the matrices `I - c Df` have inverses
    bounded by `β`.  (`β = 1` if `f` is monotone, `β = 2` if `Df` is bounded by `1 / (2 H)`.) -/
structure Tame (ι : (n → ℝ) →ₗ[ℝ] E) (f : (n → ℝ) → ℝ → n → ℝ) (Df : (n → ℝ) → ℝ → Matrix n n ℝ) (U : Set (n → ℝ)) (a b H β γ F : ℝ) : Prop where
  jac : ∀ t ∈ Set.Icc a b, ∀ y ∈ U, IsJacobian (fun y => f y t) (fun y => Df y t) y
  lip : ∀ t ∈ Set.Icc a b, ∀ x ∈ U, ∀ y ∈ U, ∀ v, ‖ι (Df x t *ᵥ v - Df y t *ᵥ v)‖ ≤ γ * ‖ι (x - y)‖ * ‖ι v‖
  bound : ∀ t ∈ Set.Icc a b, ∀ y ∈ U, ‖ι (f y t)‖ ≤ F
  inv : ∀ t ∈ Set.Icc a b, ∀ y ∈ U, ∀ c ∈ Set.Icc 0 H, ∀ v, ‖ι v‖ ≤ β * ‖ι ((1 - c • Df y t) *ᵥ v)‖
  β0 : 0 ≤ β
  γ0 : 0 ≤ γ
  F0 : 0 ≤ F

/-- the points at most `d` away from one of the points of `S` -/
def Within (ι : (n → ℝ) →ₗ[ℝ] E) (S : Set (n → ℝ)) (d : ℝ) : Set (n → ℝ) := {x | ∃ y ∈ S, ‖ι x - ι y‖ ≤ d}

/-- a Newton solver with the criterion on the norm of the residual, standard updates, and a linear solver (`sol`: its answer; `tick`: what a call does to the object) that is exact on regular matrices -/
structure ExactNewton {p L : Type} (ι : (n → ℝ) →ₗ[ℝ] E) (env : Env ℝ n n p L) (cfg : Cfg ℝ) (sol : Matrix n n ℝ → (n → ℝ) → n → ℝ) (tick : L → L) : Prop where
  inj : Function.Injective ι
  norm : ∀ v, env.normM v = ‖ι v‖
  lin : ∀ A b c l, env.linJ A b (c, l) = .ok () (sol A b, tick l)
  exact : ∀ A b, IsUnit A.det → A *ᵥ sol A b = b
  crit : cfg.stop = .WhenAbsolutel2NormOfResidualBelowTolerance
  upd : cfg.update = .Standard
  max : cfg.maxIters < int32Max

/-- steps small enough for Newton's method to converge from the last state, and `k` updates enough for the tolerance (the reduction is doubly exponential in `k`) -/
structure Affords (cfg : Cfg ℝ) (H β γ F : ℝ) (k : Nat) : Prop where
  small : β ^ 2 * (H * γ) * (H * F + cfg.tol / 2) ≤ 1
  tol0 : 0 ≤ cfg.tol
  iters : (k + 1 : Int) < cfg.maxIters
  reduces : (H * F + cfg.tol / 2) * (1 / 2) ^ (2 ^ k - 1) < cfg.tol

end Pressio.Spec.ImplicitNewtonRuns
