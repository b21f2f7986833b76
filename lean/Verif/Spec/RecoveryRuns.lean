import Verif.Spec.AdvanceDrive
import Verif.Spec.NewtonConvergence
import Verif.Model.Implicit

/-
  When step-size recovery can be relied on.
-/
namespace Pressio.Spec.RecoveryRuns
set_option autoImplicit false
open Pressio Pressio.Model.Advance

variable {K U : Type}

/-- A step-size policy of the advancer with recovery: it never throws; the sizes that it sets are in `[δ, H]`, its reduction factors in `[ρ, Φ]`, and its minimum sizes are not above the sizes, and leave room for one reduction of a size above `h0`. -/
def Recovering [Mul K] [LE K] (pol5 : Int → K → DtVars K → Prog U (DtVars K)) (δ H ρ Φ h0 : K) : Prop :=
  ∀ i t v u, ∃ v' u', pol5 i t v u = .ok v' u' ∧ δ ≤ v'.dt ∧ v'.dt ≤ H ∧ v'.minDt ≤ v'.dt ∧ ρ ≤ v'.factor ∧ v'.factor ≤ Φ ∧ v'.minDt * Φ ≤ h0

section
open Matrix Pressio.Model.Implicit
open Pressio.Model.Nonlinear (Cfg)
variable {n : Type} [Fintype n] [DecidableEq n] {E : Type} [NormedAddCommGroup E] [NormedSpace ℝ E]

open Classical in
/-- the system of an ODE `y' = f(y, t)` with Jacobian `Df` that can only be evaluated on the domain `Dom` (densities must be positive, ...): elsewhere the user's function throws `VelocityFailureUnrecoverable`, and has overwritten its
    output with `junk` -/
noncomputable def domSystem (f : (n → ℝ) → ℝ → (n → ℝ)) (Df : (n → ℝ) → ℝ → Matrix n n ℝ) (Dom : (n → ℝ) → ℝ → Prop) (junk : n → ℝ) : ISystem ℝ (n → ℝ) (Matrix n n ℝ) :=
  ⟨fun y t w => if Dom y t then .ok (f y t, if w then some (Df y t) else none) else .error (.velocityFailureUnrecoverable, junk)⟩

/-- the `k`-th Newton iterate of a BDF1 step of size `h` from `yn` at time `t` -/
noncomputable def newtonIterate (f : (n → ℝ) → ℝ → (n → ℝ)) (Df : (n → ℝ) → ℝ → Matrix n n ℝ) (sol : Matrix n n ℝ → (n → ℝ) → n → ℝ) (yn : n → ℝ) (t h : ℝ) (k : Nat) : n → ℝ :=
  (fun x => x + -sol (1 - h • Df x (t + h)) (x - yn - h • f x (t + h)))^[k] yn

/-- In steps of sizes up to `H` Newton's method is decisive: within the allowed iterations it finds a small residual or leaves the domain.  (It does so for affine right-hand sides, see `C97_affine_decisive`.  A solve that is not decisive returns
    the last iterate as if it had converged, see C33.) -/
def Decisive (ι : (n → ℝ) →ₗ[ℝ] E) (f : (n → ℝ) → ℝ → (n → ℝ)) (Df : (n → ℝ) → ℝ → Matrix n n ℝ) (Dom : (n → ℝ) → ℝ → Prop) (sol : Matrix n n ℝ → (n → ℝ) → n → ℝ) (cfg : Cfg ℝ) (a b H : ℝ) : Prop :=
  ∀ yn, ∀ t ∈ Set.Icc a b, ∀ h, 0 ≤ h → h ≤ H → ∃ k : Nat, (k : Int) < cfg.maxIters ∧
    (¬ Dom (newtonIterate f Df sol yn t h k) (t + h) ∨ ‖ι (newtonIterate f Df sol yn t h k - yn - h • f (newtonIterate f Df sol yn t h k) (t + h))‖ < cfg.tol)
end

end Pressio.Spec.RecoveryRuns
