import Verif.Spec.ImplicitNewtonRuns
import Verif.Spec.MassMatrix
import Verif.Spec.Implicit
import Verif.Spec.ReducedModel

/-
  Problems `M y' = f(y, t)` with constant mass matrix for the Newton solver.
-/
namespace Pressio.Spec.MassMatrixNewton
set_option autoImplicit false
open Matrix Pressio Pressio.Spec.NewtonConvergence Pressio.Spec.MassMatrix Pressio.Model.Nonlinear Pressio.Model.Implicit Pressio.Spec.Implicit Pressio.Spec.Reduced
open Pressio.Model.Explicit (Scheme)

section
variable {K n p L : Type} [Field K] [Fintype n] [DecidableEq n] [Fintype p]

/-- the user's system for `M y' = f(y, t)` with Jacobian `Df` of `f`, never failing -/
def massSystem (M : Matrix n n K) (f : (n → K) → K → n → K) (Df : (n → K) → K → Matrix n n K) : IMMSystem K (n → K) (Matrix n n K) (Matrix n n K) :=
  ⟨fun y t w => .ok (M, f y t, if w then some (Df y t) else none)⟩

/-- the equation of a step: BDF2 once there are two states, BDF1 otherwise -/
def massRes (name : Scheme) (M : Matrix n n K) (f : (n → K) → K → n → K) (hist : List (n → K)) (t dt : K) (y : n → K) : n → K :=
  match name, hist with
  | .BDF2, yn :: ynm1 :: _ => M *ᵥ (y - ((4:K)/3) • yn + ((1:K)/3) • ynm1) - ((2:K)/3 * dt) • f y (t + dt)
  | _, yn :: _ => M *ᵥ (y - yn) - dt • f y (t + dt)
  | _, [] => 0

/-- its Jacobian -/
def massJac (name : Scheme) (M : Matrix n n K) (Df : (n → K) → K → Matrix n n K) (hist : List (n → K)) (t dt : K) (y : n → K) : Matrix n n K :=
  match name, hist with
  | .BDF2, _ :: _ :: _ => M - ((2:K)/3 * dt) • Df y (t + dt)
  | _, _ => M - dt • Df y (t + dt)

/-- A solver that multiplies residual and Jacobian by `M` before it takes norms and solves linear systems. -/
def scaledEnv (M : Matrix n n K) (env : Env K n n p L) : Env K n n p L :=
  { env with normM := fun v => env.normM (M *ᵥ v), linJ := fun A b => env.linJ (M * A) (M *ᵥ b) }

/-- what a user observes of an attempted step, apart from the values of the residuals: accepted states before it, time and size, the points at which the solver evaluated the equations, how it ended, the state afterwards -/
structure Seen (K Y : Type) where
  hist : List Y
  t : K
  dt : K
  points : List (Y × Bool)
  stop : Option Stop
  y : Y

def seen {Y A : Type} (r : Record K Y A) : Seen K Y := ⟨r.hist, r.t, r.dt, r.queries.map (fun q => (q.x, q.wantJ)), r.stop, r.y⟩
end

variable {n : Type} [Fintype n] [DecidableEq n]

/-- On the set `U` and between the times `a` and `b`: `Df` is the Jacobian of `f`, with Lipschitz constant `γ`; `f` is bounded by `F`; and for all `c` up to the largest step size `H`, multiplication by `M - c Df` shrinks vectors at
    most `β` times more than multiplication by `M`.  (For symmetric positive definite `M` and monotone `f`: `β` is the condition number of `M`.) -/
structure TameMass (M : Matrix n n ℝ) (f : (n → ℝ) → ℝ → n → ℝ) (Df : (n → ℝ) → ℝ → Matrix n n ℝ) (U : Set (n → ℝ)) (a b H β γ F : ℝ) : Prop where
  jac : ∀ t ∈ Set.Icc a b, ∀ y ∈ U, IsJacobian (fun y => f y t) (fun y => Df y t) y
  lip : ∀ t ∈ Set.Icc a b, ∀ x ∈ U, ∀ y ∈ U, ∀ v, ‖eu n (Df x t *ᵥ v - Df y t *ᵥ v)‖ ≤ γ * ‖eu n (x - y)‖ * ‖eu n v‖
  bound : ∀ t ∈ Set.Icc a b, ∀ y ∈ U, ‖eu n (f y t)‖ ≤ F
  inv : ∀ t ∈ Set.Icc a b, ∀ y ∈ U, ∀ c ∈ Set.Icc 0 H, ∀ v, ‖eu n (M *ᵥ v)‖ ≤ β * ‖eu n ((M - c • Df y t) *ᵥ v)‖
  β0 : 0 ≤ β
  γ0 : 0 ≤ γ
  F0 : 0 ≤ F

/-- the points at most `d` away, in the energy norm, from one of the points of `S` -/
def WithinEnergy (M : Matrix n n ℝ) (S : Set (n → ℝ)) (d : ℝ) : Set (n → ℝ) := {x | ∃ y ∈ S, energy M (x - y) ≤ d}

end Pressio.Spec.MassMatrixNewton
