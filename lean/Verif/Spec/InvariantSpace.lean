import Verif.Spec.Galerkin
import Verif.Model.SteadySolve

/-
  Trial spaces that the full-order model does not leave.
-/
namespace Pressio.Spec.InvariantSpace
set_option autoImplicit false
open Pressio Matrix
open Pressio.Model.Galerkin (Trial)
open Pressio.Spec.Galerkin (lift)
open Pressio.Model.Nonlinear (Ans)

variable {K m n : Type} [Field K] [Fintype m] [Fintype n]

/-- The trial space is invariant under `dy/dt = f(y, t)`: at its states the right-hand side (where it can be evaluated) is in the range of the basis, and the Jacobian maps this range into itself.  (For linear problems `f = A y`, `Df = A` and a linear trial space, both say that the range of the basis is an invariant subspace of `A`.) -/
def InvariantSpace (S : Trial K m n) (f : (m → K) → K → Except Exc (m → K)) (Df : (m → K) → K → Except Exc (Matrix m m K)) : Prop :=
  (∀ x t v, f (lift S x) t = .ok v → ∃ z, v = S.basis *ᵥ z) ∧ ∀ x t D, Df (lift S x) t = .ok D → ∃ A, D * S.basis = S.basis * A

/-- The trial space is invariant under `M(y, t) dy/dt = f(y, t)`: at its states `f = M Phi z` for some `z`, and `Df Phi = M Phi A` for some `A`. -/
def InvariantSpaceMM (S : Trial K m n) (f : (m → K) → K → Except Exc (m → K)) (Df Mm : (m → K) → K → Except Exc (Matrix m m K)) : Prop :=
  ∀ x t M, Mm (lift S x) t = .ok M → (∀ v, f (lift S x) t = .ok v → ∃ z, v = (M * S.basis) *ᵥ z) ∧ ∀ D, Df (lift S x) t = .ok D → ∃ A, D * S.basis = (M * S.basis) * A

/-- the residual and Jacobian of a steady problem at the states of a trial space: residuals in the range of the basis, Jacobians mapping it into itself -/
def InvariantResidual (S : Trial K m n) (f : (m → K) → m → K) (Df : (m → K) → Matrix m m K) : Prop := ∀ x, (∃ z, f (lift S x) = S.basis *ᵥ z) ∧ ∃ A, Df (lift S x) * S.basis = S.basis * A

/-- two solves through problem objects: same end, same point, evaluations at the same points -/
def SameSteady {P P' k k' T T' : Type} (φ : (k' → K) → k → K) (a : Res (SolveSt (k → K) T (Ans K P k)) Unit) (b : Res (SolveSt (k' → K) T' (Ans K P' k')) Unit) : Prop :=
  a.stop? = b.stop? ∧ a.state.y = φ b.state.y ∧ a.state.log.map (fun e => (e.x, e.wantJ)) = b.state.log.map (fun e => (φ e.x, e.wantJ))

end Pressio.Spec.InvariantSpace
