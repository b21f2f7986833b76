import Verif.Spec.Lspg
import Verif.Spec.SolverAlike

/-
  Vocabulary of C102: a full mesh, a stencil mesh in it, and a sample mesh; and least-squares solvers with weights.
-/
namespace Pressio.Spec.Sampling
set_option autoImplicit false
open Pressio Matrix Pressio.Model.Galerkin Pressio.Spec.Galerkin
open Pressio.Model.Nonlinear (Env Tag)

variable {K m s q n p L : Type} [Field K] [Fintype m] [Fintype s] [Fintype n]

/-- the trial space seen on the stencil mesh: `P` restricts from the full mesh to the stencil mesh -/
def onStencil (P : Matrix s m K) (S : Trial K m n) : Trial K s n := ⟨P * S.basis, P *ᵥ S.translation, S.isAffine⟩

/-- `f'`, `Df'` are what a sample-mesh code computes for the full-mesh functions `f`, `Df`: from the values on the stencil mesh, the entries of `f` and the rows of its Jacobian on the sample mesh.  `P` restricts to the stencil mesh, and `E` from there to the sample mesh.
    (That `f'` can be computed from the values on the stencil is what makes it a stencil.) -/
structure Samples (P : Matrix s m K) (E : Matrix q s K) (f : (m → K) → K → Except Exc (m → K)) (Df : (m → K) → K → Except Exc (Matrix m m K))
    (f' : (s → K) → K → Except Exc (q → K)) (Df' : (s → K) → K → Except Exc (Matrix q s K)) : Prop where
  values : ∀ y t, f' (P *ᵥ y) t = (f y t).map (fun v => (E * P) *ᵥ v)
  rows : ∀ y t, (Df' (P *ᵥ y) t).map (fun D => D * P) = (Df y t).map (fun D => (E * P) * D)

/-- a Gauss-Newton solver that weighs residuals by `M`: weighted with `MᵀM`, or compactly weighted with `M` -/
def Weighs (env : Env K m n q L) (M : Matrix q m K) [Fintype q] : Tag → Prop
  | .wgn => (∀ r, env.wR r = (Mᵀ * M) *ᵥ r) ∧ ∀ J, env.wJ J = (Mᵀ * M) * J
  | .cwgn => (∀ r, env.cwR r = M *ᵥ r) ∧ ∀ J, env.cwJ J = M * J
  | _ => False

end Pressio.Spec.Sampling
