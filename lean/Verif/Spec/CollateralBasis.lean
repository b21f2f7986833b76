import Verif.Spec.Sampling

/-
  Vocabulary of C108: hyper-reduction with a collateral basis (empirical interpolation, gappy POD).
-/
namespace Pressio.Spec.CollateralBasis
set_option autoImplicit false
open Pressio Matrix Pressio.Model.Galerkin Pressio.Spec.Galerkin

variable {K m q n c : Type} [Field K] [Fintype m] [Fintype q] [Fintype n] [Fintype c] [DecidableEq c]

/-- `W` recovers the coefficients of a vector in the span of `V` from its entries on the sample mesh, which `M` picks: for empirical interpolation `W` is the inverse of the sampled rows `M * V`, for gappy POD a left inverse -/
def Recovers (M : Matrix q m K) (V : Matrix m c K) (W : Matrix c q K) : Prop := W * (M * V) = 1

/-- the hyper-reduction operator of a collateral basis: reconstruct on the full mesh with `V`, then project on the trial basis.  (In practice the product of the three matrices is computed once.) -/
def Reconstructs (H : HypRed K q n) (S : Trial K m n) (V : Matrix m c K) (W : Matrix c q K) : Prop :=
  HypIs H (fun _ v => (S.basisᵀ * V * W) *ᵥ v) (fun _ B => (S.basisᵀ * V * W) * B)

/-- on the trial space, the values of `f` and the derivatives along the trial space lie in the span of `V` -/
structure Spanned (V : Matrix m c K) (S : Trial K m n) (f : (m → K) → K → Except Exc (m → K)) (Df : (m → K) → K → Except Exc (Matrix m m K)) : Prop where
  values : ∀ x t v, f (lift S x) t = .ok v → ∃ a, v = V *ᵥ a
  derivatives : ∀ x t D, Df (lift S x) t = .ok D → ∃ A, D * S.basis = V * A

end Pressio.Spec.CollateralBasis
