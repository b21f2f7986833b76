import Verif.Model.QR
import Mathlib.Algebra.Order.Field.Basic

/- Vocabulary for the QR solvers. -/
namespace Pressio.Spec.QR
set_option autoImplicit false
open Pressio Matrix
open Pressio.Model.QR (MV)

variable {K m : Type} [Field K] [LinearOrder K] [Fintype m]

/-- the matrix a multivector holds -/
def mat (M : MV K m) : Matrix m (Fin M.num) K := Matrix.of fun i j => M.col j i

/-- its first `N` columns -/
def firstCols (N : Nat) (M : MV K m) : Matrix m (Fin N) K := Matrix.of fun i j => M.col j i

/-- `A = Q R` with orthonormal columns of `Q`, `R` upper triangular with positive diagonal -/
def IsThinQR {N : Nat} (A Q : Matrix m (Fin N) K) (R : Matrix (Fin N) (Fin N) K) : Prop :=
  A = Q * R ∧ Qᵀ * Q = 1 ∧ (∀ i j, j < i → R i j = 0) ∧ ∀ i, 0 < R i i

/-- `c` is the one vector at which `|A c - v|` is smallest -/
def UniqueMinimiser {N : Nat} (A : Matrix m (Fin N) K) (v : m → K) (c : Fin N → K) : Prop :=
  (∀ d, (A *ᵥ c - v) ⬝ᵥ (A *ᵥ c - v) ≤ (A *ᵥ d - v) ⬝ᵥ (A *ᵥ d - v)) ∧
  ∀ d, (∀ e, (A *ᵥ d - v) ⬝ᵥ (A *ᵥ d - v) ≤ (A *ᵥ e - v) ⬝ᵥ (A *ᵥ e - v)) → d = c

/-- the Euclidean norm -/
def IsNorm (norm2 : (m → K) → K) : Prop := ∀ v, 0 ≤ norm2 v ∧ norm2 v * norm2 v = v ⬝ᵥ v

/-- Eigen's triangular solver solves systems with an upper triangular matrix without zeros on the diagonal -/
def TriSolves (tri : (N : Nat) → Matrix (Fin N) (Fin N) K → (Fin N → K) → Fin N → K) : Prop :=
  ∀ N U b, (∀ i j, j < i → U i j = 0) → (∀ i, U i i ≠ 0) → U *ᵥ tri N U b = b

end Pressio.Spec.QR
