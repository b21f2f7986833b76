import Verif.Model.Subspace

/-
  Specification of trial subspaces: the affine (or linear) map given by a basis and a translation, and what user code can do to memory.
-/
namespace Pressio.Spec.Subspace
set_option autoImplicit false
open Pressio Pressio.Model.Subspace

variable {K : Type} [Field K]

/-- entry `i` of `Phi x` -/
def linearImage (Phi : DMat K) (x : DVec K) (i : Nat) : K := ∑ j ∈ Finset.range Phi.cols, Phi.at_ i j * x.at_ j

/-- entry `i` of `Phi x + s` (affine) or `Phi x` -/
def image (Phi : DMat K) (s : DVec K) (affine : Bool) (x : DVec K) (i : Nat) : K :=
  linearImage Phi x i + if affine then s.at_ i else 0

/-- a write by user code through a handle it holds -/
inductive Write (K : Type) where
  | vec (a : Nat) (v : DVec K)
  | mat (a : Nat) (m : DMat K)

def Write.apply (h : Heap K) : Write K → Heap K
  | .vec a v => h.setVec a v
  | .mat a m => h.setMat a m

/-- memory after a sequence of writes -/
def writes (h : Heap K) (ws : List (Write K)) : Heap K := ws.foldl Write.apply h

/-- The user writes to cells it had before the subspace was made (addresses below `bound`), but not through the objects it gave away with `std::move`. -/
def Write.ByUser (bound : Nat) (movedB movedT : Bool) (b t : Nat) : Write K → Prop
  | .vec a _ => a < bound ∧ (movedT = true → a ≠ t)
  | .mat a _ => a < bound ∧ (movedB = true → a ≠ b)

/-- `h'` differs from `h` at most in the vector cell `out` -/
def OnlyVec (out : Nat) (h h' : Heap K) : Prop := (∀ a, a ≠ out → h'.vec a = h.vec a) ∧ h'.mat = h.mat ∧ h'.next = h.next ∧ (h'.vec out).len = (h.vec out).len

end Pressio.Spec.Subspace
