import Verif.Common
import Mathlib.Algebra.BigOperators.Group.Finset.Basic
import Mathlib.Algebra.Field.Defs

/-
  Model of the trial subspaces: `include/pressio/rom/linear_subspace.hpp`, `include/pressio/rom/impl/linear_trial_column_subspace.hpp`,
  `include/pressio/rom/create_subspace.hpp`.

  Vectors and matrices live in a heap, because the library supports containers with value semantics (Eigen) and with view semantics (Kokkos, Tpetra):
  a C++ object of such a type is a handle to a cell.  Sizes are dynamic; a size mismatch in an `ops` kernel is undefined behaviour (an `assert`).
-/
namespace Pressio.Model.Subspace
set_option autoImplicit false
open Pressio

variable {K : Type}

/-- a vector of `len` entries (the values of `at` beyond `len` mean nothing) (`full_state_type` and `reduced_state_type`, `include/pressio/rom/impl/linear_trial_column_subspace.hpp:43,45`) -/
structure DVec (K : Type) where
  len : Nat
  at_ : Nat → K

/-- a matrix of `rows` times `cols` entries (`basis_matrix_type`, `include/pressio/rom/impl/linear_trial_column_subspace.hpp:44`) -/
structure DMat (K : Type) where
  rows : Nat
  cols : Nat
  at_ : Nat → Nat → K

/-- memory: cells with vectors, cells with matrices; addresses from `next` on are free. Where the objects held at `include/pressio/rom/impl/linear_trial_column_subspace.hpp:49-52` live. -/
structure Heap (K : Type) where
  vec : Nat → DVec K
  mat : Nat → DMat K
  next : Nat

/-- what the copy constructor of a container type does. Matters for `translation_(translation)`, `include/pressio/rom/impl/linear_trial_column_subspace.hpp:60,93`. -/
inductive Sem where
  /-- copies the content -/
  | value
  /-- makes another handle of the same content -/
  | view
deriving DecidableEq, Repr

/-- write a cell. Writing into a vector, e.g. `include/pressio/rom/impl/linear_trial_column_subspace.hpp:123,134,147,161`. -/
def Heap.setVec (h : Heap K) (a : Nat) (v : DVec K) : Heap K := { h with vec := fun i => if i = a then v else h.vec i }
/-- Likewise for a matrix, `include/pressio/rom/linear_subspace.hpp:32-44`. -/
def Heap.setMat (h : Heap K) (a : Nat) (m : DMat K) : Heap K := { h with mat := fun i => if i = a then m else h.mat i }

/-- a new cell. Object creation at `include/pressio/rom/impl/linear_trial_column_subspace.hpp:101,121,132`. -/
def allocVec (v : DVec K) : Prog (Heap K) Nat := fun h => .ok h.next { h.setVec h.next v with next := h.next + 1 }
/-- Object creation at `include/pressio/rom/linear_subspace.hpp:32-44`. -/
def allocMat (m : DMat K) : Prog (Heap K) Nat := fun h => .ok h.next { h.setMat h.next m with next := h.next + 1 }

/-- `ops::clone` (`include/pressio/rom/impl/linear_trial_column_subspace.hpp:101,132`) -/
def cloneVec (a : Nat) : Prog (Heap K) Nat := fun h => allocVec (h.vec a) h
/-- `ops::clone` at `include/pressio/rom/linear_subspace.hpp:32-44`. -/
def cloneMat (a : Nat) : Prog (Heap K) Nat := fun h => allocMat (h.mat a) h

/-- copy constructor (`include/pressio/rom/impl/linear_trial_column_subspace.hpp:60,93`) -/
def copyVec (sem : Sem) (a : Nat) : Prog (Heap K) Nat :=
  match sem with
  | .value => cloneVec a
  | .view => pure a

/-- move constructor: takes over the cell (`include/pressio/rom/impl/linear_trial_column_subspace.hpp:69,71,82,91`) -/
def moveCell (a : Nat) : Prog (Heap K) Nat := pure a

/-- `ops::fill(v, c)` (`include/pressio/rom/impl/linear_trial_column_subspace.hpp:123,134`) -/
def fill (a : Nat) (c : K) : Prog (Heap K) Unit := fun h => .ok () (h.setVec a { h.vec a with at_ := fun _ => c })

section
variable [Field K]

/-- `ops::product(nontranspose(), alpha, A, x, beta, y)`: `y = beta y + alpha A x` (`include/pressio/rom/impl/linear_trial_column_subspace.hpp:147-148`) -/
def product (alpha : K) (A : Nat) (x : DVec K) (beta : K) (y : Nat) : Prog (Heap K) Unit := fun h =>
  if (h.vec y).len = (h.mat A).rows ∧ x.len = (h.mat A).cols then
    .ok () (h.setVec y { h.vec y with at_ := fun i => beta * (h.vec y).at_ i + alpha * ∑ j ∈ Finset.range (h.mat A).cols, (h.mat A).at_ i j * x.at_ j })
  else .stop (.ub "ops::product: sizes") h

/-- `ops::update(v, a, w, b)`: `v = a v + b w` (`include/pressio/rom/impl/linear_trial_column_subspace.hpp:161`) -/
def update (v : Nat) (a : K) (w : Nat) (b : K) : Prog (Heap K) Unit := fun h =>
  if (h.vec v).len = (h.vec w).len then
    .ok () (h.setVec v { h.vec v with at_ := fun i => a * (h.vec v).at_ i + b * (h.vec w).at_ i })
  else .stop (.ub "ops::update: sizes") h

/-! ### LinearSubspace -/

/-- `SpanningSet` (`include/pressio/rom/linear_subspace.hpp:12`) -/
inductive SpanningSet where
  | columns | rows
deriving DecidableEq, Repr

/-- members of `LinearSubspace` (`include/pressio/rom/linear_subspace.hpp:28-29`) -/
structure LinSub where
  basis : Nat
  set : SpanningSet

/-- constructors from an lvalue (clones) and from an rvalue (moves) (`include/pressio/rom/linear_subspace.hpp:32-40`) -/
def linSub (moved : Bool) (b : Nat) (set : SpanningSet) : Prog (Heap K) LinSub := do
  let a ← if moved then moveCell b else cloneMat b
  pure ⟨a, set⟩

/-- copy constructor (`include/pressio/rom/linear_subspace.hpp:42-44`) -/
def copyLinSub (l : LinSub) : Prog (Heap K) LinSub := do
  let a ← cloneMat l.basis
  pure ⟨a, l.set⟩

/-- `dimension()` (`include/pressio/rom/linear_subspace.hpp:59-68`) -/
def LinSub.dimension (l : LinSub) (h : Heap K) : Nat :=
  match l.set with
  | .columns => (h.mat l.basis).cols
  | .rows => (h.mat l.basis).rows

/-! ### TrialColumnSubspace -/

/-- members of `TrialColumnSubspace` (`include/pressio/rom/impl/linear_trial_column_subspace.hpp:49-52`); `dummy_` is always null -/
structure Sub where
  lin : LinSub
  translation : Nat
  isAffine : Bool

/-- `setShiftToZeroIfNonAffine` (`include/pressio/rom/impl/linear_trial_column_subspace.hpp:190-194`) -/
def setShiftToZero (s : Sub) : Prog (Heap K) Unit :=
  if s.isAffine then pure () else fill s.translation 0

/-- The four constructors (`include/pressio/rom/impl/linear_trial_column_subspace.hpp:55-97`), selected by `create_trial_column_subspace`
    (`include/pressio/rom/create_subspace.hpp:13-41`) according to whether basis and translation are rvalues: an lvalue basis is cloned, an lvalue translation copy-constructed. -/
def create (sem : Sem) (movedB movedT : Bool) (b t : Nat) (affine : Bool) : Prog (Heap K) Sub := do
  let l ← linSub movedB b .columns
  let a ← if movedT then moveCell t else copyVec sem t
  setShiftToZero ⟨l, a, affine⟩
  pure ⟨l, a, affine⟩

/-- copy constructor (`include/pressio/rom/impl/linear_trial_column_subspace.hpp:99-105`) -/
def copySub (s : Sub) : Prog (Heap K) Sub := do
  let l ← copyLinSub s.lin
  let a ← cloneVec s.translation
  setShiftToZero ⟨l, a, s.isAffine⟩
  pure ⟨l, a, s.isAffine⟩

/-- `createReducedState()` (`include/pressio/rom/impl/linear_trial_column_subspace.hpp:119-125` with `CreateReducedState`, `:7-35`): `g` is the arbitrary content of the new
    vector before `fill` -/
def createReducedState (s : Sub) (g : Nat → K) : Prog (Heap K) Nat := do
  let h ← Prog.get
  let a ← allocVec ⟨(h.mat s.lin.basis).cols, g⟩
  fill a 0
  pure a

/-- `createFullState()` (`include/pressio/rom/impl/linear_trial_column_subspace.hpp:127-136`) -/
def createFullState (s : Sub) : Prog (Heap K) Nat := do
  let a ← cloneVec s.translation
  fill a 0
  pure a

/-- `mapFromReducedStateWithoutTranslation` (`include/pressio/rom/impl/linear_trial_column_subspace.hpp:138-149`) -/
def mapNoTranslation (s : Sub) (x : DVec K) (out : Nat) : Prog (Heap K) Unit := product 1 s.lin.basis x 0 out

/-- `mapFromReducedState` (`include/pressio/rom/impl/linear_trial_column_subspace.hpp:151-163`) -/
def map (s : Sub) (x : DVec K) (out : Nat) : Prog (Heap K) Unit := do
  mapNoTranslation s x out
  if s.isAffine then update out 1 s.translation 1 else pure ()

/-- `createFullStateFromReducedState` (`include/pressio/rom/impl/linear_trial_column_subspace.hpp:165-170`) -/
def createFullStateFromReduced (s : Sub) (x : DVec K) : Prog (Heap K) Nat := do
  let a ← createFullState s
  map s x a
  pure a

/-- `basisOfTranslatedSpace()` (`include/pressio/rom/impl/linear_trial_column_subspace.hpp:177-179`) -/
def basisOfTranslatedSpace (s : Sub) : Prog (Heap K) (DMat K) := fun h => .ok (h.mat s.lin.basis) h

/-- `basis()` (`include/pressio/rom/impl/linear_trial_column_subspace.hpp:181-187`) -/
def basis (s : Sub) : Prog (Heap K) (DMat K) := fun h =>
  if s.isAffine then .ok (h.mat s.lin.basis) h else .stop (.ub "null pointer dereferenced") h

/-- `translationVector()` (`include/pressio/rom/impl/linear_trial_column_subspace.hpp:174`) -/
def translationVector (s : Sub) : Prog (Heap K) (DVec K) := fun h => .ok (h.vec s.translation) h

/-- `dimension()` (`include/pressio/rom/impl/linear_trial_column_subspace.hpp:175`) -/
def dimension (s : Sub) : Prog (Heap K) Nat := fun h => .ok (s.lin.dimension h) h

end
end Pressio.Model.Subspace
