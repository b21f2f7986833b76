import Verif.Model.Lspg

/-
  Model of the hyper-reduction updater for Trilinos containers: `include/pressio/rom/rom_lspg_unsteady_hypred_updater_trilinos.hpp`.
  Vectors are multivectors with one column; the overloads for block containers (`:130-156`) take point-wise views and call the ones below.
-/
namespace Pressio.Model.HypredUpdater
set_option autoImplicit false
open Pressio

variable {K : Type} [Field K]

/-- a map: global ids of the local elements of each process. Used at `include/pressio/rom/rom_lspg_unsteady_hypred_updater_trilinos.hpp:61-128`. -/
abbrev DMap := Nat → List Nat

/-- `getLocalElement(gid)` of Tpetra maps: local index, or the invalid index if the calling process does not own it. Called in the loops at `include/pressio/rom/rom_lspg_unsteady_hypred_updater_trilinos.hpp:77-92,113-126`. -/
def localElement (ids : List Nat) (gid : Nat) : Option Nat := if gid ∈ ids then some (ids.idxOf gid) else none

/-- inner loop (`include/pressio/rom/rom_lspg_unsteady_hypred_updater_trilinos.hpp:77-92` for vectors, `:113-126` for column `j` of multivectors): elements left, local index `i`.  State: local data
    `sample_op_data`.  The `assert` is absent in release builds: an invalid index is undefined behaviour in both. -/
def rows (a b : K) (sampleIds stencilIds : List Nat) (stencil : Nat → Nat → K) (j : Nat) : Nat → Nat → Prog (Nat → Nat → K) Unit
  | 0, _ => pure ()
  | c + 1, i => do
    match localElement stencilIds (sampleIds.getD i 0) with
    | none => Prog.undef "not in the stencil mesh of this process"
    | some lid => do
      Prog.modify (fun s => fun x y => if x = i ∧ y = j then a * s i j + b * stencil lid j else s x y)
      rows a b sampleIds stencilIds stencil j c (i + 1)

/-- outer loop over columns (`include/pressio/rom/rom_lspg_unsteady_hypred_updater_trilinos.hpp:112-127`): columns left, column `j` -/
def cols (a b : K) (sampleIds stencilIds : List Nat) (stencil : Nat → Nat → K) : Nat → Nat → Prog (Nat → Nat → K) Unit
  | 0, _ => pure ()
  | c + 1, j => do
    rows a b sampleIds stencilIds stencil j sampleIds.length 0
    cols a b sampleIds stencilIds stencil c (j + 1)

/-- `updateSampleMeshOperandWithStencilMeshOne(sample, a, stencil, b)` on one process (`include/pressio/rom/rom_lspg_unsteady_hypred_updater_trilinos.hpp:61-128`), `n` columns -/
def update (n : Nat) (a b : K) (sampleIds stencilIds : List Nat) (stencil : Nat → Nat → K) : Prog (Nat → Nat → K) Unit := cols a b sampleIds stencilIds stencil n 0

end Pressio.Model.HypredUpdater
