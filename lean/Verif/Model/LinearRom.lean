import Verif.Model.Galerkin
import Mathlib.Data.List.FinRange

/-
  Model of the reduced linear operators: `include/pressio/rom/linear_rom.hpp`.
-/
namespace Pressio.Model.LinearRom
set_option autoImplicit false
open Pressio Pressio.Model.Galerkin
open scoped Matrix

variable {K m l : Type} [Field K] [Fintype m] [Fintype l] {r : Nat}

/-- a FOM operator with `apply(v, result)`. Called at `include/pressio/rom/linear_rom.hpp:166,174,181,192,199`. -/
structure LinOp (K m : Type) where
  apply : (m → K) → Call (m → K)

/-- Members of `RomLinearThingy` (`include/pressio/rom/linear_rom.hpp:104-119`).  The pointers to operator, bases and shift are arguments of the functions; what the members contain before the computation is
    arbitrary (Eigen does not initialise them). -/
structure LR (K m l : Type) (r : Nat) where
  AR : Matrix m (Fin r) K
  As : m → K
  hidden : m → K
  redMat : Matrix l (Fin r) K
  redShift : l → K
  redForcing : l → K

/-- assignment to a column. Writing through `column(fomATimesRightBasis_, j)`, `include/pressio/rom/linear_rom.hpp:173-176,191-192`. -/
def setCol (A : Matrix m (Fin r) K) (j : Fin r) (v : m → K) : Matrix m (Fin r) K := fun i k => if k = j then v i else A i k

/-- `fop_->apply(column(rb, j), column(fomATimesRightBasis_, j))` (`include/pressio/rom/linear_rom.hpp:173-175, 190-192`) -/
def applyColumn (op : LinOp K m) (rb : Matrix m (Fin r) K) (j : Fin r) : Prog (LR K m l r) Unit :=
  call (fun s i => s.AR i j) (fun s v => { s with AR := setCol s.AR j v }) (op.apply (fun i => rb i j))

/-- `update(currCol, 1., fomHiddenForcing_, -1.)` (`include/pressio/rom/linear_rom.hpp:176`) -/
def removeForcing (j : Fin r) : Prog (LR K m l r) Unit :=
  Prog.modify (fun s => { s with AR := setCol s.AR j ((1:K) • (fun i => s.AR i j) + (-1:K) • s.hidden) })

/-- the loop over the columns, with its body (`include/pressio/rom/linear_rom.hpp:170-177,188-193`) -/
def columns (body : Fin r → Prog (LR K m l r) Unit) : List (Fin r) → Prog (LR K m l r) Unit
  | [] => pure ()
  | j :: js => do
    body j
    columns body js

/-- `product(pT, pNT, 1., *lb_, fomATimesRightBasis_, 0., redMat_)` (`include/pressio/rom/linear_rom.hpp:178, 197`) -/
def projectMat (lb : Matrix m l K) : Prog (LR K m l r) Unit :=
  Prog.modify (fun s => { s with redMat := (0:K) • s.redMat + (1:K) • (lbᵀ * s.AR) })

/-- `product(pT, 1., *lb_, fomATimeShift_, 0., redShift_)` (`include/pressio/rom/linear_rom.hpp:183, 200`) -/
def projectShift (lb : Matrix m l K) : Prog (LR K m l r) Unit :=
  Prog.modify (fun s => { s with redShift := (0:K) • s.redShift + (1:K) • lbᵀ.mulVec s.As })

/-- `fop_->apply(*shift_, fomATimeShift_)` (`include/pressio/rom/linear_rom.hpp:181, 199`) -/
def applyShift (op : LinOp K m) (shift : m → K) : Prog (LR K m l r) Unit :=
  call (fun s => s.As) (fun s v => { s with As := v }) (op.apply shift)

/-- `compute2` (`include/pressio/rom/linear_rom.hpp:154-184`), used by `create_reduced_linear_operator` -/
def compute2 (op : LinOp K m) (lb : Matrix m l K) (rb : Matrix m (Fin r) K) (shift : m → K) : Prog (LR K m l r) Unit := do
  call (fun s => s.hidden) (fun s v => { s with hidden := v }) (op.apply 0)
  Prog.modify (fun s => { s with redForcing := (0:K) • s.redForcing + (1:K) • lbᵀ.mulVec s.hidden })
  columns (fun j => do applyColumn op rb j; removeForcing j) (List.finRange r)
  projectMat lb
  applyShift op shift
  Prog.modify (fun s => { s with As := (1:K) • s.As + (-1:K) • s.hidden })
  projectShift lb

/-- `compute` (`include/pressio/rom/linear_rom.hpp:186-201`), used by `create_reduced_matrix_operator` -/
def compute (op : LinOp K m) (lb : Matrix m l K) (rb : Matrix m (Fin r) K) (shift : m → K) : Prog (LR K m l r) Unit := do
  columns (applyColumn op rb) (List.finRange r)
  projectMat lb
  applyShift op shift
  projectShift lb

/-- `RomLinearThingyConstVector::compute` (`include/pressio/rom/linear_rom.hpp:238-243`): new content of `result_` -/
def computeConst (evaluate : Except Exc (m → K)) (lb : Matrix m l K) (old : l → K) : Except Exc (l → K) := do
  let f ← evaluate
  pure ((0:K) • old + (1:K) • lbᵀ.mulVec f)

end Pressio.Model.LinearRom
