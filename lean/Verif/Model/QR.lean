import Verif.Common
import Mathlib.LinearAlgebra.Matrix.DotProduct
import Mathlib.Data.Matrix.Mul

/-
  Model of the QR solvers for the QR variant of Gauss-Newton: `include/pressio/solvers_nonlinear/impl/qr/`.
  (`computeThin`, `applyQTranspose`, `solve` of `QRSolver`, `qr_base_classes.hpp:98-140,170-182` and `qr_concrete_classes.hpp:94-136`, only forward to the classes below; which class is used for
  which matrix and algorithm is `Kind`.)  Vectors have entries indexed by `m`; rounding is not modelled.
-/
namespace Pressio.Model.QR
set_option autoImplicit false
open Pressio

variable {K m : Type}

/-- A multivector: the label of its row map (two maps are `isSameAs` if the labels are equal), the number of columns, the columns (`Tpetra::MultiVector` as used in `include/pressio/solvers_nonlinear/impl/qr/qr_tpetra_impl.hpp:470-536`) -/
structure MV (K m : Type) where
  map : Nat
  num : Nat
  col : Nat → m → K

/-- `getVector(k)`, `getVectorNonConst(k)`: a view of column `k`; `none` if there is none (`include/pressio/solvers_nonlinear/impl/qr/qr_tpetra_impl.hpp:480-493`) -/
def MV.get? (M : MV K m) (k : Nat) : Option (m → K) := if k < M.num then some (M.col k) else none

/-- write column `k`. Through the views at `include/pressio/solvers_nonlinear/impl/qr/qr_tpetra_impl.hpp:480-493`. -/
def MV.set (M : MV K m) (k : Nat) (v : m → K) : MV K m := { M with col := fun j => if j = k then v else M.col j }

/-- a dense matrix `Eigen::Matrix<sc_t, Dynamic, Dynamic>` for `R`: number of rows and columns, entries (`include/pressio/solvers_nonlinear/impl/qr/qr_tpetra_impl.hpp:517-536`) -/
structure RMat (K : Type) where
  size : Nat
  val : Nat → Nat → K

/-- Assignment to `localR_(i,j)`, `include/pressio/solvers_nonlinear/impl/qr/qr_tpetra_impl.hpp:480-493`. -/
def RMat.set (R : RMat K) (i j : Nat) (v : K) : RMat K := { R with val := fun a b => if a = i ∧ b = j then v else R.val a b }

/-- the caller's matrix and the members of the QR object (`include/pressio/solvers_nonlinear/impl/qr/qr_tpetra_impl.hpp:533-536`; `Rmat_` is never used) -/
structure St (K m : Type) where
  A : MV K m
  Q : Option (MV K m)
  R : RMat K

section
variable [Field K] [DecidableEq K] [Fintype m]

/-- `createQIfNeeded` (`include/pressio/solvers_nonlinear/impl/qr/qr_tpetra_impl.hpp:526-530` and, for TSQR, `:434-440` and `:235-241`): the number of columns is not compared; a new multivector is zero -/
def createQ : Prog (St K m) Unit := Prog.modify (fun s =>
  match s.Q with
  | some Q => if Q.map = s.A.map then s else { s with Q := some ⟨s.A.map, s.A.num, fun _ => 0⟩ }
  | none => { s with Q := some ⟨s.A.map, s.A.num, fun _ => 0⟩ })

/-- `createLocalRIfNeeded` (`include/pressio/solvers_nonlinear/impl/qr/qr_tpetra_impl.hpp:517-524`) -/
def createR : Prog (St K m) Unit := Prog.modify (fun s => if s.R.size = s.A.num then s else { s with R := ⟨s.A.num, fun _ _ => 0⟩ })

/-- a column of the caller's matrix; outside: undefined (`include/pressio/solvers_nonlinear/impl/qr/qr_tpetra_impl.hpp:480-493`) -/
def colA (k : Nat) : Prog (St K m) (m → K) := fun s =>
  match s.A.get? k with
  | some v => .ok v s
  | none => .stop (.ub "no such column of A") s

/-- a column of `Qmat_`; outside: undefined (`include/pressio/solvers_nonlinear/impl/qr/qr_tpetra_impl.hpp:480-493`) -/
def colQ (k : Nat) : Prog (St K m) (m → K) := fun s =>
  match s.Q.bind (fun Q => Q.get? k) with
  | some v => .ok v s
  | none => .stop (.ub "no such column of Q") s

/-- Writing into the caller's matrix, `include/pressio/solvers_nonlinear/impl/qr/qr_tpetra_impl.hpp:489-493`. -/
def setA (k : Nat) (v : m → K) : Prog (St K m) Unit := Prog.modify (fun s => { s with A := s.A.set k v })
/-- Writing into `Qmat_`, `include/pressio/solvers_nonlinear/impl/qr/qr_tpetra_impl.hpp:480-493`. -/
def setQ (k : Nat) (v : m → K) : Prog (St K m) Unit := Prog.modify (fun s => { s with Q := s.Q.map (fun Q => Q.set k v) })
/-- Writing into `localR_`, `include/pressio/solvers_nonlinear/impl/qr/qr_tpetra_impl.hpp:480-493`. -/
def setR (i j : Nat) (v : K) : Prog (St K m) Unit := Prog.modify (fun s => { s with R := s.R.set i j v })

/-- inner loop: `for (size_t j=k+1; j<nVecs; j++)` (`include/pressio/solvers_nonlinear/impl/qr/qr_tpetra_impl.hpp:489-493`); first number: iterations left.  `aj` is a view of the caller's matrix (through `const_cast`) -/
def mgsInner (k : Nat) : Nat → Nat → Prog (St K m) Unit
  | 0, _ => pure ()
  | c + 1, j => do
    let aj ← colA j
    let qk ← colQ k
    setR k j (dotProduct qk aj)
    setA j ((-(dotProduct qk aj)) • qk + (1:K) • aj)
    mgsInner k c (j + 1)

/-- outer loop: `for (size_t k=0; k<nVecs; k++)` (`include/pressio/solvers_nonlinear/impl/qr/qr_tpetra_impl.hpp:480-494`).  `1/localR_(k,k)` with a zero pivot gives infinity, and everything
    computed from it is not a number: represented as a stop. -/
def mgsLoop (norm2 : (m → K) → K) : Nat → Nat → Prog (St K m) Unit
  | 0, _ => pure ()
  | c + 1, k => do
    let ak ← colA k
    setR k k (norm2 ak)
    if norm2 ak = 0 then Prog.undef "division by zero"
    else do
      let qk ← colQ k
      setQ k ((1 / norm2 ak) • ak + (0:K) • qk)
      mgsInner k c (k + 1)
      mgsLoop norm2 c (k + 1)

/-- `ModGramSchmidtMVTpetra::computeThinOutOfPlace` (`include/pressio/solvers_nonlinear/impl/qr/qr_tpetra_impl.hpp:470-495`) -/
def mgsCompute (norm2 : (m → K) → K) : Prog (St K m) Unit := do
  createQ
  createR
  let s ← Prog.get
  mgsLoop norm2 s.A.num 0

/-- `applyQTranspose` (`include/pressio/solvers_nonlinear/impl/qr/qr_tpetra_impl.hpp:504-510`, also `:383-389`): `out = 1 Qᵀ v + 0 out`; `out` must have as many entries as `Q` has columns -/
def applyQT {N : Nat} (v : m → K) (out : Fin N → K) : Prog (St K m) (Fin N → K) := fun s =>
  match s.Q with
  | none => .stop (.ub "no Q") s
  | some Q => if Q.num = N then .ok (fun j => (1:K) * dotProduct (Q.col j) v + (0:K) * out j) s else .stop (.ub "sizes differ") s

/-- the upper triangle of `localR_`, which is all that `triangularView<Eigen::Upper>` reads (`include/pressio/solvers_nonlinear/impl/qr/qr_tpetra_impl.hpp:497-502`) -/
def upper (R : RMat K) (N : Nat) : Matrix (Fin N) (Fin N) K := Matrix.of fun i j => if i ≤ j then R.val i j else 0

/-- `doLinSolve` (`include/pressio/solvers_nonlinear/impl/qr/qr_tpetra_impl.hpp:497-502`); `tri` is Eigen's triangular solver -/
def mgsSolve (tri : (N : Nat) → Matrix (Fin N) (Fin N) K → (Fin N → K) → Fin N → K) {N : Nat} (rhs : Fin N → K) : Prog (St K m) (Fin N → K) := fun s =>
  if s.R.size = N then .ok (tri N (upper s.R N) rhs) s else .stop (.ub "sizes differ") s

/-! ### TSQR -/

/-- Trilinos' `TsqrAdaptor::factorExplicit(A, Q, R, false)`: thin Q and R from the columns. Called at `include/pressio/solvers_nonlinear/impl/qr/qr_tpetra_impl.hpp:158-174,368-375`. -/
structure Tsqr (K m : Type) where
  q : (N : Nat) → (Fin N → m → K) → Fin N → m → K
  r : (N : Nat) → (Fin N → m → K) → Matrix (Fin N) (Fin N) K

/-- `TpetraMVTSQR::computeThinOutOfPlace`, and the one for block multivectors (`include/pressio/solvers_nonlinear/impl/qr/qr_tpetra_impl.hpp:368-375,426-440` and `:158-174,227-241`): `factorExplicit` requires `Q` and
    `R` of the size of `A`.  `A` is only read (its contents after the call are unspecified in Trilinos; here unchanged). -/
def tsqrCompute (T : Tsqr K m) : Prog (St K m) Unit := do
  createQ
  createR
  let s ← Prog.get
  match s.Q with
  | none => Prog.undef "no Q"
  | some Q =>
    if Q.num = s.A.num ∧ s.R.size = s.A.num then
      Prog.modify (fun s => { s with
        Q := some { Q with col := fun j => if h : j < s.A.num then T.q s.A.num (fun i => s.A.col i) ⟨j, h⟩ else Q.col j }
        R := ⟨s.A.num, fun i j => if h : i < s.A.num ∧ j < s.A.num then T.r s.A.num (fun i => s.A.col i) ⟨i, h.1⟩ ⟨j, h.2⟩ else 0⟩ })
    else Prog.undef "Q or R has the wrong size"

end

/-! ### Householder (Eigen) -/

/-- Eigen's `HouseholderQR` for `N` columns: factorisation; `householderQ() * Identity(rows, cols)`; `matrixQR()`. Used at `include/pressio/solvers_nonlinear/impl/qr/qr_eigen_impl.hpp:77-115`. -/
structure House (K m F : Type) (N : Nat) where
  factor : Matrix m (Fin N) K → F
  thinQ : F → Matrix m (Fin N) K
  matrixQR : F → Matrix (Fin N) (Fin N) K

/-- members `fct_`, `Qmat_` (`include/pressio/solvers_nonlinear/impl/qr/qr_eigen_impl.hpp:70-71`) -/
structure HSt (K m F : Type) (N : Nat) where
  fct : Option F
  Q : Option (Matrix m (Fin N) K)

section
variable {F : Type} {N : Nat} [Field K] [DecidableEq K] [Fintype m]

/-- `computeThinOutOfPlace` (`include/pressio/solvers_nonlinear/impl/qr/qr_eigen_impl.hpp:77-89`; the resize of `Qmat_` before it is assigned has no effect).  The Tpetra Householder class
    (`qr_tpetra_impl.hpp:288-340`) copies the distributed matrix to every process, calls this, and distributes `Q`. -/
def houseCompute (E : House K m F N) (A : Matrix m (Fin N) K) : Prog (HSt K m F N) Unit :=
  Prog.modify (fun _ => ⟨some (E.factor A), some (E.thinQ (E.factor A))⟩)

/-- `applyQTranspose` (`include/pressio/solvers_nonlinear/impl/qr/qr_eigen_impl.hpp:91-97`): dereferences `Qmat_` -/
def houseApplyQT (v : m → K) (out : Fin N → K) : Prog (HSt K m F N) (Fin N → K) := fun s =>
  match s.Q with
  | none => .stop (.ub "null pointer") s
  | some Q => .ok (fun j => (1:K) * dotProduct (fun i => Q i j) v + (0:K) * out j) s

/-- `doLinSolve` (`include/pressio/solvers_nonlinear/impl/qr/qr_eigen_impl.hpp:108-115`): dereferences `fct_`.  Division by a zero on the diagonal (not a number in the code): represented as a stop. -/
def houseSolve (E : House K m F N) (tri : (N : Nat) → Matrix (Fin N) (Fin N) K → (Fin N → K) → Fin N → K) (rhs : Fin N → K) : Prog (HSt K m F N) (Fin N → K) := fun s =>
  match s.fct with
  | none => .stop (.ub "null pointer") s
  | some f =>
    if ∃ i, E.matrixQR f i i = 0 then .stop (.ub "division by zero") s
    else .ok (tri N (Matrix.of fun i j => if i ≤ j then E.matrixQR f i j else 0) rhs) s

end

/-! ### Which class -/

/-- Matrix types in `include/pressio/solvers_nonlinear/impl/qr/qr_traits.hpp:74,108,119,130,141,153,187`. -/
inductive MatrixKind | eigenDense | tpetraMV | tpetraBlockMV | other deriving DecidableEq
/-- `include/pressio/solvers_nonlinear/impl/qr/qr_fwd.hpp:86-90` -/
inductive Algorithm | modifiedGramSchmidt | householder | tsqr deriving DecidableEq
/-- Implementation classes in `include/pressio/solvers_nonlinear/impl/qr/qr_traits.hpp:87,112,123,134,144`. -/
inductive Class | houseEigen | houseTpetra | mgsTpetra | tsqrTpetra | tsqrTpetraBlock deriving DecidableEq

/-- `Traits<QRSolver<...>>::impl_t`; `none`: does not compile (`include/pressio/solvers_nonlinear/impl/qr/qr_traits.hpp:70-88,104-145,150-172,184-201`) -/
def implClass : MatrixKind → Algorithm → Option Class
  | .eigenDense, .modifiedGramSchmidt | .eigenDense, .householder => some .houseEigen
  | .tpetraMV, .tsqr => some .tsqrTpetra
  | .tpetraMV, .modifiedGramSchmidt => some .mgsTpetra
  | .tpetraMV, .householder => some .houseTpetra
  | .tpetraBlockMV, .tsqr => some .tsqrTpetraBlock
  | _, _ => none

end Pressio.Model.QR
