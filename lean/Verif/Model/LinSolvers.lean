import Verif.Common

/-
  Model of the linear solver wrappers: `include/pressio/solvers_linear/impl/`.
  The numerical libraries (Eigen, LAPACK) are parameters, described by what they compute from which arguments; the wrappers and their state are modelled.
  `M`: contents of a matrix, `B`: contents of a vector.  Matrices live in a store of the caller, who may change them between calls.
-/
namespace Pressio.Model.LinSolvers
set_option autoImplicit false
open Pressio

variable {M B F : Type}

/-! ### Eigen direct -/

/-- Eigen decomposition: `compute` makes a factorisation from the contents of the matrix, `solve` uses it. Used at `include/pressio/solvers_linear/impl/solvers_linear_eigen_direct_impl.hpp:74-95`. -/
structure Direct (M B F : Type) where
  compute : M → F
  solve : F → B → B

/-- caller's matrices and the member `mysolver_`: `none` before the first `compute` (`include/pressio/solvers_linear/impl/solvers_linear_eigen_direct_impl.hpp:95`) -/
structure DSt (M F : Type) where
  mats : Nat → M
  fact : Option F

/-- `resetLinearSystem` (`include/pressio/solvers_linear/impl/solvers_linear_eigen_direct_impl.hpp:74-76`) -/
def dReset (E : Direct M B F) (a : Nat) : Prog (DSt M F) Unit := Prog.modify (fun s => { s with fact := some (E.compute (s.mats a)) })

/-- `solve(b, y)` (`include/pressio/solvers_linear/impl/solvers_linear_eigen_direct_impl.hpp:78-81`): Eigen requires a factorisation (`eigen_assert`) -/
def dSolve (E : Direct M B F) (b : B) : Prog (DSt M F) B := fun s =>
  match s.fact with
  | some f => .ok (E.solve f b) s
  | none => .stop (.ub "solver is not initialised") s

/-- `solve(A, b, y)`, and `solveAllowMatOverwrite` (`include/pressio/solvers_linear/impl/solvers_linear_eigen_direct_impl.hpp:83-93`) -/
def dSolveWith (E : Direct M B F) (a : Nat) (b : B) : Prog (DSt M F) B := do
  dReset E a
  dSolve E b

/-! ### Eigen iterative -/

/-- Eigen iterative solver: `precond` is what `compute` derives from the matrix; `solve A p maxIters b` gives the result, the number of iterations and the error.  Eigen keeps a *reference* to the matrix
    (Eigen documentation of `IterativeSolverBase::compute`: "this class stores a reference to the matrix A"). Used at `include/pressio/solvers_linear/impl/solvers_linear_eigen_iterative_impl.hpp:87-114`. -/
structure Iter (M B F R : Type) where
  precond : M → F
  solve : M → F → Nat → B → B × Nat × R

/-- caller's matrices (`none`: destroyed), `maxIters_`, the native solver: reference and preconditioner, its own maximum (`none`: not set), iterations and error of the last solve
    (`include/pressio/solvers_linear/impl/solvers_linear_eigen_iterative_impl.hpp:114`, `include/pressio/solvers_linear/impl/solvers_linear_iterative_base.hpp:79`) -/
structure ISt (M F R : Type) where
  mats : Nat → Option M
  maxIters : Nat
  nat : Option (Nat × F)
  natMax : Option Nat
  last : Option (Nat × R)

variable {R : Type}

/-- a fresh solver: `maxIters_ = 100` (`include/pressio/solvers_linear/impl/solvers_linear_iterative_base.hpp:79`) -/
def iFresh (mats : Nat → Option M) : ISt M F R := ⟨mats, 100, none, none, none⟩

/-- `setMaxIterations` (`include/pressio/solvers_linear/impl/solvers_linear_iterative_base.hpp:74-76`) -/
def iSetMax (k : Nat) : Prog (ISt M F R) Unit := Prog.modify (fun s => { s with maxIters := k })

/-- `resetLinearSystem` (`include/pressio/solvers_linear/impl/solvers_linear_eigen_iterative_impl.hpp:87-91`; matrix free: `include/pressio/solvers_linear/impl/solvers_linear_eigen_iterative_matrix_free_impl.hpp:196-201`, where the reference goes through `m_wrapper`) -/
def iReset (E : Iter M B F R) (a : Nat) : Prog (ISt M F R) Unit := fun s =>
  match s.mats a with
  | none => .stop (.ub "dangling reference") s
  | some A => .ok () { s with natMax := some s.maxIters, nat := some (a, E.precond A) }

/-- `solve(b, y)` (`include/pressio/solvers_linear/impl/solvers_linear_eigen_iterative_impl.hpp:93-98`; matrix free: `include/pressio/solvers_linear/impl/solvers_linear_eigen_iterative_matrix_free_impl.hpp:204-207`) -/
def iSolve (E : Iter M B F R) (b : B) : Prog (ISt M F R) B := fun s =>
  match s.nat with
  | none => .stop (.ub "solver is not initialised") { s with natMax := some s.maxIters }
  | some (a, p) =>
    match s.mats a with
    | none => .stop (.ub "dangling reference") { s with natMax := some s.maxIters }
    | some A => .ok (E.solve A p s.maxIters b).1 { s with natMax := some s.maxIters, last := some (E.solve A p s.maxIters b).2 }

/-- `solve(A, b, y)`, and `solveAllowMatOverwrite` (`include/pressio/solvers_linear/impl/solvers_linear_eigen_iterative_impl.hpp:100-112`; matrix free: `include/pressio/solvers_linear/impl/solvers_linear_eigen_iterative_matrix_free_impl.hpp:210-213`) -/
def iSolveWith (E : Iter M B F R) (a : Nat) (b : B) : Prog (ISt M F R) B := do
  iReset E a
  iSolve E b

/-! ### Kokkos direct -/

/-- LAPACK: factorisation in place (`getrf`/`potrf`/`geqrf`): new contents of the matrix with pivots or tau; solution from them. Called at `include/pressio/solvers_linear/impl/solvers_linear_kokkos_direct_getrs_impl.hpp:142-170` and in the other Kokkos solvers. -/
structure Lapack (M B F : Type) where
  size : M → Nat
  factor : M → M × F
  solve : M → F → B → B

/-- caller's matrices, `auxMat_`, and `lwork_` (`none` for -1) of the geqrf solver (`include/pressio/solvers_linear/impl/solvers_linear_kokkos_direct_geqrf_impl.hpp:119-124,161-169,214`) -/
structure KSt (M : Type) where
  mats : Nat → M
  aux : M
  lwork : Option Nat

/-- what the caller passes: one of its matrices, or the member `auxMat_`. First argument of `solveAllowMatOverwrite`: `include/pressio/solvers_linear/impl/solvers_linear_kokkos_direct_getrs_impl.hpp:115-125,142-170`. -/
inductive Loc
  | mat (a : Nat)
  | aux

/-- Contents of the matrix passed at `include/pressio/solvers_linear/impl/solvers_linear_kokkos_direct_getrs_impl.hpp:142-170`. -/
def KSt.read (s : KSt M) : Loc → M
  | .mat a => s.mats a
  | .aux => s.aux

/-- What the factorisation at `include/pressio/solvers_linear/impl/solvers_linear_kokkos_direct_getrs_impl.hpp:142-170` leaves in that matrix. -/
def KSt.write (s : KSt M) (A : M) : Loc → KSt M
  | .mat a => { s with mats := fun i => if i = a then A else s.mats i }
  | .aux => { s with aux := A }

/-- `solveAllowMatOverwrite` of getrs, potrsL, potrsU (`include/pressio/solvers_linear/impl/solvers_linear_kokkos_direct_getrs_impl.hpp:142-170`, `include/pressio/solvers_linear/impl/solvers_linear_kokkos_direct_potrs_lower_impl.hpp:132-155`, `include/pressio/solvers_linear/impl/solvers_linear_kokkos_direct_potrs_upper_impl.hpp:131-155`).
    The assertions on extents and `info` (singular or not positive definite matrix) are not modelled. -/
def kOverwrite (L : Lapack M B F) (l : Loc) (b : B) : Prog (KSt M) B := do
  let s ← Prog.get
  Prog.modify (fun s => s.write (L.factor (s.read l)).1 l)
  pure (L.solve (L.factor (s.read l)).1 (L.factor (s.read l)).2 b)

/-- `solve(A, b, y)`: resize and deep copy into `auxMat_`, then solve there (`include/pressio/solvers_linear/impl/solvers_linear_kokkos_direct_getrs_impl.hpp:115-125`, `include/pressio/solvers_linear/impl/solvers_linear_kokkos_direct_potrs_lower_impl.hpp:104-115`) -/
def kSolve (L : Lapack M B F) (a : Nat) (b : B) : Prog (KSt M) B := do
  Prog.modify (fun s => { s with aux := s.mats a })
  kOverwrite L .aux b

/-- the query for the size of the work array, done only when `lwork_ == -1` (`include/pressio/solvers_linear/impl/solvers_linear_kokkos_direct_geqrf_impl.hpp:161-167`) -/
def qQuery (L : Lapack M B F) (opt : Nat → Nat) (l : Loc) : Prog (KSt M) Unit := fun s =>
  match s.lwork with
  | none => .ok () { s with lwork := some (opt (L.size (s.read l))) }
  | some _ => .ok () s

/-- the call of GEQRF and what follows (`include/pressio/solvers_linear/impl/solvers_linear_kokkos_direct_geqrf_impl.hpp:168-200`) -/
def qFactor (L : Lapack M B F) (l : Loc) (b : B) : Prog (KSt M) B := fun s =>
  if s.lwork.getD 0 < max 1 (L.size (s.read l)) then .stop (.ub "GEQRF: work array too small") s
  else kOverwrite L l b s

/-- geqrf: the size of the work array is asked for once, in the first call (`lwork_ == -1`), and kept (`include/pressio/solvers_linear/impl/solvers_linear_kokkos_direct_geqrf_impl.hpp:161-167`); `opt n` is the size that LAPACK
    recommends for an `n × n` matrix.  LAPACK's GEQRF requires `lwork ≥ max(1, n)`; otherwise it reports an error and does nothing, which the code only checks by `assert(info == 0)`
    (`include/pressio/solvers_linear/impl/solvers_linear_kokkos_direct_geqrf_impl.hpp:169-170`). -/
def qOverwrite (L : Lapack M B F) (opt : Nat → Nat) (l : Loc) (b : B) : Prog (KSt M) B := do
  qQuery L opt l
  qFactor L l b

/-- `solve(A, b, y)` of the geqrf solver (`include/pressio/solvers_linear/impl/solvers_linear_kokkos_direct_geqrf_impl.hpp:114-125`) -/
def qSolve (L : Lapack M B F) (opt : Nat → Nat) (a : Nat) (b : B) : Prog (KSt M) B := do
  Prog.modify (fun s => { s with aux := s.mats a })
  qOverwrite L opt .aux b

end Pressio.Model.LinSolvers
