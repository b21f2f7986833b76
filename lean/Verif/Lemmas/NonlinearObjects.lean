import Verif.Lemmas.NonlinearEnds
import Verif.Spec.NonlinearObjects

/-
  Reachable solver objects have well-formed diagnostics, so the refinement theorems apply to them.
-/
namespace Pressio.Lemmas.Nonlinear
set_option autoImplicit false
open Pressio Matrix
open Pressio.Model.Nonlinear Pressio.Spec.Nonlinear

variable {K m n p L : Type} [Field K] [LinearOrder K] [IsStrictOrderedRing K] [Fintype m] [Fintype n] [Fintype p]

theorem newtonObj_diag {s : Reg K m n p L} (h : NewtonObj s) : NewtonDiag none s.diag := by
  induction h with
  | created s hs => rw [hs, newContainer_newton]; exact ⟨_, _, rfl, rfl, rfl, by simp⟩
  | used env cfg sys s x _ ih => exact (newtonSolve_refines env cfg sys s ih).2.2.2.2.1
  | usedMatrixFree env cfg sys s x _ ih => exact (matrixFreeSolve_refines env cfg sys s ih).2.2.2.2.1

theorem lsObj_diag [DecidableEq n] {s : Reg K m n p L} (h : LsObj s) : LsDiag none s.diag := by
  induction h with
  | created s hs => rw [hs, newContainer_ls]; exact ⟨_, _, _, _, rfl, rfl, rfl, rfl, rfl, by simp⟩
  | used env cfg sys tag s x _ ih => exact (lsSolve_refines env cfg sys tag s ih).2.2.2.2.1

theorem newton_run (env : Env K m n p L) (cfg : Cfg K) (sys : Sys K m n) {s : Reg K m n p L} (h : NewtonObj s) :
    Refines (NewtonDiag none) newtonFull s (runNewton env cfg sys s) (Spec.Nonlinear.newtonSolve env cfg sys (absR s)) :=
  newtonSolve_refines env cfg sys s (newtonObj_diag h)
theorem matrixFree_run (env : Env K m n p L) (cfg : Cfg K) (sys : Sys K m n) {s : Reg K m n p L} (h : NewtonObj s) :
    Refines (NewtonDiag none) newtonFull s (runMatrixFree env cfg sys s) (Spec.Nonlinear.matrixFreeSolve env cfg sys (absR s)) :=
  matrixFreeSolve_refines env cfg sys s (newtonObj_diag h)
theorem ls_run [DecidableEq n] (env : Env K m n p L) (cfg : Cfg K) (sys : Sys K m n) (tag : Tag) {s : Reg K m n p L} (h : LsObj s) :
    Refines (LsDiag none) lsFull s (runLs env cfg sys tag s) (Spec.Nonlinear.lsSolve env cfg sys tag (absR s)) :=
  lsSolve_refines env cfg sys tag s (lsObj_diag h)

end Pressio.Lemmas.Nonlinear
