import Verif.Props.Restart
import Verif.Props.SharingExamples

/-
  C107: concrete cases, and the multistep schemes.
-/
namespace Pressio.Props
set_option autoImplicit false
open Pressio Matrix
open Pressio.Model.Nonlinear (Env Cfg Reg StopCrit Update Tag Ans SP)
open Pressio.Spec.Nonlinear Pressio.Spec.Restart
open Pressio.Model.Implicit Pressio.Spec.Implicit Pressio.Spec.SolverRun

/-- Crank-Nicolson, two attempts, then three more with new objects: a Newton object that has a past -/
example := C107_implicit (three 1) (three_fits 1) (by simp [Evolution.OneStep, three]) .newton env11N cfg11N (by intro A b st; simp [env11N, env11]) (fun A b st st' => ⟨rfl, fun _ => rfl⟩) (threeMem 1) (threeMem 1) (three_new 1) (three_new 1) newtonReg newtonReg (fun _ => .created _ rfl) (fun _ => .created _ rfl) 0 ![1] [1/2, 1/4] [1/8, 1, 1/8]
/-- that run: the fourth attempt ends it, since the right-hand side throws -/
example : (driveObj (three 1).step (SolverKind.newton.solve env11N cfg11N) [1/2, 1/4] 0 [![1]] ![1] (threeMem 1) newtonReg).map (fun r => (r.t, r.stop)) = [(0, none), (1/2, none)] ∧
    (driveObj (three 1).step (SolverKind.newton.solve env11N cfg11N) ([1/2, 1/4] ++ [1/8, 1, 1/8]) 0 [![1]] ![1] (threeMem 1) newtonReg).map (fun r => (r.t, r.dt, r.stop)) = [(0, 1/2, none), (1/2, 1/4, none), (3/4, 1/8, none), (7/8, 1, some (.exc (.other 3)))] := by
  decide +kernel

example := C107_lspg (threeLspg 0) (threeLspg_fits 0) rfl .gn env11 cfgGN11 (by decide) (by intro A b st; simp [env11]) (fun A b st st' => ⟨rfl, fun _ => rfl⟩) (threeLspgMem 0) (threeLspgMem 0) (threeLspg_new 0) (threeLspg_new 0) reg11 reg11 reg11_idle reg11_idle 0 ![1] [1/2] [1/4, 1/4]

/-- **C107 is false for BDF2**: a new stepper begins with a step of BDF1, so the state after two steps is another one if the run is interrupted in between. -/
theorem C107_bdf2_refuted :
    (driveObj (three 0).step (Model.Nonlinear.newtonSolve env11N cfg11N) ([1/2] ++ [1/4]) 0 [![1]] ![1] (threeMem 0) newtonReg).map (fun r => (r.t, r.stop, r.y 0)) = [(0, none, 7/8), (1/2, none, 417/496)] ∧
    (driveObj (three 0).step (Model.Nonlinear.newtonSolve env11N cfg11N) [1/2] 0 [![1]] ![1] (threeMem 0) newtonReg).map (fun r => (r.t, r.stop, r.y 0)) = [(0, none, 7/8)] ∧
    (driveObj (three 0).step (Model.Nonlinear.newtonSolve env11N cfg11N) [1/4] (1/2) [![7/8]] ![7/8] (threeMem 0) newtonReg).map (fun r => (r.t, r.stop, r.y 0)) = [(1/2, none, 7/8)] := by
  decide +kernel
end Pressio.Props
