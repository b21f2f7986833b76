import Verif.Props.MaskEmulates
import Verif.Props.SamplingExamples
import Verif.Props.CustomSchemes

/-
  C106: concrete cases, and what is needed.
-/
namespace Pressio.Props
set_option autoImplicit false
set_option linter.unusedSectionVars false
open Pressio Matrix
open Pressio.Model.Nonlinear (Env Cfg Reg StopCrit Update Tag Ans SP)
open Pressio.Spec.Nonlinear Pressio.Spec.SolverAlike Pressio.Spec.Sampling Pressio.Spec.Coordinates
open Pressio.Model.Implicit Pressio.Spec.Implicit Pressio.Spec.SolverRun Pressio.Lemmas.SolverTree Pressio.Lemmas.SolverRun
open Pressio.Model.Explicit (Scheme)
open Pressio.Model.Galerkin Pressio.Model.Lspg Pressio.Spec.Galerkin Pressio.Spec.Lspg Pressio.Lemmas.Lspg

/-- a hyper-reduction operator that depends on time -/
def hypTime : HypRed ℚ (Fin 1) (Fin 1) := ⟨fun v t _ => .ok ((2 + t) • v), fun B t _ => .ok ((2 + t) • B)⟩
theorem hypTime_is : HypIs hypTime (fun t v => (2 + t) • v) (fun t B => (2 + t) • B) := ⟨fun _ _ _ => rfl, fun _ _ _ => rfl⟩
theorem mask3_is : MaskIs mask3 (fun v => (toSample * toStencil) *ᵥ v) (fun B => (toSample * toStencil) * B) := ⟨fun _ _ => rfl, fun _ _ => rfl⟩
def gstMask : GSt ℚ (Fin 3) (Fin 3) (Fin 1) (Fin 1) := ⟨0, 0, 0, 0, 0, 0, 0, 0, 0, 0, 0⟩
def gstHyp : GSt ℚ (Fin 2) (Fin 1) (Fin 1) (Fin 1) := ⟨![3, 3], 0, 0, 0, 0, 0, 0, 0, 0, 0, 0⟩
def memCNQ : SMem ℚ (Fin 1 → ℚ) (Fin 1 → ℚ) PMem := ⟨0, 0, 0, ![0], [![0]], [![0], ![0]], freshPMem⟩

example := C106_galerkin_implicit toStencil toSample burgers_is burgers_noTSF burgersSampled_is burgers_samples mask3_is hypTime_is meshTrial gstMask gstHyp .CrankNicolson memCNQ { memCNQ with recovery := ![5] } (by simp [Ready, memCNQ, freshPMem]) (by simp [Ready, memCNQ, freshPMem])
  (Model.Nonlinear.newtonSolve env11N cfg11N) (fine_newtonSolve env11N (by intro A b s; simp [env11N]) cfg11N) reg11 [1/2, 1/4, 1/4] 0 ![1]
/-- the runs: two steps, two iterations each -/
def cfgTwo : Cfg ℚ := ⟨2, .WhenAbsolutel2NormOfResidualBelowTolerance, 1 / 100, .Standard, none⟩
example : (driveObj (stdStep .CrankNicolson (asISystem (maskedRhsJac meshTrial burgers mask3 hypTime) gstMask)) (Model.Nonlinear.newtonSolve env11N cfgTwo) [1/32, 1/32] 0 [![1]] ![1] memCNQ reg11).map (fun r => (r.t, r.stop, r.queries.length, r.y 0)) =
      [(0, none, 2, 2497 / 1723), (1/32, none, 2, 207438058712675602411 / 97155541876990786579)] ∧
    (driveObj (stdStep .CrankNicolson (asISystem (hypredRhsJac (onStencil toStencil meshTrial) burgersSampled hypTime) gstHyp)) (Model.Nonlinear.newtonSolve env11N cfgTwo) [1/32, 1/32] 0 [![1]] ![1] memCNQ reg11).map (fun r => (r.t, r.stop, r.queries.length, r.y 0)) =
      [(0, none, 2, 2497 / 1723), (1/32, none, 2, 207438058712675602411 / 97155541876990786579)] := by
  decide +kernel

example := C106_galerkin_explicit (r := Fin 1) (f' := fun u _ => ![-(u 1 * (u 1 - u 0))]) toStencil toSample burgers_is burgersSampled_is (fun y t => by have := burgers_samples.values y t; simpa [Except.map] using this) mask3_is hypTime_is meshTrial gstMask gstHyp .RungeKutta4 rfl (fun _ _ _ => 1/4) 0 5 (by decide) ![1]
  ([0, 0, 0, 0], 0, []) ([![3], 0, ![1], 0], 0, []) rfl rfl

example := C106_lspg toStencil toSample burgers_is burgers_noTSF (fun _ _ _ _ => ⟨_, rfl⟩) burgersSampled_is burgers_samples updSample ⟨fun _ _ _ _ => rfl, fun _ _ _ _ => rfl⟩ mask3_is meshTrial .BDF2 (.inr rfl) maskMem3 (by simp [maskMem3, Sized, numStates]) hypMem2 hypMem2_ready
  (Model.Nonlinear.lsSolve env11 cfgBack .gn) (fine_lsSolve env11 cfgBack .gn env11_honest) (busy_lsSolve env11 cfgBack .gn (by decide)) reg11 [1/2, 1/4, 1/4] 0 ![1]

/-- … and so the advancers -/
example (rec : Bool) := C106_target (stepWith .BDF2 (maskDecorator mask3 (defaultPolicy meshTrial burgers))) (stepWith .BDF2 (hypredPolicy updSample (onStencil toStencil meshTrial) burgersSampled)) (Model.Nonlinear.lsSolve env11 cfgBack .gn) 0 ![1] maskMem3 hypMem2 reg11
  (fun dts => C106_lspg toStencil toSample burgers_is burgers_noTSF (fun _ _ _ _ => ⟨_, rfl⟩) burgersSampled_is burgers_samples updSample ⟨fun _ _ _ _ => rfl, fun _ _ _ _ => rfl⟩ mask3_is meshTrial .BDF2 (.inr rfl) maskMem3 (by simp [maskMem3, Sized, numStates]) hypMem2 hypMem2_ready
    (Model.Nonlinear.lsSolve env11 cfgBack .gn) (fine_lsSolve env11 cfgBack .gn env11_honest) (busy_lsSolve env11 cfgBack .gn (by decide)) reg11 dts 0 ![1])
  (fun i _ _ u => .ok (1 / (i ^ 2 + 1)) u) (fun _ _ _ u => .ok ⟨1/4, 1/8, 2⟩ u) (fun _ t y (u : ℚ) => .ok () (u + t + y 0)) rec 0 2 20 0
example := C106_n_steps (stdStep .CrankNicolson (asISystem (maskedRhsJac meshTrial burgers mask3 hypTime) gstMask)) (stdStep .CrankNicolson (asISystem (hypredRhsJac (onStencil toStencil meshTrial) burgersSampled hypTime) gstHyp)) (Model.Nonlinear.newtonSolve env11N cfg11N) 0 ![1] memCNQ memCNQ reg11
  (fun dts => C106_galerkin_implicit toStencil toSample burgers_is burgers_noTSF burgersSampled_is burgers_samples mask3_is hypTime_is meshTrial gstMask gstHyp .CrankNicolson memCNQ memCNQ (by simp [Ready, memCNQ, freshPMem]) (by simp [Ready, memCNQ, freshPMem])
    (Model.Nonlinear.newtonSolve env11N cfg11N) (fine_newtonSolve env11N (by intro A b s; simp [env11N]) cfg11N) reg11 dts 0 ![1])
  (fun i _ _ u => .ok (1 / (i ^ 2 + 1)) u) (fun _ _ v => pure v) (fun _ t y (u : ℚ) => .ok () (u + t + y 0)) 6 0

/-- nothing dropped -/
def hypAll : HypRed ℚ (Fin 3) (Fin 1) := ⟨fun v _ _ => .ok (meshTrial.basisᵀ *ᵥ v), fun B _ _ => .ok (meshTrial.basisᵀ * B)⟩
example := C106_galerkin_nothing_dropped burgers_is burgers_noTSF meshTrial (H := hypAll) ⟨fun _ _ _ => rfl, fun _ _ _ => rfl⟩ gstMask gstMask .CrankNicolson memCNQ memCNQ (by simp [Ready, memCNQ, freshPMem]) (by simp [Ready, memCNQ, freshPMem])
  (Model.Nonlinear.newtonSolve env11N cfg11N) (fine_newtonSolve env11N (by intro A b s; simp [env11N]) cfg11N) reg11 [1/2, 1/4, 1/4] 0 ![1]

/-- **C106 for LSPG needs Jacobians that can be evaluated.** The FOM of `C102_masked_jacobian_refuted`, sample mesh and stencil mesh the whole mesh: the hyper-reduced problem makes the step (it asks for residuals only where the solver does), the masked problem throws. -/
theorem C106_lspg_jacobian_refuted :
    (driveObj (stepWith .BDF1 (hypredPolicy (⟨fun R a y b => a • R + b • y, fun J a B b => a • J + b • B⟩ : Updater ℚ (Fin 1) (Fin 1) (Fin 1)) (onStencil (1 : Matrix (Fin 1) (Fin 1) ℚ) trial1) pickyFom)) (Model.Nonlinear.lsSolve env11 cfgBack .gn) [1] 0 [![1/10]] ![1/10] mem1 reg11).map (fun r => (r.t, r.stop, r.queries.length, decide (|r.y 0 - 2| < 1/100))) = [(0, none, 12, true)] ∧
    (driveObj (stepWith .BDF1 (maskDecorator mask1 (defaultPolicy trial1 pickyFom))) (Model.Nonlinear.lsSolve env11 cfgBack .gn) [1] 0 [![1/10]] ![1/10] ⟨0, 0, 0, ![0], [![0]], [], mem1.pol, ![4], !![4]⟩ reg11).map (fun r => (r.t, r.stop, r.queries.length)) = [(0, some (.exc (.other 3)), 2)] :=
  ⟨by decide +kernel, C102_masked_jacobian_refuted.2.2.2.2⟩
end Pressio.Props
