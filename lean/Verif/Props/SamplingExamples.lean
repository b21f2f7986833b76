import Verif.Props.Sampling
import Verif.Props.SharingExamples

/-
  C102: concrete cases, and what is needed.
-/
namespace Pressio.Props
set_option autoImplicit false
set_option linter.unusedSectionVars false
open Pressio Matrix
open Pressio.Model.Nonlinear (Env Cfg Reg StopCrit Update Tag Ans SP)
open Pressio.Spec.Nonlinear Pressio.Spec.SolverAlike Pressio.Spec.Sampling Pressio.Spec.Coordinates
open Pressio.Model.Implicit Pressio.Spec.Implicit Pressio.Spec.SolverRun Pressio.Lemmas.SolverTree Pressio.Lemmas.SolverRun
open Pressio.Model.Explicit (Scheme)
open Pressio.Model.Galerkin Pressio.Model.Lspg Pressio.Spec.Galerkin Pressio.Spec.Lspg Pressio.Lemmas.Lspg

/-! A nonlinear advection problem on a mesh of three points: `y_0' = t - y_0`, `y_i' = - y_i (y_i - y_{i-1})`; the sample mesh is point 1, its stencil mesh points 0 and 1. -/

def burgersRhs (y : Fin 3 → ℚ) (t : ℚ) : Fin 3 → ℚ := ![t - y 0, -(y 1 * (y 1 - y 0)), -(y 2 * (y 2 - y 1))]
def burgersJac (y : Fin 3 → ℚ) : Matrix (Fin 3) (Fin 3) ℚ := !![-1, 0, 0; y 1, y 0 - 2 * y 1, 0; 0, y 2, y 1 - 2 * y 2]
def burgers : Fom ℚ (Fin 3) (Fin 3) (Fin 1) where
  rhs := fun y t _ => .ok (burgersRhs y t)
  applyJac := fun y B _ _ => .ok (burgersJac y * B)
  applyMM := fun _ B _ _ => .ok B
theorem burgers_is : FomIs burgers (fun y t => .ok (burgersRhs y t)) (fun y _ => .ok (burgersJac y)) (fun _ _ => .ok 1) := ⟨fun _ _ _ => rfl, fun _ _ _ _ => rfl, fun _ B _ _ => by simp [burgers, Except.map, Except.mapError]⟩
theorem burgers_noTSF : FomNoTSF (fun y t => .ok (burgersRhs y t)) (fun y _ => .ok (burgersJac y)) := ⟨fun _ _ => by simp, fun _ _ => by simp⟩
/-- the sample-mesh code -/
def burgersSampled : Fom ℚ (Fin 2) (Fin 1) (Fin 1) where
  rhs := fun u _ _ => .ok ![-(u 1 * (u 1 - u 0))]
  applyJac := fun u B _ _ => .ok (!![u 1, u 0 - 2 * u 1] * B)
  applyMM := fun _ B _ _ => .ok ((!![0, 1] : Matrix (Fin 1) (Fin 2) ℚ) * B)
theorem burgersSampled_is : FomIs burgersSampled (fun u _ => .ok ![-(u 1 * (u 1 - u 0))]) (fun u _ => .ok !![u 1, u 0 - 2 * u 1]) (fun _ _ => .ok !![0, 1]) := ⟨fun _ _ _ => rfl, fun _ _ _ _ => rfl, fun _ _ _ _ => rfl⟩
def toStencil : Matrix (Fin 2) (Fin 3) ℚ := !![1, 0, 0; 0, 1, 0]
def toSample : Matrix (Fin 1) (Fin 2) ℚ := !![0, 1]
theorem burgers_samples : Samples toStencil toSample (fun y t => .ok (burgersRhs y t)) (fun y _ => .ok (burgersJac y)) (fun u _ => .ok ![-(u 1 * (u 1 - u 0))]) (fun u _ => .ok !![u 1, u 0 - 2 * u 1]) where
  values := fun y t => congrArg Except.ok (by ext i; fin_cases i; simp [toStencil, toSample, burgersRhs, Matrix.mulVec, dotProduct, Fin.sum_univ_succ, Matrix.mul_apply])
  rows := fun y t => congrArg Except.ok (by ext i j; fin_cases i; fin_cases j <;> simp [toStencil, toSample, burgersJac, Matrix.mulVec, dotProduct, Fin.sum_univ_succ, Matrix.mul_apply])
def updSample : Updater ℚ (Fin 2) (Fin 1) (Fin 1) := ⟨fun R a y b => a • R + b • toSample.mulVec y, fun J a B b => a • J + b • (toSample * B)⟩
def meshTrial : Trial ℚ (Fin 3) (Fin 1) := ⟨!![2; 1; 1/2], ![3, 1, 1], true⟩
def mem3 : SMem ℚ (Fin 1 → ℚ) (Fin 1 → ℚ) (LMem ℚ (Fin 3) (Fin 3) (Fin 1)) := ⟨0, 0, 0, ![0], [![0], ![0]], [], ⟨[0, 0, 0], -1, ![9, 9, 9], ![8, 8, 8], !![7; 7; 7]⟩⟩
theorem mem3_ready : LspgReady .BDF2 mem3 := by simp [LspgReady, mem3, Sized, numStates]

/-- the solver for the full-mesh problem: its weights select the sample mesh; the linear solver and the norm of reduced states are those of `env11` -/
def env31 : Env ℚ (Fin 3) (Fin 1) (Fin 1) Nat where
  normM := fun v => |v 0| + |v 1| + |v 2|
  normN := env11.normN
  lin := env11.lin
  linJ := fun _ _ s => .ok () s
  applyJac := fun _ _ y => y
  krylov := fun _ _ c => .ok () c
  qrThin := fun _ l => .ok () l
  qrApplyQT := fun _ s => .ok () s
  qrSolve := fun _ s => .ok () s
  wR := fun r => ((toSample * toStencil)ᵀ * (toSample * toStencil)) *ᵥ r
  wJ := fun J => ((toSample * toStencil)ᵀ * (toSample * toStencil)) * J
  cwR := fun r => (toSample * toStencil) *ᵥ r
  cwJ := fun J => (toSample * toStencil) * J
  createState := fun _ => 0
def reg31 : Reg ℚ (Fin 3) (Fin 1) (Fin 1) Nat where
  x := fun _ => 5
  trial := fun _ => 5
  c := fun _ => 7
  r := fun _ => 5
  J := fun _ _ => 5
  g := fun _ => 5
  H := fun _ _ => 5
  H0 := fun _ _ => 5
  damp := 1
  Wr := fun _ => 5
  WJ := fun _ _ => 5
  cWr := fun _ => 5
  cWJ := fun _ _ => 5
  QTr := fun _ => 5
  nu := 5
  cDiagH := fun _ => 5
  lin := 0
  diag := Model.Nonlinear.newContainer Model.Nonlinear.leastSquaresDiagnostics
  files := []
  log := []
def cfgBack : Cfg ℚ := cfgN .WhenAbsolutel2NormOfGradientBelowTolerance (1/100) 6 .BacktrackStrictlyDecreasingObjective
theorem env11_euclidean : Euclidean env11.normM := fun r => by simp [env11, dotProduct, pow_two]
theorem env31_weighs : Weighs env31 (toSample * toStencil) .wgn ∧ Weighs env31 (toSample * toStencil) .cwgn := ⟨⟨fun _ => rfl, fun _ => rfl⟩, fun _ => rfl, fun _ => rfl⟩

example (tag : Tag) (h : Weighs env31 (toSample * toStencil) tag) := C102_hyperreduced toStencil toSample burgers_is burgers_noTSF burgersSampled_is burgers_samples updSample ⟨fun _ _ _ _ => rfl, fun _ _ _ _ => rfl⟩ meshTrial .BDF2 (.inr rfl) mem3 mem3_ready hypMem2 hypMem2_ready
  env31 env11 tag h cfgBack (by decide) rfl (by intro A b s; simp [env31, env11]) rfl rfl env11_euclidean reg31 reg11 (fun _ => .created _ rfl) reg11_idle rfl rfl 0 ![1] [1/2, 1/4, 1/4]
/-- the runs: two steps, with line search -/
example : (driveObj (stepWith .BDF2 (defaultPolicy meshTrial burgers)) (Model.Nonlinear.lsSolve env31 (cfgN .WhenAbsolutel2NormOfGradientBelowTolerance (1/4) 3 .BacktrackStrictlyDecreasingObjective) .wgn) [1/4, 1/4] 0 [![1]] ![1] mem3 reg31).map (fun r => (r.t, r.stop, r.queries.length, r.y 0)) = [(0, none, 6, 1/4), (1/4, none, 1, 1/4)] ∧
    (driveObj (stepWith .BDF2 (hypredPolicy updSample (onStencil toStencil meshTrial) burgersSampled)) (Model.Nonlinear.lsSolve env11 (cfgN .WhenAbsolutel2NormOfGradientBelowTolerance (1/4) 3 .BacktrackStrictlyDecreasingObjective) .gn) [1/4, 1/4] 0 [![1]] ![1] hypMem2 reg11).map (fun r => (r.t, r.stop, r.queries.length, r.y 0)) = [(0, none, 6, 1/4), (1/4, none, 1, 1/4)] := by
  decide +kernel
/-- masked -/
def mask3 : Masker ℚ (Fin 3) (Fin 1) (Fin 1) := ⟨fun v _ => .ok ((toSample * toStencil) *ᵥ v), fun B _ => .ok ((toSample * toStencil) * B)⟩
def maskMem3 : SMem ℚ (Fin 1 → ℚ) (Fin 1 → ℚ) (LMem ℚ (Fin 3) (Fin 3) (Fin 1) × (Fin 1 → ℚ) × Matrix (Fin 1) (Fin 1) ℚ) := ⟨0, 0, 0, ![0], [![0], ![0]], [], ⟨[0, 0, 0], -1, ![9, 9, 9], ![8, 8, 8], !![7; 7; 7]⟩, ![4], !![4]⟩
example (tag : Tag) (h : Weighs env31 (toSample * toStencil) tag) := C102_masked (toSample * toStencil) burgers_is burgers_noTSF (fun _ _ _ _ => ⟨_, rfl⟩) (Mk := mask3) ⟨fun _ _ => rfl, fun _ _ => rfl⟩ meshTrial .BDF2 (.inr rfl) mem3 mem3_ready maskMem3 (by simp [maskMem3, Sized, numStates])
  env31 env11 tag h cfgBack (by decide) rfl (by intro A b s; simp [env31, env11]) rfl rfl env11_euclidean reg31 reg11 (fun _ => .created _ rfl) reg11_idle rfl rfl 0 ![1] [1/2, 1/4, 1/4]

/-! The Jacobian of this FOM cannot be evaluated for large states. -/
def pickyFom : Fom ℚ (Fin 1) (Fin 1) (Fin 1) where
  rhs := fun y _ _ => .ok ![y 0 - 1/10 - (y 0 * y 0 - 4)]
  applyJac := fun y B _ _ => if 15 < y 0 then .error (.other 3, B) else .ok (!![1 - 2 * y 0] * B)
  applyMM := fun _ B _ _ => .ok B
theorem pickyFom_is : FomIs pickyFom (fun y _ => .ok ![y 0 - 1/10 - (y 0 * y 0 - 4)]) (fun y _ => if 15 < y 0 then .error (.other 3) else .ok !![1 - 2 * y 0]) (fun _ _ => .ok 1) where
  rhs := fun _ _ _ => rfl
  jac := fun y B t b => by simp only [pickyFom]; split <;> rfl
  mm := fun _ B _ _ => by simp [pickyFom, Except.map, Except.mapError]
def trial1 : Trial ℚ (Fin 1) (Fin 1) := ⟨!![1], ![0], false⟩
def mem1 : SMem ℚ (Fin 1 → ℚ) (Fin 1 → ℚ) (LMem ℚ (Fin 1) (Fin 1) (Fin 1)) := ⟨0, 0, 0, ![0], [![0]], [], ⟨[0, 0], -1, ![9], ![8], !![7]⟩⟩
def mask1 : Masker ℚ (Fin 1) (Fin 1) (Fin 1) := ⟨fun v _ => .ok v, fun B _ => .ok B⟩

/-- **C102 for masks needs Jacobians that can be evaluated.** The solver backtracks from a state at which the FOM Jacobian throws, the right-hand side does not: with weights the step is made, with a mask (here: everything is kept) the exception leaves the step. -/
theorem C102_masked_jacobian_refuted :
    FomIs pickyFom (fun y _ => .ok ![y 0 - 1/10 - (y 0 * y 0 - 4)]) (fun y _ => if 15 < y 0 then .error (.other 3) else .ok !![1 - 2 * y 0]) (fun _ _ => .ok 1) ∧ Weighs env11 (1 : Matrix (Fin 1) (Fin 1) ℚ) .wgn ∧ MaskIs mask1 (fun v => (1 : Matrix (Fin 1) (Fin 1) ℚ) *ᵥ v) (fun B => (1 : Matrix (Fin 1) (Fin 1) ℚ) * B) ∧
    (driveObj (stepWith .BDF1 (defaultPolicy trial1 pickyFom)) (Model.Nonlinear.lsSolve env11 cfgBack .wgn) [1] 0 [![1/10]] ![1/10] mem1 reg11).map (fun r => (r.t, r.stop, r.queries.length, decide (|r.y 0 - 2| < 1/100))) = [(0, none, 12, true)] ∧
    (driveObj (stepWith .BDF1 (maskDecorator mask1 (defaultPolicy trial1 pickyFom))) (Model.Nonlinear.lsSolve env11 cfgBack .gn) [1] 0 [![1/10]] ![1/10] ⟨0, 0, 0, ![0], [![0]], [], mem1.pol, ![4], !![4]⟩ reg11).map (fun r => (r.t, r.stop, r.queries.length)) = [(0, some (.exc (.other 3)), 2)] :=
  ⟨pickyFom_is, ⟨fun r => by simp [env11], fun J => by simp [env11]⟩, ⟨fun v b => by simp [mask1], fun B b => by simp [mask1]⟩, by decide +kernel, by decide +kernel⟩

/-- scaled: the equations three times, or the weights 9 -/
def env9 : Env ℚ (Fin 1) (Fin 1) (Fin 1) Nat := { env11 with wR := fun r => (9 : ℚ) • r, wJ := fun J => (9 : ℚ) • J }
example := C102_scaled (!![3] : Matrix (Fin 1) (Fin 1) ℚ) pickyFom_is ⟨fun _ _ => by simp, fun y _ => by dsimp only; split <;> simp⟩ (fun _ _ a => .ok (timesMatrix !![3] a)) (fun _ _ _ => rfl) trial1 .BDF1 (.inl rfl) mem1 (by simp [LspgReady, mem1, Sized, numStates]) mem1 (by simp [LspgReady, mem1, Sized, numStates])
  env9 env11 .wgn ⟨fun r => by ext i; fin_cases i; simp [env9, Matrix.mulVec, dotProduct, Matrix.mul_apply]; norm_num, fun J => by ext i j; fin_cases i; fin_cases j; simp [env9, Matrix.mul_apply]; norm_num⟩ cfgBack (by decide) rfl (by intro A b s; simp [env9, env11]) rfl rfl env11_euclidean
  reg11 reg11 reg11_idle reg11_idle rfl rfl 0 ![1/10] [1, 1]
end Pressio.Props
