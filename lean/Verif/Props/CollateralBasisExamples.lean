import Verif.Props.CollateralBasis

/-
  C108: concrete cases, and what is needed.
-/
namespace Pressio.Props
set_option autoImplicit false
set_option linter.unusedSectionVars false
open Pressio Matrix
open Pressio.Model.Nonlinear (Env Cfg Reg StopCrit Update Tag Ans SP)
open Pressio.Spec.Nonlinear Pressio.Spec.SolverAlike Pressio.Spec.Sampling Pressio.Spec.Coordinates
open Pressio.Model.Implicit Pressio.Spec.Implicit Pressio.Spec.SolverRun Pressio.Lemmas.SolverTree Pressio.Lemmas.SolverRun
open Pressio.Model.Explicit (Scheme)
open Pressio.Model.Galerkin Pressio.Model.Lspg Pressio.Spec.Galerkin Pressio.Spec.Lspg Pressio.Lemmas.Lspg Pressio.Model.SteadySolve Pressio.Spec.CollateralBasis

/-! Two mesh points that are driven by the first one: `y_0' = t - y_0^2`, `y_1' = 2 (t - y_0^2)`. The sample mesh, and its stencil mesh, is point 0; the collateral basis is `(1, 2)`. -/
section
variable {K : Type} [Field K]
def drivenRhs (y : Fin 2 → K) (t : K) : Fin 2 → K := ![t - y 0 ^ 2, 2 * (t - y 0 ^ 2)]
def drivenJac (y : Fin 2 → K) : Matrix (Fin 2) (Fin 2) K := !![-2 * y 0, 0; -4 * y 0, 0]
def driven : Fom K (Fin 2) (Fin 2) (Fin 1) where
  rhs := fun y t _ => .ok (drivenRhs y t)
  applyJac := fun y B _ _ => .ok (drivenJac y * B)
  applyMM := fun _ B _ _ => .ok B
theorem driven_is : FomIs (driven (K := K)) (fun y t => .ok (drivenRhs y t)) (fun y _ => .ok (drivenJac y)) (fun _ _ => .ok 1) := ⟨fun _ _ _ => rfl, fun _ _ _ _ => rfl, fun _ B _ _ => by simp [driven, Except.map, Except.mapError]⟩
theorem driven_noTSF : FomNoTSF (fun (y : Fin 2 → K) t => .ok (drivenRhs y t)) (fun y _ => .ok (drivenJac y)) := ⟨fun _ _ => by simp, fun _ _ => by simp⟩
/-- the sample-mesh code -/
def drivenSampled : Fom K (Fin 1) (Fin 1) (Fin 1) where
  rhs := fun u t _ => .ok ![t - u 0 ^ 2]
  applyJac := fun u B _ _ => .ok (!![-2 * u 0] * B)
  applyMM := fun _ B _ _ => .ok B
theorem drivenSampled_is : FomIs (drivenSampled (K := K)) (fun u t => .ok ![t - u 0 ^ 2]) (fun u _ => .ok !![-2 * u 0]) (fun _ _ => .ok 1) := ⟨fun _ _ _ => rfl, fun _ _ _ _ => rfl, fun _ B _ _ => by simp [drivenSampled, Except.map, Except.mapError]⟩
def firstPoint : Matrix (Fin 1) (Fin 2) K := !![1, 0]
theorem driven_samples : Samples (firstPoint (K := K)) (1 : Matrix (Fin 1) (Fin 1) K) (fun y t => .ok (drivenRhs y t)) (fun y _ => .ok (drivenJac y)) (fun u t => .ok ![t - u 0 ^ 2]) (fun u _ => .ok !![-2 * u 0]) where
  values := fun y t => congrArg Except.ok (by ext i; fin_cases i; simp [firstPoint, drivenRhs, Matrix.mulVec, dotProduct, Fin.sum_univ_succ])
  rows := fun y t => congrArg Except.ok (by ext i j; fin_cases i; fin_cases j <;> simp [firstPoint, drivenJac, Matrix.mulVec, dotProduct, Fin.sum_univ_succ, Matrix.mul_apply])
def collateral : Matrix (Fin 2) (Fin 1) K := !![1; 2]
theorem collateral_recovers : Recovers ((1 : Matrix (Fin 1) (Fin 1) K) * firstPoint) (collateral (K := K)) 1 := by
  unfold Recovers
  ext i j; fin_cases i; fin_cases j
  simp [firstPoint, collateral, Matrix.mul_apply, Fin.sum_univ_succ]
theorem driven_spanned (S : Trial K (Fin 2) (Fin 1)) : Spanned collateral S (fun y t => .ok (drivenRhs y t)) (fun y _ => .ok (drivenJac y)) where
  values := fun x t v h => by
    cases h
    exact ⟨![t - lift S x 0 ^ 2], by ext i; fin_cases i <;> simp [drivenRhs, collateral, Matrix.mulVec, dotProduct]⟩
  derivatives := fun x t D h => by
    cases h
    exact ⟨!![-2 * lift S x 0 * S.basis 0 0], by ext i j; fin_cases j; fin_cases i <;> simp [drivenJac, collateral, Matrix.mul_apply, Fin.sum_univ_succ]; ring⟩
/-- the hyper-reduction operator of a collateral basis -/
def hypOf (S : Trial K (Fin 2) (Fin 1)) (V : Matrix (Fin 2) (Fin 1) K) : HypRed K (Fin 1) (Fin 1) := ⟨fun v _ _ => .ok ((S.basisᵀ * V * (1 : Matrix (Fin 1) (Fin 1) K)) *ᵥ v), fun B _ _ => .ok ((S.basisᵀ * V * (1 : Matrix (Fin 1) (Fin 1) K)) * B)⟩
theorem hypOf_is (S : Trial K (Fin 2) (Fin 1)) (V : Matrix (Fin 2) (Fin 1) K) : Reconstructs (hypOf S V) S V 1 := ⟨fun _ _ _ => rfl, fun _ _ _ => rfl⟩
end

def trialD : Trial ℚ (Fin 2) (Fin 1) := ⟨!![3/5; 4/5], ![1, 1], true⟩
def gstD : GSt ℚ (Fin 2) (Fin 2) (Fin 1) (Fin 1) := ⟨0, 0, 0, 0, 0, 0, 0, 0, 0, 0, 0⟩
def gstDH : GSt ℚ (Fin 1) (Fin 1) (Fin 1) (Fin 1) := ⟨![3], 0, 0, 0, 0, 0, 0, 0, 0, 0, 0⟩
example := C108_galerkin_implicit firstPoint (1 : Matrix (Fin 1) (Fin 1) ℚ) driven_is driven_noTSF drivenSampled_is driven_samples trialD collateral 1 collateral_recovers (driven_spanned trialD) (hypOf_is trialD collateral) gstD gstDH .CrankNicolson memCNQ { memCNQ with recovery := ![5] } (by simp [Ready, memCNQ, freshPMem]) (by simp [Ready, memCNQ, freshPMem])
  (Model.Nonlinear.newtonSolve env11N cfg11N) (fine_newtonSolve env11N (by intro A b s; simp [env11N]) cfg11N) reg11 [1/2, 1/4, 1/4] 0 ![1]
def maskD : Masker ℚ (Fin 2) (Fin 1) (Fin 1) := ⟨fun v _ => .ok (firstPoint *ᵥ v), fun B _ => .ok (firstPoint * B)⟩
example := C108_masked_implicit firstPoint driven_is driven_noTSF (Mk := maskD) ⟨fun _ _ => rfl, fun _ _ => rfl⟩ trialD collateral 1 (by simpa using collateral_recovers (K := ℚ)) (driven_spanned trialD) (hypOf_is trialD collateral) gstD gstD .CrankNicolson memCNQ memCNQ (by simp [Ready, memCNQ, freshPMem]) (by simp [Ready, memCNQ, freshPMem])
  (Model.Nonlinear.newtonSolve env11N cfg11N) (fine_newtonSolve env11N (by intro A b s; simp [env11N]) cfg11N) reg11 [1/2, 1/4, 1/4] 0 ![1]
example := C108_galerkin_explicit (r := Fin 1) (r' := Fin 1) (f' := fun u t => ![t - u 0 ^ 2]) firstPoint (1 : Matrix (Fin 1) (Fin 1) ℚ) driven_is drivenSampled_is (fun y t => by have := driven_samples.values y t; simpa [Except.map] using this) trialD collateral 1 collateral_recovers
  (fun x t => (driven_spanned trialD).values x t _ rfl) (hypOf_is trialD collateral) gstD gstDH .RungeKutta4 rfl (fun _ _ _ => 1/4) 0 5 (by decide) ![1] ([0, 0, 0, 0], 0, []) ([![3], 0, ![1], 0], 0, []) rfl rfl
def restDriven : SteadyFom ℚ (Fin 2) (Fin 2) (Fin 1) where
  residual := fun y _ => .ok (drivenRhs y 2)
  residualAndJac := fun y B w b => .ok (drivenRhs y 2, if w then drivenJac y * B else b.2)
  jacAction := fun y v _ => .ok (drivenJac y *ᵥ v)
theorem restDriven_is : SteadyIs restDriven (fun y => .ok (drivenRhs y 2)) (fun y => .ok (drivenJac y)) := ⟨fun _ _ => rfl, fun _ _ _ => rfl, fun _ _ _ => rfl⟩
def restDrivenSampled : SteadyFom ℚ (Fin 1) (Fin 1) (Fin 1) where
  residual := fun u _ => .ok ![2 - u 0 ^ 2]
  residualAndJac := fun u B w b => .ok (![2 - u 0 ^ 2], if w then !![-2 * u 0] * B else b.2)
  jacAction := fun _ _ b => .ok b
theorem restDrivenSampled_is : SteadyIs restDrivenSampled (fun u => .ok ![2 - u 0 ^ 2]) (fun u => .ok !![-2 * u 0]) := ⟨fun _ _ => rfl, fun _ _ _ => rfl, fun _ _ _ => rfl⟩
example := C108_steady_galerkin firstPoint (1 : Matrix (Fin 1) (Fin 1) ℚ) restDriven_is restDrivenSampled_is ⟨fun y _ => driven_samples.values y 2, fun y _ => driven_samples.rows y 2⟩ trialD collateral 1 collateral_recovers ⟨fun x _ => (driven_spanned trialD).values x 2, fun x _ => (driven_spanned trialD).derivatives x 2⟩ (hypOf_is trialD collateral)
  (Model.Nonlinear.newtonSolve env11N cfg11N) reg11 ![1] gstD gstDH

/-- **C108 needs a collateral basis that spans.** With the collateral basis `(1, 3)` the coefficients are recovered from point 0 as well, but the right-hand sides are not in its span: the hyper-reduced problem, which evaluates the same right-hand side at point 0, goes through another run. -/
theorem C108_span_refuted :
    Recovers ((1 : Matrix (Fin 1) (Fin 1) ℚ) * firstPoint) (!![1; 3] : Matrix (Fin 2) (Fin 1) ℚ) 1 ∧
    (driveObj (stdStep .BDF1 (asISystem (defaultRhsJac trialD driven) gstD)) (Model.Nonlinear.newtonSolve env11N cfgTwo) [1/2] 0 [![1]] ![1] memCNQ reg11).map (fun r => (r.t, r.stop, r.y 0)) = [(0, none, 290091771 / 1534580104)] ∧
    (driveObj (stdStep .BDF1 (asISystem (hypredRhsJac (onStencil firstPoint trialD) drivenSampled (hypOf trialD !![1; 3])) gstDH)) (Model.Nonlinear.newtonSolve env11N cfgTwo) [1/2] 0 [![1]] ![1] memCNQ reg11).map (fun r => (r.t, r.stop, r.y 0)) = [(0, none, 2050307 / 22731368)] ∧
    (driveObj (stdStep .BDF1 (asISystem (hypredRhsJac (onStencil firstPoint trialD) drivenSampled (hypOf trialD collateral)) gstDH)) (Model.Nonlinear.newtonSolve env11N cfgTwo) [1/2] 0 [![1]] ![1] memCNQ reg11).map (fun r => (r.t, r.stop, r.y 0)) = [(0, none, 290091771 / 1534580104)] := by
  refine ⟨?_, by decide +kernel, by decide +kernel, by decide +kernel⟩
  unfold Recovers
  ext i j; fin_cases i; fin_cases j
  simp [firstPoint, Matrix.mul_apply, Fin.sum_univ_succ]

/-! LSPG, over the reals (the norm of a residual with two entries has a square root). -/

noncomputable def envFull : Env ℝ (Fin 2) (Fin 1) (Fin 1) Nat where
  normM := fun v => Real.sqrt (v ⬝ᵥ v)
  normN := fun v => |v 0|
  lin := fun A b (_, l) => .ok () (fun _ => b 0 / A 0 0, l + 1)
  linJ := fun _ _ s => .ok () s
  applyJac := fun _ _ y => y
  krylov := fun _ _ c => .ok () c
  qrThin := fun _ l => .ok () l
  qrApplyQT := fun _ s => .ok () s
  qrSolve := fun _ s => .ok () s
  wR := id
  wJ := id
  cwR := fun v => ![v 0]
  cwJ := fun B => !![B 0 0]
  createState := fun _ => 0
theorem envFull_euclidean : Euclidean envFull.normM := fun r => Real.sq_sqrt (by simp only [dotProduct, Fin.sum_univ_two]; nlinarith [mul_self_nonneg (r 0), mul_self_nonneg (r 1)])
/-- the weights reconstruct -/
noncomputable def envSample : Env ℝ (Fin 1) (Fin 1) (Fin 2) Nat where
  normM := fun v => |v 0|
  normN := fun v => |v 0|
  lin := fun A b (_, l) => .ok () (fun _ => b 0 / A 0 0, l + 1)
  linJ := fun _ _ s => .ok () s
  applyJac := fun _ _ y => y
  krylov := fun _ _ c => .ok () c
  qrThin := fun _ l => .ok () l
  qrApplyQT := fun _ s => .ok () s
  qrSolve := fun _ s => .ok () s
  wR := fun r => (5 : ℝ) • r
  wJ := fun J => (5 : ℝ) • J
  cwR := fun r => collateral *ᵥ r
  cwJ := fun J => collateral * J
  createState := fun _ => 0
theorem envSample_weighs : Weighs envSample (collateral * (1 : Matrix (Fin 1) (Fin 1) ℝ)) .wgn ∧ Weighs envSample (collateral * (1 : Matrix (Fin 1) (Fin 1) ℝ)) .cwgn := by
  have h : ((collateral : Matrix (Fin 2) (Fin 1) ℝ) * (1 : Matrix (Fin 1) (Fin 1) ℝ))ᵀ * (collateral * (1 : Matrix (Fin 1) (Fin 1) ℝ)) = (5 : ℝ) • (1 : Matrix (Fin 1) (Fin 1) ℝ) := by
    ext i j; fin_cases i; fin_cases j; simp [collateral, Matrix.mul_apply]; norm_num
  refine ⟨⟨fun r => ?_, fun J => ?_⟩, fun r => ?_, fun J => ?_⟩
  · rw [h]; simp [envSample, Matrix.smul_mulVec]
  · rw [h]; simp [envSample]
  · simp [envSample]
  · simp [envSample]
noncomputable def regFull {m p : Type} : Reg ℝ m (Fin 1) p Nat where
  x := fun _ => 5
  trial := fun _ => 5
  c := fun _ => 7
  r := fun _ => 5
  J := fun _ _ => 5
  g := fun _ => 5
  H := fun _ _ => 5
  H0 := fun _ _ => 5
  damp := 1
  Wr := fun _ => 5
  WJ := fun _ _ => 5
  cWr := fun _ => 5
  cWJ := fun _ _ => 5
  QTr := fun _ => 5
  nu := 5
  cDiagH := fun _ => 5
  lin := 0
  diag := Model.Nonlinear.newContainer Model.Nonlinear.leastSquaresDiagnostics
  files := []
  log := []
noncomputable def trialDR : Trial ℝ (Fin 2) (Fin 1) := ⟨!![3; 6], ![1, 1], true⟩
noncomputable def memFull {s q : Type} : SMem ℝ (Fin 1 → ℝ) (Fin 1 → ℝ) (LMem ℝ s q (Fin 1)) := ⟨0, 0, 0, ![0], [![0], ![0]], [], ⟨[0, 0, 0], -1, fun _ => 9, fun _ => 8, fun _ _ => 7⟩⟩
noncomputable def cfgReal : Cfg ℝ := ⟨6, .WhenAbsolutel2NormOfGradientBelowTolerance, 1 / 100, .BacktrackStrictlyDecreasingObjective, none⟩
example (tag : Tag) (h : Weighs envSample (collateral * (1 : Matrix (Fin 1) (Fin 1) ℝ)) tag) := C108_lspg firstPoint (1 : Matrix (Fin 1) (Fin 1) ℝ) driven_is driven_noTSF drivenSampled_is driven_samples (⟨fun R a y b => a • R + b • y, fun J a B b => a • J + b • B⟩ : Updater ℝ (Fin 1) (Fin 1) (Fin 1)) ⟨fun _ _ _ _ => by simp, fun _ _ _ _ => by simp⟩
  trialDR collateral 1 collateral_recovers (driven_spanned trialDR) ⟨!![3], by ext i j; fin_cases j; fin_cases i <;> simp [trialDR, collateral, Matrix.mul_apply]; norm_num⟩ .BDF2 (.inr rfl) memFull (by simp [LspgReady, memFull, Sized, numStates]) memFull (by simp [LspgReady, memFull, Sized, numStates])
  envFull envSample tag h cfgReal (by decide) rfl (by intro A b s; simp [envSample]) rfl rfl envFull_euclidean regFull regFull (fun _ => .created _ rfl) (fun _ => .created _ rfl) rfl rfl 0 ![1] [1/2, 1/4, 1/4]
end Pressio.Props
