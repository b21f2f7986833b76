import Verif.Props.SampleMeshExact

/-
  C110 for masked problems and for LSPG.
-/
namespace Pressio.Props
set_option autoImplicit false
set_option linter.unusedSectionVars false
open Pressio Matrix
open Pressio.Spec.CustomSchemes Pressio.Spec.Units
open Pressio.Model.Nonlinear (Env Cfg Reg StopCrit Update Tag Ans SP)
open Pressio.Spec.Nonlinear Pressio.Spec.SolverAlike Pressio.Spec.Sampling Pressio.Spec.Coordinates Pressio.Spec.InvariantSpace
open Pressio.Lemmas.Nonlinear Pressio.Lemmas.SolverAlike Pressio.Lemmas.Coordinates
open Pressio.Model.Implicit Pressio.Spec.Implicit Pressio.Lemmas.Implicit Pressio.Spec.SolverRun Pressio.Lemmas.SolverTree Pressio.Lemmas.SolverRun
open Pressio.Model.Explicit (Scheme)
open Pressio.Model.Galerkin Pressio.Spec.Galerkin Pressio.Model.Lspg Pressio.Spec.Lspg Pressio.Lemmas.Lspg Pressio.Spec.CollateralBasis

section
variable {K m s q r n p p' L L' : Type} [Field K] [LinearOrder K] [IsStrictOrderedRing K] [Fintype m] [DecidableEq m] [Fintype s] [DecidableEq s] [Fintype q] [DecidableEq q] [Fintype r] [Fintype n] [DecidableEq n] [Fintype p] [Fintype p']

/-- **C110, masked problems.** The masked Galerkin problem of the full-order model with that operator also goes through the run of the full-order model. -/
theorem C110_masked (M : Matrix q m K) {F : Fom K m m n} {f : (m → K) → K → Except Exc (m → K)} {Df Mm : (m → K) → K → Except Exc (Matrix m m K)} (hF : FomIs F f Df Mm) (hn : FomNoTSF f Df) (sys : ISystem K (m → K) (Matrix m m K)) (hsys : OdeIs sys f Df)
    {Mk : Masker K m q n} (hMk : MaskIs Mk (fun v => M *ᵥ v) (fun B => M * B)) (S : Trial K m n) (hS : Orthonormal S) (hI : InvariantSpace S f Df) (W : Matrix n q K) (hW : Recovers M S.basis W)
    {H : HypRed K q n} (hH : HypIs H (fun _ v => W *ᵥ v) (fun _ B => W * B)) (s0 : GSt K m m q n) (name : Scheme) (mem : SMem K (m → K) (m → K) PMem) (mem' : SMem K (n → K) (n → K) PMem) (hmem : Ready name mem) (hmem' : Ready name mem')
    (env : Env K m m p L) (env' : Env K n n p' L') (he : ∀ A b s, (env.linJ A b s).stop? ≠ some (.exc .timeStepFailure)) (he' : ∀ A b s, (env'.linJ A b s).stop? ≠ some (.exc .timeStepFailure)) (hlin : SolvesRegular env.linJ) (hlin' : SolvesRegular env'.linJ)
    (hM : Euclidean env.normM ∧ ∀ r, 0 ≤ env.normM r) (hM' : Euclidean env'.normM ∧ ∀ r, 0 ≤ env'.normM r) (hN : Euclidean env.normN ∧ ∀ r, 0 ≤ env.normN r) (hN' : Euclidean env'.normN ∧ ∀ r, 0 ≤ env'.normN r)
    (cfg : Cfg K) (reg : Reg K m m p L) (reg' : Reg K n n p' L') (hreg : NewtonIdle reg) (hreg' : NewtonIdle reg') (dts : List K) (hdt : ∀ dt ∈ dts, RegularOn S name Df dt) (t0 : K) (x0 : n → K) :
    (driveObj (stdStep name (asISystem (maskedRhsJac S F Mk H) s0)) (Model.Nonlinear.newtonSolve env' cfg) dts t0 [x0] x0 mem' reg').map (shown (lift S)) =
      (driveObj (stdStep name sys) (Model.Nonlinear.newtonSolve env cfg) dts t0 [lift S x0] (lift S x0) mem reg).map (shown id) := by
  have h1 := C104_galerkin_implicit (q := n) hF hn sys hsys S hS hI ⟨0, 0, 0, 0, 0, 0, 0, 0, 0, 0, 0⟩ name mem mem' hmem hmem' env env' he he' hlin hlin' hM hM' hN hN' cfg reg reg' hreg hreg' dts hdt t0 x0
  have h2 := C108_masked_implicit (r' := n) M hF hn hMk S S.basis W hW ⟨hI.1, hI.2⟩ (orthonormal_reconstructs hS hH) ⟨0, 0, 0, 0, 0, 0, 0, 0, 0, 0, 0⟩ s0 name mem' mem' hmem' hmem' (Model.Nonlinear.newtonSolve env' cfg) (fine_newtonSolve env' he' cfg) reg' dts t0 x0
  rw [shown_reread (lift S) h2, h1]

theorem recovers_injective {M : Matrix q m K} {V : Matrix m n K} {W : Matrix n q K} (h : Recovers M V W) : Function.Injective V.mulVec := by
  intro a b e
  have := congrArg (fun v => W *ᵥ (M *ᵥ v)) e
  simpa only [Matrix.mulVec_mulVec, show W * (M * V) = 1 from h, Matrix.one_mulVec] using this

/-- **C110, LSPG.** The hyper-reduced LSPG problem of the sample-mesh code, solved by a weighted Gauss-Newton object whose weights recover reduced coordinates and reconstruct (`(Φ W)ᵀ (Φ W)`, or compactly `Φ W`), by BDF1 or BDF2, and the full-order model with a Newton object: both runs go through the same full-order states at the same times, accept and fail in the same
    steps in the same way, and ask for evaluations at the same full-order states. Matching options, a criterion about the correction, norms of reduced states that are the norms of the full-order states they stand for. Any basis. -/
theorem C110_lspg (P : Matrix s m K) (E : Matrix q s K) {F : Fom K m m n} {f : (m → K) → K → Except Exc (m → K)} {Df Mm : (m → K) → K → Except Exc (Matrix m m K)} (hF : FomIs F f Df Mm) (hn : FomNoTSF f Df) (hv : ∀ y t, f y t ≠ .error .velocityFailureUnrecoverable) (hv' : ∀ y t, Df y t ≠ .error .velocityFailureUnrecoverable)
    (sys : ISystem K (m → K) (Matrix m m K)) (hsys : OdeIs sys f Df) {F' : Fom K s q n} {f' : (s → K) → K → Except Exc (q → K)} {Df' Mm' : (s → K) → K → Except Exc (Matrix q s K)} (hF' : FomIs F' f' Df' Mm') (hs : Samples P E f Df f' Df') (Up : Updater K s q n) (hU : UpdaterIs Up E)
    (S : Trial K m n) (hI : InvariantSpace S f Df) (W : Matrix n q K) (hW : Recovers (E * P) S.basis W) (name : Scheme) (hname : name = .BDF1 ∨ name = .BDF2)
    (mem : SMem K (m → K) (m → K) PMem) (hmem : Ready name mem) (mem' : SMem K (n → K) (n → K) (LMem K s q n)) (hmem' : LspgReady name mem')
    (env : Env K m m p L) (env' : Env K q n m L') (tag : Tag) (hwt : Weighs env' (S.basis * W) tag) (he : ∀ A b s, (env.linJ A b s).stop? ≠ some (.exc .timeStepFailure)) (he' : ∀ A b s, (env'.lin A b s).stop? ≠ some (.exc .timeStepFailure)) (hlin : SolvesRegular env.linJ) (hlin' : SolvesRegular env'.lin)
    (hE : Euclidean env.normM) (hnn : ∀ r, 0 ≤ env.normM r) (hN : ∀ c, env'.normN c = env.normN (S.basis *ᵥ c))
    (cfg cfg' : Cfg K) (hcfg : Matching cfg cfg') (h1 : 1 ≤ cfg.maxIters) (hcrit : cfg.stop = .WhenAbsolutel2NormOfCorrectionBelowTolerance ∨ cfg.stop = .WhenRelativel2NormOfCorrectionBelowTolerance)
    (reg : Reg K m m p L) (reg' : Reg K q n m L') (hreg : NewtonIdle reg) (hreg' : LsIdle reg') (dts : List K) (hdt : ∀ dt ∈ dts, FomRegular name Df dt) (t0 : K) (x0 : n → K) :
    (driveObj (stepWith name (hypredPolicy Up (onStencil P S) F')) (Model.Nonlinear.lsSolve env' cfg' tag) dts t0 [x0] x0 mem' reg').map (shown (lift S)) =
      (driveObj (stdStep name sys) (Model.Nonlinear.newtonSolve env cfg) dts t0 [lift S x0] (lift S x0) mem reg).map (shown id) := by
  -- between the two: the LSPG problem of the full-order model, with the inner solver of the one and the norm of residuals of the other
  let mid : Env K m n n L' :=
    { normM := env.normM, normN := env'.normN, lin := env'.lin, linJ := fun _ _ s => .ok () s, applyJac := fun _ _ y => y, krylov := fun _ _ c => .ok () c, qrThin := fun _ l => .ok () l, qrApplyQT := fun _ s => .ok () s, qrSolve := fun _ s => .ok () s,
      wR := id, wJ := id, cwR := fun _ => 0, cwJ := fun _ => 0, createState := 0 }
  let rmid : Reg K m n n L' :=
    { x := 0, trial := 0, c := reg'.c, r := 0, J := 0, g := 0, H := 0, H0 := 0, damp := 0, Wr := 0, WJ := 0, cWr := 0, cWJ := 0, QTr := 0, nu := 0, cDiagH := 0, lin := reg'.lin, diag := Model.Nonlinear.newContainer Model.Nonlinear.leastSquaresDiagnostics, files := [], log := [] }
  let memmid : SMem K (n → K) (n → K) (LMem K m m n) := ⟨0, 0, 0, 0, mem'.states, mem'.rhs, ⟨List.replicate (numStates name) 0, -1, 0, 0, 0⟩⟩
  have hmid : LspgReady name memmid := ⟨hmem'.1, by simp [memmid], by simp [memmid]⟩
  have hidle : LsIdle rmid := fun _ => .created _ rfl
  have a := C104_lspg (p' := n) hF hn hv hv' sys hsys S (recovers_injective hW) hI name hname mem hmem memmid hmid env mid he (by exact he') hlin hlin' rfl hnn cfg cfg' hcfg h1 (by rcases hcrit with h | h <;> rw [h] <;> rfl) (fun _ => hN) reg rmid hreg hidle dts hdt t0 x0
  have b := C108_lspg (p := n) P E hF hn hF' hs Up hU S S.basis W hW ⟨hI.1, hI.2⟩ ⟨1, by rw [Matrix.mul_one]⟩ name hname memmid hmid mem' hmem' mid env' tag hwt cfg' (by rw [hcfg.1]; exact h1) (by rw [hcfg.2.1]; rcases hcrit with h | h <;> rw [h] <;> rfl) he' rfl rfl hE rmid reg' hidle hreg' rfl rfl t0 x0 dts
  rw [shown_reread (lift S) b, a]
end

/-! The cells of C110, sampled in cell 0. -/
noncomputable def cellMask : Masker ℝ (Fin 2) (Fin 1) (Fin 1) := ⟨fun v _ => .ok (cellZero *ᵥ v), fun B _ => .ok (cellZero * B)⟩
example := C110_masked cellZero cells_is cells_noTSF _ (fomSystem_is _ _) (Mk := cellMask) ⟨fun _ _ => rfl, fun _ _ => rfl⟩ (inStep (Real.sqrt (1/2))) inStep_orthonormal (cells_invariant _ (by positivity)) (cellW _) (by simpa using cell_recovers _ (by positivity)) (cellHyp_is _) gstCells .CrankNicolson memCN memCN1
  (by simp [Ready, memCN, freshPMem]) (by simp [Ready, memCN1, freshPMem]) envInv env1 (by simp [envInv]) (by simp [env1]) envInv_solves inverts realNorms realNorms1 realNorms realNorms1
  ⟨10, .WhenAbsolutel2NormOfCorrectionBelowTolerance, 1/100, .BacktrackStrictlyDecreasingObjective, none⟩ regInv (regOf (Fin 1) Model.Nonlinear.newtonDiagnostics) (fun _ => .created _ rfl) (fun _ => .created _ rfl)
  [1, 1/2, 3] (fun dt h _ t D hD => cells_regular .CrankNicolson (.inr (.inr rfl)) dt (positive_steps dt h) _ t D hD) 0 ![1]

/-- the weights reconstruct both cells from cell 0 -/
noncomputable def envCell : Env ℝ (Fin 1) (Fin 1) (Fin 2) Unit where
  normM := realNorm
  normN := fun c => realNorm ((inStep 3).basis *ᵥ c)
  lin := fun A b s => .ok () (A⁻¹ *ᵥ b, s.2)
  linJ := fun _ _ s => .ok () s
  applyJac := fun _ _ y => y
  krylov := fun _ _ c => .ok () c
  qrThin := fun _ l => .ok () l
  qrApplyQT := fun _ s => .ok () s
  qrSolve := fun _ s => .ok () s
  wR := fun r => (2 : ℝ) • r
  wJ := fun J => (2 : ℝ) • J
  cwR := fun r => (!![1; 1] : Matrix (Fin 2) (Fin 1) ℝ) *ᵥ r
  cwJ := fun J => (!![1; 1] : Matrix (Fin 2) (Fin 1) ℝ) * J
  createState := fun _ => 0
theorem envCell_weighs : Weighs envCell ((inStep 3).basis * cellW 3) .wgn ∧ Weighs envCell ((inStep 3).basis * cellW 3) .cwgn := by
  have h0 : (inStep 3).basis * cellW 3 = !![1; 1] := by
    ext i j; fin_cases j; fin_cases i <;> simp [inStep, cellW, Matrix.mul_apply]
  have h : (!![1; 1] : Matrix (Fin 2) (Fin 1) ℝ)ᵀ * (!![1; 1] : Matrix (Fin 2) (Fin 1) ℝ) = (2 : ℝ) • (1 : Matrix (Fin 1) (Fin 1) ℝ) := by
    ext i j; fin_cases i; fin_cases j; simp [Matrix.mul_apply]; norm_num
  rw [h0]
  refine ⟨⟨fun r => ?_, fun J => ?_⟩, fun r => rfl, fun J => rfl⟩
  · rw [h]; simp [envCell, Matrix.smul_mulVec]
  · rw [h]; simp [envCell]
noncomputable def regCell : Reg ℝ (Fin 1) (Fin 1) (Fin 2) Unit :=
  { regOf (Fin 1) Model.Nonlinear.leastSquaresDiagnostics with cWr := 7, cWJ := 0 }
noncomputable def memCell : SMem ℝ (Fin 1 → ℝ) (Fin 1 → ℝ) (LMem ℝ (Fin 2) (Fin 1) (Fin 1)) := ⟨0, 0, 0, 0, [0, 0], [], ⟨List.replicate 3 0, -1, 9, 8, fun _ _ => 7⟩⟩
example (tag : Tag) (h : Weighs envCell ((inStep 3).basis * cellW 3) tag) := C110_lspg (1 : Matrix (Fin 2) (Fin 2) ℝ) cellZero cells_is cells_noTSF (by simp [cells]) (by simp [cellsJac]) _ (fomSystem_is _ _) cellsSampled_is cells_samples
  (⟨fun R a y b => a • R + b • cellZero *ᵥ y, fun J a B b => a • J + b • (cellZero * B)⟩ : Updater ℝ (Fin 2) (Fin 1) (Fin 1)) ⟨fun _ _ _ _ => rfl, fun _ _ _ _ => rfl⟩ (inStep 3) (cells_invariant 3 (by norm_num)) (cellW 3) (cell_recovers 3 (by norm_num)) .BDF2 (.inr rfl) memBdf (by simp [Ready, memBdf, freshPMem])
  memCell (by refine ⟨?_, ?_, ?_⟩ <;> simp [memCell, Sized, numStates]) envInv envCell tag h (by simp [envInv]) (by intro A b s; simp [envCell]) envInv_solves inverts realNorms.1 (fun _ => Real.sqrt_nonneg _) (fun _ => rfl)
  ⟨10, .WhenAbsolutel2NormOfCorrectionBelowTolerance, 1/100, .BacktrackStrictlyDecreasingObjective, none⟩ ⟨10, .WhenAbsolutel2NormOfCorrectionBelowTolerance, 1/100, .BacktrackStrictlyDecreasingObjective, none⟩
  ⟨rfl, rfl, rfl, .inr ⟨rfl, rfl, .inl ⟨rfl, rfl⟩⟩⟩ (by simp) (.inl rfl) regInv regCell (fun _ => .created _ rfl) (fun _ => .created _ rfl) [1, 1/2, 3] (fun dt h => cells_regular .BDF2 (.inr (.inl rfl)) dt (positive_steps dt h)) 0 ![1]
end Pressio.Props
