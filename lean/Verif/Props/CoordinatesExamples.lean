import Verif.Props.CoordinatesGalerkin
import Verif.Props.SolverAlikeExamples
import Verif.Props.LspgGaussNewton
import Verif.Props.GalerkinObjects

/-
  C99: concrete cases, and what does depend on the coordinates.
-/
namespace Pressio.Props
set_option autoImplicit false
set_option linter.unusedSectionVars false
open Pressio Matrix
open Pressio.Model.Nonlinear (Env Cfg Reg StopCrit Update Tag Ans SP newContainer newtonDiagnostics leastSquaresDiagnostics)
open Pressio.Spec.Nonlinear Pressio.Spec.SolverAlike Pressio.Spec.Coordinates
open Pressio.Lemmas.Nonlinear Pressio.Lemmas.SolverAlike Pressio.Lemmas.Coordinates
open Pressio.Model.Implicit Pressio.Spec.Implicit Pressio.Lemmas.Implicit Pressio.Spec.SolverRun Pressio.Lemmas.SolverTree Pressio.Lemmas.SolverRun
open Pressio.Model.Explicit (Scheme System numRhs asStepper dummyObserver)
open Pressio.Model.ExplicitMM (MMSystem LinSolve asStepperMM numX)
open Pressio.Model.Galerkin Pressio.Spec.Galerkin
open Pressio.Model.Lspg Pressio.Spec.Lspg Pressio.Lemmas.Lspg
open Pressio.Spec.Explicit Pressio.Spec.ExplicitMM Pressio.Spec.Run Pressio.Lemmas.Run Pressio.Spec.AdvanceTarget

/-! ### Single solves -/

/-- the equation `x³ + x - 3 = 0` in the coordinate `x = 2 x' + 1`, multiplied by `c` -/
def cubMoved (c : ℚ) : Sys ℚ Unit Unit := Sys.ofFun (fun x => v1 (c * ((2 * x () + 1) ^ 3 + (2 * x () + 1) - 3))) (fun x => m1 (c * (3 * (2 * x () + 1) ^ 2 + 1) * 2))

theorem cubMoved_same (c : ℚ) : SameSystem (m1 c) (m1 2) (v1 1) cub (cubMoved c) := by
  constructor <;> intro x
  · simp only [cub, cubMoved, Sys.ofFun, Except.map]
    congr 2
    · funext i; simp [m1, v1, chart, Matrix.mulVec, dotProduct]
    · ext i j; simp [m1, v1, chart, Matrix.mulVec, dotProduct, Matrix.mul_apply]
  · simp only [cub, cubMoved, Sys.ofFun, Except.map]
    congr 1
    funext i; simp [m1, v1, chart, Matrix.mulVec, dotProduct]

theorem m1_det (a : ℚ) : (m1 a).det = a := by rw [Matrix.det_unique]; rfl
theorem m1_two : IsUnit (m1 2).det := by rw [m1_det]; exact isUnit_iff_ne_zero.2 (by norm_num)
theorem m1_neg : (m1 (-1))ᵀ * m1 (-1) = 1 := by ext i j; simp [m1, Matrix.mul_apply]

/-- the correction is measured in the coordinate `x` by the one and in the coordinate `x'` by the other, with the factor 2 -/
def env1Twice : Env ℚ Unit Unit Unit ℚ := { env1 with normN := fun v => |2 * v ()| }

example := C99_gauss_newton env1 env1Twice cfgCorr (m1 (-1)) (m1 2) (v1 1) m1_neg m1_two cub (cubMoved (-1)) (cubMoved_same _) (fun r => by simp [env1, env1Twice, m1, Matrix.mulVec, dotProduct])
  (fun c => by simp [env1, env1Twice, m1, Matrix.mulVec, dotProduct]) div1_solves div1_solves cub_regular2 (reg1 leastSquaresDiagnostics 3) (reg1 leastSquaresDiagnostics 1) (reg1_ls _) (reg1_ls _) (by funext i; simp [reg1, v1, m1, chart, Matrix.mulVec, dotProduct]; norm_num)
example := C99_weighted env1 env1Twice cfgCorr (m1 2) (m1 2) (v1 1) m1_two cub (cubMoved 1) (by rw [show (1 : Matrix Unit Unit ℚ) = m1 1 by ext i j; simp [m1]]; exact cubMoved_same _)
  (fun r => by funext i; simp [env1, v1, m1, Matrix.mulVec, dotProduct]) (fun J => by ext i j; simp [env1, m1, Matrix.mul_apply]) (fun r => by funext i; simp [env1Twice, env1, v1, m1, Matrix.mulVec, dotProduct]) (fun J => by ext i j; simp [env1Twice, env1, m1, Matrix.mul_apply])
  (fun c => by simp [env1, env1Twice, m1, Matrix.mulVec, dotProduct]) div1_solves div1_solves
  (fun x r J h => by
    have := (cub_regular x r J h).ne_zero
    rw [Matrix.det_unique] at this
    rw [Matrix.det_unique]
    exact isUnit_iff_ne_zero.2 (by simpa [m1, Matrix.mul_apply] using this))
  (reg1 leastSquaresDiagnostics 3) (reg1 leastSquaresDiagnostics 1) (reg1_ls _) (reg1_ls _) (by funext i; simp [reg1, v1, m1, chart, Matrix.mulVec, dotProduct]; norm_num)
/-- Newton: also the equation may be multiplied by any number other than 0 (here 7), as long as the criterion does not see it -/
example := C99_newton env1 env1Twice ⟨5, .WhenAbsolutel2NormOfCorrectionBelowTolerance, 1/100, .Standard, none⟩ (m1 7) (m1 2) (v1 1) (by rw [m1_det]; exact isUnit_iff_ne_zero.2 (by norm_num)) m1_two cub (cubMoved 7) (cubMoved_same _) (.inl rfl)
  (fun c => by simp [env1, env1Twice, m1, Matrix.mulVec, dotProduct]) div1_solves div1_solves cub_regular (reg1 newtonDiagnostics 3) (reg1 newtonDiagnostics 1) (reg1_newton _) (reg1_newton _) (by funext i; simp [reg1, v1, m1, chart, Matrix.mulVec, dotProduct]; norm_num)

/-- what these runs do: several iterations -/
example : (runNewton env1 ⟨5, .WhenAbsolutel2NormOfCorrectionBelowTolerance, 1/100, .Standard, none⟩ cub (reg1 newtonDiagnostics 3)).stop? = none ∧
    (runNewton env1 ⟨5, .WhenAbsolutel2NormOfCorrectionBelowTolerance, 1/100, .Standard, none⟩ cub (reg1 newtonDiagnostics 3)).state.log.length = 5 := by decide +kernel

/-- **C99, criteria on corrections.** The hypothesis on the criterion cannot be dropped: the same equation in two coordinates, both solvers measuring corrections by the absolute value of their own coordinate (what the library's norm does), with the same tolerance: the results are different points. -/
theorem C99_correction_criterion_refuted : SameSystem (m1 1) (m1 2) (v1 1) cub (cubMoved 1) ∧
    (runNewton env1 ⟨5, .WhenAbsolutel2NormOfCorrectionBelowTolerance, 3/4, .Standard, none⟩ cub (reg1 newtonDiagnostics 3)).stop? = none ∧
    (runNewton env1 ⟨5, .WhenAbsolutel2NormOfCorrectionBelowTolerance, 3/4, .Standard, none⟩ (cubMoved 1) (reg1 newtonDiagnostics 1)).stop? = none ∧
    (runNewton env1 ⟨5, .WhenAbsolutel2NormOfCorrectionBelowTolerance, 3/4, .Standard, none⟩ cub (reg1 newtonDiagnostics 3)).state.x ≠
      chart (m1 2) (v1 1) (runNewton env1 ⟨5, .WhenAbsolutel2NormOfCorrectionBelowTolerance, 3/4, .Standard, none⟩ (cubMoved 1) (reg1 newtonDiagnostics 1)).state.x := by
  refine ⟨cubMoved_same 1, by decide +kernel, by decide +kernel, fun h => ?_⟩
  have h := congrFun h ()
  simp only [chart, Matrix.mulVec, dotProduct, Finset.univ_unique, Finset.sum_singleton, Pi.add_apply, m1, v1, PUnit.default_eq_unit] at h
  revert h
  decide +kernel

/-! Levenberg-Marquardt, two unknowns and two equations -/

/-- residual `G x - (1, 1)`, Jacobian `G` -/
def affSys2 (G : Matrix (Fin 2) (Fin 2) ℚ) : Sys ℚ (Fin 2) (Fin 2) := Sys.ofFun (fun x => G *ᵥ x - ![1, 1]) (fun _ => G)

/-- maximum norm for corrections and gradients, the sum for residuals, Cramer's rule -/
def envCram : Env ℚ (Fin 2) (Fin 2) Unit Unit where
  normM := fun r => |r 0| + |r 1|
  normN := fun v => max |v 0| |v 1|
  lin := fun A b s => .ok () ((A.det)⁻¹ • ![A 1 1 * b 0 - A 0 1 * b 1, A 0 0 * b 1 - A 1 0 * b 0], s.2)
  linJ := fun _ _ s => .ok () s
  applyJac := fun _ _ y => y
  krylov := fun _ _ c => .ok () c
  qrThin := fun _ l => .ok () l
  qrApplyQT := fun _ s => .ok () s
  qrSolve := fun _ s => .ok () s
  wR := id
  wJ := id
  cwR := 0
  cwJ := 0
  createState := fun _ => 0

theorem envCram_solves : SolvesRegular envCram.lin := by
  intro A b c l hA
  refine ⟨_, l, rfl, ?_⟩
  have h := hA.ne_zero
  rw [Matrix.mulVec_smul]
  funext i
  rw [Pi.smul_apply, smul_eq_mul, inv_mul_eq_iff_eq_mul₀ h, Matrix.det_fin_two]
  fin_cases i <;> simp [Matrix.mulVec, dotProduct, Fin.sum_univ_two] <;> ring

def regCram : Reg ℚ (Fin 2) (Fin 2) Unit Unit where
  x := 0
  trial := 7
  c := 7
  r := 7
  J := 7
  g := 7
  H := 7
  H0 := 7
  damp := 7
  Wr := 7
  WJ := 7
  cWr := 7
  cWJ := 0
  QTr := 7
  nu := -3
  cDiagH := 7
  lin := ()
  diag := newContainer leastSquaresDiagnostics
  files := []
  log := []

theorem affSys2_moved (G B : Matrix (Fin 2) (Fin 2) ℚ) : SameSystem 1 B 0 (affSys2 G) (affSys2 (G * B)) := by
  constructor <;> intro x <;> simp [affSys2, Sys.ofFun, Except.map, chart, Matrix.mulVec_mulVec]

def gMat : Matrix (Fin 2) (Fin 2) ℚ := !![1, 1; 0, 2]

theorem gMat_regular : ∀ x r J, (affSys2 gMat).resJac x = .ok (r, J) → IsUnit (Jᵀ * J).det := by
  intro x r J h
  cases h
  rw [Matrix.det_mul, Matrix.det_transpose, Matrix.det_fin_two]
  exact isUnit_iff_ne_zero.2 (by simp [gMat])

example := C99_levenberg_marquardt envCram envCram ⟨5, .WhenAbsoluteObjectiveBelowTolerance, 1/100, .LMSchedule1, none⟩ 1 ![2, -3] 0 (by simp) (by intro i; fin_cases i <;> simp) (affSys2 gMat) (affSys2 (gMat * Matrix.diagonal ![2, -3])) (affSys2_moved _ _)
  (by simp [envCram]) trivial envCram_solves envCram_solves gMat_regular regCram { regCram with nu := 4 } (.created _ rfl) (.created _ rfl) (by funext i; simp [regCram, chart])

/-- **C99, Levenberg-Marquardt.** For other changes of coordinates (here `x_0 = x'_0 + x'_1`, `x_1 = x'_1`) it depends on them: same system, same starting point, a stopping criterion that does not depend on the coordinates, and different points after two iterations. -/
theorem C99_levenberg_marquardt_refuted : SameSystem 1 !![1, 1; 0, 1] 0 (affSys2 gMat) (affSys2 (gMat * !![1, 1; 0, 1])) ∧
    (runLs envCram ⟨2, .AfterMaxIters, 0, .LMSchedule1, none⟩ (affSys2 gMat) .lm regCram).stop? = none ∧ (runLs envCram ⟨2, .AfterMaxIters, 0, .LMSchedule1, none⟩ (affSys2 (gMat * !![1, 1; 0, 1])) .lm regCram).stop? = none ∧
    (runLs envCram ⟨2, .AfterMaxIters, 0, .LMSchedule1, none⟩ (affSys2 gMat) .lm regCram).state.x ≠
      chart !![1, 1; 0, 1] 0 (runLs envCram ⟨2, .AfterMaxIters, 0, .LMSchedule1, none⟩ (affSys2 (gMat * !![1, 1; 0, 1])) .lm regCram).state.x := by
  refine ⟨affSys2_moved _ _, ?_, ?_, ?_⟩ <;> decide +kernel

/-! ### LSPG -/

/-- the trial space of `trial2`, with twice its basis and another reference state of the same space -/
def trial2b : Trial ℚ (Fin 2) (Fin 1) := ⟨!![6; 8], ![4, 6], true⟩

theorem trial2b_same : SameSpace trial2 trial2b !![2] ![1] := by
  refine ⟨by simp, fun x => ?_⟩
  funext i
  fin_cases i <;> simp [lift, trial2, trial2b, chart, Matrix.mulVec, dotProduct] <;> ring

theorem trial2_injective : Function.Injective trial2.basis.mulVec := by
  intro x y h
  have := congrFun h 0
  simp [trial2, Matrix.mulVec, dotProduct] at this
  funext i
  rw [Subsingleton.elim i 0]
  exact this

theorem rotFom_regular (name : Scheme) (dt : ℚ) : LspgRegular name trial2 (fun (_ : Fin 2 → ℚ) (_ : ℚ) => .ok !![0, 1; -1, 0]) dt := by
  intro y t A hA c _
  cases hA
  rw [Matrix.det_unique]
  apply isUnit_iff_ne_zero.2
  simp [trial2, Matrix.mul_apply, Fin.sum_univ_two]
  nlinarith [sq_nonneg c]

theorem envGN_solves : SolvesRegular envGN.lin := by
  intro A b c l hA
  have h : A 0 0 ≠ 0 := by
    have := hA.ne_zero
    rwa [Matrix.det_fin_one] at this
  refine ⟨_, l + 1, rfl, ?_⟩
  funext i
  rw [Subsingleton.elim i 0]
  simp [Matrix.mulVec, dotProduct]
  field_simp

/-- stops on the objective: nothing to assume about the norms -/
def cfgObj : Cfg ℚ := cfgN .WhenAbsoluteObjectiveBelowTolerance (1/100) 4 .Standard

example := C99_lspg_runs rotFom_is rotFom_noTSF trial2 trial2b !![2] ![1] trial2b_same .BDF2 (.inr rfl) (lspgMem .BDF2 3 2) (lspgMem .BDF2 3 2) lspgMem_ready lspgMem_ready envGN envGN envGN_honest envGN_honest envGN_solves envGN_solves rfl
  cfgObj (by simp [cfgObj, cfgN]) (by simp [cfgObj, cfgN, SameMeasure]) regGN regGN regGN_idle regGN_idle [1/2, 1/2, 1/4] (fun dt _ => rotFom_regular .BDF2 dt) 0 ![1] ![0] (by funext i; fin_cases i <;> simp [lift, trial2, trial2b, Matrix.mulVec, dotProduct] <;> norm_num) trial2_injective

/-! ### Galerkin -/

/-- two orthonormal bases of the plane of the first two components of the FOM state, the second turned by a 3-4-5 angle, and with another reference state -/
noncomputable def planeA : Trial ℝ (Fin 3) (Fin 2) := ⟨!![1, 0; 0, 1; 0, 0], ![0, 0, 5], true⟩
noncomputable def planeB : Trial ℝ (Fin 3) (Fin 2) := ⟨!![3/5, -4/5; 4/5, 3/5; 0, 0], ![1, 2, 5], true⟩

theorem plane_same : SameSpace planeA planeB !![3/5, -4/5; 4/5, 3/5] ![1, 2] := by
  refine ⟨by rw [Matrix.det_fin_two]; simp; norm_num, fun x => ?_⟩
  funext i
  fin_cases i <;> simp [lift, planeA, planeB, chart, Matrix.mulVec, dotProduct, Fin.sum_univ_two]

theorem planeA_orthonormal : Orthonormal planeA := by
  unfold Spec.Galerkin.Orthonormal planeA
  ext i j
  fin_cases i <;> fin_cases j <;> simp [Matrix.mul_apply, Fin.sum_univ_three]
theorem planeB_orthonormal : Orthonormal planeB := by
  unfold Spec.Galerkin.Orthonormal planeB
  ext i j
  fin_cases i <;> fin_cases j <;> simp [Matrix.mul_apply, Fin.sum_univ_three] <;> norm_num

/-- `y' = (y_1 + t, 1 - y_0, y_0 y_1)` -/
noncomputable def rotFom3 : Fom ℝ (Fin 3) (Fin 3) (Fin 2) where
  rhs := fun y t _ => .ok ![y 1 + t, 1 - y 0, y 0 * y 1]
  applyJac := fun y B _ _ => .ok ((!![0, 1, 0; -1, 0, 0; y 1, y 0, 0] : Matrix (Fin 3) (Fin 3) ℝ) * B)
  applyMM := fun _ B _ _ => .ok B

theorem rotFom3_is : FomIs rotFom3 (fun y t => .ok ![y 1 + t, 1 - y 0, y 0 * y 1]) (fun y _ => .ok !![0, 1, 0; -1, 0, 0; y 1, y 0, 0]) (fun _ _ => .ok 1) where
  rhs := fun _ _ _ => rfl
  jac := fun _ _ _ _ => rfl
  mm := fun _ B _ _ => by simp [rotFom3, Except.map, Except.mapError]

theorem rotFom3_noTSF : FomNoTSF (fun (y : Fin 3 → ℝ) (t : ℝ) => .ok ![y 1 + t, 1 - y 0, y 0 * y 1]) (fun (y : Fin 3 → ℝ) (_ : ℝ) => .ok !![0, 1, 0; -1, 0, 0; y 1, y 0, 0]) := ⟨fun _ _ => by simp, fun _ _ => by simp⟩

theorem rotFom3_regular (name : Scheme) (dt : ℝ) : GalerkinRegular name planeA (fun (y : Fin 3 → ℝ) (_ : ℝ) => .ok !![0, 1, 0; -1, 0, 0; y 1, y 0, 0]) dt := by
  intro y t D hD c _
  cases hD
  rw [Matrix.det_fin_two]
  apply isUnit_iff_ne_zero.2
  simp [planeA, Matrix.mul_apply, Fin.sum_univ_three]
  nlinarith [sq_nonneg c]

/-- Euclidean norms, and a linear solver that inverts -/
noncomputable def envInv : Env ℝ (Fin 2) (Fin 2) Unit Unit where
  normM := realNorm
  normN := realNorm
  lin := fun A b s => .ok () (A⁻¹ *ᵥ b, s.2)
  linJ := fun A b s => .ok () (A⁻¹ *ᵥ b, s.2)
  applyJac := fun _ _ y => y
  krylov := fun _ _ c => .ok () c
  qrThin := fun _ l => .ok () l
  qrApplyQT := fun _ s => .ok () s
  qrSolve := fun _ s => .ok () s
  wR := id
  wJ := id
  cwR := 0
  cwJ := 0
  createState := fun _ => 0

theorem envInv_solves : SolvesRegular envInv.linJ := fun A b _ l hA => ⟨A⁻¹ *ᵥ b, l, rfl, by rw [Matrix.mulVec_mulVec, Matrix.mul_nonsing_inv A hA, Matrix.one_mulVec]⟩

noncomputable def regInv : Reg ℝ (Fin 2) (Fin 2) Unit Unit where
  x := 7
  trial := 7
  c := 7
  r := 7
  J := 7
  g := 7
  H := 7
  H0 := 7
  damp := 7
  Wr := 7
  WJ := 7
  cWr := 7
  cWJ := 0
  QTr := 7
  nu := 7
  cDiagH := 7
  lin := ()
  diag := newContainer newtonDiagnostics
  files := []
  log := []

noncomputable def gst3 : GSt ℝ (Fin 3) (Fin 3) (Fin 1) (Fin 2) := ⟨0, 0, 0, 0, 0, 0, 0, 0, 0, 0, 0⟩
noncomputable def memCN : SMem ℝ (Fin 2 → ℝ) (Fin 2 → ℝ) PMem := ⟨0, 0, 0, 0, [0], [0, 0], freshPMem⟩

example := C99_galerkin_implicit (q := Fin 1) rotFom3_is rotFom3_noTSF planeA planeB _ _ plane_same planeA_orthonormal planeB_orthonormal gst3 gst3 .CrankNicolson memCN memCN (by simp [Ready, memCN, freshPMem]) (by simp [Ready, memCN, freshPMem]) envInv envInv
  (by simp [envInv]) (by simp [envInv]) envInv_solves envInv_solves ⟨realNorm_euclidean, fun _ => Real.sqrt_nonneg _⟩ ⟨realNorm_euclidean, fun _ => Real.sqrt_nonneg _⟩ ⟨realNorm_euclidean, fun _ => Real.sqrt_nonneg _⟩ ⟨realNorm_euclidean, fun _ => Real.sqrt_nonneg _⟩
  cfgG regInv regInv (fun _ => .created _ rfl) (fun _ => .created _ rfl) [1, 1/2, 3] (fun dt _ => rotFom3_regular .CrankNicolson dt) 0 ![1, 2] ![0, 0] (by funext i; fin_cases i <;> simp [lift, planeA, planeB, Matrix.mulVec, dotProduct, Fin.sum_univ_two])

/-- one unknown: weighted absolute values as norms, division -/
def envW (a b : ℚ) : Env ℚ (Fin 1) (Fin 1) Unit Unit where
  normM := fun v => |a * v 0|
  normN := fun v => |b * v 0|
  lin := fun A b s => .ok () (fun _ => b 0 / A 0 0, s.2)
  linJ := fun A b s => .ok () (fun _ => b 0 / A 0 0, s.2)
  applyJac := fun _ _ y => y
  krylov := fun _ _ c => .ok () c
  qrThin := fun _ l => .ok () l
  qrApplyQT := fun _ s => .ok () s
  qrSolve := fun _ s => .ok () s
  wR := id
  wJ := id
  cwR := 0
  cwJ := 0
  createState := fun _ => 0

theorem envW_solves (a b : ℚ) : SolvesRegular (envW a b).linJ := by
  intro A b c l hA
  have h : A 0 0 ≠ 0 := by
    have := hA.ne_zero
    rwa [Matrix.det_fin_one] at this
  refine ⟨_, l, rfl, ?_⟩
  funext i
  rw [Subsingleton.elim i 0]
  simp [Matrix.mulVec, dotProduct]
  field_simp

def regW : Reg ℚ (Fin 1) (Fin 1) Unit Unit where
  x := 7
  trial := 7
  c := 7
  r := 7
  J := 7
  g := 7
  H := 7
  H0 := 7
  damp := 7
  Wr := 7
  WJ := 7
  cWr := 7
  cWJ := 0
  QTr := 7
  nu := 7
  cDiagH := 7
  lin := ()
  diag := newContainer newtonDiagnostics
  files := []
  log := []

theorem rotFom_regularMM (name : Scheme) (dt : ℚ) : GalerkinRegularMM name trial2 (fun (_ : Fin 2 → ℚ) (_ : ℚ) => .ok !![0, 1; -1, 0]) (fun (_ : Fin 2 → ℚ) (_ : ℚ) => .ok 1) dt := by
  intro y t A D hA hD c _
  cases hA
  cases hD
  rw [Matrix.det_unique]
  apply isUnit_iff_ne_zero.2
  simp [trial2, Matrix.mul_apply, Fin.sum_univ_two]
  norm_num

example := C99_galerkin_implicit_mass_matrix (q := Fin 1) rotFom_is rotFom_noTSF (fun _ _ => by simp) trial2 trial2b _ _ trial2b_same trial2_injective gst2 gst2 .BDF2 memMM2 memMM2 rfl rfl (envW 1 1) (envW (1/2) 2) (by simp [envW]) (by simp [envW]) (envW_solves _ _) (envW_solves _ _)
  ⟨10, .WhenAbsolutel2NormOfResidualBelowTolerance, 1/100, .BacktrackStrictlyDecreasingObjective, none⟩ (.inr fun r => by simp [envW, Matrix.mulVec, dotProduct]) (fun r => by simp [envW, Matrix.mulVec, dotProduct]) regW regW (fun _ => .created _ rfl) (fun _ => .created _ rfl)
  [1/2, 1/2, 1/4] (fun dt _ => rotFom_regularMM .BDF2 dt) 0 ![1] ![0] (by funext i; fin_cases i <;> simp [lift, trial2, trial2b, Matrix.mulVec, dotProduct] <;> norm_num)

example (scheme : Scheme) (h : scheme.isExplicit = true) (N : Nat) (hN : (N : Int) < int32Max) := C99_galerkin_explicit (q := Fin 1) rotFom3_is planeA planeB _ _ plane_same planeA_orthonormal planeB_orthonormal gst3 gst3 scheme h (fun k _ _ => 1 / (k + 1)) 0 N hN ![1, 2] ![0, 0]
  (by funext i; fin_cases i <;> simp [lift, planeA, planeB, Matrix.mulVec, dotProduct, Fin.sum_univ_two]) (List.replicate (numRhs scheme) 0, 0, []) (List.replicate (numRhs scheme) 1, 1, []) (by simp) (by simp)

example (scheme : Scheme) (h : scheme.isExplicit = true) (N : Nat) (hN : (N : Int) < int32Max) := C99_galerkin_explicit_mass_matrix (q := Fin 1) (M := fun _ _ => 1) rotFom_is trial2 trial2b _ _ trial2b_same trial2_injective
  (fun _ _ => by rw [Matrix.det_unique]; exact isUnit_iff_ne_zero.2 (by simp [trial2, Matrix.mul_apply, Fin.sum_univ_two]; norm_num)) (cramer _) (cramer _) (cramer_solves _) (cramer_solves _) gst2 gst2 scheme h (fun k _ _ => 1 / (k + 1)) 0 N hN ![1] ![0]
  (by funext i; fin_cases i <;> simp [lift, trial2, trial2b, Matrix.mulVec, dotProduct] <;> norm_num) (![9], List.replicate (numX scheme) ![9], !![9], []) (![9], List.replicate (numX scheme) ![9], !![9], []) (by simp) (by simp)

/-- **C99, Galerkin without mass matrix.** Orthonormality cannot be dropped: two bases of the same space, from the same FOM state, one step of ForwardEuler of the same size: different FOM states. (The library multiplies with the transpose of the basis and does not divide by `Phiᵀ Phi`; it does not check the basis.) -/
theorem C99_galerkin_basis_refuted : SameSpace trial2 trial2b !![2] ![1] ∧ lift trial2 ![1] = lift trial2b ![0] ∧
    (run 0 (fun _ _ _ => (1 : ℚ)) (asStepper (asSystem (defaultRhs trial2 rotFom) gst2) .ForwardEuler dummyObserver) 1 0 ![1] ([![9]], ![9], [])).stop? = none ∧
    (run 0 (fun _ _ _ => (1 : ℚ)) (asStepper (asSystem (defaultRhs trial2b rotFom) gst2) .ForwardEuler dummyObserver) 1 0 ![0] ([![9]], ![9], [])).stop? = none ∧
    lift trial2 (run 0 (fun _ _ _ => (1 : ℚ)) (asStepper (asSystem (defaultRhs trial2 rotFom) gst2) .ForwardEuler dummyObserver) 1 0 ![1] ([![9]], ![9], [])).state.y ≠
      lift trial2b (run 0 (fun _ _ _ => (1 : ℚ)) (asStepper (asSystem (defaultRhs trial2b rotFom) gst2) .ForwardEuler dummyObserver) 1 0 ![0] ([![9]], ![9], [])).state.y := by
  refine ⟨trial2b_same, ?_, ?_, ?_, ?_⟩ <;> decide +kernel

end Pressio.Props
