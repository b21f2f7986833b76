import Verif.Props.InvariantSpace
import Verif.Props.FullBasisExamples

/-
  C104: cases that meet the hypotheses.
-/
namespace Pressio.Props
set_option autoImplicit false
set_option linter.unusedSectionVars false
open Pressio Matrix
open Pressio.Model.Nonlinear (Env Cfg Reg StopCrit Update Tag newContainer newtonDiagnostics leastSquaresDiagnostics)
open Pressio.Spec.Nonlinear Pressio.Spec.SolverAlike Pressio.Spec.Coordinates Pressio.Spec.InvariantSpace
open Pressio.Lemmas.Nonlinear Pressio.Lemmas.SolverAlike Pressio.Lemmas.Coordinates
open Pressio.Model.Implicit Pressio.Spec.Implicit Pressio.Spec.SolverRun
open Pressio.Model.Explicit (Scheme)
open Pressio.Model.Galerkin Pressio.Spec.Galerkin Pressio.Model.Lspg Pressio.Spec.Lspg Pressio.Spec.Run

/-- two coupled cells with the same law: `y_0' = t - y_0^3 + (y_1 - y_0)`, `y_1' = t - y_1^3 + (y_0 - y_1)` -/
noncomputable def cells (y : Fin 2 → ℝ) (t : ℝ) : Except Exc (Fin 2 → ℝ) := .ok ![t - y 0 ^ 3 + (y 1 - y 0), t - y 1 ^ 3 + (y 0 - y 1)]
noncomputable def cellsJac (y : Fin 2 → ℝ) (_ : ℝ) : Except Exc (Matrix (Fin 2) (Fin 2) ℝ) := .ok !![-3 * y 0 ^ 2 - 1, 1; 1, -3 * y 1 ^ 2 - 1]

noncomputable def cellsFom : Fom ℝ (Fin 2) (Fin 2) (Fin 1) where
  rhs := fun y t _ => .ok ![t - y 0 ^ 3 + (y 1 - y 0), t - y 1 ^ 3 + (y 0 - y 1)]
  applyJac := fun y B _ _ => .ok ((!![-3 * y 0 ^ 2 - 1, 1; 1, -3 * y 1 ^ 2 - 1] : Matrix (Fin 2) (Fin 2) ℝ) * B)
  applyMM := fun _ B _ _ => .ok ((1 : Matrix (Fin 2) (Fin 2) ℝ) * B)

theorem cells_is : FomIs cellsFom cells cellsJac (fun _ _ => .ok 1) where
  rhs := fun _ _ _ => rfl
  jac := fun _ _ _ _ => rfl
  mm := fun _ _ _ _ => rfl

theorem cells_noTSF : FomNoTSF cells cellsJac := ⟨fun _ _ => by simp [cells], fun _ _ => by simp [cellsJac]⟩

/-- both cells in the same state: the line through `(2, 2)` in the direction `(c, c)` -/
noncomputable def inStep (c : ℝ) : Trial ℝ (Fin 2) (Fin 1) := ⟨!![c; c], ![2, 2], true⟩

/-- cells that start in the same state stay in the same state -/
theorem cells_invariant (c : ℝ) (hc : c ≠ 0) : InvariantSpace (inStep c) cells cellsJac := by
  constructor
  · intro x t v hv
    simp only [cells, Except.ok.injEq] at hv
    refine ⟨![(t - (c * x 0 + 2) ^ 3) / c], ?_⟩
    rw [← hv]
    funext i
    fin_cases i <;> simp [lift, inStep, Matrix.mulVec, dotProduct] <;> field_simp
  · intro x t D hD
    simp only [cellsJac, Except.ok.injEq] at hD
    refine ⟨!![-3 * (c * x 0 + 2) ^ 2], ?_⟩
    rw [← hD]
    ext i j
    fin_cases i <;> fin_cases j <;> simp [lift, inStep, Matrix.mulVec, dotProduct, Matrix.mul_apply, Fin.sum_univ_two] <;> ring

theorem cells_regular (name : Scheme) (hname : name = .BDF1 ∨ name = .BDF2 ∨ name = .CrankNicolson) (dt : ℝ) (h : 0 < dt) : FomRegular name cellsJac dt := by
  intro y t D hD c hc
  cases hD
  have h0 : 0 < c := by
    rcases hname with rfl | rfl | rfl <;> simp [rhsFactors] at hc
    · linarith
    · rcases hc with rfl | rfl <;> linarith
    · rw [hc]; linarith
  rw [Matrix.det_fin_two]
  apply isUnit_iff_ne_zero.2
  simp
  have a0 : 0 ≤ c * y 0 ^ 2 := by positivity
  have a1 : 0 ≤ c * y 1 ^ 2 := by positivity
  nlinarith [mul_nonneg a0 a1, mul_nonneg a0 h0.le, mul_nonneg a1 h0.le]

theorem inStep_injective (c : ℝ) (hc : c ≠ 0) : Function.Injective (inStep c).basis.mulVec := by
  intro v w h
  have := congrFun h 0
  simp [inStep, Matrix.mulVec, dotProduct, hc] at this
  funext i
  fin_cases i
  exact this

theorem inStep_orthonormal : Orthonormal (inStep (Real.sqrt (1/2))) := by
  unfold Spec.Galerkin.Orthonormal inStep
  ext i j
  fin_cases i; fin_cases j
  simp only [Matrix.mul_apply, Fin.sum_univ_two, Matrix.transpose_apply]
  simp [← Real.sqrt_mul_self_eq_abs]
  norm_num [← mul_inv, Real.mul_self_sqrt]

noncomputable def env1 : Env ℝ (Fin 1) (Fin 1) Unit Unit where
  normM := realNorm
  normN := realNorm
  lin := fun A b s => .ok () (A⁻¹ *ᵥ b, s.2)
  linJ := fun A b s => .ok () (A⁻¹ *ᵥ b, s.2)
  applyJac := fun _ _ y => y
  krylov := fun _ _ c => .ok () c
  qrThin := fun _ l => .ok () l
  qrApplyQT := fun _ s => .ok () s
  qrSolve := fun _ s => .ok () s
  wR := id
  wJ := id
  cwR := 0
  cwJ := 0
  createState := fun _ => 0

noncomputable def env21 : Env ℝ (Fin 2) (Fin 1) Unit Unit where
  normM := realNorm
  normN := fun c => realNorm ((inStep 3).basis *ᵥ c)
  lin := fun A b s => .ok () (A⁻¹ *ᵥ b, s.2)
  linJ := fun _ _ s => .ok () s
  applyJac := fun _ _ y => y
  krylov := fun _ _ c => .ok () c
  qrThin := fun _ l => .ok () l
  qrApplyQT := fun _ s => .ok () s
  qrSolve := fun _ s => .ok () s
  wR := id
  wJ := id
  cwR := 0
  cwJ := 0
  createState := fun _ => 0

theorem inverts {k : Type} [Fintype k] [DecidableEq k] : SolvesRegular (fun (A : Matrix k k ℝ) (b : k → ℝ) (s : (k → ℝ) × Unit) => (.ok () (A⁻¹ *ᵥ b, s.2) : Res ((k → ℝ) × Unit) Unit)) :=
  fun A b _ l hA => ⟨A⁻¹ *ᵥ b, l, rfl, by rw [Matrix.mulVec_mulVec, Matrix.mul_nonsing_inv A hA, Matrix.one_mulVec]⟩

noncomputable def regOf (k : Type) [Fintype k] [DecidableEq k] (d : List Model.Nonlinear.Diagnostic) : Reg ℝ k (Fin 1) Unit Unit where
  x := 7
  trial := 7
  c := 7
  r := 7
  J := fun _ _ => 7
  g := 7
  H := 7
  H0 := 7
  damp := 7
  Wr := 7
  WJ := fun _ _ => 7
  cWr := 7
  cWJ := 0
  QTr := 7
  nu := 7
  cDiagH := 7
  lin := ()
  diag := newContainer d
  files := []
  log := []

theorem realNorms1 : (Euclidean (realNorm : (Fin 1 → ℝ) → ℝ)) ∧ ∀ r : Fin 1 → ℝ, 0 ≤ realNorm r := ⟨fun r => by rw [sq]; exact (realNorm_isNorm r).2, fun _ => Real.sqrt_nonneg _⟩

noncomputable def gstCells : GSt ℝ (Fin 2) (Fin 2) (Fin 1) (Fin 1) := ⟨0, 0, 0, 0, 0, 0, 0, 0, 0, 0, 0⟩
noncomputable def memCN1 : SMem ℝ (Fin 1 → ℝ) (Fin 1 → ℝ) PMem := ⟨0, 0, 0, 0, [0], [0, 0], freshPMem⟩
noncomputable def memLspg1 : SMem ℝ (Fin 1 → ℝ) (Fin 1 → ℝ) (LMem ℝ (Fin 2) (Fin 2) (Fin 1)) := ⟨0, 0, 0, 0, [0, 0], [], ⟨List.replicate 3 0, -1, 9, 8, fun _ _ => 7⟩⟩

example := C104_galerkin_implicit (q := Fin 1) cells_is cells_noTSF _ (fomSystem_is _ _) (inStep (Real.sqrt (1/2))) inStep_orthonormal (cells_invariant _ (by positivity)) gstCells .CrankNicolson memCN memCN1
  (by simp [Ready, memCN, freshPMem]) (by simp [Ready, memCN1, freshPMem]) envInv env1 (by simp [envInv]) (by simp [env1]) envInv_solves inverts realNorms realNorms1 realNorms realNorms1
  ⟨10, .WhenAbsolutel2NormOfCorrectionBelowTolerance, 1/100, .BacktrackStrictlyDecreasingObjective, none⟩ regInv (regOf (Fin 1) newtonDiagnostics) (fun _ => .created _ rfl) (fun _ => .created _ rfl)
  [1, 1/2, 3] (fun dt h _ t D hD => cells_regular .CrankNicolson (.inr (.inr rfl)) dt (positive_steps dt h) _ t D hD) 0 ![1]

example := C104_lspg cells_is cells_noTSF (by simp [cells]) (by simp [cellsJac]) _ (fomSystem_is _ _) (inStep 3) (inStep_injective 3 (by norm_num)) (cells_invariant 3 (by norm_num)) .BDF2 (.inr rfl) memBdf (by simp [Ready, memBdf, freshPMem])
  memLspg1 (by refine ⟨?_, ?_, ?_⟩ <;> simp [memLspg1, Lemmas.Lspg.Sized, Lemmas.Lspg.numStates]) envInv env21 (by simp [envInv]) (by intro A b s; simp [env21]) envInv_solves inverts rfl (fun _ => Real.sqrt_nonneg _)
  ⟨10, .WhenAbsolutel2NormOfCorrectionBelowTolerance, 1/100, .BacktrackStrictlyDecreasingObjective, none⟩ ⟨10, .WhenAbsolutel2NormOfCorrectionBelowTolerance, 1/100, .BacktrackStrictlyDecreasingObjective, none⟩
  ⟨rfl, rfl, rfl, .inr ⟨rfl, rfl, .inl ⟨rfl, rfl⟩⟩⟩ (by simp) rfl (fun _ _ => rfl) regInv (regOf (Fin 2) leastSquaresDiagnostics) (fun _ => .created _ rfl) (fun _ => .created _ rfl)
  [1, 1/2, 3] (fun dt h => cells_regular .BDF2 (.inr (.inl rfl)) dt (positive_steps dt h)) 0 ![1]

end Pressio.Props
