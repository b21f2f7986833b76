import Verif.Props.FullBasis
import Verif.Props.CoordinatesExamples

/-
  C103: cases that meet the hypotheses, and the hypothesis that cannot be dropped.
-/
namespace Pressio.Props
set_option autoImplicit false
set_option linter.unusedSectionVars false
open Pressio Matrix
open Pressio.Model.Nonlinear (Env Cfg Reg StopCrit Update Tag newContainer newtonDiagnostics leastSquaresDiagnostics)
open Pressio.Spec.Nonlinear Pressio.Spec.SolverAlike Pressio.Spec.Coordinates
open Pressio.Lemmas.Nonlinear Pressio.Lemmas.SolverAlike Pressio.Lemmas.Coordinates
open Pressio.Model.Implicit Pressio.Spec.Implicit Pressio.Spec.SolverRun
open Pressio.Model.Explicit (Scheme System numRhs asStepper dummyObserver)
open Pressio.Model.Galerkin Pressio.Spec.Galerkin Pressio.Model.Lspg Pressio.Spec.Lspg Pressio.Spec.Run

/-- the whole plane, turned by a 3-4-5 angle, with a reference state -/
noncomputable def turned : Trial ℝ (Fin 2) (Fin 2) := ⟨!![3/5, -4/5; 4/5, 3/5], ![1, 2], true⟩

theorem turned_orthonormal : Orthonormal turned := by
  unfold Spec.Galerkin.Orthonormal turned
  ext i j
  fin_cases i <;> fin_cases j <;> simp [Matrix.mul_apply, Fin.sum_univ_two] <;> norm_num

/-- `y' = (t - y_0, y_0^2)`, with mass matrix `[1, 0; y_0, 1]` where there is one -/
noncomputable def chain : Fom ℝ (Fin 2) (Fin 2) (Fin 2) where
  rhs := fun y t _ => .ok ![t - y 0, y 0 ^ 2]
  applyJac := fun y B _ _ => .ok ((!![-1, 0; 2 * y 0, 0] : Matrix (Fin 2) (Fin 2) ℝ) * B)
  applyMM := fun y B _ _ => .ok ((!![1, 0; y 0, 1] : Matrix (Fin 2) (Fin 2) ℝ) * B)

theorem chain_is : FomIs chain (fun y t => .ok ![t - y 0, y 0 ^ 2]) (fun y _ => .ok !![-1, 0; 2 * y 0, 0]) (fun y _ => .ok !![1, 0; y 0, 1]) where
  rhs := fun _ _ _ => rfl
  jac := fun _ _ _ _ => rfl
  mm := fun _ _ _ _ => rfl

theorem chain_noTSF : FomNoTSF (fun (y : Fin 2 → ℝ) (t : ℝ) => .ok ![t - y 0, y 0 ^ 2]) (fun (y : Fin 2 → ℝ) (_ : ℝ) => .ok !![-1, 0; 2 * y 0, 0]) := ⟨fun _ _ => by simp, fun _ _ => by simp⟩

theorem chain_regular (name : Scheme) (hname : name = .BDF1 ∨ name = .BDF2 ∨ name = .CrankNicolson) (dt : ℝ) (h : 0 < dt) : FomRegular name (fun (y : Fin 2 → ℝ) (_ : ℝ) => .ok !![-1, 0; 2 * y 0, 0]) dt := by
  intro y t D hD c hc
  cases hD
  have h0 : 0 < c := by
    rcases hname with rfl | rfl | rfl <;> simp [rhsFactors] at hc
    · linarith
    · rcases hc with rfl | rfl <;> linarith
    · rw [hc]; linarith
  rw [Matrix.det_fin_two]
  apply isUnit_iff_ne_zero.2
  simp
  linarith

theorem chain_regularMM (dt : ℝ) (h : 0 < dt) : FomRegularMM .BDF2 (fun (y : Fin 2 → ℝ) (_ : ℝ) => .ok !![-1, 0; 2 * y 0, 0]) (fun (y : Fin 2 → ℝ) (_ : ℝ) => .ok !![1, 0; y 0, 1]) dt := by
  intro y t A D hA hD c hc
  cases hA
  cases hD
  have h0 : 0 < c := by
    simp [rhsFactors] at hc
    rcases hc with rfl | rfl <;> linarith
  rw [Matrix.det_fin_two]
  apply isUnit_iff_ne_zero.2
  simp
  linarith

noncomputable def gstChain : GSt ℝ (Fin 2) (Fin 2) (Fin 1) (Fin 2) := ⟨0, 0, 0, 0, 0, 0, 0, 0, 0, 0, 0⟩

theorem realNorms : (Euclidean (realNorm : (Fin 2 → ℝ) → ℝ)) ∧ ∀ r : Fin 2 → ℝ, 0 ≤ realNorm r := ⟨realNorm_euclidean, fun _ => Real.sqrt_nonneg _⟩

theorem positive_steps : ∀ dt ∈ ([1, 1/2, 3] : List ℝ), 0 < dt := by simp

example := C103_galerkin_implicit (q := Fin 1) chain_is chain_noTSF _ (fomSystem_is _ _) turned turned_orthonormal gstChain .CrankNicolson memCN memCN (by simp [Ready, memCN, freshPMem]) (by simp [Ready, memCN, freshPMem]) envInv envInv
  (by simp [envInv]) (by simp [envInv]) envInv_solves envInv_solves realNorms realNorms realNorms realNorms ⟨10, .WhenAbsolutel2NormOfCorrectionBelowTolerance, 1/100, .BacktrackStrictlyDecreasingObjective, none⟩ regInv regInv (fun _ => .created _ rfl) (fun _ => .created _ rfl)
  [1, 1/2, 3] (fun dt h => chain_regular .CrankNicolson (.inr (.inr rfl)) dt (positive_steps dt h)) 0 ![1, -1]

noncomputable def memMMR : SMem ℝ (Fin 2 → ℝ) (Fin 2 → ℝ) (MMMem (Fin 2 → ℝ) (Matrix (Fin 2) (Fin 2) ℝ)) := ⟨0, 0, 0, 0, [0, 0], [], ⟨-1, 0, 0, 0⟩⟩

/-- a basis that is not orthonormal -/
noncomputable def sheared : Trial ℝ (Fin 2) (Fin 2) := ⟨!![1, 3; 0, 2], ![1, 2], true⟩

/-- measures corrections by the full-order states they stand for -/
noncomputable def envShear : Env ℝ (Fin 2) (Fin 2) Unit Unit := { envInv with normN := fun c => realNorm (sheared.basis *ᵥ c) }

example := C103_galerkin_implicit_mass_matrix (q := Fin 1) chain_is chain_noTSF (fun _ _ => by simp) _ (fomSystemMM_is _ _ _) sheared (by simp [sheared]) gstChain .BDF2 memMMR memMMR rfl rfl envInv envShear
  (by simp [envInv]) (by simp [envShear, envInv]) envInv_solves envInv_solves ⟨10, .WhenAbsolutel2NormOfCorrectionBelowTolerance, 1/100, .Standard, none⟩ (.inl rfl) (fun _ => rfl) regInv regInv (fun _ => .created _ rfl) (fun _ => .created _ rfl)
  [1, 1/2, 3] (fun dt h => chain_regularMM dt (positive_steps dt h)) 0 ![1, -1]

example (scheme : Scheme) (h : scheme.isExplicit = true) (N : Nat) (hN : (N : Int) < int32Max) :=
  C103_galerkin_explicit (q := Fin 1) chain_is turned turned_orthonormal gstChain scheme h (fun k _ _ => 1 / (k + 1)) 0 N hN ![1, -1] (List.replicate (numRhs scheme) ![9, 9], ![9, 9], []) (List.replicate (numRhs scheme) ![9, 9], ![9, 9], []) (by simp) (by simp)

noncomputable def memBdf : SMem ℝ (Fin 2 → ℝ) (Fin 2 → ℝ) PMem := ⟨0, 0, 0, 0, [0, 0], [], freshPMem⟩
noncomputable def memLspg : SMem ℝ (Fin 2 → ℝ) (Fin 2 → ℝ) (LMem ℝ (Fin 2) (Fin 2) (Fin 2)) := ⟨0, 0, 0, 0, [0, 0], [], ⟨List.replicate 3 0, -1, 9, 8, 7⟩⟩

example := C103_lspg chain_is chain_noTSF (by simp) (by simp) _ (fomSystem_is _ _) sheared (by simp [sheared]) .BDF2 (.inr rfl) memBdf (by simp [Ready, memBdf, freshPMem]) memLspg (by refine ⟨?_, ?_, ?_⟩ <;> simp [memLspg, Lemmas.Lspg.Sized, Lemmas.Lspg.numStates])
  envInv envShear (by simp [envInv]) (by intro A b s; simp [envShear, envInv]) envInv_solves envInv_solves rfl (fun _ => Real.sqrt_nonneg _) ⟨10, .WhenAbsolutel2NormOfCorrectionBelowTolerance, 1/100, .BacktrackStrictlyDecreasingObjective, none⟩
  ⟨10, .WhenAbsolutel2NormOfCorrectionBelowTolerance, 1/100, .BacktrackStrictlyDecreasingObjective, none⟩ ⟨rfl, rfl, rfl, .inr ⟨rfl, rfl, .inl ⟨rfl, rfl⟩⟩⟩ (by simp) rfl (fun _ => rfl) regInv { regInv with diag := newContainer leastSquaresDiagnostics } (fun _ => .created _ rfl) (fun _ => .created _ rfl)
  [1, 1/2, 3] (fun dt h => chain_regular .BDF2 (.inr (.inl rfl)) dt (positive_steps dt h)) 0 ![1, -1]

/-- one unknown, `y' = t - y` -/
def decay1 : Fom ℚ (Fin 1) (Fin 1) (Fin 1) where
  rhs := fun y t _ => .ok ![t - y 0]
  applyJac := fun _ B _ _ => .ok (-B)
  applyMM := fun _ B _ _ => .ok B
def doubled : Trial ℚ (Fin 1) (Fin 1) := ⟨!![2], ![0], false⟩
def gst11 : GSt ℚ (Fin 1) (Fin 1) (Fin 1) (Fin 1) := ⟨0, 0, 0, 0, 0, 0, 0, 0, 0, 0, 0⟩

/-- **C103, Galerkin without mass matrix.** Orthonormality cannot be dropped: the basis `2` of the line is invertible, so the trial space is the whole space, and one step of ForwardEuler from the same state gives another state than the full-order model. -/
theorem C103_galerkin_basis_refuted : IsUnit doubled.basis.det ∧
    (run 0 (fun _ _ _ => (1/2 : ℚ)) (asStepper (asSystem (defaultRhs doubled decay1) gst11) .ForwardEuler dummyObserver) 1 0 ![1] ([![9]], ![9], [])).stop? = none ∧
    (run 0 (fun _ _ _ => (1/2 : ℚ)) (asStepper (fomAsSystem decay1) .ForwardEuler dummyObserver) 1 0 (lift doubled ![1]) ([![9]], ![9], [])).stop? = none ∧
    lift doubled (run 0 (fun _ _ _ => (1/2 : ℚ)) (asStepper (asSystem (defaultRhs doubled decay1) gst11) .ForwardEuler dummyObserver) 1 0 ![1] ([![9]], ![9], [])).state.y ≠
      (run 0 (fun _ _ _ => (1/2 : ℚ)) (asStepper (fomAsSystem decay1) .ForwardEuler dummyObserver) 1 0 (lift doubled ![1]) ([![9]], ![9], [])).state.y := by
  refine ⟨by simp [doubled], ?_, ?_, ?_⟩ <;> decide +kernel

end Pressio.Props
