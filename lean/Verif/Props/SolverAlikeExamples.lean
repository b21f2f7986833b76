import Verif.Props.SolverAlikeRuns
import Verif.Props.SolverAlikeQR
import Verif.Props.ImplicitStabilityNewton

/-
  Concrete runs for the theorems of `Verif.Props.SolverAlikeRuns`.
-/
namespace Pressio.Props
set_option autoImplicit false
set_option linter.unusedSectionVars false
open Pressio Matrix Pressio.Model.Implicit Pressio.Spec.Implicit Pressio.Lemmas.Implicit Pressio.Spec.SolverRun Pressio.Lemmas.SolverTree Pressio.Lemmas.SolverRun
open Pressio.Model.Explicit (Scheme)
open Pressio.Model.Advance (DtVars)
open Pressio.Model.Nonlinear (Env Cfg Reg StopCrit Update Tag Ans leastSquaresDiagnostics newContainer)
open Pressio.Spec.Nonlinear Pressio.Spec.SolverAlike
open Pressio.Model.QR Pressio.Spec.QR
open Pressio.Model.Galerkin Pressio.Model.Lspg Pressio.Spec.Galerkin Pressio.Spec.Lspg Pressio.Lemmas.Lspg

/-! `y' = -y³ - y` with a Newton and with a Gauss-Newton object -/

noncomputable def cubicOde : ISystem ℝ (Unit → ℝ) (Matrix Unit Unit ℝ) := odeSystem (fun y _ _ => -(y () ^ 3) - y ()) (fun y _ => Matrix.of fun _ _ => -(3 * y () ^ 2 + 1))

theorem cubicOde_noTSF : NoTSF cubicOde := by intro y t w e junk h; cases h
theorem cubicOde_typed : WellTypedRhs cubicOde := by
  intro y t w
  cases w <;> simp [cubicOde, odeSystem]

theorem cubicOde_regular (name : Scheme) (dt : ℝ) (h0 : 0 ≤ dt) : ∀ y t f J, cubicOde.eval y t true = .ok (f, some J) → ∀ c ∈ rhsFactors dt name, IsUnit (1 - c • J).det := by
  intro y t f J h c hc
  have hJ : J = Matrix.of fun _ _ => -(3 * y () ^ 2 + 1) := by
    simp only [cubicOde, odeSystem, if_true, Except.ok.injEq, Prod.mk.injEq, Option.some.injEq] at h
    exact h.2.symm
  have hc0 : 0 ≤ c := by
    cases name <;> simp [rhsFactors] at hc
    · subst hc; exact h0
    · rcases hc with rfl | rfl
      · exact h0
      · positivity
    · subst hc; positivity
  rw [hJ, Matrix.det_unique]
  apply isUnit_iff_ne_zero.2
  simp only [Matrix.sub_apply, Matrix.one_apply_eq, Matrix.smul_apply, Matrix.of_apply, smul_eq_mul]
  have : 0 ≤ c * (3 * y () ^ 2 + 1) := by positivity
  intro h
  linarith

theorem divR_solves {L : Type} : SolvesRegular (fun (A : Matrix Unit Unit ℝ) b (s : (Unit → ℝ) × L) => (.ok () (fun _ => b () / A () (), s.2) : Res _ Unit)) := by
  intro A b c l hA
  have h : A () () ≠ 0 := by
    have := hA.ne_zero
    rwa [Matrix.det_unique] at this
  refine ⟨_, l, rfl, ?_⟩
  funext i
  simp [Matrix.mulVec, dotProduct]
  field_simp

/-- a new Gauss-Newton object -/
noncomputable def regRls : Reg ℝ Unit Unit Unit Unit := { regR with diag := newContainer leastSquaresDiagnostics }

noncomputable def stepSizes (v : DtVars ℝ) (_ : Int) (_ : ℝ) (_ : DtVars ℝ) : Prog Unit (DtVars ℝ) := pure v

example := C98_implicit_runs .BDF2 cubicOde cubicOde_noTSF cubicOde_typed (newStepperR .BDF2) (newStepperR .BDF2) (by simp [Ready, newStepperR, freshPMem]) (by simp [Ready, newStepperR, freshPMem]) envR (by simp [envR]) (by simp [envR]) (cfgR (1/100)) (cfgR (1/100))
  ⟨rfl, rfl, rfl, .inl ⟨rfl, rfl⟩⟩ rfl divR_solves divR_solves (fun _ => abs_nonneg _) regR regRls (fun _ => .created _ rfl) (fun _ => .created _ rfl) [1, 1/2, 3] (by intro dt h; apply cubicOde_regular; simp at h; rcases h with rfl | rfl | rfl <;> norm_num) 0 (fun _ => 4)
example := C98_implicit_n_steps (U := Unit) .CrankNicolson cubicOde cubicOde_noTSF cubicOde_typed (newStepperR .CrankNicolson) (newStepperR .CrankNicolson) (by simp [Ready, newStepperR, freshPMem]) (by simp [Ready, newStepperR, freshPMem]) envR (by simp [envR]) (by simp [envR]) (cfgR (1/100)) (cfgR (1/100))
  ⟨rfl, rfl, rfl, .inl ⟨rfl, rfl⟩⟩ rfl divR_solves divR_solves (fun _ => abs_nonneg _) regR regRls (fun _ => .created _ rfl) (fun _ => .created _ rfl) (fun d => 0 ≤ d) (cubicOde_regular .CrankNicolson)
  (fun _ _ _ => pure (1/2)) (stepSizes ⟨1, 1/8, 2⟩) (fun _ _ _ => pure ()) (by intro i t d u d' u' h; cases h; norm_num) 0 0 (fun _ => 4) 10 ()
example := C98_implicit_target (U := Unit) .BDF1 cubicOde cubicOde_noTSF cubicOde_typed (newStepperR .BDF1) (newStepperR .BDF1) (by simp [Ready, newStepperR, freshPMem]) (by simp [Ready, newStepperR, freshPMem]) envR (by simp [envR]) (by simp [envR]) (cfgR (1/100)) (cfgR (1/100))
  ⟨rfl, rfl, rfl, .inl ⟨rfl, rfl⟩⟩ rfl divR_solves divR_solves (fun _ => abs_nonneg _) regR regRls (fun _ => .created _ rfl) (fun _ => .created _ rfl) (fun d => 0 ≤ d) (fun d q hd hq => div_nonneg hd (by linarith)) (cubicOde_regular .BDF1)
  (fun _ _ _ => pure (1/2)) (stepSizes ⟨1, 1/8, 2⟩) (fun _ _ _ => pure ()) (by intro i t d u d' u' h; cases h; norm_num) (by intro i t v u v' u' h; cases h; norm_num) true (1/1000) 0 5 (fun _ => 4) 10 ()

/-! `y' = (y_1, 1 - y_0)` projected on the span of `(3, 4)`, with a modified Gram-Schmidt object -/

noncomputable def rotFomR : Fom ℝ (Fin 2) (Fin 2) (Fin 1) where
  rhs := fun y _ _ => .ok ((!![0, 1; -1, 0] : Matrix (Fin 2) (Fin 2) ℝ) *ᵥ y + ![0, 1])
  applyJac := fun _ B _ _ => .ok ((!![0, 1; -1, 0] : Matrix (Fin 2) (Fin 2) ℝ) * B)
  applyMM := fun _ B _ _ => .ok B

theorem rotFomR_is : FomIs rotFomR (fun y _ => .ok ((!![0, 1; -1, 0] : Matrix (Fin 2) (Fin 2) ℝ) *ᵥ y + ![0, 1])) (fun _ _ => .ok !![0, 1; -1, 0]) (fun _ _ => .ok 1) where
  rhs := fun _ _ _ => rfl
  jac := fun _ _ _ _ => rfl
  mm := fun _ B _ _ => by simp [rotFomR, Except.map, Except.mapError]

theorem rotFomR_noTSF : FomNoTSF (fun (y : Fin 2 → ℝ) (_ : ℝ) => .ok ((!![0, 1; -1, 0] : Matrix (Fin 2) (Fin 2) ℝ) *ᵥ y + ![0, 1])) (fun (_ : Fin 2 → ℝ) (_ : ℝ) => .ok !![0, 1; -1, 0]) := ⟨fun _ _ => by simp, fun _ _ => by simp⟩

noncomputable def trialR : Trial ℝ (Fin 2) (Fin 1) := ⟨!![3; 4], ![1, 2], true⟩

theorem rotFomR_regular (name : Scheme) (dt : ℝ) : LspgRegular name trialR (fun (_ : Fin 2 → ℝ) (_ : ℝ) => .ok !![0, 1; -1, 0]) dt := by
  intro y t A hA c _
  cases hA
  rw [Matrix.det_unique]
  apply isUnit_iff_ne_zero.2
  simp [trialR, Matrix.mul_apply, Fin.sum_univ_two]
  nlinarith [sq_nonneg c]

noncomputable def lspgMemR : SMem ℝ (Fin 1 → ℝ) (Fin 1 → ℝ) (LMem ℝ (Fin 2) (Fin 2) (Fin 1)) := ⟨0, 0, 0, ![0], List.replicate 2 ![0], [], ⟨List.replicate 3 0, -1, ![9, 9], ![8, 8], !![7; 7]⟩⟩

theorem lspgMemR_ready : LspgReady .BDF2 lspgMemR := by
  refine ⟨?_, ?_, ?_⟩ <;> simp [lspgMemR, Sized, numStates]

/-- the Euclidean norm, division, identity weights, and a modified Gram-Schmidt object -/
noncomputable def envMgs : Env ℝ (Fin 2) (Fin 1) Unit (Option (MV ℝ (Fin 2)) × RMat ℝ) := mgsEnv realNorm inverseSolve 0 {
  normM := realNorm
  normN := fun v => |v 0|
  lin := fun A b s => .ok () (fun _ => b 0 / A 0 0, s.2)
  linJ := fun _ _ s => .ok () s
  applyJac := fun _ _ y => y
  krylov := fun _ _ c => .ok () c
  qrThin := fun _ l => .ok () l
  qrApplyQT := fun _ s => .ok () s
  qrSolve := fun _ s => .ok () s
  wR := id
  wJ := id
  cwR := fun r => fun _ => r 0
  cwJ := fun J => fun _ j => J 0 j
  createState := fun _ => 0 }

noncomputable def regMgs : Reg ℝ (Fin 2) (Fin 1) Unit (Option (MV ℝ (Fin 2)) × RMat ℝ) where
  x := 7
  trial := 7
  c := 7
  r := 7
  J := fun _ _ => 7
  g := 7
  H := 7
  H0 := 7
  damp := 1
  Wr := 7
  WJ := fun _ _ => 7
  cWr := 7
  cWJ := fun _ _ => 7
  QTr := 7
  nu := 7
  cDiagH := 7
  lin := (none, ⟨0, fun _ _ => 0⟩)
  diag := newContainer leastSquaresDiagnostics
  files := []
  log := []

theorem realNorm_euclidean : Euclidean (realNorm : (Fin 2 → ℝ) → ℝ) := fun r => by rw [sq]; exact (realNorm_isNorm r).2

theorem envMgs_solves : SolvesRegular envMgs.lin := by
  intro A b c l hA
  have h : A 0 0 ≠ 0 := by
    have := hA.ne_zero
    rwa [Matrix.det_fin_one] at this
  refine ⟨_, l, rfl, ?_⟩
  funext i
  rw [Subsingleton.elim i 0]
  simp [Matrix.mulVec, dotProduct]
  field_simp

theorem envMgs_honest : InnerHonest envMgs .gn := by intro A b s; simp [envMgs, mgsEnv]

/-- the Gram-Schmidt class throws nothing -/
theorem mgsEnv_honest {K m p : Type} [Field K] [LinearOrder K] [IsStrictOrderedRing K] [Fintype m] [Fintype p] {N : Nat} {norm2 : (m → K) → K} (hn : IsNorm norm2) (tri : (N : Nat) → Matrix (Fin N) (Fin N) K → (Fin N → K) → Fin N → K) (mp : Nat) (env : Env K m (Fin N) p (Option (MV K m) × RMat K)) :
    InnerHonest (mgsEnv norm2 tri mp env) .gnQr := by
  refine ⟨?_, ?_, ?_⟩
  · intro J l
    set s : Model.QR.St K m := ⟨⟨mp, N, fun j i => if h : j < N then J i ⟨j, h⟩ else 0⟩, l.1, l.2⟩ with hs
    show (match mgsCompute norm2 s with | .ok _ s => Res.ok () (s.Q, s.R) | .stop h s => .stop h (s.Q, s.R)).stop? ≠ _
    obtain ⟨s1, Q1, R0, e, hI⟩ := mgs_start norm2 s
    rw [e]
    rcases Lemmas.QR.loop_run norm2 hn _ _ _ _ _ s.A.num 0 s1 Q1 hI (by omega) (by omega) with ⟨-, s2, Q, g1, -⟩ | ⟨k', s2, -, -, g3, -⟩ | ⟨-, s2, g'⟩
    · rw [g1]; simp
    · rw [g3]; simp
    · rw [g']; simp
  · rintro r ⟨b, l⟩
    simp only [mgsEnv, applyQT]
    rcases l.1 with _ | Q
    · simp
    · by_cases h : Q.num = N
      · simp [h]
      · simp [h]
  · rintro b ⟨c, l⟩
    simp only [mgsEnv, mgsSolve]
    by_cases h : l.2.size = N
    · simp [h]
    · simp [h]

noncomputable def cfgG : Cfg ℝ := ⟨10, .WhenAbsolutel2NormOfGradientBelowTolerance, 1/100, .BacktrackStrictlyDecreasingObjective, none⟩

example := C98_lspg_qr_runs rotFomR_is rotFomR_noTSF trialR .BDF2 (.inr rfl) lspgMemR lspgMemR_ready envMgs (mgsEnv_honest realNorm_isNorm _ _ _) envMgs_honest _ (C98_mgs_factors realNorm_isNorm inverseSolve_solves 0 _) envMgs_solves cfgG (by simp [cfgG])
  regMgs regMgs (fun _ => .created _ rfl) (fun _ => .created _ rfl) (by intro Q h; cases h) [1, 1/2, 2] (fun dt _ => rotFomR_regular .BDF2 dt) 0 ![0]
example := C98_lspg_qr_target (U := Unit) rotFomR_is rotFomR_noTSF trialR .BDF2 (.inr rfl) lspgMemR lspgMemR_ready envMgs (mgsEnv_honest realNorm_isNorm _ _ _) envMgs_honest _ (C98_mgs_factors realNorm_isNorm inverseSolve_solves 0 _) envMgs_solves cfgG (by simp [cfgG])
  regMgs regMgs (fun _ => .created _ rfl) (fun _ => .created _ rfl) (by intro Q h; cases h) (fun d => 0 ≤ d) (fun d q hd hq => div_nonneg hd (by linarith)) (fun dt _ => rotFomR_regular .BDF2 dt)
  (fun _ _ _ => pure (1/2)) (stepSizes ⟨1, 1/8, 2⟩) (fun _ _ _ => pure ()) (by intro i t d u d' u' h; cases h; norm_num) (by intro i t v u v' u' h; cases h; norm_num) true (1/1000) 0 5 ![0] 10 ()
example := C98_lspg_identity_weights rotFomR_is rotFomR_noTSF trialR .BDF2 (.inr rfl) lspgMemR lspgMemR_ready envMgs envMgs_honest (fun _ => rfl) (fun _ => rfl) realNorm_euclidean cfgG (by simp [cfgG])
  regMgs { regMgs with trial := 3, WJ := fun _ _ => 2 } (fun _ => .created _ rfl) (fun _ => .created _ rfl) rfl rfl [1, 1/2, 2] 0 ![0]

end Pressio.Props
