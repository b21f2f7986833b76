import Verif.Props.InvariantSpaceExamples

/-
  C104 for Galerkin problems with a mass matrix.
-/
namespace Pressio.Props
set_option autoImplicit false
set_option linter.unusedSectionVars false
open Pressio Matrix
open Pressio.Model.Nonlinear (Env Cfg Reg StopCrit Update Tag Ans SP newtonDiagnostics)
open Pressio.Spec.Nonlinear Pressio.Spec.SolverAlike Pressio.Spec.Coordinates Pressio.Spec.InvariantSpace
open Pressio.Lemmas.Nonlinear Pressio.Lemmas.SolverAlike Pressio.Lemmas.Coordinates
open Pressio.Model.Implicit Pressio.Spec.Implicit Pressio.Lemmas.Implicit Pressio.Spec.SolverRun Pressio.Lemmas.SolverTree Pressio.Lemmas.SolverRun
open Pressio.Model.Explicit (Scheme)
open Pressio.Model.Galerkin Pressio.Spec.Galerkin

section
variable {K m n q p p' L L' : Type} [Field K] [LinearOrder K] [IsStrictOrderedRing K] [Fintype m] [DecidableEq m] [Fintype n] [DecidableEq n] [Fintype q] [Fintype p] [Fintype p']

/-- what Newton needs to take the same steps in the full and in the projected equations -/
def Compatible (B : Matrix m n K) (r : m → K) (J : Matrix m m K) : Prop := ∃ (C : Matrix m n K) (z : n → K) (A : Matrix n n K), r = C *ᵥ z ∧ J * B = C * A ∧ IsUnit (Bᵀ * C).det ∧ IsUnit J.det

/-- Newton on a system and on its Galerkin projection -/
theorem newton_projected (env : Env K m m p L) (env' : Env K n n p' L') (cfg : Cfg K) (hupd : cfg.update = .Standard) (hstop : cfg.stop = .WhenAbsolutel2NormOfCorrectionBelowTolerance ∨ cfg.stop = .WhenRelativel2NormOfCorrectionBelowTolerance ∨ cfg.stop = .AfterMaxIters)
    (B : Matrix m n K) (a : m → K) (sys : Sys K m m) (sys' : Sys K n n)
    (hsys : ∀ x, (∃ e, sys.resJac (chart B a x) = .error e ∧ sys'.resJac x = .error e) ∨ ∃ r J r' J', sys.resJac (chart B a x) = .ok (r, J) ∧ sys'.resJac x = .ok (r', J') ∧ (r' = Bᵀ *ᵥ r ∧ J' = Bᵀ * J * B ∧ Compatible B r J))
    (hN : ∀ c, env'.normN c = env.normN (B *ᵥ c)) (hlin : SolvesRegular env.linJ) (hlin' : SolvesRegular env'.linJ)
    (s : Reg K m m p L) (s' : Reg K n n p' L') (hs : NewtonObj s) (hs' : NewtonObj s') (hx : s.x = chart B a s'.x) :
    SamePoints (chart B a) s s' (runNewton env cfg sys s) (runNewton env' cfg sys' s') := by
  suffices h : (newtonSolve env cfg sys (absR s)).how = (newtonSolve env' cfg sys' (absR s')).how ∧ (newtonSolve env cfg sys (absR s)).st.x = chart B a (newtonSolve env' cfg sys' (absR s')).st.x ∧
      points (newtonSolve env cfg sys (absR s)).log = (points (newtonSolve env' cfg sys' (absR s')).log).map (fun q => (chart B a q.1, q.2)) from
    points_of (newton_run env cfg sys hs) (newton_run env' cfg sys' hs') h.1 h.2.1 h.2.2
  unfold newtonSolve
  have hrule : newtonRule cfg = .ok .standard := by unfold newtonRule; rw [hupd]
  rw [hrule]
  simp only
  refine iterate_moved (chart B a) (fun _ _ _ _ => True) (fun c c' => c = B *ᵥ c') sys sys' _ _ (fun r J r' J' => r' = Bᵀ *ᵥ r ∧ J' = Bᵀ * J * B ∧ Compatible B r J) (fun a b => a.corr = b.corr) rfl rfl hsys ?_ ?_ ?_ _ _ _ _ _ _ .none hx trivial
  · rintro x r J r' J' d _ d' _ c b l c' b' l' ⟨rfl, rfl, C, z, A, rfl, hJ, hC, hu⟩ -
    have hBinj : Function.Injective B.mulVec := by
      intro v w h
      have hC' : IsUnit (Cᵀ * B).det := by
        rw [show Cᵀ * B = (Bᵀ * C)ᵀ by rw [Matrix.transpose_mul, Matrix.transpose_transpose], Matrix.det_transpose]; exact hC
      apply regular_unique hC'
      rw [← Matrix.mulVec_mulVec, ← Matrix.mulVec_mulVec]
      exact congrArg _ h
    have hAu : IsUnit A.det := by
      rw [← Matrix.isUnit_iff_isUnit_det, ← Matrix.mulVec_injective_iff_isUnit]
      intro v w h
      apply hBinj
      apply regular_unique hu
      rw [Matrix.mulVec_mulVec, Matrix.mulVec_mulVec, hJ, ← Matrix.mulVec_mulVec, ← Matrix.mulVec_mulVec]
      exact congrArg _ h
    have hw : A *ᵥ (A⁻¹ *ᵥ z) = z := by rw [Matrix.mulVec_mulVec, Matrix.mul_nonsing_inv A hAu, Matrix.one_mulVec]
    have hJ' : Bᵀ * J * B = (Bᵀ * C) * A := by rw [Matrix.mul_assoc, hJ, Matrix.mul_assoc]
    have hu' : IsUnit (Bᵀ * J * B).det := by rw [hJ', Matrix.det_mul]; exact hC.mul hAu
    obtain ⟨y, l1, e1, e2⟩ := hlin J (C *ᵥ z) c l hu
    obtain ⟨y', l1', f1, f2⟩ := hlin' (Bᵀ * J * B) (Bᵀ *ᵥ (C *ᵥ z)) c' l' hu'
    have hy : y = B *ᵥ (A⁻¹ *ᵥ z) := by
      apply regular_unique hu
      rw [e2, Matrix.mulVec_mulVec (M := J), hJ, ← Matrix.mulVec_mulVec, hw]
    have hy' : y' = A⁻¹ *ᵥ z := by
      apply regular_unique hu'
      rw [f2, hJ', ← Matrix.mulVec_mulVec (M := Bᵀ * C), hw, Matrix.mulVec_mulVec]
    subst hy hy'
    refine ⟨-(B *ᵥ (A⁻¹ *ᵥ z)), b, l1, -(A⁻¹ *ᵥ z), b', l1', ?_, ?_, (Matrix.mulVec_neg _ _).symm, ?_⟩
    · simp only [newtonProblem, Bool.false_eq_true, if_false, negated, e1]
    · simp only [newtonProblem, Bool.false_eq_true, if_false, negated, f1]
    · simp only [newtonProblem, hN, Matrix.mulVec_neg]
  · intro i ref ref' now now' h1 h2
    simp only [newtonProblem]
    rcases hstop with h | h | h <;> simp [below, h, h1, h2]
  · rintro s s' r J r' J' now now' - - hx hc - hn hn'
    simp only [newtonProblem, hx, hc]
    refine ⟨rfl, ?_, trivial⟩
    simp only [SameMove, chart, Matrix.mulVec_add]; abel

/-- the matrices `M - c df/dy` of the scheme, and the projected mass matrices, are regular at the states of the trial space in steps of size `dt` -/
def RegularOnMM (S : Trial K m n) (name : Scheme) (Df Mm : (m → K) → K → Except Exc (Matrix m m K)) (dt : K) : Prop :=
  ∀ x t M, Mm (lift S x) t = .ok M → IsUnit (S.basisᵀ * (M * S.basis)).det ∧ ∀ D, Df (lift S x) t = .ok D → ∀ c ∈ rhsFactors dt name, IsUnit (M - c • D).det

theorem fomSystemMM_eval (f : (m → K) → K → Except Exc (m → K)) (Df Mm : (m → K) → K → Except Exc (Matrix m m K)) (y : m → K) (t : K) (M : Matrix m m K) (v : m → K) (j : Option (Matrix m m K))
    (h : (fomSystemMM f Df Mm).eval y t true = .ok (M, v, j)) : Mm y t = .ok M ∧ f y t = .ok v ∧ ∃ D, j = some D ∧ Df y t = .ok D := by
  unfold fomSystemMM at h
  dsimp only at h
  rcases hf : f y t with e | u <;> rw [hf] at h <;> dsimp only at h
  · cases h
  rcases hM : Mm y t with e | A <;> rw [hM] at h <;> dsimp only at h
  · cases h
  rcases hD : Df y t with e | D <;> rw [hD] at h
  · cases h
  · cases h; exact ⟨rfl, rfl, D, rfl, rfl⟩

/-- the equations of a step at the states of an invariant trial space -/
theorem textbookMM_compatible {f : (m → K) → K → Except Exc (m → K)} {Df Mm : (m → K) → K → Except Exc (Matrix m m K)} (S : Trial K m n) (hI : InvariantSpaceMM S f Df Mm) (name : Scheme) (dt : K) (hreg : RegularOnMM S name Df Mm dt) (hist : List (n → K)) (t : K) (x : n → K) (r : m → K) (J : Matrix m m K)
    (h : textbookMM Matrix.mulVec id name (fomSystemMM f Df Mm) (hist.map (lift S)) t dt (lift S x) true = .ok (r, some J)) : Compatible S.basis r J := by
  have hl : ∀ y, lift S y = S.basis *ᵥ y + (if S.isAffine then S.translation else 0) := fun _ => rfl
  rcases he : (fomSystemMM f Df Mm).eval (lift S x) (t + dt) true with ⟨e, junk⟩ | ⟨M, v, j⟩
  · cases name <;> rcases hist with _ | ⟨yn, _ | ⟨ynm1, hist⟩⟩ <;> simp only [textbookMM, List.map_cons, List.map_nil, he, reduceCtorEq] at h
  obtain ⟨hM, hf, D, rfl, hD⟩ := fomSystemMM_eval f Df Mm _ _ _ _ _ he
  obtain ⟨hI1, hI2⟩ := hI _ _ _ hM
  obtain ⟨z, rfl⟩ := hI1 _ hf
  obtain ⟨A, hA⟩ := hI2 _ hD
  obtain ⟨hr1, hr2⟩ := hreg _ _ _ hM
  have hr3 := hr2 _ hD
  generalize (if S.isAffine then S.translation else 0) = a at hl
  have hjac : ∀ c : K, (M - c • D) * S.basis = M * S.basis * (1 - c • A) := fun c => by
    rw [Matrix.sub_mul, Matrix.smul_mul, hA, Matrix.mul_sub, Matrix.mul_one, Matrix.mul_smul]
  cases name <;> rcases hist with _ | ⟨yn, _ | ⟨ynm1, hist⟩⟩ <;> simp only [textbookMM, List.map_cons, List.map_nil, he, reduceCtorEq] at h <;>
    simp only [Option.map, id, Except.ok.injEq, Prod.mk.injEq, Option.some.injEq] at h <;> obtain ⟨rfl, rfl⟩ := h
  case BDF1.cons.nil | BDF1.cons.cons | BDF2.cons.nil =>
    refine ⟨M * S.basis, x - yn - dt • z, 1 - dt • A, ?_, hjac _, hr1, hr3 _ (by simp [rhsFactors])⟩
    rw [hl, hl, add_sub_add_right_eq_sub, ← Matrix.mulVec_sub, Matrix.mulVec_mulVec]
    simp only [Matrix.mulVec_sub, Matrix.mulVec_smul]
  case BDF2.cons.cons =>
    refine ⟨M * S.basis, x - ((4:K)/3) • yn + ((1:K)/3) • ynm1 - ((2:K)/3 * dt) • z, 1 - ((2:K)/3 * dt) • A, ?_, hjac _, hr1, hr3 _ (by simp [rhsFactors])⟩
    have e : lift S x - ((4:K)/3) • lift S yn + ((1:K)/3) • lift S ynm1 = S.basis *ᵥ (x - ((4:K)/3) • yn + ((1:K)/3) • ynm1) := by
      rw [hl, hl, hl]
      simp only [Matrix.mulVec_sub, Matrix.mulVec_add, Matrix.mulVec_smul]
      module
    rw [e, Matrix.mulVec_mulVec, Matrix.mulVec_sub (M * S.basis), Matrix.mulVec_smul]

/-- **C104, Galerkin with mass matrix.** Let the trial space of a default Galerkin problem with mass matrix (any basis with regular projected mass matrices, any reference state) be invariant under the full-order model `M dy/dt = f`.  The full-order model and the Galerkin problem, each with an implicit stepper (BDF1, BDF2) and a
    Newton object with the same options, full steps and a criterion on the correction (measured by the norm of the full-order states) or a fixed number of iterations, started at the same state of the trial space: both runs go through the same full-order states at the same times, accept and fail in the same steps in the same way, and
    evaluate the full-order model at the same states. -/
theorem C104_galerkin_implicit_mass_matrix {F : Fom K m m n} {f : (m → K) → K → Except Exc (m → K)} {Df Mm : (m → K) → K → Except Exc (Matrix m m K)} (hF : FomIs F f Df Mm) (hn : FomNoTSF f Df) (hn' : ∀ y t, Mm y t ≠ .error .timeStepFailure)
    (sys : IMMSystem K (m → K) (Matrix m m K) (Matrix m m K)) (hsys : OdeIsMM sys f Df Mm) (S : Trial K m n) (hI : InvariantSpaceMM S f Df Mm) (s0 : GSt K m m q n) (name : Scheme)
    (mem : SMem K (m → K) (m → K) (MMMem (m → K) (Matrix m m K))) (mem' : SMem K (n → K) (n → K) (MMMem (n → K) (Matrix n n K))) (hmem : ReadyMM name mem) (hmem' : ReadyMM name mem')
    (env : Env K m m p L) (env' : Env K n n p' L') (he : ∀ A b s, (env.linJ A b s).stop? ≠ some (.exc .timeStepFailure)) (he' : ∀ A b s, (env'.linJ A b s).stop? ≠ some (.exc .timeStepFailure)) (hlin : SolvesRegular env.linJ) (hlin' : SolvesRegular env'.linJ)
    (cfg : Cfg K) (hupd : cfg.update = .Standard) (hstop : cfg.stop = .WhenAbsolutel2NormOfCorrectionBelowTolerance ∨ cfg.stop = .WhenRelativel2NormOfCorrectionBelowTolerance ∨ cfg.stop = .AfterMaxIters)
    (hN : ∀ c, env'.normN c = env.normN (S.basis *ᵥ c)) (reg : Reg K m m p L) (reg' : Reg K n n p' L') (hreg : NewtonIdle reg) (hreg' : NewtonIdle reg') (dts : List K) (hdt : ∀ dt ∈ dts, RegularOnMM S name Df Mm dt) (t0 : K) (x0 : n → K) :
    (driveObj (mmStep Matrix.mulVec id name (asIMMSystem (defaultMMRhsJac S F) s0)) (Model.Nonlinear.newtonSolve env' cfg) dts t0 [x0] x0 mem' reg').map (shown (lift S)) =
      (driveObj (mmStep Matrix.mulVec id name sys) (Model.Nonlinear.newtonSolve env cfg) dts t0 [lift S x0] (lift S x0) mem reg).map (shown id) := by
  have hname := massReady_name name mem hmem
  symm
  refine driveObj_moved (RegularOnMM S name Df Mm) (lift S) (fun _ => True) (fun _ => True) _ _ (textbookMM Matrix.mulVec id name sys) (textbookMM Matrix.mulVec id name (asIMMSystem (defaultMMRhsJac S F) s0)) _ _
    (refinesOn_true (mm_refines Matrix.mulVec id name hname _)) (refinesOn_true (mm_refines Matrix.mulVec id name hname _)) (textbookMM_ne Matrix.mulVec id name _ (odeIsMM_noTSF hsys hn hn')) _ _ (fine_newtonSolve env he cfg) (fine_newtonSolve env' he' cfg)
    (fun _ _ => trivial) (fun _ _ => trivial) (fun a b => NewtonIdle a ∧ NewtonIdle b) ?_ dts hdt t0 x0 [] mem mem' reg reg' (readyMM_inv name mem hmem t0 _) (readyMM_inv name mem' hmem' t0 _) ⟨hreg, hreg'⟩
  intro rg rg' y prev t dt hd hr r r'
  have hwt := textbookMM_wellTyped Matrix.mulVec id name _ (fun y t w M f j h => (odeIsMM_eval hsys y t w M f j h).2.1) ((y :: prev).map (lift S)) t dt
  have hwt' := textbookMM_wellTyped Matrix.mulVec id name _ (galerkin_wellTypedMM S F s0) (y :: prev) t dt
  have hgal := fun x w => galerkin_textbook_mm hF S s0 name (y :: prev) t dt x w
  have hsame := newton_projected env env' cfg hupd hstop S.basis (origin S) (sysOf (textbookMM Matrix.mulVec id name sys ((y :: prev).map (lift S)) t dt)) (sysOf (textbookMM Matrix.mulVec id name (asIMMSystem (defaultMMRhsJac S F) s0) (y :: prev) t dt))
    (by
      intro x
      simp only [sysOf, hgal, odeIsMM_textbook hsys, ← lift_origin]
      rcases ht : textbookMM Matrix.mulVec id name (fomSystemMM f Df Mm) ((y :: prev).map (lift S)) t dt (lift S x) true with e | ⟨r, _ | J⟩
      · exact .inl ⟨_, rfl, rfl⟩
      · rw [odeIsMM_textbook hsys] at hwt
        cases hwt _ _ _ _ ht
      · exact .inr ⟨_, _, _, _, rfl, rfl, rfl, rfl, textbookMM_compatible S hI name dt hd _ t x r J ht⟩)
    hN hlin hlin' { rg with x := lift S y } { rg' with x := y } (hr.1 _) (hr.2 y) rfl
  unfold runNewton at hsame
  rw [toF_sysOf _ hwt, toF_sysOf _ hwt'] at hsame
  exact ⟨hsame, newtonIdle_run env cfg _ hwt rg _ hr.1, newtonIdle_run env' cfg _ hwt' rg' y hr.2⟩
end

/-! ### A case -/

/-- capacities of the cells that depend on their states -/
noncomputable def cellsMass (y : Fin 2 → ℝ) (_ : ℝ) : Except Exc (Matrix (Fin 2) (Fin 2) ℝ) := .ok !![2 + y 0 ^ 2, 0; 0, 2 + y 1 ^ 2]
noncomputable def cellsFomMM : Fom ℝ (Fin 2) (Fin 2) (Fin 1) where
  rhs := fun y t _ => .ok ![t - y 0 ^ 3 + (y 1 - y 0), t - y 1 ^ 3 + (y 0 - y 1)]
  applyJac := fun y B _ _ => .ok ((!![-3 * y 0 ^ 2 - 1, 1; 1, -3 * y 1 ^ 2 - 1] : Matrix (Fin 2) (Fin 2) ℝ) * B)
  applyMM := fun y B _ _ => .ok ((!![2 + y 0 ^ 2, 0; 0, 2 + y 1 ^ 2] : Matrix (Fin 2) (Fin 2) ℝ) * B)
theorem cellsMM_is : FomIs cellsFomMM cells cellsJac cellsMass where
  rhs := fun _ _ _ => rfl
  jac := fun _ _ _ _ => rfl
  mm := fun _ _ _ _ => rfl

theorem cellsMM_invariant (c : ℝ) (hc : c ≠ 0) : InvariantSpaceMM (inStep c) cells cellsJac cellsMass := by
  intro x t M hM
  cases hM
  have h0 : 2 + (c * x 0 + 2) ^ 2 ≠ 0 := by positivity
  constructor
  · intro v hv
    simp only [cells, Except.ok.injEq] at hv
    refine ⟨![(t - (c * x 0 + 2) ^ 3) / (c * (2 + (c * x 0 + 2) ^ 2))], ?_⟩
    rw [← hv]
    funext i
    fin_cases i <;> simp [lift, inStep, Matrix.mulVec, dotProduct, Matrix.mul_apply, Fin.sum_univ_two] <;> field_simp
  · intro D hD
    simp only [cellsJac, Except.ok.injEq] at hD
    refine ⟨!![-3 * (c * x 0 + 2) ^ 2 / (2 + (c * x 0 + 2) ^ 2)], ?_⟩
    rw [← hD]
    ext i j
    fin_cases i <;> fin_cases j <;> simp [lift, inStep, Matrix.mulVec, dotProduct, Matrix.mul_apply, Fin.sum_univ_two] <;> field_simp <;> ring

theorem cellsMM_regular (c : ℝ) (hc : c ≠ 0) (dt : ℝ) (h : 0 < dt) : RegularOnMM (inStep c) .BDF2 cellsJac cellsMass dt := by
  intro x t M hM
  cases hM
  constructor
  · apply isUnit_iff_ne_zero.2
    simp only [Matrix.det_unique, Matrix.mul_apply, Fin.sum_univ_two, Matrix.transpose_apply]
    generalize lift (inStep c) x = y
    simp [inStep]
    have : 0 < c * ((2 + y 0 ^ 2) * c) + c * ((2 + y 1 ^ 2) * c) := by
      rw [show c * ((2 + y 0 ^ 2) * c) + c * ((2 + y 1 ^ 2) * c) = c ^ 2 * (4 + y 0 ^ 2 + y 1 ^ 2) by ring]
      positivity
    exact this.ne'
  · intro D hD d hd
    cases hD
    have h0 : 0 < d := by
      simp [rhsFactors] at hd
      rcases hd with rfl | rfl <;> linarith
    rw [Matrix.det_fin_two]
    apply isUnit_iff_ne_zero.2
    generalize lift (inStep c) x = y
    simp
    have a0 : 0 ≤ d * y 0 ^ 2 := by positivity
    have a1 : 0 ≤ d * y 1 ^ 2 := by positivity
    have b0 : 0 ≤ y 0 ^ 2 := sq_nonneg _
    have b1 : 0 ≤ y 1 ^ 2 := sq_nonneg _
    nlinarith [mul_nonneg a0 a1, mul_nonneg a0 h0.le, mul_nonneg a1 h0.le, mul_nonneg b0 b1, mul_nonneg a0 b1, mul_nonneg a1 b0]

noncomputable def memMM1 : SMem ℝ (Fin 1 → ℝ) (Fin 1 → ℝ) (MMMem (Fin 1 → ℝ) (Matrix (Fin 1) (Fin 1) ℝ)) := ⟨0, 0, 0, 0, [0, 0], [], ⟨-1, 0, 0, 0⟩⟩
noncomputable def env1c : Env ℝ (Fin 1) (Fin 1) Unit Unit := { env1 with normN := fun c => realNorm ((inStep 3).basis *ᵥ c) }

example := C104_galerkin_implicit_mass_matrix (q := Fin 1) cellsMM_is cells_noTSF (fun _ _ => by simp [cellsMass]) _ (fomSystemMM_is _ _ _) (inStep 3) (cellsMM_invariant 3 (by norm_num)) gstCells .BDF2 memMMR memMM1 rfl rfl envInv env1c
  (by simp [envInv]) (by simp [env1c, env1]) envInv_solves inverts ⟨10, .WhenRelativel2NormOfCorrectionBelowTolerance, 1/100, .Standard, none⟩ rfl (.inr (.inl rfl)) (fun _ => rfl) regInv (regOf (Fin 1) newtonDiagnostics) (fun _ => .created _ rfl) (fun _ => .created _ rfl)
  [1, 1/2, 3] (fun dt h => cellsMM_regular 3 (by norm_num) dt (positive_steps dt h)) 0 ![1]
end Pressio.Props
