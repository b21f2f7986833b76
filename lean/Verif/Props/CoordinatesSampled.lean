import Verif.Props.CoordinatesAdvance

/-
  C99 for hyper-reduced and masked LSPG problems.
-/
namespace Pressio.Props
set_option autoImplicit false
set_option linter.unusedSectionVars false
open Pressio Matrix
open Pressio.Model.Nonlinear (Env Cfg Reg StopCrit Update Tag Ans SP)
open Pressio.Spec.Nonlinear Pressio.Spec.SolverAlike Pressio.Spec.Coordinates
open Pressio.Lemmas.Nonlinear Pressio.Lemmas.SolverAlike Pressio.Lemmas.Coordinates
open Pressio.Model.Implicit Pressio.Spec.Implicit Pressio.Lemmas.Implicit Pressio.Spec.SolverRun Pressio.Lemmas.SolverTree Pressio.Lemmas.SolverRun
open Pressio.Model.Explicit (Scheme)
open Pressio.Model.Galerkin Pressio.Model.Lspg Pressio.Spec.Galerkin Pressio.Spec.Lspg Pressio.Lemmas.Lspg
variable {K m k n P P' L L' : Type} [Field K] [LinearOrder K] [IsStrictOrderedRing K] [Fintype m] [DecidableEq m] [Fintype k] [DecidableEq k] [Fintype n] [DecidableEq n] [Fintype P] [Fintype P']

theorem policyObj_coordinates {Pm Pm' : Type} (D : K → Prop) (B : Matrix n n K) (a : n → K) (hB : IsUnit B.det) (name : Scheme) (hname : name = .BDF1 ∨ name = .BDF2) (policy : Policy K (n → K) (n → K) Pm (Ans K k n)) (policy' : Policy K (n → K) (n → K) Pm' (Ans K k n))
    (F F' : List (n → K) → K → K → (n → K) → Bool → Except Exc (Ans K k n)) (PI PD : List (n → K) → List (n → K) → Pm → Prop) (PI' PD' : List (n → K) → List (n → K) → Pm' → Prop)
    (h : PolicyRefinesA name policy F (StOf name) PI PD) (h' : PolicyRefinesA name policy' F' (StOf name) PI' PD') (hF : ∀ hist t dt x w, F hist t dt x w ≠ .error .timeStepFailure)
    (hw : ∀ hist t dt, WellTyped (F hist t dt)) (hw' : ∀ hist t dt, WellTyped (F' hist t dt)) (hsame : ∀ hist t dt, SameSystem 1 B a (sysOf (F (hist.map (chart B a)) t dt)) (sysOf (F' hist t dt)))
    (hreg : ∀ hist t dt, D dt → ∀ x r J, (sysOf (F hist t dt)).resJac x = .ok (r, J) → IsUnit (Jᵀ * J).det)
    (env : Env K k n P L) (env' : Env K k n P' L') (he : InnerHonest env .gn) (he' : InnerHonest env' .gn) (hlin : SolvesRegular env.lin) (hlin' : SolvesRegular env'.lin) (hM : env'.normM = env.normM)
    (cfg : Cfg K) (h1 : 1 ≤ cfg.maxIters) (hcrit : SameMeasure (1 : Matrix k k K) B env.normM env'.normM env.normN env'.normN cfg.stop) (reg : Reg K k n P L) (reg' : Reg K k n P' L') (hi : LsIdle reg) (hi' : LsIdle reg')
    (dts : List K) (hD : ∀ d ∈ dts, D d) (t0 : K) (x0 : n → K) (mem : SMem K (n → K) (n → K) Pm) (mem' : SMem K (n → K) (n → K) Pm') (hmem : Sized name mem) (hmem' : Sized name mem') (hp : PI [chart B a x0] mem.rhs mem.pol) (hp' : PI' [x0] mem'.rhs mem'.pol) :
    (driveObj (stepWith name policy) (Model.Nonlinear.lsSolve env cfg .gn) dts t0 [chart B a x0] (chart B a x0) mem reg).map (shown id) = (driveObj (stepWith name policy') (Model.Nonlinear.lsSolve env' cfg .gn) dts t0 [x0] x0 mem' reg').map (shown (chart B a)) := by
  refine policyObj_moved D (chart B a) name hname policy policy' F F' PI PD PI' PD' h h' hF _ _ (fine_lsSolve env cfg _ he) (fine_lsSolve env' cfg _ he') (busy_lsSolve env cfg _ h1) (busy_lsSolve env' cfg _ h1) (fun a b => LsIdle a ∧ LsIdle b) ?_ dts hD t0 x0 mem mem' hmem hmem' hp hp' reg reg' ⟨hi, hi'⟩
  intro rg rg' y prev t dt hd hr r r'
  have hwt := hw ((y :: prev).map (chart B a)) t dt
  have hwt' := hw' (y :: prev) t dt
  have hs := C99_gauss_newton env env' cfg 1 B a (by simp) hB _ _ (hsame (y :: prev) t dt) (fun r => by rw [Matrix.one_mulVec, hM]) hcrit hlin hlin' (hreg _ t dt hd)
    { rg with x := chart B a y } { rg' with x := y } (hr.1 _) (hr.2 y) rfl
  unfold runLs at hs
  rw [toF_sysOf _ hwt, toF_sysOf _ hwt'] at hs
  exact ⟨hs, lsIdle_run env cfg _ _ hwt rg _ hr.1, lsIdle_run env' cfg _ _ hwt' rg' y hr.2⟩

theorem hist_lift {S S' : Trial K m n} {B : Matrix n n K} {a : n → K} (h : SameSpace S S' B a) (hist : List (n → K)) : (hist.map (chart B a)).map (lift S) = hist.map (lift S') := by
  rw [List.map_map]; exact List.map_congr_left fun x _ => (h.2 x).symm

theorem coef_chart (φ : (n → K) → n → K) (name : Scheme) (hist : List (n → K)) (dt : K) : coef name (hist.map φ) dt = coef name hist dt := by
  cases name <;> rcases hist with _ | ⟨_, _ | ⟨_, _⟩⟩ <;> rfl

theorem coef_mem (name : Scheme) (hname : name = .BDF1 ∨ name = .BDF2) (hist : List (n → K)) (dt : K) : coef name hist dt ∈ rhsFactors dt name := by
  rcases hname with rfl | rfl
  · simp [coef, rhsFactors]
  · rcases hist with _ | ⟨a, _ | ⟨b, l⟩⟩ <;> simp [coef, rhsFactors]

/-! ### Hyper-reduced -/

/-- the sampled LSPG Jacobians of the scheme with step size `dt` have full column rank -/
def HypredRegular (name : Scheme) (S : Trial K m n) (E : Matrix k m K) (Df : (m → K) → K → Except Exc (Matrix k m K)) (dt : K) : Prop :=
  ∀ y t A, Df y t = .ok A → ∀ c ∈ rhsFactors dt name, IsUnit ((E * S.basis - c • (A * S.basis))ᵀ * (E * S.basis - c • (A * S.basis))).det

theorem hypred_regular (name : Scheme) (hname : name = .BDF1 ∨ name = .BDF2) (S : Trial K m n) (E : Matrix k m K) (f : (m → K) → K → Except Exc (k → K)) (Df : (m → K) → K → Except Exc (Matrix k m K)) (dt : K) (hreg : HypredRegular name S E Df dt) (hist : List (n → K)) (t : K) :
    ∀ x r J, (sysOf (hypredLspg E name S f Df hist t dt)).resJac x = .ok (r, J) → IsUnit (Jᵀ * J).det := by
  intro x r J h
  simp only [sysOf] at h
  unfold hypredLspg at h
  rcases hv : f (lift S x) (t + dt) with e | v
  · rw [hv] at h; cases h
  · rcases hD : Df (lift S x) (t + dt) with e | A
    · rw [hv, hD] at h; cases h
    · rw [hv, hD] at h; cases h
      exact hreg _ _ _ hD _ (coef_mem name hname hist dt)

theorem hypred_moved {S S' : Trial K m n} {B : Matrix n n K} {a : n → K} (h : SameSpace S S' B a) (E : Matrix k m K) (name : Scheme) (f : (m → K) → K → Except Exc (k → K)) (Df : (m → K) → K → Except Exc (Matrix k m K)) (hist : List (n → K)) (t dt : K) :
    SameSystem 1 B a (sysOf (hypredLspg E name S f Df (hist.map (chart B a)) t dt)) (sysOf (hypredLspg E name S' f Df hist t dt)) := by
  have hb := sameSpace_basis h
  constructor
  · intro x
    simp only [sysOf, hypredLspg, hist_lift h, coef_chart, h.2 x]
    rcases f (lift S (chart B a x)) (t + dt) with e | v
    · rfl
    rcases Df (lift S (chart B a x)) (t + dt) with e | D
    · rfl
    simp only [bind, Except.bind, pure, Except.pure, Except.map, if_true, Matrix.one_mulVec, Matrix.one_mul, hb]
    rw [Matrix.sub_mul, Matrix.smul_mul, Matrix.mul_assoc, Matrix.mul_assoc]
  · intro x
    simp only [sysOf, hypredLspg, hist_lift h, coef_chart, h.2 x]
    rcases f (lift S (chart B a x)) (t + dt) with e | v
    · rfl
    · simp [bind, Except.bind, pure, Except.pure, Except.map]

/-- **C99, hyper-reduced LSPG.** Two hyper-reduced LSPG problems for the same FOM on the same sample mesh, whose trial spaces contain the same states, each with its own Gauss-Newton object, from the same initial FOM state: the two runs go through the same FOM states, accept and
    fail in the same steps in the same way, and evaluate the FOM at the same states. -/
theorem C99_hyper_reduced_lspg_runs {F : Fom K m k n} {f : (m → K) → K → Except Exc (k → K)} {Df Mm : (m → K) → K → Except Exc (Matrix k m K)} (hF : FomIs F f Df Mm) (hf : ∀ y t, f y t ≠ .error .timeStepFailure) (hD : ∀ y t, Df y t ≠ .error .timeStepFailure)
    (U : Updater K m k n) (E : Matrix k m K) (hU : UpdaterIs U E) (S S' : Trial K m n) (B : Matrix n n K) (a : n → K) (hS : SameSpace S S' B a) (name : Scheme) (hname : name = .BDF1 ∨ name = .BDF2) (mem mem' : SMem K (n → K) (n → K) (LMem K m k n)) (hmem : LspgReady name mem) (hmem' : LspgReady name mem')
    (env : Env K k n P L) (env' : Env K k n P' L') (he : InnerHonest env .gn) (he' : InnerHonest env' .gn) (hlin : SolvesRegular env.lin) (hlin' : SolvesRegular env'.lin) (hM : env'.normM = env.normM)
    (cfg : Cfg K) (h1 : 1 ≤ cfg.maxIters) (hcrit : SameMeasure (1 : Matrix k k K) B env.normM env'.normM env.normN env'.normN cfg.stop) (reg : Reg K k n P L) (reg' : Reg K k n P' L') (hreg : LsIdle reg) (hreg' : LsIdle reg')
    (dts : List K) (hdt : ∀ dt ∈ dts, HypredRegular name S E Df dt) (t0 : K) (x0 x0' : n → K) (hx0 : lift S x0 = lift S' x0') (hinj : Function.Injective S.basis.mulVec) :
    (driveObj (stepWith name (hypredPolicy U S F)) (Model.Nonlinear.lsSolve env cfg .gn) dts t0 [x0] x0 mem reg).map (shown (lift S)) =
      (driveObj (stepWith name (hypredPolicy U S' F)) (Model.Nonlinear.lsSolve env' cfg .gn) dts t0 [x0'] x0' mem' reg').map (shown (lift S')) := by
  obtain rfl : x0 = chart B a x0' := hinj (add_right_cancel (hx0.trans (hS.2 x0')))
  apply shown_lift hS
  exact policyObj_coordinates (HypredRegular name S E Df) B a hS.1 name hname _ _ _ _ _ _ _ _
    ((lspgPolicy_refines name hname S _ _ (assembleHypred_ok hF S U E hU) (mem.pol.data.getD 1 0)).congrF (fun y prev t dt x w => equations_hypred E name hname S f Df y prev t dt x w))
    ((lspgPolicy_refines name hname S' _ _ (assembleHypred_ok hF S' U E hU) (mem'.pol.data.getD 1 0)).congrF (fun y prev t dt x w => equations_hypred E name hname S' f Df y prev t dt x w))
    (hypredLspg_ne hf hD E name S) (fun hist t dt => hypred_wellTyped E name S f Df hist t dt) (fun hist t dt => hypred_wellTyped E name S' f Df hist t dt) (fun hist t dt => hypred_moved hS E name f Df hist t dt)
    (fun hist t dt hd => hypred_regular name hname S E f Df dt hd hist t) env env' he he' hlin hlin' hM cfg h1 hcrit reg reg' hreg hreg' dts hdt t0 x0' mem mem' hmem.1 hmem'.1
    (good_start _ S _ mem.pol hmem.2.1 (by rcases hname with rfl | rfl <;> simp [numStates]) hmem.2.2) (good_start _ S' _ mem'.pol hmem'.2.1 (by rcases hname with rfl | rfl <;> simp [numStates]) hmem'.2.2)

/-! ### Masked -/

/-- the masked LSPG Jacobians have full column rank -/
def MaskedRegular (name : Scheme) (S : Trial K m n) (mm : Matrix m n K → Matrix k n K) (Df : (m → K) → K → Except Exc (Matrix m m K)) (dt : K) : Prop :=
  ∀ y t A, Df y t = .ok A → ∀ c ∈ rhsFactors dt name, IsUnit ((mm (S.basis - c • (A * S.basis)))ᵀ * mm (S.basis - c • (A * S.basis))).det

theorem maskedLspg_regular (name : Scheme) (hname : name = .BDF1 ∨ name = .BDF2) (S : Trial K m n) (mv : (m → K) → k → K) (mm : Matrix m n K → Matrix k n K) (f : (m → K) → K → Except Exc (m → K)) (Df : (m → K) → K → Except Exc (Matrix m m K)) (dt : K)
    (hreg : MaskedRegular name S mm Df dt) (hist : List (n → K)) (t : K) : ∀ x r J, (sysOf (maskedLspg mv mm name S f Df hist t dt)).resJac x = .ok (r, J) → IsUnit (Jᵀ * J).det := by
  intro x r J h
  simp only [sysOf] at h
  unfold maskedLspg lspg at h
  rcases hv : f (lift S x) (t + dt) with e | v
  · rw [hv] at h; cases h
  · rcases hD : Df (lift S x) (t + dt) with e | A
    · rw [hv, hD] at h; cases h
    · rw [hv, hD] at h; cases h
      exact hreg _ _ _ hD _ (coef_mem name hname hist dt)

theorem masked_moved {S S' : Trial K m n} {B : Matrix n n K} {a : n → K} (h : SameSpace S S' B a) (mv : (m → K) → k → K) (mm : Matrix m n K → Matrix k n K) (hmm : ∀ X Y, mm (X * Y) = mm X * Y) (name : Scheme) (f : (m → K) → K → Except Exc (m → K)) (Df : (m → K) → K → Except Exc (Matrix m m K))
    (hist : List (n → K)) (t dt : K) : SameSystem 1 B a (sysOf (maskedLspg mv mm name S f Df (hist.map (chart B a)) t dt)) (sysOf (maskedLspg mv mm name S' f Df hist t dt)) := by
  have hb := sameSpace_basis h
  have e : ∀ (c : K) (D : Matrix m m K), S.basis * B - c • (D * (S.basis * B)) = (S.basis - c • (D * S.basis)) * B := fun c D => by rw [Matrix.sub_mul, Matrix.smul_mul, Matrix.mul_assoc]
  constructor
  · intro x
    simp only [sysOf, maskedLspg, lspg, hist_lift h, coef_chart, h.2 x]
    rcases f (lift S (chart B a x)) (t + dt) with e | v
    · rfl
    rcases Df (lift S (chart B a x)) (t + dt) with e | D
    · rfl
    simp only [bind, Except.bind, pure, Except.pure, Except.map, if_true, Matrix.one_mulVec, Matrix.one_mul, hb, e, hmm, Option.map_some]
  · intro x
    simp only [sysOf, maskedLspg, lspg, hist_lift h, coef_chart, h.2 x]
    rcases f (lift S (chart B a x)) (t + dt) with e | v
    · rfl
    rcases Df (lift S (chart B a x)) (t + dt) with e | D
    · rfl
    simp [bind, Except.bind, pure, Except.pure, Except.map]

/-- **C99, masked LSPG.** The same for masked LSPG problems, if the masker acts on the columns of matrices linearly (as selecting rows does). -/
theorem C99_masked_lspg_runs {F : Fom K m m n} {f : (m → K) → K → Except Exc (m → K)} {Df Mm : (m → K) → K → Except Exc (Matrix m m K)} (hF : FomIs F f Df Mm) (hn : FomNoTSF f Df)
    {Mk : Masker K m k n} {mv : (m → K) → k → K} {mm : Matrix m n K → Matrix k n K} (hMk : MaskIs Mk mv mm) (hmm : ∀ X Y, mm (X * Y) = mm X * Y) (S S' : Trial K m n) (B : Matrix n n K) (a : n → K) (hS : SameSpace S S' B a) (name : Scheme) (hname : name = .BDF1 ∨ name = .BDF2)
    (mem mem' : SMem K (n → K) (n → K) (LMem K m m n × (k → K) × Matrix k n K)) (hz : Sized name mem ∧ mem.pol.1.data.length = numStates name ∧ mem.pol.1.tracker ≠ 1) (hz' : Sized name mem' ∧ mem'.pol.1.data.length = numStates name ∧ mem'.pol.1.tracker ≠ 1)
    (env : Env K k n P L) (env' : Env K k n P' L') (he : InnerHonest env .gn) (he' : InnerHonest env' .gn) (hlin : SolvesRegular env.lin) (hlin' : SolvesRegular env'.lin) (hM : env'.normM = env.normM)
    (cfg : Cfg K) (h1 : 1 ≤ cfg.maxIters) (hcrit : SameMeasure (1 : Matrix k k K) B env.normM env'.normM env.normN env'.normN cfg.stop) (reg : Reg K k n P L) (reg' : Reg K k n P' L') (hreg : LsIdle reg) (hreg' : LsIdle reg')
    (dts : List K) (hdt : ∀ dt ∈ dts, MaskedRegular name S mm Df dt) (t0 : K) (x0 x0' : n → K) (hx0 : lift S x0 = lift S' x0') (hinj : Function.Injective S.basis.mulVec) :
    (driveObj (stepWith name (maskDecorator Mk (defaultPolicy S F))) (Model.Nonlinear.lsSolve env cfg .gn) dts t0 [x0] x0 mem reg).map (shown (lift S)) =
      (driveObj (stepWith name (maskDecorator Mk (defaultPolicy S' F))) (Model.Nonlinear.lsSolve env' cfg .gn) dts t0 [x0'] x0' mem' reg').map (shown (lift S')) := by
  obtain rfl : x0 = chart B a x0' := hinj (add_right_cancel (hx0.trans (hS.2 x0')))
  apply shown_lift hS
  exact policyObj_coordinates (MaskedRegular name S mm Df) B a hS.1 name hname _ _ _ _ _ _ _ _ (masked_refines hF hMk S name hname (mem.pol.1.data.getD 1 0)) (masked_refines hF hMk S' name hname (mem'.pol.1.data.getD 1 0))
    (maskedLspg_ne hn mv mm name S) (fun hist t dt => masked_wellTyped mv mm name S f Df hist t dt) (fun hist t dt => masked_wellTyped mv mm name S' f Df hist t dt) (fun hist t dt => masked_moved hS mv mm hmm name f Df hist t dt)
    (fun hist t dt hd => maskedLspg_regular name hname S mv mm f Df dt hd hist t) env env' he he' hlin hlin' hM cfg h1 hcrit reg reg' hreg hreg' dts hdt t0 x0' mem mem' hz.1 hz'.1
    (good_start _ S _ mem.pol.1 hz.2.1 (by rcases hname with rfl | rfl <;> simp [numStates]) hz.2.2) (good_start _ S' _ mem'.pol.1 hz'.2.1 (by rcases hname with rfl | rfl <;> simp [numStates]) hz'.2.2)

/-! ### Concrete cases: the second equation of `y' = (y_1, 1 - y_0)` -/

def sampFom : Fom ℚ (Fin 2) (Fin 1) (Fin 1) where
  rhs := fun y _ _ => .ok ![1 - y 0]
  applyJac := fun _ B _ _ => .ok ((!![-1, 0] : Matrix (Fin 1) (Fin 2) ℚ) * B)
  applyMM := fun _ B _ _ => .ok ((!![0, 1] : Matrix (Fin 1) (Fin 2) ℚ) * B)
theorem sampFom_is : FomIs sampFom (fun y _ => .ok ![1 - y 0]) (fun _ _ => .ok !![-1, 0]) (fun _ _ => .ok !![0, 1]) := ⟨fun _ _ _ => rfl, fun _ _ _ _ => rfl, fun _ _ _ _ => rfl⟩

theorem factors_nonneg {name : Scheme} {dt c : ℚ} (h0 : 0 ≤ dt) (hc : c ∈ rhsFactors dt name) : 0 ≤ c := by
  cases name <;> simp [rhsFactors] at hc <;> (try rcases hc with rfl | rfl) <;> (try subst hc) <;> linarith

theorem samp_regular (name : Scheme) (dt : ℚ) (h0 : 0 ≤ dt) : HypredRegular name trial2 !![0, 1] (fun (_ : Fin 2 → ℚ) (_ : ℚ) => .ok !![-1, 0]) dt := by
  intro y t A hA c hc
  have := factors_nonneg h0 hc
  cases hA
  rw [Matrix.det_unique]
  apply isUnit_iff_ne_zero.2
  simp [trial2, Matrix.mul_apply, Fin.sum_univ_two]
  nlinarith

theorem mask_regular (name : Scheme) (dt : ℚ) (h0 : 0 ≤ dt) : MaskedRegular name trial2 (fun B => !![B 1 0]) (fun (_ : Fin 2 → ℚ) (_ : ℚ) => .ok !![0, 1; -1, 0]) dt := by
  intro y t A hA c hc
  have := factors_nonneg h0 hc
  cases hA
  rw [Matrix.det_unique]
  apply isUnit_iff_ne_zero.2
  simp [trial2, Matrix.mul_apply, Fin.sum_univ_two]
  nlinarith

def regWls : Reg ℚ (Fin 1) (Fin 1) Unit Unit := { regW with diag := Model.Nonlinear.newContainer Model.Nonlinear.leastSquaresDiagnostics }

example := C99_hyper_reduced_lspg_runs sampFom_is (by simp) (by simp) upd2 !![0, 1] upd2_is trial2 trial2b !![2] ![1] trial2b_same .BDF2 (.inr rfl) hypMem2 hypMem2 hypMem2_ready hypMem2_ready (envW 1 1) (envW 1 2) (by intro A b s; simp [envW]) (by intro A b s; simp [envW]) (envW_solves 1 1) (envW_solves 1 2) rfl
  (cfgN .WhenAbsolutel2NormOfCorrectionBelowTolerance (1/100) 4 .Standard) (by simp [cfgN]) (fun c => by simp [envW, Matrix.mulVec, dotProduct]) regWls regWls (fun _ => .created _ rfl) (fun _ => .created _ rfl) [1/2, 1/2, 1/4]
  (by intro dt h; apply samp_regular; simp at h; rcases h with rfl | rfl <;> norm_num) 0 ![1] ![0] (by funext i; fin_cases i <;> simp [lift, trial2, trial2b, Matrix.mulVec, dotProduct] <;> norm_num) trial2_injective

example := C99_masked_lspg_runs rotFom_is rotFom_noTSF mask2_is (fun X Y => by ext i j; fin_cases i; fin_cases j; simp [Matrix.mul_apply]) trial2 trial2b !![2] ![1] trial2b_same .BDF2 (.inr rfl) maskMem2 maskMem2 (by simp [maskMem2, Lemmas.Lspg.Sized, Lemmas.Lspg.numStates])
  (by simp [maskMem2, Lemmas.Lspg.Sized, Lemmas.Lspg.numStates]) (envW 1 1) (envW 1 2) (by intro A b s; simp [envW]) (by intro A b s; simp [envW]) (envW_solves 1 1) (envW_solves 1 2) rfl
  (cfgN .WhenAbsolutel2NormOfCorrectionBelowTolerance (1/100) 4 .Standard) (by simp [cfgN]) (fun c => by simp [envW, Matrix.mulVec, dotProduct]) regWls regWls (fun _ => .created _ rfl) (fun _ => .created _ rfl) [1/2, 1/2, 1/4]
  (by intro dt h; apply mask_regular; simp at h; rcases h with rfl | rfl <;> norm_num) 0 ![1] ![0] (by funext i; fin_cases i <;> simp [lift, trial2, trial2b, Matrix.mulVec, dotProduct] <;> norm_num) trial2_injective

/-- the masked runs move: three accepted steps -/
example : ((driveObj (stepWith .BDF2 (maskDecorator mask2 (defaultPolicy trial2 rotFom))) (Model.Nonlinear.lsSolve (envW 1 1) (cfgN .WhenAbsolutel2NormOfCorrectionBelowTolerance (1/100) 4 .Standard) .gn) [1/2, 1/2, 1/4] 0 [![1]] ![1] maskMem2 regWls).map (fun r => (r.stop, decide (r.y 0 = 1)))) =
    [(none, false), (none, false), (none, false)] := by decide +kernel
end Pressio.Props
