import Verif.Spec.Sampling
import Verif.Lemmas.Coordinates
import Verif.Props.Sharing
import Verif.Props.SolverAlike

/-
  C102: sampling the equations of LSPG in the problem (hyper-reduction, mask, scaling) and weighing them in the solver give the same runs.
-/
namespace Pressio.Props
set_option autoImplicit false
set_option linter.unusedSectionVars false
open Pressio Matrix
open Pressio.Model.Nonlinear (Env Cfg Reg StopCrit Update Tag Ans SP)
open Pressio.Spec.Nonlinear Pressio.Spec.SolverAlike Pressio.Spec.Sampling Pressio.Spec.Coordinates Pressio.Lemmas.Coordinates
open Pressio.Lemmas.Nonlinear
open Pressio.Model.Implicit Pressio.Spec.Implicit Pressio.Lemmas.Implicit Pressio.Spec.SolverRun Pressio.Lemmas.SolverTree Pressio.Lemmas.SolverRun
open Pressio.Model.Explicit (Scheme)
open Pressio.Model.Galerkin Pressio.Model.Lspg Pressio.Spec.Galerkin Pressio.Spec.Lspg Pressio.Lemmas.Lspg

/-- multiply residual and Jacobian by `M` -/
def timesMatrix {K m q n : Type} [Field K] [Fintype m] (M : Matrix q m K) (a : (m → K) × Option (Matrix m n K)) : (q → K) × Option (Matrix q n K) := (M *ᵥ a.1, a.2.map (fun J => M * J))

section
variable {K m s q n p p' L : Type} [Field K] [LinearOrder K] [IsStrictOrderedRing K] [Fintype m] [DecidableEq m] [Fintype s] [DecidableEq s] [Fintype q] [DecidableEq q] [Fintype n] [DecidableEq n] [Fintype p] [Fintype p']

theorem sysOf_times (M : Matrix q m K) (F : (n → K) → Bool → Except Exc (Ans K m n)) (F' : (n → K) → Bool → Except Exc (Ans K q n)) (h : ∀ x w, F' x w = (F x w).map (timesMatrix M)) : sysOf F' = scaledSys M (sysOf F) := by
  unfold sysOf scaledSys
  congr 1
  · funext x
    dsimp only
    rw [h]
    rcases F x true with e | ⟨r, _ | J⟩ <;> rfl
  · funext x
    dsimp only
    rw [h]
    rcases F x false with e | ⟨r, J⟩ <;> rfl

/-- one solve: weighing in the solver, or the equations multiplied -/
theorem weighs_solve (env : Env K m n q L) (env' : Env K q n p L) (M : Matrix q m K) (tag : Tag) (hM : Weighs env M tag) (cfg : Cfg K) (hcrit : notResidual cfg.stop = true) (hlin : env'.lin = env.lin) (hnorm : env'.normN = env.normN) (hE : Euclidean env'.normM)
    (F : (n → K) → Bool → Except Exc (Ans K m n)) (F' : (n → K) → Bool → Except Exc (Ans K q n)) (hF : WellTyped F) (hF' : WellTyped F') (h : ∀ x w, F' x w = (F x w).map (timesMatrix M)) (reg : Reg K m n q L) (reg' : Reg K q n p L) (hi : LsIdle reg) (hi' : LsIdle reg') (y : n → K) (hc : reg.c = reg'.c) (hl : reg.lin = reg'.lin) :
    let r := SM.run F (Model.Nonlinear.lsSolve env cfg tag) { reg with x := y }
    let r' := SM.run F' (Model.Nonlinear.lsSolve env' cfg .gn) { reg' with x := y }
    SameCalls { reg with x := y } { reg' with x := y } r r' ∧ r.state.c = r'.state.c ∧ r.state.lin = r'.state.lin := by
  rw [← toF_sysOf F hF, ← toF_sysOf F' hF', sysOf_times M F F' h]
  cases tag with
  | wgn => exact C98_weighted_is_scaled env env' M cfg hcrit (sysOf F) hM.1 hM.2 hlin hnorm hE { reg with x := y } { reg' with x := y } (hi y) (hi' y) rfl hc hl
  | cwgn => exact C98_compact_is_scaled env env' M cfg hcrit (sysOf F) hM.1 hM.2 hlin hnorm hE { reg with x := y } { reg' with x := y } (hi y) (hi' y) rfl hc hl
  | gn => exact hM.elim
  | gnQr => exact hM.elim
  | lm => exact hM.elim

/-- runs: weighing in the solver, or the equations multiplied; a run always has an accepted state -/
theorem weighs_runs_cons {S S' : Type} (step : ((n → K) → SolveTree (n → K) (Ans K m n)) → K → K → Int → Prog (SolveSt (n → K) S (Ans K m n)) Unit) (step' : ((n → K) → SolveTree (n → K) (Ans K q n)) → K → K → Int → Prog (SolveSt (n → K) S' (Ans K q n)) Unit)
    (F : List (n → K) → K → K → (n → K) → Bool → Except Exc (Ans K m n)) (F' : List (n → K) → K → K → (n → K) → Bool → Except Exc (Ans K q n)) (hF : ∀ hist t dt, WellTyped (F hist t dt)) (hF' : ∀ hist t dt, WellTyped (F' hist t dt))
    (hne : ∀ hist t dt x w, F hist t dt x w ≠ .error .timeStepFailure) (M : Matrix q m K) (h : ∀ y prev t dt x w, F' (y :: prev) t dt x w = (F (y :: prev) t dt x w).map (timesMatrix M)) (mem : S) (mem' : S') (t0 : K) (x0 : n → K)
    (hl : Lawful Asks step F mem t0 x0) (hl' : Lawful Asks step' F' mem' t0 x0)
    (env : Env K m n q L) (env' : Env K q n p L) (tag : Tag) (hM : Weighs env M tag) (cfg : Cfg K) (h1 : 1 ≤ cfg.maxIters) (hcrit : notResidual cfg.stop = true) (he : ∀ A b s, (env.lin A b s).stop? ≠ some (.exc .timeStepFailure)) (hlin : env'.lin = env.lin) (hnorm : env'.normN = env.normN) (hE : Euclidean env'.normM)
    (reg : Reg K m n q L) (reg' : Reg K q n p L) (hi : LsIdle reg) (hi' : LsIdle reg') (hc : reg.c = reg'.c) (hlin0 : reg.lin = reg'.lin) (dts : List K) :
    (driveObj step (Model.Nonlinear.lsSolve env cfg tag) dts t0 [x0] x0 mem reg).map (shown id) = (driveObj step' (Model.Nonlinear.lsSolve env' cfg .gn) dts t0 [x0] x0 mem' reg').map (shown id) := by
  obtain ⟨Inv, hr, hI⟩ := hl
  obtain ⟨Inv', hr', hI'⟩ := hl'
  have hh : InnerHonest env tag := by cases tag <;> first | exact he | exact hM.elim
  have hh' : InnerHonest env' .gn := by intro A b s; rw [hlin]; exact he A b s
  exact driveObj_moved (fun _ => True) id Asks Asks step step' F F' Inv Inv' hr hr' hne _ _ (fine_lsSolve env cfg tag hh) (fine_lsSolve env' cfg .gn hh') (asks_solverOf _ (busy_lsSolve env cfg tag h1)) (asks_solverOf _ (busy_lsSolve env' cfg .gn h1))
    (fun reg reg' => LsIdle reg ∧ LsIdle reg' ∧ reg.c = reg'.c ∧ reg.lin = reg'.lin)
    (fun reg reg' y prev t dt _ hR => by
      have hs := weighs_solve env env' M tag hM cfg hcrit hlin hnorm hE (F (y :: prev) t dt) (F' (y :: prev) t dt) (hF _ _ _) (hF' _ _ _) (h _ _ _ _) reg reg' hR.1 hR.2.1 y hR.2.2.1 hR.2.2.2
      simp only [List.map_id, id_eq]
      exact ⟨hs.1, lsIdle_run env cfg tag _ (hF _ _ _) reg y hR.1, lsIdle_run env' cfg .gn _ (hF' _ _ _) reg' y hR.2.1, hs.2⟩)
    dts (fun _ _ => trivial) t0 x0 [] mem mem' reg reg' hI hI' ⟨hi, hi', hc, hlin0⟩

/-- runs: weighing in the solver, or the equations multiplied -/
theorem weighs_runs {S S' : Type} (step : ((n → K) → SolveTree (n → K) (Ans K m n)) → K → K → Int → Prog (SolveSt (n → K) S (Ans K m n)) Unit) (step' : ((n → K) → SolveTree (n → K) (Ans K q n)) → K → K → Int → Prog (SolveSt (n → K) S' (Ans K q n)) Unit)
    (F : List (n → K) → K → K → (n → K) → Bool → Except Exc (Ans K m n)) (F' : List (n → K) → K → K → (n → K) → Bool → Except Exc (Ans K q n)) (hF : ∀ hist t dt, WellTyped (F hist t dt)) (hF' : ∀ hist t dt, WellTyped (F' hist t dt))
    (hne : ∀ hist t dt x w, F hist t dt x w ≠ .error .timeStepFailure) (M : Matrix q m K) (h : ∀ hist t dt x w, F' hist t dt x w = (F hist t dt x w).map (timesMatrix M)) (mem : S) (mem' : S') (t0 : K) (x0 : n → K)
    (hl : Lawful Asks step F mem t0 x0) (hl' : Lawful Asks step' F' mem' t0 x0)
    (env : Env K m n q L) (env' : Env K q n p L) (tag : Tag) (hM : Weighs env M tag) (cfg : Cfg K) (h1 : 1 ≤ cfg.maxIters) (hcrit : notResidual cfg.stop = true) (he : ∀ A b s, (env.lin A b s).stop? ≠ some (.exc .timeStepFailure)) (hlin : env'.lin = env.lin) (hnorm : env'.normN = env.normN) (hE : Euclidean env'.normM)
    (reg : Reg K m n q L) (reg' : Reg K q n p L) (hi : LsIdle reg) (hi' : LsIdle reg') (hc : reg.c = reg'.c) (hlin0 : reg.lin = reg'.lin) (dts : List K) :
    (driveObj step (Model.Nonlinear.lsSolve env cfg tag) dts t0 [x0] x0 mem reg).map (shown id) = (driveObj step' (Model.Nonlinear.lsSolve env' cfg .gn) dts t0 [x0] x0 mem' reg').map (shown id) :=
  weighs_runs_cons step step' F F' hF hF' hne M (fun _ _ => h _) mem mem' t0 x0 hl hl' env env' tag hM cfg h1 hcrit he hlin hnorm hE reg reg' hi hi' hc hlin0 dts

theorem lift_onStencil (P : Matrix s m K) (S : Trial K m n) (x : n → K) : lift (onStencil P S) x = P *ᵥ lift S x := by
  cases h : S.isAffine <;> simp [lift, onStencil, h, Matrix.mulVec_add, Matrix.mulVec_mulVec]

theorem combination_map (name : Scheme) (A : Matrix q m K) (y : m → K) (hist : List (m → K)) : combination name (A *ᵥ y) (hist.map (fun v => A *ᵥ v)) = A *ᵥ combination name y hist := by
  cases name <;> rcases hist with _ | ⟨a, _ | ⟨b, l⟩⟩ <;> simp [combination, Matrix.mulVec_sub, Matrix.mulVec_add, Matrix.mulVec_smul]

/-- the hyper-reduced equations on a stencil mesh are the sampled rows of the equations on the full mesh -/
theorem hypred_samples (P : Matrix s m K) (E : Matrix q s K) (name : Scheme) (S : Trial K m n) {f : (m → K) → K → Except Exc (m → K)} {Df : (m → K) → K → Except Exc (Matrix m m K)} {f' : (s → K) → K → Except Exc (q → K)} {Df' : (s → K) → K → Except Exc (Matrix q s K)}
    (hs : Samples P E f Df f' Df') (hist : List (n → K)) (t dt : K) (x : n → K) (w : Bool) :
    hypredLspg E name (onStencil P S) f' Df' hist t dt x w = (lspg name S f Df hist t dt x w).map (timesMatrix (E * P)) := by
  have hl : (hist.map (lift (onStencil P S))) = (hist.map (lift S)).map (fun v => P *ᵥ v) := by
    rw [List.map_map]; exact List.map_congr_left (fun x _ => lift_onStencil P S x)
  have hv : ∀ c : K, ∀ u v : m → K, E *ᵥ (P *ᵥ u) - c • ((E * P) *ᵥ v) = (E * P) *ᵥ (u - c • v) := by
    intro c u v; rw [Matrix.mulVec_sub, Matrix.mulVec_smul, Matrix.mulVec_mulVec]
  unfold hypredLspg lspg
  rw [hl, lift_onStencil, combination_map, hs.values]
  have hr := hs.rows (lift S x) (t + dt)
  rcases f (lift S x) (t + dt) with e | v
  · rfl
  · cases w with
    | false => exact congrArg Except.ok (Prod.ext (hv _ _ _) rfl)
    | true =>
      revert hr
      rcases Df' (P *ᵥ lift S x) (t + dt) with e' | D' <;> rcases Df (lift S x) (t + dt) with e | D <;> intro hr <;> simp only [Except.map, Except.ok.injEq, Except.error.injEq, reduceCtorEq] at hr
      · subst hr; simp [Except.map, bind, Except.bind]
      · have : D' * (P * S.basis) = (E * P) * (D * S.basis) := by rw [← Matrix.mul_assoc, hr, Matrix.mul_assoc]
        refine congrArg Except.ok (Prod.ext (hv _ _ _) (congrArg some ?_))
        simp only [onStencil, this, Matrix.mul_sub, Matrix.mul_smul, Matrix.mul_assoc]

/-- the masked equations are the rows of the mask, if the FOM Jacobian can be evaluated wherever the right-hand side can -/
theorem masked_times (M : Matrix q m K) (name : Scheme) (S : Trial K m n) {f : (m → K) → K → Except Exc (m → K)} {Df : (m → K) → K → Except Exc (Matrix m m K)} (hD : ∀ y t v, f y t = .ok v → ∃ D, Df y t = .ok D) (hist : List (n → K)) (t dt : K) (x : n → K) (w : Bool) :
    maskedLspg (fun v => M *ᵥ v) (fun B => M * B) name S f Df hist t dt x w = (lspg name S f Df hist t dt x w).map (timesMatrix M) := by
  unfold maskedLspg lspg
  rcases hf : f (lift S x) (t + dt) with e | v
  · rfl
  · obtain ⟨D, hd⟩ := hD _ _ v hf
    cases w <;> simp [hd, Except.map, Pure.pure, Except.pure, bind, Except.bind, timesMatrix]

/-! ### The property -/

/-- **C102, hyper-reduction is weighting.** The hyper-reduced LSPG problem of a sample-mesh code (states on a stencil mesh, right-hand side on a sample mesh), solved by a Gauss-Newton object, and the LSPG problem of the full-mesh code, solved by a weighted Gauss-Newton object whose weights select the sample mesh
    (weights `MᵀM`, or compact weights `M`, where `M = E P` restricts to the sample mesh), with the same linear solver, norm of reduced states and options (criterion not about the residual), go through the same runs: the same accepted states at the same times, the same failures and exceptions, evaluations at the same points. -/
theorem C102_hyperreduced (P : Matrix s m K) (E : Matrix q s K) {F : Fom K m m n} {f : (m → K) → K → Except Exc (m → K)} {Df Mm : (m → K) → K → Except Exc (Matrix m m K)} (hF : FomIs F f Df Mm) (hn : FomNoTSF f Df)
    {F' : Fom K s q n} {f' : (s → K) → K → Except Exc (q → K)} {Df' Mm' : (s → K) → K → Except Exc (Matrix q s K)} (hF' : FomIs F' f' Df' Mm') (hs : Samples P E f Df f' Df') (U : Updater K s q n) (hU : UpdaterIs U E)
    (S : Trial K m n) (name : Scheme) (hname : name = .BDF1 ∨ name = .BDF2) (mem : SMem K (n → K) (n → K) (LMem K m m n)) (hmem : LspgReady name mem) (mem' : SMem K (n → K) (n → K) (LMem K s q n)) (hmem' : LspgReady name mem')
    (env : Env K m n q L) (env' : Env K q n p L) (tag : Tag) (hM : Weighs env (E * P) tag) (cfg : Cfg K) (h1 : 1 ≤ cfg.maxIters) (hcrit : notResidual cfg.stop = true) (he : ∀ A b s, (env.lin A b s).stop? ≠ some (.exc .timeStepFailure)) (hlin : env'.lin = env.lin) (hnorm : env'.normN = env.normN) (hE : Euclidean env'.normM)
    (reg : Reg K m n q L) (reg' : Reg K q n p L) (hi : LsIdle reg) (hi' : LsIdle reg') (hc : reg.c = reg'.c) (hlin0 : reg.lin = reg'.lin) (t0 : K) (x0 : n → K) (dts : List K) :
    (driveObj (stepWith name (hypredPolicy U (onStencil P S) F')) (Model.Nonlinear.lsSolve env' cfg .gn) dts t0 [x0] x0 mem' reg').map (shown id) =
      (driveObj (stepWith name (defaultPolicy S F)) (Model.Nonlinear.lsSolve env cfg tag) dts t0 [x0] x0 mem reg).map (shown id) :=
  (weighs_runs (stepWith name (defaultPolicy S F)) (stepWith name (hypredPolicy U (onStencil P S) F')) (lspg name S f Df) (hypredLspg E name (onStencil P S) f' Df') (lspg_wellTyped name S f Df) (hypred_wellTyped E name _ f' Df') (lspg_ne hn name S) (E * P) (hypred_samples P E name S hs) mem mem' t0 x0
    (policy_lawful name hname _ _ _ _ ((lspgPolicy_refines name hname S _ _ (assembleDefault_ok hF S) (mem.pol.data.getD 1 0)).congrF (fun y prev t dt x w => equations_lspg name hname S f Df y prev t dt x w)) mem hmem.1 t0 x0
      (good_start _ S _ mem.pol hmem.2.1 (by rcases hname with rfl | rfl <;> simp [numStates]) hmem.2.2))
    (policy_lawful name hname _ _ _ _ ((lspgPolicy_refines name hname (onStencil P S) _ _ (assembleHypred_ok hF' (onStencil P S) U E hU) (mem'.pol.data.getD 1 0)).congrF (fun y prev t dt x w => equations_hypred E name hname (onStencil P S) f' Df' y prev t dt x w)) mem' hmem'.1 t0 x0
      (good_start _ (onStencil P S) _ mem'.pol hmem'.2.1 (by rcases hname with rfl | rfl <;> simp [numStates]) hmem'.2.2))
    env env' tag hM cfg h1 hcrit he hlin hnorm hE reg reg' hi hi' hc hlin0 dts).symm

/-- **C102, masking is weighting.** The same for a masked LSPG problem whose masker multiplies by `M`, if the FOM Jacobian can be evaluated wherever the right-hand side can (a masked problem evaluates both always; see `C102_masked_jacobian_refuted`). -/
theorem C102_masked (M : Matrix q m K) {F : Fom K m m n} {f : (m → K) → K → Except Exc (m → K)} {Df Mm : (m → K) → K → Except Exc (Matrix m m K)} (hF : FomIs F f Df Mm) (hn : FomNoTSF f Df) (hD : ∀ y t v, f y t = .ok v → ∃ D, Df y t = .ok D)
    {Mk : Masker K m q n} (hMk : MaskIs Mk (fun v => M *ᵥ v) (fun B => M * B)) (S : Trial K m n) (name : Scheme) (hname : name = .BDF1 ∨ name = .BDF2) (mem : SMem K (n → K) (n → K) (LMem K m m n)) (hmem : LspgReady name mem)
    (mem' : SMem K (n → K) (n → K) (LMem K m m n × (q → K) × Matrix q n K)) (hmem' : Sized name mem' ∧ mem'.pol.1.data.length = numStates name ∧ mem'.pol.1.tracker ≠ 1)
    (env : Env K m n q L) (env' : Env K q n p L) (tag : Tag) (hM : Weighs env M tag) (cfg : Cfg K) (h1 : 1 ≤ cfg.maxIters) (hcrit : notResidual cfg.stop = true) (he : ∀ A b s, (env.lin A b s).stop? ≠ some (.exc .timeStepFailure)) (hlin : env'.lin = env.lin) (hnorm : env'.normN = env.normN) (hE : Euclidean env'.normM)
    (reg : Reg K m n q L) (reg' : Reg K q n p L) (hi : LsIdle reg) (hi' : LsIdle reg') (hc : reg.c = reg'.c) (hlin0 : reg.lin = reg'.lin) (t0 : K) (x0 : n → K) (dts : List K) :
    (driveObj (stepWith name (maskDecorator Mk (defaultPolicy S F))) (Model.Nonlinear.lsSolve env' cfg .gn) dts t0 [x0] x0 mem' reg').map (shown id) =
      (driveObj (stepWith name (defaultPolicy S F)) (Model.Nonlinear.lsSolve env cfg tag) dts t0 [x0] x0 mem reg).map (shown id) :=
  (weighs_runs (stepWith name (defaultPolicy S F)) (stepWith name (maskDecorator Mk (defaultPolicy S F))) (lspg name S f Df) (maskedLspg (fun v => M *ᵥ v) (fun B => M * B) name S f Df) (lspg_wellTyped name S f Df) (masked_wellTyped _ _ name S f Df) (lspg_ne hn name S) M (masked_times M name S hD) mem mem' t0 x0
    (policy_lawful name hname _ _ _ _ ((lspgPolicy_refines name hname S _ _ (assembleDefault_ok hF S) (mem.pol.data.getD 1 0)).congrF (fun y prev t dt x w => equations_lspg name hname S f Df y prev t dt x w)) mem hmem.1 t0 x0
      (good_start _ S _ mem.pol hmem.2.1 (by rcases hname with rfl | rfl <;> simp [numStates]) hmem.2.2))
    (policy_lawful name hname _ _ _ _ (masked_refines hF hMk S name hname (mem'.pol.1.data.getD 1 0)) mem' hmem'.1 t0 x0 (good_start _ S x0 mem'.pol.1 hmem'.2.1 (by rcases hname with rfl | rfl <;> simp [numStates]) hmem'.2.2))
    env env' tag hM cfg h1 hcrit he hlin hnorm hE reg reg' hi hi' hc hlin0 dts).symm

/-- **C102, scaling is weighting.** The same for an LSPG problem with a scaling operator that multiplies residual and Jacobian by a constant matrix `M`. -/
theorem C102_scaled (M : Matrix m m K) {F : Fom K m m n} {f : (m → K) → K → Except Exc (m → K)} {Df Mm : (m → K) → K → Except Exc (Matrix m m K)} (hF : FomIs F f Df Mm) (hn : FomNoTSF f Df) (sc : Scaler K m m n) (hsc : ∀ y t a, sc y t a = .ok (timesMatrix M a))
    (S : Trial K m n) (name : Scheme) (hname : name = .BDF1 ∨ name = .BDF2) (mem : SMem K (n → K) (n → K) (LMem K m m n)) (hmem : LspgReady name mem) (mem' : SMem K (n → K) (n → K) (LMem K m m n)) (hmem' : LspgReady name mem')
    (env : Env K m n m L) (env' : Env K m n p L) (tag : Tag) (hM : Weighs env M tag) (cfg : Cfg K) (h1 : 1 ≤ cfg.maxIters) (hcrit : notResidual cfg.stop = true) (he : ∀ A b s, (env.lin A b s).stop? ≠ some (.exc .timeStepFailure)) (hlin : env'.lin = env.lin) (hnorm : env'.normN = env.normN) (hE : Euclidean env'.normM)
    (reg : Reg K m n m L) (reg' : Reg K m n p L) (hi : LsIdle reg) (hi' : LsIdle reg') (hc : reg.c = reg'.c) (hlin0 : reg.lin = reg'.lin) (t0 : K) (x0 : n → K) (dts : List K) :
    (driveObj (stepWith name (scalingDecorator sc (defaultPolicy S F))) (Model.Nonlinear.lsSolve env' cfg .gn) dts t0 [x0] x0 mem' reg').map (shown id) =
      (driveObj (stepWith name (defaultPolicy S F)) (Model.Nonlinear.lsSolve env cfg tag) dts t0 [x0] x0 mem reg).map (shown id) :=
  have heq : ∀ hist t dt x w, scaled sc S (lspg name S f Df) hist t dt x w = (lspg name S f Df hist t dt x w).map (timesMatrix M) := by
    intro hist t dt x w
    unfold scaled
    rcases lspg name S f Df hist t dt x w with e | a
    · rfl
    · exact hsc _ _ _
  have hwt : ∀ hist t dt, WellTyped (scaled sc S (lspg name S f Df) hist t dt) := by
    intro hist t dt x w r j h
    rw [heq] at h
    rcases h' : lspg name S f Df hist t dt x w with e | ⟨r', j'⟩
    · rw [h'] at h; cases h
    · rw [h'] at h
      cases h
      simpa using lspg_wellTyped name S f Df hist t dt x w r' j' h'
  (weighs_runs (stepWith name (defaultPolicy S F)) (stepWith name (scalingDecorator sc (defaultPolicy S F))) (lspg name S f Df) (scaled sc S (lspg name S f Df)) (lspg_wellTyped name S f Df) hwt (lspg_ne hn name S) M heq mem mem' t0 x0
    (policy_lawful name hname _ _ _ _ ((lspgPolicy_refines name hname S _ _ (assembleDefault_ok hF S) (mem.pol.data.getD 1 0)).congrF (fun y prev t dt x w => equations_lspg name hname S f Df y prev t dt x w)) mem hmem.1 t0 x0
      (good_start _ S _ mem.pol hmem.2.1 (by rcases hname with rfl | rfl <;> simp [numStates]) hmem.2.2))
    (policy_lawful name hname _ _ _ _ ((scaled_refines name hname S _ _ (assembleDefault_ok hF S) sc (mem'.pol.data.getD 1 0)).congrF (fun y prev t dt x w => by simp only [scaled, equations_lspg name hname])) mem' hmem'.1 t0 x0
      (good_start _ S _ mem'.pol hmem'.2.1 (by rcases hname with rfl | rfl <;> simp [numStates]) hmem'.2.2))
    env env' tag hM cfg h1 hcrit he hlin hnorm hE reg reg' hi hi' hc hlin0 dts).symm
end
end Pressio.Props
