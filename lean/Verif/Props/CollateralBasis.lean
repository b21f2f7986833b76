import Verif.Spec.CollateralBasis
import Verif.Props.MaskEmulatesSteady

/-
  C108: hyper-reduction with a collateral basis that spans the right-hand sides loses nothing.
-/
namespace Pressio.Props
set_option autoImplicit false
set_option linter.unusedSectionVars false
open Pressio Matrix
open Pressio.Model.Advance Pressio.Spec.AdvanceTarget Pressio.Spec.AdvanceDrive Pressio.Spec.CustomSchemes Pressio.Spec.Units Pressio.Lemmas.Units
open Pressio.Model.Nonlinear (Env Cfg Reg StopCrit Update Tag Ans SP)
open Pressio.Spec.Nonlinear Pressio.Spec.SolverAlike Pressio.Spec.Sampling Pressio.Spec.Coordinates
open Pressio.Lemmas.Nonlinear Pressio.Lemmas.SolverAlike Pressio.Lemmas.Coordinates
open Pressio.Model.Implicit Pressio.Spec.Implicit Pressio.Lemmas.Implicit Pressio.Spec.SolverRun Pressio.Lemmas.SolverTree Pressio.Lemmas.SolverRun
open Pressio.Model.Explicit (Scheme System numRhs asStepper dummyObserver)
open Pressio.Model.Galerkin Pressio.Spec.Galerkin Pressio.Model.Lspg Pressio.Spec.Lspg Pressio.Spec.Run Pressio.Lemmas.Lspg
open Pressio.Spec.Explicit Pressio.Lemmas.Run Pressio.Model.SteadySolve Pressio.Spec.CollateralBasis

section
variable {K m s q r r' n c p L U : Type} [Field K] [LinearOrder K] [IsStrictOrderedRing K] [Fintype m] [DecidableEq m] [Fintype s] [DecidableEq s] [Fintype q] [DecidableEq q] [Fintype r] [Fintype r'] [Fintype n] [DecidableEq n] [Fintype p] [Fintype c] [DecidableEq c]

theorem recovers_vec {M : Matrix q m K} {V : Matrix m c K} {W : Matrix c q K} (hW : Recovers M V W) (B : Matrix n m K) (a : c → K) : (B * V * W) *ᵥ (M *ᵥ (V *ᵥ a)) = B *ᵥ (V *ᵥ a) := by
  have h : B * V * W * (M * V) = B * V := by rw [Matrix.mul_assoc, hW, Matrix.mul_one]
  simp only [Matrix.mulVec_mulVec]
  rw [h]

theorem recovers_mat {M : Matrix q m K} {V : Matrix m c K} {W : Matrix c q K} (hW : Recovers M V W) (B : Matrix n m K) (A : Matrix c n K) : (B * V * W) * (M * (V * A)) = B * (V * A) := by
  have h : B * V * W * (M * V) = B * V := by rw [Matrix.mul_assoc, hW, Matrix.mul_one]
  rw [← Matrix.mul_assoc M, ← Matrix.mul_assoc (B * V * W), h, Matrix.mul_assoc]

/-- sampled, reconstructed and projected is projected -/
theorem spanned_reduced {P : Matrix s m K} {E : Matrix q s K} {V : Matrix m c K} {W : Matrix c q K} (hW : Recovers (E * P) V W) {f : (m → K) → K → Except Exc (m → K)} {Df : (m → K) → K → Except Exc (Matrix m m K)} {S : Trial K m n} (hV : Spanned V S f Df) :
    (fun x t => (f (lift S x) t).map (fun v => (S.basisᵀ * V * W) *ᵥ ((E * P) *ᵥ v))) = (fun x t => (f (lift S x) t).map (fun v => S.basisᵀ *ᵥ v)) ∧
    (fun x t => (Df (lift S x) t).map (fun D => (S.basisᵀ * V * W) * ((E * P) * (D * S.basis)))) = (fun x t => (Df (lift S x) t).map (fun D => S.basisᵀ * (D * S.basis))) := by
  constructor
  · funext x t
    rcases hf : f (lift S x) t with e | v
    · rfl
    · obtain ⟨a, rfl⟩ := hV.values x t v hf
      exact congrArg Except.ok (recovers_vec hW _ a)
  · funext x t
    rcases hf : Df (lift S x) t with e | D
    · rfl
    · obtain ⟨A, hA⟩ := hV.derivatives x t D hf
      simp only [Except.map, hA]
      exact congrArg Except.ok (recovers_mat hW _ A)

/-- **C108, implicit Galerkin.** A full-mesh code, a code for a sample mesh with its stencil mesh (`Samples`), a hyper-reduction operator that reconstructs with a collateral basis `V` from the entries on the sample mesh and projects on the trial basis: if on the trial space the right-hand side and its derivatives along the trial space lie in the span of `V`, and the
    coefficients can be recovered from the entries on the sample mesh, then the hyper-reduced Galerkin problem of the sample-mesh code and the default Galerkin problem of the full-mesh code, with any solver object in the same state, go through the same run: the same states, failures, exceptions and points of evaluation. The codes may throw. -/
theorem C108_galerkin_implicit (P : Matrix s m K) (E : Matrix q s K) {F : Fom K m m n} {f : (m → K) → K → Except Exc (m → K)} {Df Mm : (m → K) → K → Except Exc (Matrix m m K)} (hF : FomIs F f Df Mm) (hn : FomNoTSF f Df)
    {F' : Fom K s q n} {f' : (s → K) → K → Except Exc (q → K)} {Df' Mm' : (s → K) → K → Except Exc (Matrix q s K)} (hF' : FomIs F' f' Df' Mm') (hs : Samples P E f Df f' Df') (S : Trial K m n) (V : Matrix m c K) (W : Matrix c q K) (hW : Recovers (E * P) V W) (hV : Spanned V S f Df) {H : HypRed K q n} (hH : Reconstructs H S V W)
    (s0 : GSt K m m r' n) (s0' : GSt K s q r n) (name : Scheme) (mem mem' : SMem K (n → K) (n → K) PMem) (hmem : Ready name mem) (hmem' : Ready name mem') (solve : SP K n n p L Unit) (hsolve : Fine solve) (reg : Reg K n n p L) (dts : List K) (t0 : K) (x0 : n → K) :
    (driveObj (stdStep name (asISystem (hypredRhsJac (onStencil P S) F' H) s0')) solve dts t0 [x0] x0 mem' reg).map (shown id) =
      (driveObj (stdStep name (asISystem (defaultRhsJac S F) s0)) solve dts t0 [x0] x0 mem reg).map (shown id) := by
  have h1 := reduced_odeIs (fun _ v => S.basisᵀ *ᵥ v) (fun _ B => S.basisᵀ * B) (defaultRhsJac S F) (fun x t w s => C49_default_rhs_jacobian (q := r') hF S x t w s) s0
  have h2 := reduced_odeIs _ _ (hypredRhsJac (onStencil P S) F' H) (fun x t w s => C49_hypred_rhs_jacobian hF' hH (onStencil P S) x t w s) s0'
  have hr := samples_reduced hs S (fun _ v => (S.basisᵀ * V * W) *ᵥ v) (fun _ B => (S.basisᵀ * V * W) * B)
  beta_reduce at h2 hr
  rw [hr.1, hr.2, (spanned_reduced hW hV).1, (spanned_reduced hW hV).2] at h2
  exact odeIs_runs (projected_noTSF hn S (fun _ v => S.basisᵀ *ᵥ v) (fun _ D => S.basisᵀ * (D * S.basis))) _ _ h2 h1 name mem' mem hmem' hmem solve hsolve reg dts t0 x0

/-- **C108, masked implicit Galerkin.** So does the masked problem of the full-mesh code with that operator: without a code for the sample mesh, one can still find out whether the sample mesh suffices. -/
theorem C108_masked_implicit (M : Matrix q m K) {F : Fom K m m n} {f : (m → K) → K → Except Exc (m → K)} {Df Mm : (m → K) → K → Except Exc (Matrix m m K)} (hF : FomIs F f Df Mm) (hn : FomNoTSF f Df)
    {Mk : Masker K m q n} (hMk : MaskIs Mk (fun v => M *ᵥ v) (fun B => M * B)) (S : Trial K m n) (V : Matrix m c K) (W : Matrix c q K) (hW : Recovers M V W) (hV : Spanned V S f Df) {H : HypRed K q n} (hH : Reconstructs H S V W)
    (s0 : GSt K m m r' n) (s0' : GSt K m m q n) (name : Scheme) (mem mem' : SMem K (n → K) (n → K) PMem) (hmem : Ready name mem) (hmem' : Ready name mem') (solve : SP K n n p L Unit) (hsolve : Fine solve) (reg : Reg K n n p L) (dts : List K) (t0 : K) (x0 : n → K) :
    (driveObj (stdStep name (asISystem (maskedRhsJac S F Mk H) s0')) solve dts t0 [x0] x0 mem' reg).map (shown id) =
      (driveObj (stdStep name (asISystem (defaultRhsJac S F) s0)) solve dts t0 [x0] x0 mem reg).map (shown id) := by
  have h1 := reduced_odeIs (fun _ v => S.basisᵀ *ᵥ v) (fun _ B => S.basisᵀ * B) (defaultRhsJac S F) (fun x t w s => C49_default_rhs_jacobian (q := r') hF S x t w s) s0
  have h2 := reduced_odeIs (fun _ v => (S.basisᵀ * V * W) *ᵥ (M *ᵥ v)) (fun _ B => (S.basisᵀ * V * W) * (M * B)) (maskedRhsJac S F Mk H) (fun x t w s => C49_masked_rhs_jacobian hF hMk hH S x t w s) s0'
  have hr := spanned_reduced (P := M) (E := (1 : Matrix q q K)) (by rwa [Matrix.one_mul]) hV
  simp only [Matrix.one_mul] at hr
  beta_reduce at h2
  rw [hr.1, hr.2] at h2
  exact odeIs_runs (projected_noTSF hn S (fun _ v => S.basisᵀ *ᵥ v) (fun _ D => S.basisᵀ * (D * S.basis))) _ _ h2 h1 name mem' mem hmem' hmem solve hsolve reg dts t0 x0

/-- **C108, explicit Galerkin.** The same for explicit schemes; only the right-hand side itself has to lie in the span. -/
theorem C108_galerkin_explicit (P : Matrix s m K) (E : Matrix q s K) {F : Fom K m m n} {f : (m → K) → K → m → K} {Df Mm : (m → K) → K → Except Exc (Matrix m m K)} (hF : FomIs F (fun y t => .ok (f y t)) Df Mm)
    {F' : Fom K s q n} {f' : (s → K) → K → q → K} {Df' Mm' : (s → K) → K → Except Exc (Matrix q s K)} (hF' : FomIs F' (fun y t => .ok (f' y t)) Df' Mm') (hs : ∀ y t, f' (P *ᵥ y) t = (E * P) *ᵥ f y t) (S : Trial K m n) (V : Matrix m c K) (W : Matrix c q K) (hW : Recovers (E * P) V W) (hV : ∀ x t, ∃ a, f (lift S x) t = V *ᵥ a)
    {H : HypRed K q n} (hH : Reconstructs H S V W) (s0 : GSt K m m r' n) (s0' : GSt K s q r n)
    (scheme : Scheme) (hsch : scheme.isExplicit = true) (pol : Int → K → K → K) (start : K) (N : Nat) (hN : (N : Int) < int32Max) (x0 : n → K) (mem mem' : EMem K (n → K)) (hlen : mem.1.length = numRhs scheme) (hlen' : mem'.1.length = numRhs scheme) :
    ∃ a b, run 0 pol (asStepper (asSystem (defaultRhs S F) s0) scheme dummyObserver) N start x0 mem = .ok () a ∧
      run 0 pol (asStepper (asSystem (hypredRhs (onStencil P S) F' H) s0') scheme dummyObserver) N start x0 mem' = .ok () b ∧ b.y = a.y ∧ observations b.log = observations a.log := by
  have h1 : Computes (asSystem (defaultRhs S F) s0) (fun x t => S.basisᵀ *ᵥ f (lift S x) t) := by
    intro x t b
    obtain ⟨s, hs', hv'⟩ := C49_default_rhs hF S x t { s0 with r := b }
    simp only [Prod.mk.injEq] at hv'
    unfold asSystem
    simp only [hs', hv'.1]
  have h2 : Computes (asSystem (hypredRhs (onStencil P S) F' H) s0') (fun x t => S.basisᵀ *ᵥ f (lift S x) t) := by
    intro x t b
    obtain ⟨s, hs', hv'⟩ := C49_hypred_rhs hF' hH (onStencil P S) x t { s0' with r := b }
    simp only [Prod.mk.injEq] at hv'
    obtain ⟨a, ha⟩ := hV x t
    unfold asSystem
    simp only [hs', hv'.1, lift_onStencil, hs, ha, recovers_vec hW]
  obtain ⟨a, b, ha, hb, hy, hl⟩ := run_lift LinearMap.id 0 (f := fun x t => S.basisᵀ *ᵥ f (lift S x) t) (g := fun x t => S.basisᵀ *ᵥ f (lift S x) t) (fun x t => by simp) (asSystem (hypredRhs (onStencil P S) F' H) s0') h2 (asSystem (defaultRhs S F) s0) h1 scheme hsch pol start N hN x0 mem hlen mem' hlen'
  simp only [LinearMap.id_coe, id_eq, add_zero] at hb hy hl
  exact ⟨a, b, ha, hb, hy, by simpa using hl⟩

/-- **C108, steady Galerkin.** The same for steady problems: a call of `solve`, of any solver object, ends in the same way with the same state, after evaluations at the same points with the same answers. -/
theorem C108_steady_galerkin (P : Matrix s m K) (E : Matrix q s K) {F : SteadyFom K m m n} {f : (m → K) → Except Exc (m → K)} {Df : (m → K) → Except Exc (Matrix m m K)} (hF : SteadyIs F f Df)
    {F' : SteadyFom K s q n} {f' : (s → K) → Except Exc (q → K)} {Df' : (s → K) → Except Exc (Matrix q s K)} (hF' : SteadyIs F' f' Df') (hs : Samples P E (fun y _ => f y) (fun y _ => Df y) (fun y _ => f' y) (fun y _ => Df' y)) (S : Trial K m n) (V : Matrix m c K) (W : Matrix c q K) (hW : Recovers (E * P) V W)
    (hV : Spanned V S (fun y _ => f y) (fun y _ => Df y)) {H : HypRed K q n} (hH : Reconstructs H S V W) (solve : SP K n n p L Unit) (reg : Reg K n n p L) (x0 : n → K) (mem : GSt K m m r' n) (mem' : GSt K s q r n) :
    solved (solveSteady solve reg (galerkinEval (steadyHypredResidualJac (onStencil P S) F' H)) x0 mem') = solved (solveSteady solve reg (galerkinEval (steadyResidualJac S F)) x0 mem) := by
  have h1 := galerkinEval_settles (fun x w s => C49_steady_residual_jacobian (q := r') hF S x w s)
  have h2 := galerkinEval_settles (fun x w s => C49_steady_hypred (q := r) hF' hH (onStencil P S) x w s)
  refine (tree_same _ _ _ h1 (fun x w s => ?_) _ _ _ _ _).symm
  obtain ⟨s', e⟩ := h2 x w s
  have hr := samples_reduced hs S (fun _ v => (S.basisᵀ * V * W) *ᵥ v) (fun _ B => (S.basisᵀ * V * W) * B)
  have e1 := congrFun (congrFun (hr.1.trans (spanned_reduced hW hV).1) x) 0
  have e2 := congrFun (congrFun (hr.2.trans (spanned_reduced hW hV).2) x) 0
  beta_reduce at e1 e2
  refine ⟨s', e.trans (congrArg (fun g => settle g s') ?_)⟩
  rw [e1]
  refine bind_congr (fun v => ?_)
  cases w
  · rfl
  · simp only [if_true]
    revert e2
    rcases Df' (lift (onStencil P S) x) with e' | D' <;> rcases Df (lift S x) with e'' | D <;> intro e2 <;> simp only [Except.map, Except.ok.injEq, Except.error.injEq, reduceCtorEq] at e2 <;> simp [Except.map, e2]

/-- a combination of points of the trial space has no translation -/
theorem combination_lift (name : Scheme) (S : Trial K m n) (x y : n → K) (prev : List (n → K)) : combination name (lift S x) ((y :: prev).map (lift S)) = S.basis *ᵥ combination name x (y :: prev) := by
  have h3 : ∀ a : m → K, a - ((4:K) / 3) • a + ((1:K) / 3) • a = 0 := by intro a; funext i; simp only [Pi.add_apply, Pi.sub_apply, Pi.smul_apply, smul_eq_mul, Pi.zero_apply]; ring
  cases name <;> rcases prev with _ | ⟨b, l⟩ <;> cases h : S.isAffine <;> simp only [combination, List.map_cons, List.map_nil, lift, h, Matrix.mulVec_sub, Matrix.mulVec_add, Matrix.mulVec_smul, if_true, Bool.false_eq_true, if_false, add_sub_add_right_eq_sub]
  all_goals
    funext i
    have := congrFun (h3 S.translation) i
    simp only [Pi.add_apply, Pi.sub_apply, Pi.smul_apply, smul_eq_mul, Pi.zero_apply] at this ⊢
    linear_combination this

/-- the equations on the full mesh are reconstructed from those on the sample mesh -/
theorem spanned_lspg (P : Matrix s m K) (E : Matrix q s K) {V : Matrix m c K} {W : Matrix c q K} (hW : Recovers (E * P) V W) {f : (m → K) → K → Except Exc (m → K)} {Df : (m → K) → K → Except Exc (Matrix m m K)} {S : Trial K m n} (hV : Spanned V S f Df) (hB : ∃ B, S.basis = V * B)
    {f' : (s → K) → K → Except Exc (q → K)} {Df' : (s → K) → K → Except Exc (Matrix q s K)} (hs : Samples P E f Df f' Df') (name : Scheme) (y : n → K) (prev : List (n → K)) (t dt : K) (x : n → K) (w : Bool) :
    lspg name S f Df (y :: prev) t dt x w = (hypredLspg E name (onStencil P S) f' Df' (y :: prev) t dt x w).map (timesMatrix (V * W)) := by
  obtain ⟨B, hB⟩ := hB
  have hv : ∀ a : c → K, (V * W) *ᵥ ((E * P) *ᵥ (V *ᵥ a)) = V *ᵥ a := fun a => by
    have := recovers_vec (n := m) hW 1 a
    simpa only [Matrix.one_mul, Matrix.one_mulVec] using this
  have hm : ∀ A : Matrix c n K, (V * W) * ((E * P) * (V * A)) = V * A := fun A => by
    have h : V * W * ((E * P) * V) = V := by rw [Matrix.mul_assoc, hW, Matrix.mul_one]
    rw [← Matrix.mul_assoc (E * P), ← Matrix.mul_assoc (V * W), h]
  rw [hypred_samples P E name S hs]
  unfold lspg
  rw [combination_lift]
  rcases hf : f (lift S x) (t + dt) with e | v
  · rfl
  obtain ⟨a, rfl⟩ := hV.values x (t + dt) v hf
  have hr : S.basis *ᵥ combination name x (y :: prev) - coef name (y :: prev) dt • (V *ᵥ a) = V *ᵥ (B *ᵥ combination name x (y :: prev) - coef name (y :: prev) dt • a) := by
    rw [hB, Matrix.mulVec_sub, Matrix.mulVec_smul, Matrix.mulVec_mulVec]
  cases w with
  | false =>
    simp only [bind, Except.bind, pure, Except.pure, Except.map, timesMatrix, hr, hv, Bool.false_eq_true, if_false, Option.map_none]
  | true =>
    rcases hD : Df (lift S x) (t + dt) with e | D
    · simp [bind, Except.bind, Except.map]
    · obtain ⟨A, hA⟩ := hV.derivatives x (t + dt) D hD
      have hj : S.basis - coef name (y :: prev) dt • (D * S.basis) = V * (B - coef name (y :: prev) dt • A) := by
        rw [hA, Matrix.mul_sub, Matrix.mul_smul, ← hB]
      simp only [bind, Except.bind, pure, Except.pure, Except.map, timesMatrix, hr, hv, hj, hm, if_true, Option.map_some]

/-- **C108, LSPG.** The hyper-reduced LSPG problem of the sample-mesh code, solved by a weighted Gauss-Newton object whose weights reconstruct with the collateral basis (`(V W)ᵀ (V W)`, or compactly `V W`), and the LSPG problem of the full-mesh code, solved by a Gauss-Newton object, go through the same run, if `V` also spans the trial basis
    and the stopping criterion is not about the norm of the residual. -/
theorem C108_lspg (P : Matrix s m K) (E : Matrix q s K) {F : Fom K m m n} {f : (m → K) → K → Except Exc (m → K)} {Df Mm : (m → K) → K → Except Exc (Matrix m m K)} (hF : FomIs F f Df Mm) (hn : FomNoTSF f Df)
    {F' : Fom K s q n} {f' : (s → K) → K → Except Exc (q → K)} {Df' Mm' : (s → K) → K → Except Exc (Matrix q s K)} (hF' : FomIs F' f' Df' Mm') (hs : Samples P E f Df f' Df') (Up : Updater K s q n) (hU : UpdaterIs Up E)
    (S : Trial K m n) (V : Matrix m c K) (W : Matrix c q K) (hW : Recovers (E * P) V W) (hV : Spanned V S f Df) (hB : ∃ B, S.basis = V * B)
    (name : Scheme) (hname : name = .BDF1 ∨ name = .BDF2) (mem : SMem K (n → K) (n → K) (LMem K m m n)) (hmem : LspgReady name mem) (mem' : SMem K (n → K) (n → K) (LMem K s q n)) (hmem' : LspgReady name mem')
    (env : Env K m n p L) (env' : Env K q n m L) (tag : Tag) (hM : Weighs env' (V * W) tag) (cfg : Cfg K) (h1 : 1 ≤ cfg.maxIters) (hcrit : notResidual cfg.stop = true) (he : ∀ A b s, (env'.lin A b s).stop? ≠ some (.exc .timeStepFailure)) (hlin : env.lin = env'.lin) (hnorm : env.normN = env'.normN) (hE : Euclidean env.normM)
    (reg : Reg K m n p L) (reg' : Reg K q n m L) (hi : LsIdle reg) (hi' : LsIdle reg') (hc : reg'.c = reg.c) (hlin0 : reg'.lin = reg.lin) (t0 : K) (x0 : n → K) (dts : List K) :
    (driveObj (stepWith name (hypredPolicy Up (onStencil P S) F')) (Model.Nonlinear.lsSolve env' cfg tag) dts t0 [x0] x0 mem' reg').map (shown id) =
      (driveObj (stepWith name (defaultPolicy S F)) (Model.Nonlinear.lsSolve env cfg .gn) dts t0 [x0] x0 mem reg).map (shown id) :=
  weighs_runs_cons (stepWith name (hypredPolicy Up (onStencil P S) F')) (stepWith name (defaultPolicy S F)) (hypredLspg E name (onStencil P S) f' Df') (lspg name S f Df) (hypred_wellTyped E name _ f' Df') (lspg_wellTyped name S f Df)
    (fun hist t dt x w h => by
      rw [hypred_samples P E name S hs] at h
      have := lspg_ne hn name S hist t dt x w
      rcases hl : lspg name S f Df hist t dt x w with e | a
      · rw [hl] at h; cases h; exact this hl
      · rw [hl] at h; cases h)
    (V * W) (fun y prev t dt x w => spanned_lspg P E hW hV hB hs name y prev t dt x w) mem' mem t0 x0
    (policy_lawful name hname _ _ _ _ ((lspgPolicy_refines name hname (onStencil P S) _ _ (assembleHypred_ok hF' (onStencil P S) Up E hU) (mem'.pol.data.getD 1 0)).congrF (fun y prev t dt x w => equations_hypred E name hname (onStencil P S) f' Df' y prev t dt x w)) mem' hmem'.1 t0 x0
      (good_start _ (onStencil P S) _ mem'.pol hmem'.2.1 (by rcases hname with rfl | rfl <;> simp [numStates]) hmem'.2.2))
    (policy_lawful name hname _ _ _ _ ((lspgPolicy_refines name hname S _ _ (assembleDefault_ok hF S) (mem.pol.data.getD 1 0)).congrF (fun y prev t dt x w => equations_lspg name hname S f Df y prev t dt x w)) mem hmem.1 t0 x0
      (good_start _ S _ mem.pol hmem.2.1 (by rcases hname with rfl | rfl <;> simp [numStates]) hmem.2.2))
    env' env tag hM cfg h1 hcrit he hlin hnorm hE reg' reg hi' hi hc hlin0 dts
end
end Pressio.Props
