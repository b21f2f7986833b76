import Verif.Lemmas.SolverAsks
import Verif.Props.LspgInstances
import Verif.Props.LeastSquares
import Verif.Props.ImplicitNewton

/-
  C67: whole runs of unsteady LSPG with a pressio least-squares solver, one solver object for all steps.
-/
namespace Pressio.Props
set_option autoImplicit false
set_option linter.unusedSectionVars false
open Pressio Matrix Pressio.Model.Galerkin Pressio.Model.Lspg Pressio.Spec.Galerkin Pressio.Spec.Lspg Pressio.Model.Implicit Pressio.Lemmas.Implicit Pressio.Spec.Implicit
open Pressio.Spec.SolverRun Pressio.Lemmas.SolverRun Pressio.Lemmas.SolverTree
open Pressio.Lemmas.Lspg (Good During numStates StOf stepWith Sized equations assembled run_of_policy good_start lspgPolicy_refines lspgPolicy_call assembleDefault_ok assembleHypred_ok equations_lspg
  equations_hypred Assembles)
open Pressio.Model.Explicit (Scheme)
open Pressio.Model.Nonlinear (Env Cfg Reg Ans SP StopCrit Update Tag leastSquaresDiagnostics)
open Pressio.Spec.Nonlinear

section
variable {K m p q n P L : Type} [Field K] [LinearOrder K] [IsStrictOrderedRing K] [Fintype m] [Fintype p] [Fintype q] [Fintype n] [Fintype P] [DecidableEq n]

/-- An attempt of a run, described as a call of a least-squares solver object: `F hist t dt` are the equations of a step of size `dt` from time `t` with accepted states `hist` (newest first). -/
def IsLeastSquaresSolve (F : List (n → K) → K → K → (n → K) → Bool → Except Exc (Ans K m n)) (env : Env K m n P L) (cfg : Cfg K) (tag : Tag) (dts : List K) (t0 : K) (x0 : n → K)
    (pre : List (Record K (n → K) (Ans K m n))) (r : Record K (n → K) (Ans K m n)) : Prop :=
  ∃ xn older s, accepted x0 pre = xn :: older ∧ r.hist = xn :: older ∧ r.t = timeAfter t0 pre ∧ r.dt ∈ dts ∧ LsObj s ∧ s.x = xn ∧
    (let res := runLs env cfg (sysOf (F (xn :: older) r.t r.dt)) tag s
     res.state.log = s.log ++ r.queries ∧ r.stop = stepStop res.stop? ∧ r.y = if res.stop? = some (.exc .nonlinearSolveFailure) then xn else res.state.x)

/-- any problem whose policy refines well-typed equations -/
theorem policy_run_is_ls_solves {Pm : Type} (name : Scheme) (hname : name = .BDF1 ∨ name = .BDF2) (policy : Policy K (n → K) (n → K) Pm (Ans K m n))
    (F : List (n → K) → K → K → (n → K) → Bool → Except Exc (Ans K m n)) (PI PD : List (n → K) → List (n → K) → Pm → Prop)
    (h : PolicyRefinesA name policy F (StOf name) PI PD) (hF : ∀ hist t dt x w, F hist t dt x w ≠ .error .timeStepFailure) (hw : ∀ hist t dt, WellTyped (F hist t dt))
    (env : Env K m n P L) (cfg : Cfg K) (tag : Tag) (he : InnerHonest env tag) (h1 : 1 ≤ cfg.maxIters)
    (dts : List K) (t0 : K) (x0 : n → K) (mem : SMem K (n → K) (n → K) Pm) (hmem : Sized name mem) (hp : PI [x0] mem.rhs mem.pol) (reg : Reg K m n P L) (hreg : LsIdle reg)
    (pre post : List (Record K (n → K) (Ans K m n))) (r : Record K (n → K) (Ans K m n))
    (hr : driveObj (stepWith name policy) (Model.Nonlinear.lsSolve env cfg tag) dts t0 [x0] x0 mem reg = pre ++ r :: post) :
    IsLeastSquaresSolve F env cfg tag dts t0 x0 pre r := by
  obtain ⟨yn, older, reg', g1, g2, g3, g4, g5, g6⟩ := policyObj_record name hname policy F PI PD h hF _ (fine_lsSolve env cfg tag he) (busy_lsSolve env cfg tag h1) LsIdle
    (fun reg y hist t dt hl => lsIdle_run env cfg tag _ (hw hist t dt) reg y hl) dts t0 x0 mem hmem hp reg hreg pre post r hr
  refine ⟨yn, older, { reg' with x := yn }, g2, g3, g4, g5, g1 yn, rfl, ?_⟩
  unfold runLs
  rw [toF_sysOf _ (hw _ _ _)]
  exact g6

theorem lspg_wellTyped (name : Scheme) (S : Trial K m n) (f : (m → K) → K → Except Exc (m → K)) (Df : (m → K) → K → Except Exc (Matrix m m K)) (hist : List (n → K)) (t dt : K) :
    WellTyped (lspg name S f Df hist t dt) := by
  intro x w r j h
  unfold lspg at h
  rcases hv : f (lift S x) (t + dt) with e | v
  · rw [hv] at h; cases h
  · cases w with
    | false => rw [hv] at h; cases h; rfl
    | true =>
      rcases hD : Df (lift S x) (t + dt) with e | D
      · rw [hv, hD] at h; cases h
      · rw [hv, hD] at h; cases h; rfl

theorem hypred_wellTyped (E : Matrix p m K) (name : Scheme) (S : Trial K m n) (f : (m → K) → K → Except Exc (p → K)) (Df : (m → K) → K → Except Exc (Matrix p m K)) (hist : List (n → K)) (t dt : K) :
    WellTyped (hypredLspg E name S f Df hist t dt) := by
  intro x w r j h
  unfold hypredLspg at h
  rcases hv : f (lift S x) (t + dt) with e | v
  · rw [hv] at h; cases h
  · cases w with
    | false => rw [hv] at h; cases h; rfl
    | true =>
      rcases hD : Df (lift S x) (t + dt) with e | D
      · rw [hv, hD] at h; cases h
      · rw [hv, hD] at h; cases h; rfl

theorem masked_wellTyped (mv : (m → K) → (q → K)) (mm : Matrix m n K → Matrix q n K) (name : Scheme) (S : Trial K m n) (f : (m → K) → K → Except Exc (m → K)) (Df : (m → K) → K → Except Exc (Matrix m m K))
    (hist : List (n → K)) (t dt : K) : WellTyped (maskedLspg mv mm name S f Df hist t dt) := by
  intro x w r j h
  unfold maskedLspg at h
  rcases hl : lspg name S f Df hist t dt x true with e | ⟨u, v⟩
  · rw [hl] at h; cases h
  · have := lspg_wellTyped name S f Df hist t dt x true u v hl
    rw [hl] at h
    cases w with
    | false => cases h; rfl
    | true => cases h; rw [if_pos rfl, Option.isSome_map]; exact this

theorem scaled_wellTyped (sc : Scaler K m p n) (hsc : ∀ y t a b, sc y t a = .ok b → b.2.isSome = a.2.isSome) (S : Trial K m n)
    (base : List (n → K) → K → K → (n → K) → Bool → Except Exc ((p → K) × Option (Matrix p n K))) (hb : ∀ hist t dt, WellTyped (base hist t dt)) (hist : List (n → K)) (t dt : K) :
    WellTyped (scaled sc S base hist t dt) := by
  intro x w r j h
  unfold scaled at h
  rcases hl : base hist t dt x w with e | ⟨u, v⟩
  · rw [hl] at h; cases h
  · rw [hl] at h
    have h' : sc (lift S x) (t + dt) (u, v) = .ok (r, j) := h
    rw [hsc _ _ _ _ h']
    exact hb hist t dt x w u v hl

/-- **C67.** Default unsteady LSPG with a least-squares solver object (any method and options, at least one iteration allowed): every attempt is a call of that object on the LSPG equations of the accepted
    states, starting from the last accepted state. -/
theorem C67_run_is_least_squares_solves {F : Fom K m m n} {f : (m → K) → K → Except Exc (m → K)} {Df Mm : (m → K) → K → Except Exc (Matrix m m K)} (hF : FomIs F f Df Mm) (hn : FomNoTSF f Df)
    (S : Trial K m n) (name : Scheme) (hname : name = .BDF1 ∨ name = .BDF2) (mem : SMem K (n → K) (n → K) (LMem K m m n)) (hmem : LspgReady name mem)
    (env : Env K m n P L) (cfg : Cfg K) (tag : Tag) (he : InnerHonest env tag) (h1 : 1 ≤ cfg.maxIters) (reg : Reg K m n P L) (hreg : LsIdle reg) (dts : List K) (t0 : K) (x0 : n → K)
    (pre post : List (Record K (n → K) (Ans K m n))) (r : Record K (n → K) (Ans K m n))
    (hr : driveObj (stepWith name (defaultPolicy S F)) (Model.Nonlinear.lsSolve env cfg tag) dts t0 [x0] x0 mem reg = pre ++ r :: post) :
    IsLeastSquaresSolve (lspg name S f Df) env cfg tag dts t0 x0 pre r :=
  policy_run_is_ls_solves name hname _ _ _ _
    ((lspgPolicy_refines name hname S _ _ (assembleDefault_ok hF S) (mem.pol.data.getD 1 0)).congrF (fun y prev t dt x w => equations_lspg name hname S f Df y prev t dt x w))
    (lspg_ne hn name S) (lspg_wellTyped name S f Df) env cfg tag he h1 dts t0 x0 mem hmem.1
    (good_start _ S x0 mem.pol hmem.2.1 (by rcases hname with rfl | rfl <;> simp [numStates]) hmem.2.2) reg hreg pre post r hr

/-- **C67**, hyper-reduced -/
theorem C67_hypred_run_is_least_squares_solves {F : Fom K m p n} {f : (m → K) → K → Except Exc (p → K)} {Df Mm : (m → K) → K → Except Exc (Matrix p m K)} (hF : FomIs F f Df Mm)
    (hf : ∀ y t, f y t ≠ .error .timeStepFailure) (hD : ∀ y t, Df y t ≠ .error .timeStepFailure) (U : Updater K m p n) (E : Matrix p m K) (hU : UpdaterIs U E)
    (S : Trial K m n) (name : Scheme) (hname : name = .BDF1 ∨ name = .BDF2) (mem : SMem K (n → K) (n → K) (LMem K m p n)) (hmem : LspgReady name mem)
    (env : Env K p n P L) (cfg : Cfg K) (tag : Tag) (he : InnerHonest env tag) (h1 : 1 ≤ cfg.maxIters) (reg : Reg K p n P L) (hreg : LsIdle reg) (dts : List K) (t0 : K) (x0 : n → K)
    (pre post : List (Record K (n → K) (Ans K p n))) (r : Record K (n → K) (Ans K p n))
    (hr : driveObj (stepWith name (hypredPolicy U S F)) (Model.Nonlinear.lsSolve env cfg tag) dts t0 [x0] x0 mem reg = pre ++ r :: post) :
    IsLeastSquaresSolve (hypredLspg E name S f Df) env cfg tag dts t0 x0 pre r :=
  policy_run_is_ls_solves name hname _ _ _ _
    ((lspgPolicy_refines name hname S _ _ (assembleHypred_ok hF S U E hU) (mem.pol.data.getD 1 0)).congrF (fun y prev t dt x w => equations_hypred E name hname S f Df y prev t dt x w))
    (hypredLspg_ne hf hD E name S) (hypred_wellTyped E name S f Df) env cfg tag he h1 dts t0 x0 mem hmem.1
    (good_start _ S x0 mem.pol hmem.2.1 (by rcases hname with rfl | rfl <;> simp [numStates]) hmem.2.2) reg hreg pre post r hr

/-- **C67**, masked -/
theorem C67_masked_run_is_least_squares_solves {F : Fom K m m n} {f : (m → K) → K → Except Exc (m → K)} {Df Mm : (m → K) → K → Except Exc (Matrix m m K)} (hF : FomIs F f Df Mm) (hn : FomNoTSF f Df)
    {Mk : Masker K m q n} {mv : (m → K) → (q → K)} {mm : Matrix m n K → Matrix q n K} (hM : MaskIs Mk mv mm)
    (S : Trial K m n) (name : Scheme) (hname : name = .BDF1 ∨ name = .BDF2) (mem : SMem K (n → K) (n → K) (LMem K m m n × (q → K) × Matrix q n K))
    (hs : Sized name mem) (hd : mem.pol.1.data.length = numStates name) (ht : mem.pol.1.tracker ≠ 1)
    (env : Env K q n P L) (cfg : Cfg K) (tag : Tag) (he : InnerHonest env tag) (h1 : 1 ≤ cfg.maxIters) (reg : Reg K q n P L) (hreg : LsIdle reg) (dts : List K) (t0 : K) (x0 : n → K)
    (pre post : List (Record K (n → K) (Ans K q n))) (r : Record K (n → K) (Ans K q n))
    (hr : driveObj (stepWith name (maskDecorator Mk (defaultPolicy S F))) (Model.Nonlinear.lsSolve env cfg tag) dts t0 [x0] x0 mem reg = pre ++ r :: post) :
    IsLeastSquaresSolve (maskedLspg mv mm name S f Df) env cfg tag dts t0 x0 pre r :=
  policy_run_is_ls_solves name hname _ _ _ _ (masked_refines hF hM S name hname (mem.pol.1.data.getD 1 0)) (maskedLspg_ne hn mv mm name S) (masked_wellTyped mv mm name S f Df) env cfg tag he h1 dts t0 x0 mem hs
    (good_start _ S x0 mem.pol.1 hd (by rcases hname with rfl | rfl <;> simp [numStates]) ht) reg hreg pre post r hr

/-- **C67**, scaled (preconditioned) default LSPG; the scaler keeps the Jacobian if it was asked for -/
theorem C67_scaled_run_is_least_squares_solves {F : Fom K m m n} {f : (m → K) → K → Except Exc (m → K)} {Df Mm : (m → K) → K → Except Exc (Matrix m m K)} (hF : FomIs F f Df Mm) (hn : FomNoTSF f Df)
    (sc : Scaler K m m n) (hsc : ∀ y t a, sc y t a ≠ .error .timeStepFailure) (hsc' : ∀ y t a b, sc y t a = .ok b → b.2.isSome = a.2.isSome)
    (S : Trial K m n) (name : Scheme) (hname : name = .BDF1 ∨ name = .BDF2) (mem : SMem K (n → K) (n → K) (LMem K m m n)) (hmem : LspgReady name mem)
    (env : Env K m n P L) (cfg : Cfg K) (tag : Tag) (he : InnerHonest env tag) (h1 : 1 ≤ cfg.maxIters) (reg : Reg K m n P L) (hreg : LsIdle reg) (dts : List K) (t0 : K) (x0 : n → K)
    (pre post : List (Record K (n → K) (Ans K m n))) (r : Record K (n → K) (Ans K m n))
    (hr : driveObj (stepWith name (scalingDecorator sc (defaultPolicy S F))) (Model.Nonlinear.lsSolve env cfg tag) dts t0 [x0] x0 mem reg = pre ++ r :: post) :
    IsLeastSquaresSolve (scaled sc S (lspg name S f Df)) env cfg tag dts t0 x0 pre r :=
  policy_run_is_ls_solves name hname _ _ _ _
    ((scaled_refines name hname S _ _ (assembleDefault_ok hF S) sc (mem.pol.data.getD 1 0)).congrF
      (fun y prev t dt x w => by simp only [scaled, equations_lspg name hname]))
    (scaled_ne sc hsc S _ (lspg_ne hn name S)) (scaled_wellTyped sc hsc' S _ (lspg_wellTyped name S f Df)) env cfg tag he h1 dts t0 x0 mem hmem.1
    (good_start _ S x0 mem.pol hmem.2.1 (by rcases hname with rfl | rfl <;> simp [numStates]) hmem.2.2) reg hreg pre post r hr

/-! ### FOMs given by functions -/

/-- the LSPG residual of a step -/
def lspgRes (name : Scheme) (S : Trial K m n) (f : (m → K) → K → (m → K)) (hist : List (n → K)) (t dt : K) (x : n → K) : m → K :=
  combination name (lift S x) (hist.map (lift S)) - coef name hist dt • f (lift S x) (t + dt)

/-- its Jacobian -/
def lspgJac (name : Scheme) (S : Trial K m n) (Df : (m → K) → K → Matrix m m K) (hist : List (n → K)) (t dt : K) (x : n → K) : Matrix m n K :=
  S.basis - coef name hist dt • (Df (lift S x) (t + dt) * S.basis)

theorem sysOf_lspg (name : Scheme) (S : Trial K m n) (f : (m → K) → K → (m → K)) (Df : (m → K) → K → Matrix m m K) (hist : List (n → K)) (t dt : K) :
    sysOf (lspg name S (fun y t => .ok (f y t)) (fun y t => .ok (Df y t)) hist t dt) = Sys.ofFun (lspgRes name S f hist t dt) (lspgJac name S Df hist t dt) := rfl

/-- **C67**, FOM given by functions, Gauss-Newton (normal equations, or weighted) with standard updates and an inner solver whose answer is a function of its input: every attempt is accepted, and the new reduced
    state is the Gauss-Newton iterate `N^k x_n` for the LSPG residual of the accepted states, `k` the first iterate at which the criterion is met (or `maxIters`), after evaluations at exactly the iterates. -/
theorem C67_gauss_newton_iterates {F : Fom K m m n} {f : (m → K) → K → (m → K)} {Df : (m → K) → K → Matrix m m K} {Mm : (m → K) → K → Except Exc (Matrix m m K)}
    (hF : FomIs F (fun y t => .ok (f y t)) (fun y t => .ok (Df y t)) Mm)
    (S : Trial K m n) (name : Scheme) (hname : name = .BDF1 ∨ name = .BDF2) (mem : SMem K (n → K) (n → K) (LMem K m m n)) (hmem : LspgReady name mem)
    (env : Env K m n P L) (cfg : Cfg K) (tag : Tag) (htag : tag = .gn ∨ tag = .wgn ∨ tag = .cwgn) (sol : Matrix n n K → (n → K) → n → K) (tick : L → L)
    (hlin : ∀ A b c l, env.lin A b (c, l) = .ok () (sol A b, tick l)) (hupd : cfg.update = .Standard) (hmax : cfg.maxIters < int32Max) (h1 : 1 ≤ cfg.maxIters)
    (reg : Reg K m n P L) (hreg : LsIdle reg) (dts : List K) (t0 : K) (x0 : n → K) (pre post : List (Record K (n → K) (Ans K m n))) (r : Record K (n → K) (Ans K m n))
    (hr : driveObj (stepWith name (defaultPolicy S F)) (Model.Nonlinear.lsSolve env cfg tag) dts t0 [x0] x0 mem reg = pre ++ r :: post) :
    ∃ xn older, accepted x0 pre = xn :: older ∧ r.t = timeAfter t0 pre ∧
      (let R := lspgRes name S f (xn :: older) r.t r.dt
       let J := lspgJac name S Df (xn :: older) r.t r.dt
       let corr : (n → K) → n → K := fun x => -sol (hessOf env tag (J x) 0) (gradOf env tag (R x) (J x))
       let N : (n → K) → n → K := fun x => x + corr x
       let nrm : (n → K) → Norms K := fun x => ⟨env.normM (R x), env.normN (corr x), env.normN (gradOf env tag (R x) (J x)), objOf env tag (R x)⟩
       let met := fun k : Nat => lsMet cfg (nrm xn) (nrm (N^[k] xn)) k = true
       let evaluated := fun k : Nat => (List.range k).map (fun a => (⟨N^[a] xn, true, .ok (R (N^[a] xn), some (J (N^[a] xn)))⟩ : Query (n → K) (Ans K m n)))
       r.stop = none ∧
       ((∃ k : Nat, (k : Int) < cfg.maxIters ∧ met k ∧ (∀ j < k, ¬ met j) ∧ r.y = N^[k] xn ∧ r.queries = evaluated (k + 1)) ∨
        ((∀ k : Nat, (k : Int) < cfg.maxIters → ¬ met k) ∧ r.y = N^[cfg.maxIters.toNat] xn ∧ r.queries = evaluated cfg.maxIters.toNat))) := by
  have he : InnerHonest env tag := by
    rcases htag with rfl | rfl | rfl <;> (rintro A b ⟨c, l⟩; rw [hlin]; simp)
  obtain ⟨xn, older, s, h2, h3, h4, h5, h6, h7, h8, h9, h10⟩ := C67_run_is_least_squares_solves hF ⟨fun _ _ => by simp, fun _ _ => by simp⟩ S name hname mem hmem env cfg tag he h1 reg hreg
    dts t0 x0 pre post r hr
  rw [sysOf_lspg] at h8 h9 h10
  obtain ⟨g1, -, g2, g3⟩ := C36_least_squares_iterates env cfg tag htag (lspgRes name S f (xn :: older) r.t r.dt) (lspgJac name S Df (xn :: older) r.t r.dt) sol tick hlin hupd hmax s h6
  rw [h7] at g2 g3
  have hhess : ∀ A : Matrix m n K, hessOf env tag A s.damp = hessOf env tag A 0 := by
    intro A; rcases htag with h | h | h <;> rw [h] <;> rfl
  simp only [hhess] at g2 g3
  refine ⟨xn, older, h2, h4, ?_⟩
  intro R J corr N nrm met evaluated
  rw [g1] at h9 h10
  refine ⟨h9, ?_⟩
  have h10 : r.y = (runLs env cfg (Sys.ofFun (lspgRes name S f (xn :: older) r.t r.dt) (lspgJac name S Df (xn :: older) r.t r.dt)) tag s).state.x := by simpa using h10
  classical
  by_cases hex : ∃ k : Nat, (k : Int) < cfg.maxIters ∧ met k
  · have hf := Nat.find_spec hex
    have hb : ∀ j < Nat.find hex, ¬ met j := fun j hj hmet => Nat.find_min hex hj ⟨by omega, hmet⟩
    obtain ⟨f1, f2, -⟩ := g2 (Nat.find hex) hf.1 hf.2 hb
    refine .inl ⟨Nat.find hex, hf.1, hf.2, hb, h10.trans f1, ?_⟩
    rw [h8] at f2
    exact List.append_cancel_left f2
  · have hb : ∀ k : Nat, (k : Int) < cfg.maxIters → ¬ met k := fun k hk hmet => hex ⟨k, hk, hmet⟩
    obtain ⟨f1, f2, -⟩ := g3 hb
    refine .inr ⟨hb, h10.trans f1, ?_⟩
    rw [h8] at f2
    exact List.append_cancel_left f2

/-- if the gradient of the least-squares problem of an affine map vanishes at `x`, `x` is a minimiser -/
theorem affine_minimiser (R : (n → K) → m → K) (G : Matrix m n K) (hR : ∀ x v, R (x + v) = R x + G *ᵥ v) (x : n → K) (h : Gᵀ *ᵥ R x = 0) (z : n → K) : R x ⬝ᵥ R x ≤ R z ⬝ᵥ R z := by
  have hz : R z = R x + G *ᵥ (z - x) := by rw [← hR, add_sub_cancel]
  have hc : R x ⬝ᵥ (G *ᵥ (z - x)) = 0 := by
    rw [Matrix.dotProduct_mulVec, ← Matrix.mulVec_transpose, h, zero_dotProduct]
  rw [hz, add_dotProduct, dotProduct_add, dotProduct_add, hc, dotProduct_comm (G *ᵥ (z - x)) (R x), hc]
  have : 0 ≤ (G *ᵥ (z - x)) ⬝ᵥ (G *ᵥ (z - x)) := Finset.sum_nonneg (fun i _ => mul_self_nonneg _)
  linarith

/-- **C67, linear FOM** `y' = A(t) y + b(t)`, Gauss-Newton with the normal equations solved exactly: every attempt is accepted, and the new reduced state minimises the time-discrete full-order residual over the
    trial subspace, unless the criterion is already met at the last accepted state, which is then accepted unchanged. -/
theorem C67_linear_fom {F : Fom K m m n} {A : K → Matrix m m K} {b : K → m → K} {Mm : (m → K) → K → Except Exc (Matrix m m K)}
    (hF : FomIs F (fun y t => .ok (A t *ᵥ y + b t)) (fun _ t => .ok (A t)) Mm)
    (S : Trial K m n) (name : Scheme) (hname : name = .BDF1 ∨ name = .BDF2) (mem : SMem K (n → K) (n → K) (LMem K m m n)) (hmem : LspgReady name mem)
    (env : Env K m n P L) (cfg : Cfg K) (sol : Matrix n n K → (n → K) → n → K) (tick : L → L)
    (hlin : ∀ A b c l, env.lin A b (c, l) = .ok () (sol A b, tick l)) (hupd : cfg.update = .Standard) (hmax : cfg.maxIters < int32Max) (h1 : 1 ≤ cfg.maxIters)
    (reg : Reg K m n P L) (hreg : LsIdle reg) (dts : List K) (t0 : K) (x0 : n → K) (pre post : List (Record K (n → K) (Ans K m n))) (r : Record K (n → K) (Ans K m n))
    (hr : driveObj (stepWith name (defaultPolicy S F)) (Model.Nonlinear.lsSolve env cfg .gn) dts t0 [x0] x0 mem reg = pre ++ r :: post)
    (hsol : let G := S.basis - coef name (accepted x0 pre) r.dt • (A (r.t + r.dt) * S.basis)
      ∀ d, (Gᵀ * G) *ᵥ sol (Gᵀ * G) d = d) :
    r.stop = none ∧ ∃ xn older, accepted x0 pre = xn :: older ∧ r.t = timeAfter t0 pre ∧
      (let R := lspgRes name S (fun y t => A t *ᵥ y + b t) (xn :: older) r.t r.dt
       let G := S.basis - coef name (xn :: older) r.dt • (A (r.t + r.dt) * S.basis)
       let nrm : Norms K := ⟨env.normM (R xn), env.normN (-sol (Gᵀ * G) (Gᵀ *ᵥ R xn)), env.normN (Gᵀ *ᵥ R xn), env.normM (R xn) ^ 2 / 2⟩
       (∀ z, R r.y ⬝ᵥ R r.y ≤ R z ⬝ᵥ R z) ∨ (r.y = xn ∧ lsMet cfg nrm nrm 0 = true)) := by
  obtain ⟨xn, older, h2, h4, h5, h6⟩ := C67_gauss_newton_iterates hF S name hname mem hmem env cfg .gn (.inl rfl) sol tick hlin hupd hmax h1 reg hreg dts t0 x0 pre post r hr
  refine ⟨h5, xn, older, h2, h4, ?_⟩
  rw [h2] at hsol
  intro R G nrm
  have haff : ∀ x v, R (x + v) = R x + G *ᵥ v := by
    intro x v
    have hl : lift S (x + v) = lift S x + S.basis *ᵥ v := by
      simp only [lift, Matrix.mulVec_add]; abel
    have hG : G *ᵥ v = S.basis *ᵥ v - coef name (xn :: older) r.dt • (A (r.t + r.dt) *ᵥ (S.basis *ᵥ v)) := by
      rw [Matrix.sub_mulVec, Matrix.smul_mulVec, Matrix.mulVec_mulVec]
    have hcomb : combination name (lift S x + S.basis *ᵥ v) ((xn :: older).map (lift S)) = combination name (lift S x) ((xn :: older).map (lift S)) + S.basis *ᵥ v := by
      rcases hname with rfl | rfl
      · simp only [combination, List.map_cons]; abel
      · cases older <;> simp only [combination, List.map_cons, List.map_nil] <;> abel
    show lspgRes _ _ _ _ _ _ _ = lspgRes _ _ _ _ _ _ _ + _
    simp only [lspgRes]
    rw [hl, hcomb, hG, Matrix.mulVec_add]
    simp only [smul_add]
    abel
  have hN : ∀ x z, R (x + -sol (Gᵀ * G) (Gᵀ *ᵥ R x)) ⬝ᵥ R (x + -sol (Gᵀ * G) (Gᵀ *ᵥ R x)) ≤ R z ⬝ᵥ R z := by
    intro x
    refine affine_minimiser R G haff _ ?_
    rw [haff, Matrix.mulVec_add, Matrix.mulVec_mulVec, Matrix.mulVec_neg, hsol, add_neg_cancel]
  rcases h6 with ⟨k, hk, hmet, -, hy, -⟩ | ⟨-, hy, -⟩
  · cases k with
    | zero => exact .inr ⟨hy, hmet⟩
    | succ k =>
      left
      rw [Function.iterate_succ_apply'] at hy
      rw [hy]
      exact hN _
  · obtain ⟨k, hk⟩ : ∃ k, cfg.maxIters.toNat = k + 1 := ⟨cfg.maxIters.toNat - 1, by omega⟩
    rw [hk, Function.iterate_succ_apply'] at hy
    left
    rw [hy]
    exact hN _

end

/-! ### A concrete run -/
section Examples

/-- user objects for one unknown and two equations: maximum norm, division -/
def envGN : Env ℚ (Fin 2) (Fin 1) (Fin 1) Nat where
  normM := fun v => max |v 0| |v 1|
  normN := fun v => |v 0|
  lin := fun A b (_, l) => .ok () (fun _ => b 0 / A 0 0, l + 1)
  linJ := fun _ _ s => .ok () s
  applyJac := fun _ _ y => y
  krylov := fun _ _ c => .ok () c
  qrThin := fun _ l => .ok () l
  qrApplyQT := fun _ s => .ok () s
  qrSolve := fun _ s => .ok () s
  wR := fun r => r
  wJ := fun J => J
  cwR := fun r => fun _ => r 0
  cwJ := fun J => fun _ j => J 0 j
  createState := fun _ => 0

/-- a new solver object -/
def regGN : Reg ℚ (Fin 2) (Fin 1) (Fin 1) Nat where
  x := fun _ => 7
  trial := fun _ => 7
  c := fun _ => 7
  r := fun _ => 7
  J := fun _ _ => 7
  g := fun _ => 7
  H := fun _ _ => 7
  H0 := fun _ _ => 7
  damp := 1
  Wr := fun _ => 7
  WJ := fun _ _ => 7
  cWr := fun _ => 7
  cWJ := fun _ _ => 7
  QTr := fun _ => 7
  nu := 7
  cDiagH := fun _ => 7
  lin := 0
  diag := Model.Nonlinear.newContainer leastSquaresDiagnostics
  files := []
  log := []

example : LsIdle regGN := fun _ => .created _ rfl

/-- `y' = (y_1, 1 - y_0)` -/
def rotFom : Fom ℚ (Fin 2) (Fin 2) (Fin 1) where
  rhs := fun y _ _ => .ok ((!![0, 1; -1, 0] : Matrix (Fin 2) (Fin 2) ℚ) *ᵥ y + ![0, 1])
  applyJac := fun _ B _ _ => .ok ((!![0, 1; -1, 0] : Matrix (Fin 2) (Fin 2) ℚ) * B)
  applyMM := fun _ B _ _ => .ok B

theorem rotFom_is : FomIs rotFom (fun y _ => .ok ((!![0, 1; -1, 0] : Matrix (Fin 2) (Fin 2) ℚ) *ᵥ y + ![0, 1])) (fun _ _ => .ok !![0, 1; -1, 0]) (fun _ _ => .ok 1) where
  rhs := fun _ _ _ => rfl
  jac := fun _ _ _ _ => rfl
  mm := fun _ B _ _ => by simp [rotFom, Except.map, Except.mapError]

/-- a run of three steps of BDF2 -/
example : (driveObj (stepWith .BDF2 (defaultPolicy trial2 rotFom)) (Model.Nonlinear.lsSolve envGN (cfgN .WhenAbsolutel2NormOfGradientBelowTolerance (1/100) 4 .Standard) .gn) [1/2, 1/2, 1/4] 0 [![0]] ![0]
      (lspgMem .BDF2 3 2) regGN).map (fun r => (r.t, r.stop, r.queries.length, r.y 0)) =
    [(0, none, 2, 4/125), (1/2, none, 2, 49/625), (1, none, 2, 76/625)] := by decide +kernel

/-- the normal equations of its first step are solved exactly -/
example : let G : Matrix (Fin 2) (Fin 1) ℚ := trial2.basis - coef .BDF2 [(![0] : Fin 1 → ℚ)] (1/2 : ℚ) • ((!![0, 1; -1, 0] : Matrix (Fin 2) (Fin 2) ℚ) * trial2.basis)
    ∀ d, (Gᵀ * G) *ᵥ (fun _ => d 0 / (Gᵀ * G) 0 0) = d := by
  intro G d
  have hG : (Gᵀ * G) 0 0 = 125 / 4 := by decide +kernel
  funext i
  fin_cases i
  simp [Matrix.mulVec, dotProduct, hG]
  ring

/-! the theorems on concrete runs -/

theorem regGN_idle : LsIdle regGN := fun _ => .created _ rfl
theorem rotFom_noTSF : FomNoTSF (fun (y : Fin 2 → ℚ) (_ : ℚ) => .ok ((!![0, 1; -1, 0] : Matrix (Fin 2) (Fin 2) ℚ) *ᵥ y + ![0, 1])) (fun (_ : Fin 2 → ℚ) (_ : ℚ) => .ok !![0, 1; -1, 0]) := ⟨fun _ _ => by simp, fun _ _ => by simp⟩
theorem envGN_honest : InnerHonest envGN .gn := by intro A b s; simp [envGN]
def cfgGN : Cfg ℚ := cfgN .WhenAbsolutel2NormOfGradientBelowTolerance (1/100) 4 .Standard
def gnRun := driveObj (stepWith .BDF2 (defaultPolicy trial2 rotFom)) (Model.Nonlinear.lsSolve envGN cfgGN .gn) [1/2, 1/2, 1/4] 0 [![0]] ![0] (lspgMem .BDF2 3 2) regGN
theorem gnRun_length : gnRun.length = 3 := by decide +kernel
def gnLast := gnRun[2]'(by rw [gnRun_length]; decide)
theorem gnRun_split : gnRun = gnRun.take 2 ++ gnLast :: gnRun.drop 3 := list_split _ 2 _
example := C67_run_is_least_squares_solves rotFom_is rotFom_noTSF trial2 .BDF2 (.inr rfl) (lspgMem .BDF2 3 2) lspgMem_ready envGN cfgGN .gn envGN_honest (by decide) regGN regGN_idle [1/2, 1/2, 1/4] 0 ![0] _ _ _ gnRun_split
example := C67_gauss_newton_iterates rotFom_is trial2 .BDF2 (.inr rfl) (lspgMem .BDF2 3 2) lspgMem_ready envGN cfgGN .gn (.inl rfl) (fun A b _ => b 0 / A 0 0) (· + 1) (fun _ _ _ _ => rfl) rfl (by decide) (by decide) regGN regGN_idle
  [1/2, 1/2, 1/4] 0 ![0] _ _ _ gnRun_split
def scaledRun := driveObj (stepWith .BDF2 (scalingDecorator timeScale2 (defaultPolicy trial2 rotFom))) (Model.Nonlinear.lsSolve envGN cfgGN .gn) [1/2, 1/2, 1/4] 0 [![0]] ![0] (lspgMem .BDF2 3 2) regGN
theorem scaledRun_length : scaledRun.length = 3 := by decide +kernel
def scaledLast := scaledRun[2]'(by rw [scaledRun_length]; decide)
theorem scaledRun_split : scaledRun = scaledRun.take 2 ++ scaledLast :: scaledRun.drop 3 := list_split _ 2 _
example := C67_scaled_run_is_least_squares_solves rotFom_is rotFom_noTSF timeScale2 (by simp [timeScale2]) (by rintro y t ⟨r, j⟩ b h; simp [timeScale2] at h; rw [← h]; cases j <;> rfl) trial2 .BDF2 (.inr rfl) (lspgMem .BDF2 3 2) lspgMem_ready envGN cfgGN .gn envGN_honest (by decide)
  regGN regGN_idle [1/2, 1/2, 1/4] 0 ![0] _ _ _ scaledRun_split

/-- one equation: hyper-reduced and masked -/
def env11 : Env ℚ (Fin 1) (Fin 1) (Fin 1) Nat where
  normM := fun v => |v 0|
  normN := fun v => |v 0|
  lin := fun A b (_, l) => .ok () (fun _ => b 0 / A 0 0, l + 1)
  linJ := fun _ _ s => .ok () s
  applyJac := fun _ _ y => y
  krylov := fun _ _ c => .ok () c
  qrThin := fun _ l => .ok () l
  qrApplyQT := fun _ s => .ok () s
  qrSolve := fun _ s => .ok () s
  wR := fun r => r
  wJ := fun J => J
  cwR := fun r => r
  cwJ := fun J => J
  createState := fun _ => 0
def reg11 : Reg ℚ (Fin 1) (Fin 1) (Fin 1) Nat where
  x := fun _ => 7
  trial := fun _ => 7
  c := fun _ => 7
  r := fun _ => 7
  J := fun _ _ => 7
  g := fun _ => 7
  H := fun _ _ => 7
  H0 := fun _ _ => 7
  damp := 1
  Wr := fun _ => 7
  WJ := fun _ _ => 7
  cWr := fun _ => 7
  cWJ := fun _ _ => 7
  QTr := fun _ => 7
  nu := 7
  cDiagH := fun _ => 7
  lin := 0
  diag := Model.Nonlinear.newContainer leastSquaresDiagnostics
  files := []
  log := []
theorem reg11_idle : LsIdle reg11 := fun _ => .created _ rfl
theorem env11_honest : InnerHonest env11 .gn := by intro A b s; simp [env11]
def hypRun := driveObj (stepWith .BDF2 (hypredPolicy upd2 trial2 hypFom2)) (Model.Nonlinear.lsSolve env11 cfgGN .gn) [1/2, 1/4, 1/4] 0 [![1]] ![1] hypMem2 reg11
theorem hypRun_length : hypRun.length = 3 := by decide +kernel
def hypLast := hypRun[2]'(by rw [hypRun_length]; decide)
theorem hypRun_split : hypRun = hypRun.take 2 ++ hypLast :: hypRun.drop 3 := list_split _ 2 _
example := C67_hypred_run_is_least_squares_solves hypFom2_is (by simp) (by simp) upd2 !![0, 1] upd2_is trial2 .BDF2 (.inr rfl) hypMem2 hypMem2_ready env11 cfgGN .gn env11_honest (by decide) reg11 reg11_idle [1/2, 1/4, 1/4] 0 ![1] _ _ _ hypRun_split
def maskRun := driveObj (stepWith .BDF2 (maskDecorator mask2 (defaultPolicy trial2 fom2))) (Model.Nonlinear.lsSolve env11 cfgGN .gn) [1/2, 1/4, 1/4] 0 [![1]] ![1] maskMem2 reg11
theorem maskRun_length : maskRun.length = 3 := by decide +kernel
def maskLast := maskRun[2]'(by rw [maskRun_length]; decide)
theorem maskRun_split : maskRun = maskRun.take 2 ++ maskLast :: maskRun.drop 3 := list_split _ 2 _
example := C67_masked_run_is_least_squares_solves fom2_is fom2_noTSF mask2_is trial2 .BDF2 (.inr rfl) maskMem2 (by simp [maskMem2, Lemmas.Lspg.Sized]) (by simp [maskMem2, Lemmas.Lspg.numStates]) (by simp [maskMem2]) env11 cfgGN .gn env11_honest (by decide)
  reg11 reg11_idle [1/2, 1/4, 1/4] 0 ![1] _ _ _ maskRun_split


example : hypRun.map (fun r => (r.stop, r.queries.length)) = [(none, 4), (none, 4), (none, 2)] ∧ maskRun.map (fun r => (r.stop, r.queries.length)) = [(none, 2), (none, 2), (none, 2)] := by decide +kernel


end Examples
end Pressio.Props
