import Verif.Lemmas.SolverRun
import Verif.Props.Implicit
import Verif.Props.Newton
import Verif.Spec.NonlinearWitness

/-
  C66: whole runs of the implicit schemes BDF1, BDF2 and CrankNicolson with a pressio Newton solver, one solver object for all steps; and C23 for such runs.

  `driveObj (stdStep name sys) (newtonSolve env cfg) dts t0 [y0] y0 mem reg` is the run: `mem` is the stepper object, `reg` the solver object, `dts` the sizes of the attempts.
-/
namespace Pressio.Props
set_option autoImplicit false
set_option linter.unusedSectionVars false
open Pressio Matrix Pressio.Model.Implicit Pressio.Spec.Implicit Pressio.Lemmas.Implicit Pressio.Spec.SolverRun Pressio.Lemmas.SolverRun Pressio.Lemmas.SolverTree
open Pressio.Model.Explicit (Scheme)
open Pressio.Model.Nonlinear (Env Cfg Reg Ans SP StopCrit Update newtonDiagnostics)
open Pressio.Spec.Nonlinear

section
variable {K m n p L : Type} [Field K] [LinearOrder K] [IsStrictOrderedRing K] [Fintype m] [Fintype n] [Fintype p]

theorem toF_sysOf (F : (n → K) → Bool → Except Exc (Ans K m n)) (h : WellTyped F) : (sysOf F).toF = F := by
  funext x w
  cases w with
  | false =>
    simp only [Sys.toF, sysOf, Bool.false_eq_true, if_false]
    rcases hf : F x false with e | ⟨r, _ | j⟩
    · rfl
    · rfl
    · have := h x false r (some j) hf; simp at this
  | true =>
    simp only [Sys.toF, sysOf, if_true]
    rcases hf : F x true with e | ⟨r, _ | j⟩
    · rfl
    · have := h x true r none hf; simp at this
    · rfl

/-- a Newton solver object between two calls -/
def NewtonIdle (reg : Reg K m n p L) : Prop := ∀ x, NewtonObj { reg with x := x }

/-- a least-squares solver object between two calls -/
def LsIdle [DecidableEq n] (reg : Reg K m n p L) : Prop := ∀ x, LsObj { reg with x := x }

theorem newtonIdle_run (env : Env K m n p L) (cfg : Cfg K) (F : (n → K) → Bool → Except Exc (Ans K m n)) (hF : WellTyped F) (reg : Reg K m n p L) (y : n → K) (h : NewtonIdle reg) :
    NewtonIdle (SM.run F (Model.Nonlinear.newtonSolve env cfg) { reg with x := y }).state := by
  intro x
  have := NewtonObj.used env cfg (sysOf F) { reg with x := y } x (h y)
  unfold runNewton at this
  rwa [toF_sysOf F hF] at this

theorem lsIdle_run [DecidableEq n] (env : Env K m n p L) (cfg : Cfg K) (tag : Model.Nonlinear.Tag) (F : (n → K) → Bool → Except Exc (Ans K m n)) (hF : WellTyped F) (reg : Reg K m n p L) (y : n → K)
    (h : LsIdle reg) : LsIdle (SM.run F (Model.Nonlinear.lsSolve env cfg tag) { reg with x := y }).state := by
  intro x
  have := LsObj.used env cfg (sysOf F) tag { reg with x := y } x (h y)
  unfold runLs at this
  rwa [toF_sysOf F hF] at this

end

section
variable {K n p L : Type} [Field K] [LinearOrder K] [IsStrictOrderedRing K] [Fintype n] [DecidableEq n] [Fintype p]

/-- the user's right-hand side answers with the Jacobian exactly when it is asked for it -/
def WellTypedRhs (sys : ISystem K (n → K) (Matrix n n K)) : Prop := ∀ y t w f j, sys.eval y t w = .ok (f, j) → j.isSome = w

theorem textbook_wellTyped (name : Scheme) (sys : ISystem K (n → K) (Matrix n n K)) (hw : WellTypedRhs sys) (hist : List (n → K)) (t dt : K) : WellTyped (textbook name sys hist t dt) := by
  intro x w r j h
  rcases he : sys.eval x (t + dt) w with ⟨e, junk⟩ | ⟨f, j'⟩
  · unfold textbook at h
    split at h <;> first | (rw [he] at h; cases h) | skip
    · split at h
      · cases h
      · rw [he] at h; cases h
    · cases h
  · have hj := hw _ _ _ _ _ he
    unfold textbook at h
    split at h <;> first | (rw [he] at h; simp only [Except.ok.injEq, Prod.mk.injEq] at h; rw [← h.2, Option.isSome_map]; exact hj) | skip
    · split at h
      · cases h
      · rw [he] at h; simp only [Except.ok.injEq, Prod.mk.injEq] at h; rw [← h.2, Option.isSome_map]; exact hj
    · cases h

/-- **C66.** In a run with a Newton solver object (any options, any past of the object), every attempt is a call of that object on the textbook equations of the accepted states, starting from the last accepted
    state: its evaluations are those of the solve, a solve that returns is accepted with the state that it returned, `NonlinearSolveFailure` becomes `TimeStepFailure` with the state put back. -/
theorem C66_run_is_newton_solves (name : Scheme) (sys : ISystem K (n → K) (Matrix n n K)) (hsys : NoTSF sys) (hw : WellTypedRhs sys) (mem : SMem K (n → K) (n → K) PMem) (hmem : Ready name mem)
    (env : Env K n n p L) (he : ∀ A b s, (env.linJ A b s).stop? ≠ some (.exc .timeStepFailure)) (cfg : Cfg K) (reg : Reg K n n p L) (hreg : NewtonIdle reg)
    (dts : List K) (t0 : K) (y0 : n → K) (pre post : List (Record K (n → K) (Ans K n n))) (r : Record K (n → K) (Ans K n n))
    (hr : driveObj (stdStep name sys) (Model.Nonlinear.newtonSolve env cfg) dts t0 [y0] y0 mem reg = pre ++ r :: post) :
    ∃ yn older s, accepted y0 pre = yn :: older ∧ r.hist = yn :: older ∧ r.t = timeAfter t0 pre ∧ r.dt ∈ dts ∧ NewtonObj s ∧ s.x = yn ∧
      (let res := runNewton env cfg (sysOf (textbook name sys (yn :: older) r.t r.dt)) s
       res.state.log = s.log ++ r.queries ∧ r.stop = stepStop res.stop? ∧ r.y = if res.stop? = some (.exc .nonlinearSolveFailure) then yn else res.state.x) := by
  obtain ⟨yn, older, reg', h1, h2, h3, h4, h5, h6⟩ := driveObj_record (fun _ => True) (stdStep name sys) (textbook name sys) (StdInv name sys)
    (refinesOn_true (std_refines name (ready_name name mem hmem) sys)) (textbook_ne name sys hsys) (Model.Nonlinear.newtonSolve env cfg) (fine_newtonSolve env he cfg) (fun _ _ => trivial)
    NewtonIdle (fun reg y hist t dt h => newtonIdle_run env cfg _ (textbook_wellTyped name sys hw hist t dt) reg y h)
    (fun atts ha t y mem hI => drive_eq_ideal _ _ _ (std_refines name (ready_name name _ hmem) sys) (textbook_ne name sys hsys) atts
      (fun a haa y => by obtain ⟨rg, -, hs⟩ := ha a haa; rw [hs]; exact honest_solverOf _ (fine_newtonSolve env he cfg) rg y) t y [] mem hI)
    dts t0 y0 mem reg (ready_inv name sys mem hmem t0 y0) hreg pre post r hr
  refine ⟨yn, older, { reg' with x := yn }, h2, h3, h4, h5, h1 yn, rfl, ?_⟩
  unfold runNewton
  rw [toF_sysOf _ (textbook_wellTyped name sys hw _ _ _)]
  exact h6

/-! ### Differential equations given by functions -/

/-- the system of an ODE `y' = f(y, t)` with Jacobian `Df`, never failing -/
def odeSystem (f : (n → K) → K → (n → K)) (Df : (n → K) → K → Matrix n n K) : ISystem K (n → K) (Matrix n n K) :=
  ⟨fun y t w => .ok (f y t, if w then some (Df y t) else none)⟩

/-- the equation of a step: residual of the scheme at `y`, when the accepted states are `hist` -/
def schemeRes (name : Scheme) (f : (n → K) → K → (n → K)) (hist : List (n → K)) (t dt : K) (y : n → K) : n → K :=
  match name, hist with
  | .BDF2, yn :: ynm1 :: _ => y - ((4:K)/3) • yn + ((1:K)/3) • ynm1 - ((2:K)/3 * dt) • f y (t + dt)
  | .CrankNicolson, yn :: _ => y - yn - (dt / 2) • (f y (t + dt) + f yn t)
  | _, yn :: _ => y - yn - dt • f y (t + dt)
  | _, [] => 0

/-- the factor of the right-hand side at the new time in the scheme -/
def schemeCoef (name : Scheme) (hist : List (n → K)) (dt : K) : K :=
  match name, hist with
  | .BDF2, _ :: _ :: _ => (2:K)/3 * dt
  | .CrankNicolson, _ => dt / 2
  | _, _ => dt

/-- the Jacobian of `schemeRes` -/
def schemeJac (name : Scheme) (Df : (n → K) → K → Matrix n n K) (hist : List (n → K)) (t dt : K) (y : n → K) : Matrix n n K := 1 - schemeCoef name hist dt • Df y (t + dt)

theorem sysOf_textbook (name : Scheme) (hname : name = .BDF1 ∨ name = .BDF2 ∨ name = .CrankNicolson) (f : (n → K) → K → (n → K)) (Df : (n → K) → K → Matrix n n K) (yn : n → K) (older : List (n → K))
    (t dt : K) : sysOf (textbook name (odeSystem f Df) (yn :: older) t dt) = Sys.ofFun (schemeRes name f (yn :: older) t dt) (schemeJac name Df (yn :: older) t dt) := by
  rcases hname with rfl | rfl | rfl
  · rfl
  · cases older <;> rfl
  · rfl

/-- **C66**, for an ODE given by functions and a linear solver whose answer is a function of matrix and right-hand side (`tick`: what a linear solve does to the linear solver object): every attempt is accepted
    (`stop = none`) and the new state is the Newton iterate `N^k y_n`, for the equation of the scheme with the accepted states, with `k` the first iterate at which the criterion is met (or `maxIters` if there is
    none before that), after evaluations of `f` and `Df` at exactly the iterates `y_n, N y_n, …`: `k + 1` of them (`maxIters`). -/
theorem C66_newton_iterates (name : Scheme) (f : (n → K) → K → (n → K)) (Df : (n → K) → K → Matrix n n K) (mem : SMem K (n → K) (n → K) PMem) (hmem : Ready name mem)
    (env : Env K n n p L) (cfg : Cfg K) (sol : Matrix n n K → (n → K) → n → K) (tick : L → L) (hlin : ∀ A b c l, env.linJ A b (c, l) = .ok () (sol A b, tick l))
    (hcrit : rootCriterion cfg.stop = true) (hupd : cfg.update = .Standard) (hmax : cfg.maxIters < int32Max) (reg : Reg K n n p L) (hreg : NewtonIdle reg)
    (dts : List K) (t0 : K) (y0 : n → K) (pre post : List (Record K (n → K) (Ans K n n))) (r : Record K (n → K) (Ans K n n))
    (hr : driveObj (stdStep name (odeSystem f Df)) (Model.Nonlinear.newtonSolve env cfg) dts t0 [y0] y0 mem reg = pre ++ r :: post) :
    ∃ yn older, accepted y0 pre = yn :: older ∧ r.t = timeAfter t0 pre ∧
      (let R := schemeRes name f (yn :: older) r.t r.dt
       let J := schemeJac name Df (yn :: older) r.t r.dt
       let N : (n → K) → n → K := fun x => x + -sol (J x) (R x)
       let nrm : (n → K) → Norms K := fun x => ⟨env.normM (R x), env.normN (-sol (J x) (R x)), 0, 0⟩
       let met := fun k : Nat => below cfg.stop cfg.tol (nrm yn) (nrm (N^[k] yn)) = true
       let evaluated := fun k : Nat => (List.range k).map (fun a => (⟨N^[a] yn, true, .ok (R (N^[a] yn), some (J (N^[a] yn)))⟩ : Query (n → K) (Ans K n n)))
       r.stop = none ∧
       ((∃ k : Nat, (k : Int) < cfg.maxIters ∧ met k ∧ (∀ j < k, ¬ met j) ∧ r.y = N^[k] yn ∧ r.queries = evaluated (k + 1)) ∨
        ((∀ k : Nat, (k : Int) < cfg.maxIters → ¬ met k) ∧ r.y = N^[cfg.maxIters.toNat] yn ∧ r.queries = evaluated cfg.maxIters.toNat))) := by
  have hsys : NoTSF (odeSystem f Df) := by intro y t w e junk h; cases h
  have hw : WellTypedRhs (odeSystem f Df) := by
    intro y t w g j h
    simp only [odeSystem, Except.ok.injEq, Prod.mk.injEq] at h
    rw [← h.2]; cases w <;> rfl
  obtain ⟨yn, older, s, h2, h3, h4, h5, h6, h7, h8, h9, h10⟩ := C66_run_is_newton_solves name (odeSystem f Df) hsys hw mem hmem env
    (fun A b s => by obtain ⟨c, l⟩ := s; rw [hlin]; simp) cfg reg hreg dts t0 y0 pre post r hr
  rw [sysOf_textbook name (ready_name name mem hmem)] at h8 h9 h10
  obtain ⟨g1, g2, g3⟩ := C30_newton_iterates env cfg (schemeRes name f (yn :: older) r.t r.dt) (schemeJac name Df (yn :: older) r.t r.dt) sol tick hlin hcrit hupd hmax s h6
  rw [h7] at g2 g3
  refine ⟨yn, older, h2, h4, ?_⟩
  rw [g1] at h9 h10
  refine ⟨h9, ?_⟩
  have h10 : r.y = (runNewton env cfg (Sys.ofFun (schemeRes name f (yn :: older) r.t r.dt) (schemeJac name Df (yn :: older) r.t r.dt)) s).state.x := by simpa using h10
  classical
  by_cases hex : ∃ k : Nat, (k : Int) < cfg.maxIters ∧ below cfg.stop cfg.tol
      (⟨env.normM (schemeRes name f (yn :: older) r.t r.dt yn), env.normN (-sol (schemeJac name Df (yn :: older) r.t r.dt yn) (schemeRes name f (yn :: older) r.t r.dt yn)), 0, 0⟩ : Norms K)
      (⟨env.normM (schemeRes name f (yn :: older) r.t r.dt ((fun x => x + -sol (schemeJac name Df (yn :: older) r.t r.dt x) (schemeRes name f (yn :: older) r.t r.dt x))^[k] yn)),
        env.normN (-sol (schemeJac name Df (yn :: older) r.t r.dt ((fun x => x + -sol (schemeJac name Df (yn :: older) r.t r.dt x) (schemeRes name f (yn :: older) r.t r.dt x))^[k] yn))
          (schemeRes name f (yn :: older) r.t r.dt ((fun x => x + -sol (schemeJac name Df (yn :: older) r.t r.dt x) (schemeRes name f (yn :: older) r.t r.dt x))^[k] yn))), 0, 0⟩ : Norms K) = true
  · have hf := Nat.find_spec hex
    have hb : ∀ j < Nat.find hex, ¬ _ := fun j hj hmet => Nat.find_min hex hj ⟨by omega, hmet⟩
    obtain ⟨f1, f2, -⟩ := g2 (Nat.find hex) hf.1 hf.2 hb
    refine .inl ⟨Nat.find hex, hf.1, hf.2, hb, h10.trans f1, ?_⟩
    rw [h8] at f2
    exact List.append_cancel_left f2
  · have hb := fun k hk hmet => hex ⟨k, hk, hmet⟩
    obtain ⟨f1, f2, -⟩ := g3 hb
    refine .inr ⟨hb, h10.trans f1, ?_⟩
    rw [h8] at f2
    exact List.append_cancel_left f2

/-- one Newton step from anywhere solves the equation of a step of a linear ODE -/
theorem linear_newton_root (name : Scheme) (hname : name = .BDF1 ∨ name = .BDF2 ∨ name = .CrankNicolson) (A : K → Matrix n n K) (b : K → n → K) (sol : Matrix n n K → (n → K) → n → K)
    (yn : n → K) (older : List (n → K)) (t dt : K)
    (hsol : ∀ d, (1 - schemeCoef name (yn :: older) dt • A (t + dt)) *ᵥ sol (1 - schemeCoef name (yn :: older) dt • A (t + dt)) d = d) (x : n → K) :
    schemeRes name (fun y t => A t *ᵥ y + b t) (yn :: older) t dt
      (x + -sol (schemeJac name (fun _ t => A t) (yn :: older) t dt x) (schemeRes name (fun y t => A t *ᵥ y + b t) (yn :: older) t dt x)) = 0 := by
  have haff : ∀ x v, schemeRes name (fun y t => A t *ᵥ y + b t) (yn :: older) t dt (x + v) =
      schemeRes name (fun y t => A t *ᵥ y + b t) (yn :: older) t dt x + (1 - schemeCoef name (yn :: older) dt • A (t + dt)) *ᵥ v := by
    intro x v
    have hJ : ∀ c : K, (1 - c • A (t + dt)) *ᵥ v = v - c • (A (t + dt) *ᵥ v) := by
      intro c; rw [Matrix.sub_mulVec, Matrix.one_mulVec, Matrix.smul_mulVec]
    rw [hJ]
    rcases hname with rfl | rfl | rfl
    · simp only [schemeRes, schemeCoef, Matrix.mulVec_add, smul_add]; abel
    · cases older <;> simp only [schemeRes, schemeCoef, Matrix.mulVec_add, smul_add] <;> abel
    · simp only [schemeRes, schemeCoef, Matrix.mulVec_add, smul_add]; abel
  rw [haff, Matrix.mulVec_neg, schemeJac, hsol, add_neg_cancel]

/-- **C66, linear ODE** `y' = A(t) y + b(t)`, exact linear solver for the matrices `I - c A`: every attempt is accepted, and the new state satisfies the equation of the scheme exactly, unless the criterion is
    already met at the last accepted state, which is then accepted unchanged.  One iteration suffices. -/
theorem C66_linear_ode (name : Scheme) (A : K → Matrix n n K) (b : K → n → K) (mem : SMem K (n → K) (n → K) PMem) (hmem : Ready name mem)
    (env : Env K n n p L) (cfg : Cfg K) (sol : Matrix n n K → (n → K) → n → K) (tick : L → L) (hlin : ∀ B d c l, env.linJ B d (c, l) = .ok () (sol B d, tick l))
    (hcrit : rootCriterion cfg.stop = true) (hupd : cfg.update = .Standard) (hmax : cfg.maxIters < int32Max) (h1 : 1 ≤ cfg.maxIters) (reg : Reg K n n p L) (hreg : NewtonIdle reg)
    (dts : List K) (t0 : K) (y0 : n → K) (pre post : List (Record K (n → K) (Ans K n n))) (r : Record K (n → K) (Ans K n n))
    (hr : driveObj (stdStep name (odeSystem (fun y t => A t *ᵥ y + b t) (fun _ t => A t))) (Model.Nonlinear.newtonSolve env cfg) dts t0 [y0] y0 mem reg = pre ++ r :: post)
    (hsol : ∀ d, (1 - schemeCoef name (accepted y0 pre) r.dt • A (r.t + r.dt)) *ᵥ sol (1 - schemeCoef name (accepted y0 pre) r.dt • A (r.t + r.dt)) d = d) :
    r.stop = none ∧ ∃ yn older, accepted y0 pre = yn :: older ∧ r.t = timeAfter t0 pre ∧
      (let R := schemeRes name (fun y t => A t *ᵥ y + b t) (yn :: older) r.t r.dt
       let nrm : Norms K := ⟨env.normM (R yn), env.normN (-sol (1 - schemeCoef name (yn :: older) r.dt • A (r.t + r.dt)) (R yn)), 0, 0⟩
       R r.y = 0 ∨ (r.y = yn ∧ below cfg.stop cfg.tol nrm nrm = true)) := by
  obtain ⟨yn, older, h2, h4, h5, h6⟩ := C66_newton_iterates name _ _ mem hmem env cfg sol tick hlin hcrit hupd hmax reg hreg dts t0 y0 pre post r hr
  refine ⟨h5, yn, older, h2, h4, ?_⟩
  rw [h2] at hsol
  have hN := linear_newton_root name (ready_name name mem hmem) A b sol yn older r.t r.dt hsol
  rcases h6 with ⟨k, hk, hmet, -, hy, -⟩ | ⟨-, hy, -⟩
  · cases k with
    | zero => exact .inr ⟨hy, hmet⟩
    | succ k =>
      left
      rw [Function.iterate_succ_apply'] at hy
      rw [hy]
      exact hN _
  · obtain ⟨k, hk⟩ : ∃ k, cfg.maxIters.toNat = k + 1 := ⟨cfg.maxIters.toNat - 1, by omega⟩
    rw [hk, Function.iterate_succ_apply'] at hy
    left
    rw [hy]
    exact hN _

/-! ### C23 for runs with a Newton solver -/

/-- **C23, BDF1 and BDF2 with a Newton solver (standard updates).** If the right-hand side throws `VelocityFailureUnrecoverable` in any evaluation of an attempt, the attempt ends in `TimeStepFailure`, with the
    last accepted state in place. -/
theorem C23_bdf_newton (name : Scheme) (hname : name = .BDF1 ∨ name = .BDF2) (sys : ISystem K (n → K) (Matrix n n K)) (hsys : NoTSF sys) (hw : WellTypedRhs sys)
    (mem : SMem K (n → K) (n → K) PMem) (hmem : Ready name mem) (env : Env K n n p L) (he : ∀ A b s, (env.linJ A b s).stop? ≠ some (.exc .timeStepFailure)) (cfg : Cfg K)
    (hupd : cfg.update = .Standard) (reg : Reg K n n p L) (hreg : NewtonIdle reg) (dts : List K) (t0 : K) (y0 : n → K) (pre post : List (Record K (n → K) (Ans K n n)))
    (r : Record K (n → K) (Ans K n n)) (hr : driveObj (stdStep name sys) (Model.Nonlinear.newtonSolve env cfg) dts t0 [y0] y0 mem reg = pre ++ r :: post)
    (q) (hq : q ∈ r.queries) (junk : n → K) (hf : sys.eval q.x (r.t + r.dt) q.wantJ = .error (.velocityFailureUnrecoverable, junk)) :
    r.stop = some (.exc .timeStepFailure) ∧ (accepted y0 pre).head? = some r.y := by
  obtain ⟨yn, older, s, h2, h3, h4, h5, h6, h7, h8, h9, h10⟩ := C66_run_is_newton_solves name sys hsys hw mem hmem env he cfg reg hreg dts t0 y0 pre post r hr
  obtain ⟨new, f1, f2⟩ := C45_newton_failure env cfg (sysOf (textbook name sys (yn :: older) r.t r.dt)) hupd s h6
  have hnew : r.queries = new := List.append_cancel_left (h8.symm.trans f1)
  -- the answer in the record is that of the textbook equations
  have hans : q.ans = textbook name sys (yn :: older) r.t r.dt q.x q.wantJ := by
    have e1 : r.queries = (Model.Nonlinear.newtonSolve env cfg s).asked (textbook name sys (yn :: older) r.t r.dt) := by
      have := log_run (Model.Nonlinear.newtonSolve env cfg) (fine_newtonSolve env he cfg) (textbook name sys (yn :: older) r.t r.dt) s
      unfold runNewton at h8
      rw [toF_sysOf _ (textbook_wellTyped name sys hw _ _ _)] at h8
      exact List.append_cancel_left (h8.symm.trans this)
    have e2 := outcome_toTree (textbook name sys (yn :: older) r.t r.dt) Reg.x (Model.Nonlinear.newtonSolve env cfg s)
    have := outcome_query (textbook name sys (yn :: older) r.t r.dt) ((Model.Nonlinear.newtonSolve env cfg s).toTree Reg.x) q (by rw [e2]; rw [e1] at hq; exact hq)
    exact this
  have hfail : q.ans = .error .residualEvaluationFailureUnrecoverable := by
    rw [hans]
    rcases hname with rfl | rfl
    · simp [textbook, hf, reported]
    · cases older <;> simp [textbook, hf, reported]
  have hst := f2 q (hnew ▸ hq) (.inl hfail)
  rw [hst] at h9 h10
  exact ⟨h9, by rw [h2, h10]; simp⟩

end

/-! ### Concrete runs -/
section Examples
open Pressio.Model.Nonlinear

/-- `y' = 2 y - y²` -/
def logistic1 : ISystem ℚ (Unit → ℚ) (Matrix Unit Unit ℚ) := odeSystem (fun y _ => v1 (2 * y () - y () * y ())) (fun y _ => m1 (2 - 2 * y ()))

/-- a new stepper of each kind, for one unknown -/
def newStepper1 : Scheme → SMem ℚ (Unit → ℚ) (Unit → ℚ) PMem
  | .BDF2 => ⟨0, 0, 0, 0, [v1 0, v1 0], [], freshPMem⟩
  | .CrankNicolson => ⟨0, 0, 0, 0, [v1 0], [v1 0, v1 0], freshPMem⟩
  | _ => ⟨0, 0, 0, 0, [v1 0], [], freshPMem⟩

example : Ready .BDF1 (newStepper1 .BDF1) ∧ Ready .BDF2 (newStepper1 .BDF2) ∧ Ready .CrankNicolson (newStepper1 .CrankNicolson) := by decide
example (x : ℚ) : NewtonIdle (reg1 newtonDiagnostics x) := fun _ => .created _ rfl
theorem logistic1_wellTyped : WellTypedRhs logistic1 := by
  intro y t w g j h
  simp only [logistic1, odeSystem, Except.ok.injEq, Prod.mk.injEq] at h
  rw [← h.2]; cases w <;> rfl

/-- two BDF2 steps with two Newton iterations at most: accepted at the second iterate, with two evaluations each -/
example : (driveObj (stdStep .BDF2 logistic1) (newtonSolve env1 (cfgN .WhenAbsolutel2NormOfResidualBelowTolerance (1/100) 2 .Standard)) [1/4, 1/4] 0 [v1 1] (v1 1) (newStepper1 .BDF2)
      (reg1 newtonDiagnostics 0)).map (fun r => (r.hist.map (· ()), r.t, r.stop, r.queries.length, r.queries.map (fun q => q.x ()))) =
    [([1], 0, none, 2, [1, 5/4]), ([89/72, 1], 1/4, none, 2, [89/72, 48817/33552])] := by decide +kernel

/-- linear: `y' = 2 y`, BDF1, one Newton iteration gives `y₁ = y₀ / (1 - 2 dt)` -/
def growth1 : ISystem ℚ (Unit → ℚ) (Matrix Unit Unit ℚ) := odeSystem (fun y _ => m1 2 *ᵥ y + 0) (fun _ _ => m1 2)

example : (driveObj (stdStep .BDF1 growth1) (newtonSolve env1 (cfgN .WhenAbsolutel2NormOfResidualBelowTolerance (1/100) 3 .Standard)) [1/4, 1/4] 0 [v1 1] (v1 1) (newStepper1 .BDF1)
      (reg1 newtonDiagnostics 0)).map (fun r => (r.stop, r.y ())) = [(none, 2), (none, 4)] := by decide +kernel

example : ∀ d, (1 - schemeCoef .BDF1 [v1 1] (1/4 : ℚ) • m1 2) *ᵥ v1 (d () / (1 - schemeCoef .BDF1 [v1 1] (1/4 : ℚ) • m1 2 : Matrix Unit Unit ℚ) () ()) = d := by
  intro d
  funext u
  cases u
  simp [schemeCoef, Matrix.mulVec, dotProduct, v1, m1]
  ring

/-- `y' = 2 y`, whose evaluation fails above 3 -/
def fragile1 : ISystem ℚ (Unit → ℚ) (Matrix Unit Unit ℚ) :=
  ⟨fun y _ w => if y () > 3 then .error (.velocityFailureUnrecoverable, y) else .ok (v1 (2 * y ()), if w then some (m1 2) else none)⟩

/-- C23 on a run with standard updates: the second attempt of size 1/4 fails and is reported, the retry with 1/8 is accepted -/
example : (driveObj (stdStep .BDF1 fragile1) (newtonSolve env1 (cfgN .WhenAbsolutel2NormOfResidualBelowTolerance (1/100) 3 .Standard)) [1/4, 1/4, 1/8] 0 [v1 1] (v1 1) (newStepper1 .BDF1)
      (reg1 newtonDiagnostics 0)).map (fun r => (r.t, r.stop, r.y ())) = [(0, none, 2), (1/4, some (.exc .timeStepFailure), 2), (1/4, none, 8/3)] := by decide +kernel

/-- **C23 is false of BDF1 with a line search.** The same run with backtracking: the trial evaluation of the line search fails, and the exception leaves the stepper as `ResidualEvaluationFailureUnrecoverable`,
    not as `TimeStepFailure`; an advancer with step-size recovery does not retry. -/
theorem C23_refuted_line_search :
    (driveObj (stdStep .BDF1 fragile1) (newtonSolve env1 (cfgN .WhenAbsolutel2NormOfResidualBelowTolerance (1/100) 3 .BacktrackStrictlyDecreasingObjective)) [1/4, 1/4, 1/8] 0 [v1 1] (v1 1)
      (newStepper1 .BDF1) (reg1 newtonDiagnostics 0)).map (fun r => (r.t, r.stop)) = [(0, none), (1/4, some (.exc .residualEvaluationFailureUnrecoverable))] := by decide +kernel

/-- the second step of each of these runs -/
def logisticRun := driveObj (stdStep .BDF2 logistic1) (newtonSolve env1t (cfgN .WhenAbsolutel2NormOfResidualBelowTolerance (1/100) 2 .Standard)) [1/4, 1/4] 0 [v1 1] (v1 1) (newStepper1 .BDF2) (reg1 newtonDiagnostics 0)
def growthRun := driveObj (stdStep .BDF1 growth1) (newtonSolve env1t (cfgN .WhenAbsolutel2NormOfResidualBelowTolerance (1/100) 3 .Standard)) [1/4, 1/4] 0 [v1 1] (v1 1) (newStepper1 .BDF1) (reg1 newtonDiagnostics 0)
theorem logisticRun_length : logisticRun.length = 2 := by decide +kernel
theorem growthRun_length : growthRun.length = 2 := by decide +kernel
def logisticLast := logisticRun[1]'(by rw [logisticRun_length]; decide)
def growthLast := growthRun[1]'(by rw [growthRun_length]; decide)
theorem logisticRun_split : logisticRun = logisticRun.take 1 ++ logisticLast :: logisticRun.drop 2 := list_split _ 1 _
theorem growthRun_split : growthRun = growthRun.take 1 ++ growthLast :: growthRun.drop 2 := list_split _ 1 _
theorem growthLast_is : growthLast.dt = 1/4 := by decide +kernel
example := C66_run_is_newton_solves .BDF2 logistic1 (by intro y t w e junk h; simp [logistic1, odeSystem] at h) logistic1_wellTyped (newStepper1 .BDF2) (by decide) env1t
  (by intro A b s; simp [env1t, Res.stop?]) (cfgN .WhenAbsolutel2NormOfResidualBelowTolerance (1/100) 2 .Standard)
  (reg1 newtonDiagnostics 0) (fun _ => .created _ rfl) [1/4, 1/4] 0 (v1 1) _ _ _ logisticRun_split
example := C66_newton_iterates .BDF2 (fun y _ => v1 (2 * y () - y () * y ())) (fun y _ => m1 (2 - 2 * y ())) (newStepper1 .BDF2) (by decide) env1t
  (cfgN .WhenAbsolutel2NormOfResidualBelowTolerance (1/100) 2 .Standard) (fun A b => v1 (b () / A () ())) (· + 1) (fun _ _ _ _ => rfl) rfl rfl (by decide)
  (reg1 newtonDiagnostics 0) (fun _ => .created _ rfl) [1/4, 1/4] 0 (v1 1) _ _ _ logisticRun_split
example := C66_linear_ode .BDF1 (fun _ => m1 2) (fun _ => 0) (newStepper1 .BDF1) (by decide) env1t
  (cfgN .WhenAbsolutel2NormOfResidualBelowTolerance (1/100) 3 .Standard) (fun A b => v1 (b () / A () ())) (· + 1) (fun _ _ _ _ => rfl) rfl rfl (by decide) (by decide)
  (reg1 newtonDiagnostics 0) (fun _ => .created _ rfl) [1/4, 1/4] 0 (v1 1) _ _ _ growthRun_split (by
    intro d
    funext u
    cases u
    rw [growthLast_is]
    simp [schemeCoef, Matrix.mulVec, dotProduct, v1, m1]
    ring)
def fragileNewtonRun := driveObj (stdStep .BDF1 fragile1) (newtonSolve env1 (cfgN .WhenAbsolutel2NormOfResidualBelowTolerance (1/100) 3 .Standard)) [1/4, 1/4, 1/8] 0 [v1 1] (v1 1) (newStepper1 .BDF1) (reg1 newtonDiagnostics 0)
theorem fragileNewtonRun_length : fragileNewtonRun.length = 3 := by decide +kernel
def fragileFailed := fragileNewtonRun[1]'(by rw [fragileNewtonRun_length]; decide)
theorem fragileFailed_queries : fragileFailed.queries.length = 2 ∧ fragileFailed.queries.map (fun q => (q.x (), q.wantJ)) = [(2, true), (4, true)] := by decide +kernel
theorem fragileFailed_asked : (fragileFailed.queries[1]'(by rw [fragileFailed_queries.1]; decide)).x () = 4 := by decide +kernel
example := C23_bdf_newton .BDF1 (.inl rfl) fragile1 (by intro y t w e junk h; simp only [fragile1] at h; split at h <;> simp at h; rw [← h.1]; simp)
  (by intro y t w f j h; simp only [fragile1] at h; split at h <;> simp at h; rw [← h.2]; cases w <;> rfl) (newStepper1 .BDF1) (by decide) env1
  (by intro A b s; simp only [env1, div1]; split <;> simp [Res.stop?]) (cfgN .WhenAbsolutel2NormOfResidualBelowTolerance (1/100) 3 .Standard) rfl
  (reg1 newtonDiagnostics 0) (fun _ => .created _ rfl) [1/4, 1/4, 1/8] 0 (v1 1) (fragileNewtonRun.take 1) (fragileNewtonRun.drop 2) fragileFailed (list_split fragileNewtonRun 1 _)
  _ (List.getElem_mem (n := 1) (by rw [fragileFailed_queries.1]; decide)) _ (if_pos (by rw [fragileFailed_asked]; norm_num))

end Examples
end Pressio.Props
