import Verif.Lemmas.SolverAlikeRuns
import Verif.Props.SolverAlike
import Verif.Props.CustomSchemes

/-
  C98 in runs of implicit steppers and LSPG problems, and through the advancers.
-/
namespace Pressio.Props
set_option autoImplicit false
set_option linter.unusedSectionVars false
open Pressio Matrix Pressio.Model.Implicit Pressio.Spec.Implicit Pressio.Lemmas.Implicit Pressio.Spec.CustomSchemes Pressio.Spec.SolverRun Pressio.Lemmas.SolverTree Pressio.Lemmas.SolverRun
open Pressio.Model.Explicit (Scheme)
open Pressio.Model.Advance (DtVars advanceT advanceN Ev)
open Pressio.Spec.AdvanceDrive
open Pressio.Model.Nonlinear (Env Cfg Reg StopCrit Update Tag Ans SP)
open Pressio.Spec.Nonlinear Pressio.Spec.SolverAlike
open Pressio.Lemmas.Nonlinear

/-! ### Advancers -/
section
variable {K S S' U m n p p' L L' : Type}

/-- If two implicit steppers, each with its solver object, give the same runs for all lists of step sizes from the set `D`, then `advance_n_steps` gives the same with both, with any policy that sets sizes from `D`. -/
theorem C98_n_steps [Add K] (D : K → Prop) (step : ((n → K) → SolveTree (n → K) (Ans K m n)) → K → K → Int → Prog (SolveSt (n → K) S (Ans K m n)) Unit) (step' : ((n → K) → SolveTree (n → K) (Ans K m n)) → K → K → Int → Prog (SolveSt (n → K) S' (Ans K m n)) Unit)
    (solve : SP K m n p L Unit) (solve' : SP K m n p' L' Unit) (pol3 : Int → K → K → Prog U K) (pol5 : Int → K → DtVars K → Prog U (DtVars K)) (obs : Int → K → (n → K) → Prog U Unit) (hpol : ∀ i t d u d' u', pol3 i t d u = .ok d' u' → D d')
    (zero start : K) (y0 : n → K) (mem : S) (mem' : S') (reg : Reg K m n p L) (reg' : Reg K m n p' L')
    (h : ∀ dts, (∀ d ∈ dts, D d) → driveObj step solve dts start [y0] y0 mem reg = driveObj step' solve' dts start [y0] y0 mem' reg') (N : Int) (u : U) :
    visible (advanceN zero (userObjects (objStepper step solve) pol3 pol5 obs) N start ⟨((mem, reg), u), y0, []⟩) = visible (advanceN zero (userObjects (objStepper step' solve') pol3 pol5 obs) N start ⟨((mem', reg'), u), y0, []⟩) := by
  simp only [advanceN, Prog.bind_run, Lemmas.AdvanceBisim.callObs_user]
  rcases obs 0 start y0 u with ⟨_, u'⟩ | ⟨z, u'⟩
  · exact Lemmas.AdvanceBisim.nLoop_alike D _ _ pol3 pol5 obs hpol _ _ _ _ _ _ _ _ _ (fun dts hd => by rw [← C92_runs, ← C92_runs, h dts hd])
  · rfl

/-- … and so do the advancers to a target time, with and without recovery, if `D` contains with a size all smaller ones that recovery may try. -/
theorem C98_target [Field K] [LinearOrder K] (D : K → Prop) (hD : ∀ d q, D d → 1 < q → D (d / q)) (step : ((n → K) → SolveTree (n → K) (Ans K m n)) → K → K → Int → Prog (SolveSt (n → K) S (Ans K m n)) Unit)
    (step' : ((n → K) → SolveTree (n → K) (Ans K m n)) → K → K → Int → Prog (SolveSt (n → K) S' (Ans K m n)) Unit)
    (solve : SP K m n p L Unit) (solve' : SP K m n p' L' Unit) (pol3 : Int → K → K → Prog U K) (pol5 : Int → K → DtVars K → Prog U (DtVars K)) (obs : Int → K → (n → K) → Prog U Unit) (hpol : ∀ i t d u d' u', pol3 i t d u = .ok d' u' → D d')
    (hpol5 : ∀ i t v u v' u', pol5 i t v u = .ok v' u' → D v'.dt) (rec : Bool) (eps start final : K) (y0 : n → K) (mem : S) (mem' : S') (reg : Reg K m n p L) (reg' : Reg K m n p' L')
    (h : ∀ dts, (∀ d ∈ dts, D d) → driveObj step solve dts start [y0] y0 mem reg = driveObj step' solve' dts start [y0] y0 mem' reg') (fuel : Nat) (u : U) :
    visible (advanceT rec eps (userObjects (objStepper step solve) pol3 pol5 obs) fuel start final ⟨((mem, reg), u), y0, []⟩) =
      visible (advanceT rec eps (userObjects (objStepper step' solve') pol3 pol5 obs) fuel start final ⟨((mem', reg'), u), y0, []⟩) := by
  simp only [advanceT]
  split
  · rfl
  split
  · rfl
  simp only [Prog.bind_run, Lemmas.AdvanceBisim.callObs_user]
  rcases obs 0 start y0 u with ⟨_, u'⟩ | ⟨z, u'⟩
  · exact Lemmas.AdvanceBisim.tLoop_alike D _ _ pol3 pol5 obs hpol hpol5 hD rec eps final _ _ _ _ _ _ _ _ _ (fun dts hd => by rw [← C92_runs, ← C92_runs, h dts hd])
  · rfl
end

/-! ### Implicit steppers with Newton and Gauss-Newton -/
section
variable {K n p L U : Type} [Field K] [LinearOrder K] [IsStrictOrderedRing K] [Fintype n] [DecidableEq n] [Fintype p]

/-- the factors that the schemes give to the right-hand side in a step of size `dt` -/
def rhsFactors (dt : K) : Scheme → List K
  | .BDF1 => [dt]
  | .BDF2 => [dt, (2:K)/3 * dt]
  | .CrankNicolson => [dt / 2]
  | _ => []

theorem textbook_regular (name : Scheme) (sys : ISystem K (n → K) (Matrix n n K)) (dt : K) (hreg : ∀ y t f J, sys.eval y t true = .ok (f, some J) → ∀ c ∈ rhsFactors dt name, IsUnit (1 - c • J).det) (hist : List (n → K)) (t : K) :
    ∀ x r J, (sysOf (textbook name sys hist t dt)).resJac x = .ok (r, J) → IsUnit J.det := by
  intro x r J h
  have h' : textbook name sys hist t dt x true = .ok (r, some J) := by
    simp only [sysOf] at h
    rcases ht : textbook name sys hist t dt x true with e | ⟨r', j⟩
    · rw [ht] at h; cases h
    · rcases j with _ | j
      · rw [ht] at h; cases h
      · rw [ht] at h
        simp only [Except.ok.injEq, Prod.mk.injEq] at h
        rw [h.1, h.2]
  clear h
  rcases he : sys.eval x (t + dt) true with ⟨e, junk⟩ | ⟨f, j⟩
  · unfold textbook at h'
    split at h' <;> first | (rw [he] at h'; cases h') | skip
    · split at h'
      · cases h'
      · rw [he] at h'; cases h'
    · cases h'
  · rcases j with _ | J0
    · unfold textbook at h'
      split at h' <;> first | (rw [he] at h'; cases h') | skip
      · split at h'
        · cases h'
        · rw [he] at h'; cases h'
      · cases h'
    · have hr := hreg _ _ _ _ he
      unfold textbook at h'
      split at h'
      · rw [he] at h'; cases h'; exact hr dt (by simp [rhsFactors])
      · rw [he] at h'; cases h'; exact hr dt (by simp [rhsFactors])
      · rw [he] at h'; cases h'; exact hr _ (by simp [rhsFactors])
      · split at h'
        · cases h'
        · rw [he] at h'; cases h'; exact hr _ (by simp [rhsFactors])
      · cases h'

/-- **C98, implicit steppers.** A run of an implicit stepper whose steps are solved by a Gauss-Newton object (normal equations) is the same as the run with a Newton object with corresponding options: same accepted states, failures,
    evaluations of the right-hand side, for step sizes with which the matrices `1 - c dt J` of the scheme are regular; whatever the two objects and the two steppers did before. -/
theorem C98_implicit_runs (name : Scheme) (sys : ISystem K (n → K) (Matrix n n K)) (hsys : NoTSF sys) (hw : WellTypedRhs sys) (mem mem' : SMem K (n → K) (n → K) PMem) (hmem : Ready name mem) (hmem' : Ready name mem')
    (env : Env K n n p L) (he : ∀ A b s, (env.linJ A b s).stop? ≠ some (.exc .timeStepFailure)) (he' : ∀ A b s, (env.lin A b s).stop? ≠ some (.exc .timeStepFailure)) (cfg cfg' : Cfg K) (hcfg : Matching cfg cfg') (hcrit : rootCriterion cfg.stop = true)
    (hJ : SolvesRegular env.linJ) (hlin : SolvesRegular env.lin) (hnn : ∀ r, 0 ≤ env.normM r) (reg reg' : Reg K n n p L) (hreg : NewtonIdle reg) (hreg' : LsIdle reg')
    (dts : List K) (hdt : ∀ dt ∈ dts, ∀ y t f J, sys.eval y t true = .ok (f, some J) → ∀ c ∈ rhsFactors dt name, IsUnit (1 - c • J).det) (t0 : K) (y0 : n → K) :
    driveObj (stdStep name sys) (Model.Nonlinear.newtonSolve env cfg) dts t0 [y0] y0 mem reg = driveObj (stdStep name sys) (Model.Nonlinear.lsSolve env cfg' .gn) dts t0 [y0] y0 mem' reg' := by
  refine driveObj_solvers (fun dt => ∀ y t f J, sys.eval y t true = .ok (f, some J) → ∀ c ∈ rhsFactors dt name, IsUnit (1 - c • J).det) (fun _ => True) (stdStep name sys) (textbook name sys) (StdInv name sys)
    (refinesOn_true (std_refines name (ready_name name mem hmem) sys)) (textbook_ne name sys hsys) _ _ (fine_newtonSolve env he cfg) (fine_lsSolve env cfg' .gn he') (fun _ _ => trivial) (fun _ _ => trivial)
    (fun a b => NewtonIdle a ∧ LsIdle b) ?_ dts hdt t0 y0 [] mem mem' reg reg' (ready_inv name sys mem hmem t0 y0) (ready_inv name sys mem' hmem' t0 y0) ⟨hreg, hreg'⟩
  intro rg rg' y prev t dt hd hr r r'
  have hwt := textbook_wellTyped name sys hw (y :: prev) t dt
  have hsame := C98_gauss_newton_is_newton env cfg cfg' hcfg hcrit (sysOf (textbook name sys (y :: prev) t dt)) hJ hlin hnn (textbook_regular name sys dt hd (y :: prev) t) { rg with x := y } { rg' with x := y } (hr.1 y) (hr.2 y) rfl
  unfold runNewton runLs at hsame
  rw [toF_sysOf _ hwt] at hsame
  exact ⟨hsame.1, hsame.2.1, hsame.2.2, newtonIdle_run env cfg _ hwt rg y hr.1, lsIdle_run env cfg' .gn _ hwt rg' y hr.2⟩

/-- … and so through `advance_n_steps`, with policies that set such sizes … -/
theorem C98_implicit_n_steps (name : Scheme) (sys : ISystem K (n → K) (Matrix n n K)) (hsys : NoTSF sys) (hw : WellTypedRhs sys) (mem mem' : SMem K (n → K) (n → K) PMem) (hmem : Ready name mem) (hmem' : Ready name mem')
    (env : Env K n n p L) (he : ∀ A b s, (env.linJ A b s).stop? ≠ some (.exc .timeStepFailure)) (he' : ∀ A b s, (env.lin A b s).stop? ≠ some (.exc .timeStepFailure)) (cfg cfg' : Cfg K) (hcfg : Matching cfg cfg') (hcrit : rootCriterion cfg.stop = true)
    (hJ : SolvesRegular env.linJ) (hlin : SolvesRegular env.lin) (hnn : ∀ r, 0 ≤ env.normM r) (reg reg' : Reg K n n p L) (hreg : NewtonIdle reg) (hreg' : LsIdle reg')
    (D : K → Prop) (hdt : ∀ dt, D dt → ∀ y t f J, sys.eval y t true = .ok (f, some J) → ∀ c ∈ rhsFactors dt name, IsUnit (1 - c • J).det)
    (pol3 : Int → K → K → Prog U K) (pol5 : Int → K → DtVars K → Prog U (DtVars K)) (obs : Int → K → (n → K) → Prog U Unit) (hpol : ∀ i t d u d' u', pol3 i t d u = .ok d' u' → D d') (zero start : K) (y0 : n → K) (N : Int) (u : U) :
    visible (advanceN zero (userObjects (objStepper (stdStep name sys) (Model.Nonlinear.newtonSolve env cfg)) pol3 pol5 obs) N start ⟨((mem, reg), u), y0, []⟩) =
      visible (advanceN zero (userObjects (objStepper (stdStep name sys) (Model.Nonlinear.lsSolve env cfg' .gn)) pol3 pol5 obs) N start ⟨((mem', reg'), u), y0, []⟩) :=
  C98_n_steps D _ _ _ _ pol3 pol5 obs hpol zero start y0 mem mem' reg reg'
    (fun dts hd => C98_implicit_runs name sys hsys hw mem mem' hmem hmem' env he he' cfg cfg' hcfg hcrit hJ hlin hnn reg reg' hreg hreg' dts (fun dt h => hdt dt (hd dt h)) start y0) N u

/-- … and through the advancers to a target time, with and without recovery -/
theorem C98_implicit_target (name : Scheme) (sys : ISystem K (n → K) (Matrix n n K)) (hsys : NoTSF sys) (hw : WellTypedRhs sys) (mem mem' : SMem K (n → K) (n → K) PMem) (hmem : Ready name mem) (hmem' : Ready name mem')
    (env : Env K n n p L) (he : ∀ A b s, (env.linJ A b s).stop? ≠ some (.exc .timeStepFailure)) (he' : ∀ A b s, (env.lin A b s).stop? ≠ some (.exc .timeStepFailure)) (cfg cfg' : Cfg K) (hcfg : Matching cfg cfg') (hcrit : rootCriterion cfg.stop = true)
    (hJ : SolvesRegular env.linJ) (hlin : SolvesRegular env.lin) (hnn : ∀ r, 0 ≤ env.normM r) (reg reg' : Reg K n n p L) (hreg : NewtonIdle reg) (hreg' : LsIdle reg')
    (D : K → Prop) (hD : ∀ d q, D d → 1 < q → D (d / q)) (hdt : ∀ dt, D dt → ∀ y t f J, sys.eval y t true = .ok (f, some J) → ∀ c ∈ rhsFactors dt name, IsUnit (1 - c • J).det)
    (pol3 : Int → K → K → Prog U K) (pol5 : Int → K → DtVars K → Prog U (DtVars K)) (obs : Int → K → (n → K) → Prog U Unit) (hpol : ∀ i t d u d' u', pol3 i t d u = .ok d' u' → D d')
    (hpol5 : ∀ i t v u v' u', pol5 i t v u = .ok v' u' → D v'.dt) (rec : Bool) (eps start final : K) (y0 : n → K) (fuel : Nat) (u : U) :
    visible (advanceT rec eps (userObjects (objStepper (stdStep name sys) (Model.Nonlinear.newtonSolve env cfg)) pol3 pol5 obs) fuel start final ⟨((mem, reg), u), y0, []⟩) =
      visible (advanceT rec eps (userObjects (objStepper (stdStep name sys) (Model.Nonlinear.lsSolve env cfg' .gn)) pol3 pol5 obs) fuel start final ⟨((mem', reg'), u), y0, []⟩) :=
  C98_target D hD _ _ _ _ pol3 pol5 obs hpol hpol5 rec eps start final y0 mem mem' reg reg'
    (fun dts hd => C98_implicit_runs name sys hsys hw mem mem' hmem hmem' env he he' cfg cfg' hcfg hcrit hJ hlin hnn reg reg' hreg hreg' dts (fun dt h => hdt dt (hd dt h)) start y0) fuel u
end

/-! ### LSPG with QR and with normal equations -/
section
open Pressio.Model.Galerkin Pressio.Model.Lspg Pressio.Spec.Galerkin Pressio.Spec.Lspg Pressio.Lemmas.Lspg
variable {K m n P P' L L' U : Type} [Field K] [LinearOrder K] [IsStrictOrderedRing K] [Fintype m] [Fintype n] [DecidableEq n] [Fintype P] [Fintype P']

theorem policyObj_solvers {Pm : Type} (D : K → Prop) (name : Scheme) (hname : name = .BDF1 ∨ name = .BDF2) (policy : Policy K (n → K) (n → K) Pm (Ans K m n))
    (F : List (n → K) → K → K → (n → K) → Bool → Except Exc (Ans K m n)) (PI PD : List (n → K) → List (n → K) → Pm → Prop)
    (h : PolicyRefinesA name policy F (StOf name) PI PD) (hF : ∀ hist t dt x w, F hist t dt x w ≠ .error .timeStepFailure)
    (solve : SP K m n P L Unit) (solve' : SP K m n P' L' Unit) (hs : Fine solve) (hs' : Fine solve') (hb : Busy solve) (hb' : Busy solve') (R : Reg K m n P L → Reg K m n P' L' → Prop)
    (hR : ∀ reg reg' y prev t dt, D dt → R reg reg' → let r := SM.run (F (y :: prev) t dt) solve { reg with x := y }; let r' := SM.run (F (y :: prev) t dt) solve' { reg' with x := y }
      r.stop? = r'.stop? ∧ r.state.x = r'.state.x ∧ (∃ Q, r.state.log = reg.log ++ Q ∧ r'.state.log = reg'.log ++ Q) ∧ R r.state r'.state)
    (dts : List K) (hD : ∀ d ∈ dts, D d) (t0 : K) (x0 : n → K) (mem : SMem K (n → K) (n → K) Pm) (hmem : Sized name mem) (hp : PI [x0] mem.rhs mem.pol) (reg : Reg K m n P L) (reg' : Reg K m n P' L') (hreg : R reg reg') :
    driveObj (stepWith name policy) solve dts t0 [x0] x0 mem reg = driveObj (stepWith name policy) solve' dts t0 [x0] x0 mem reg' := by
  rcases hname with rfl | rfl
  · exact driveObj_solvers D Asks _ F _ (refinesOn_asks (refines_bdf1_asked policy F PI PD h)) hF solve solve' hs hs' (asks_solverOf solve hb) (asks_solverOf solve' hb') R hR dts hD t0 x0 [] mem mem reg reg' ⟨hmem, hp⟩ ⟨hmem, hp⟩ hreg
  · obtain ⟨a, b, hab⟩ := List.length_eq_two.1 hmem
    exact driveObj_solvers D Asks _ F _ (refinesOn_asks (refines_bdf2_asked policy F PI PD h)) hF solve solve' hs hs' (asks_solverOf solve hb) (asks_solverOf solve' hb') R hR dts hD t0 x0 [] mem mem reg reg'
      ⟨⟨a, b, hab, by simp⟩, hp⟩ ⟨⟨a, b, hab, by simp⟩, hp⟩ hreg

/-- the Jacobians of the LSPG equations have full column rank, for steps of size `dt` -/
def LspgRegular (name : Scheme) (S : Trial K m n) (Df : (m → K) → K → Except Exc (Matrix m m K)) (dt : K) : Prop :=
  ∀ y t A, Df y t = .ok A → ∀ c ∈ rhsFactors dt name, IsUnit ((S.basis - c • (A * S.basis))ᵀ * (S.basis - c • (A * S.basis))).det

theorem lspg_regular (name : Scheme) (hname : name = .BDF1 ∨ name = .BDF2) (S : Trial K m n) (f : (m → K) → K → Except Exc (m → K)) (Df : (m → K) → K → Except Exc (Matrix m m K)) (dt : K) (hreg : LspgRegular name S Df dt) (hist : List (n → K)) (t : K) :
    ∀ x r J, (sysOf (lspg name S f Df hist t dt)).resJac x = .ok (r, J) → IsUnit (Jᵀ * J).det := by
  intro x r J h
  simp only [sysOf] at h
  unfold lspg at h
  have hc : coef name hist dt ∈ rhsFactors dt name := by
    rcases hname with rfl | rfl
    · simp [coef, rhsFactors]
    · rcases hist with _ | ⟨a, _ | ⟨b, l⟩⟩ <;> simp [coef, rhsFactors]
  rcases hv : f (lift S x) (t + dt) with e | v
  · rw [hv] at h; cases h
  · rcases hD : Df (lift S x) (t + dt) with e | A
    · rw [hv, hD] at h; cases h
    · rw [hv, hD] at h; cases h
      exact hreg _ _ _ hD _ hc

/-- **C98, LSPG with QR.** An LSPG run with a Gauss-Newton object that uses a QR factorisation is the same as the run with one that solves the normal equations, with the same options (at least one iteration): same accepted reduced states, failures and
    evaluations, for step sizes with which the LSPG Jacobians have full column rank; whatever the two solver objects did before. -/
theorem C98_lspg_qr_runs {F : Fom K m m n} {f : (m → K) → K → Except Exc (m → K)} {Df Mm : (m → K) → K → Except Exc (Matrix m m K)} (hF : FomIs F f Df Mm) (hn : FomNoTSF f Df)
    (S : Trial K m n) (name : Scheme) (hname : name = .BDF1 ∨ name = .BDF2) (mem : SMem K (n → K) (n → K) (LMem K m m n)) (hmem : LspgReady name mem)
    (env : Env K m n P L) (he : InnerHonest env .gnQr) (he' : InnerHonest env .gn) (I : L → Prop) (hQ : FactorsRegular env I) (hlin : SolvesRegular env.lin) (cfg : Cfg K) (h1 : 1 ≤ cfg.maxIters) (reg reg' : Reg K m n P L) (hreg : LsIdle reg) (hreg' : LsIdle reg') (hI : I reg.lin)
    (dts : List K) (hdt : ∀ dt ∈ dts, LspgRegular name S Df dt) (t0 : K) (x0 : n → K) :
    driveObj (stepWith name (defaultPolicy S F)) (Model.Nonlinear.lsSolve env cfg .gnQr) dts t0 [x0] x0 mem reg = driveObj (stepWith name (defaultPolicy S F)) (Model.Nonlinear.lsSolve env cfg .gn) dts t0 [x0] x0 mem reg' := by
  refine policyObj_solvers (LspgRegular name S Df) name hname _ _ _ _
    ((lspgPolicy_refines name hname S _ _ (assembleDefault_ok hF S) (mem.pol.data.getD 1 0)).congrF (fun y prev t dt x w => equations_lspg name hname S f Df y prev t dt x w))
    (lspg_ne hn name S) _ _ (fine_lsSolve env cfg _ he) (fine_lsSolve env cfg _ he') (busy_lsSolve env cfg _ h1) (busy_lsSolve env cfg _ h1) (fun a b => (LsIdle a ∧ LsIdle b) ∧ I a.lin) ?_ dts hdt t0 x0 mem hmem.1
    (good_start _ S x0 mem.pol hmem.2.1 (by rcases hname with rfl | rfl <;> simp [numStates]) hmem.2.2) reg reg' ⟨⟨hreg, hreg'⟩, hI⟩
  intro rg rg' y prev t dt hd hr r r'
  have hwt := lspg_wellTyped name S f Df (y :: prev) t dt
  have hsame := C98_qr_is_normal_equations env cfg (sysOf (lspg name S f Df (y :: prev) t dt)) I hQ hlin (lspg_regular name hname S f Df dt hd (y :: prev) t) { rg with x := y } { rg' with x := y } (hr.1.1 y) (hr.1.2 y) rfl hr.2
  unfold runLs at hsame
  rw [toF_sysOf _ hwt] at hsame
  exact ⟨hsame.1.1, hsame.1.2.1, hsame.1.2.2.2.1, ⟨lsIdle_run env cfg _ _ hwt rg y hr.1.1, lsIdle_run env cfg _ _ hwt rg' y hr.1.2⟩, hsame.2⟩

/-- … and through the advancers to a target time, with and without recovery, with policies that set such sizes. -/
theorem C98_lspg_qr_target {F : Fom K m m n} {f : (m → K) → K → Except Exc (m → K)} {Df Mm : (m → K) → K → Except Exc (Matrix m m K)} (hF : FomIs F f Df Mm) (hn : FomNoTSF f Df)
    (S : Trial K m n) (name : Scheme) (hname : name = .BDF1 ∨ name = .BDF2) (mem : SMem K (n → K) (n → K) (LMem K m m n)) (hmem : LspgReady name mem)
    (env : Env K m n P L) (he : InnerHonest env .gnQr) (he' : InnerHonest env .gn) (I : L → Prop) (hQ : FactorsRegular env I) (hlin : SolvesRegular env.lin) (cfg : Cfg K) (h1 : 1 ≤ cfg.maxIters) (reg reg' : Reg K m n P L) (hreg : LsIdle reg) (hreg' : LsIdle reg') (hI : I reg.lin)
    (D : K → Prop) (hD : ∀ d q, D d → 1 < q → D (d / q)) (hdt : ∀ dt, D dt → LspgRegular name S Df dt)
    (pol3 : Int → K → K → Prog U K) (pol5 : Int → K → DtVars K → Prog U (DtVars K)) (obs : Int → K → (n → K) → Prog U Unit) (hpol : ∀ i t d u d' u', pol3 i t d u = .ok d' u' → D d')
    (hpol5 : ∀ i t v u v' u', pol5 i t v u = .ok v' u' → D v'.dt) (rec : Bool) (eps start final : K) (x0 : n → K) (fuel : Nat) (u : U) :
    visible (advanceT rec eps (userObjects (objStepper (stepWith name (defaultPolicy S F)) (Model.Nonlinear.lsSolve env cfg .gnQr)) pol3 pol5 obs) fuel start final ⟨((mem, reg), u), x0, []⟩) =
      visible (advanceT rec eps (userObjects (objStepper (stepWith name (defaultPolicy S F)) (Model.Nonlinear.lsSolve env cfg .gn)) pol3 pol5 obs) fuel start final ⟨((mem, reg'), u), x0, []⟩) :=
  C98_target D hD _ _ _ _ pol3 pol5 obs hpol hpol5 rec eps start final x0 mem mem reg reg'
    (fun dts hd => C98_lspg_qr_runs hF hn S name hname mem hmem env he he' I hQ hlin cfg h1 reg reg' hreg hreg' hI dts (fun dt h => hdt dt (hd dt h)) start x0) fuel u

/-- **C98, LSPG with identity weights.** An LSPG run with a weighted Gauss-Newton object whose weighting operator is the identity is the same as the run with a Gauss-Newton object with the same linear solver and the same options, for every step size. -/
theorem C98_lspg_identity_weights {F : Fom K m m n} {f : (m → K) → K → Except Exc (m → K)} {Df Mm : (m → K) → K → Except Exc (Matrix m m K)} (hF : FomIs F f Df Mm) (hn : FomNoTSF f Df)
    (S : Trial K m n) (name : Scheme) (hname : name = .BDF1 ∨ name = .BDF2) (mem : SMem K (n → K) (n → K) (LMem K m m n)) (hmem : LspgReady name mem)
    (env : Env K m n P L) (he : InnerHonest env .gn) (hR : ∀ r, env.wR r = r) (hJ : ∀ J, env.wJ J = J) (hE : Euclidean env.normM) (cfg : Cfg K) (h1 : 1 ≤ cfg.maxIters) (reg reg' : Reg K m n P L) (hreg : LsIdle reg) (hreg' : LsIdle reg')
    (hc : reg.c = reg'.c) (hl : reg.lin = reg'.lin) (dts : List K) (t0 : K) (x0 : n → K) :
    driveObj (stepWith name (defaultPolicy S F)) (Model.Nonlinear.lsSolve env cfg .wgn) dts t0 [x0] x0 mem reg = driveObj (stepWith name (defaultPolicy S F)) (Model.Nonlinear.lsSolve env cfg .gn) dts t0 [x0] x0 mem reg' := by
  refine policyObj_solvers (fun _ => True) name hname _ _ _ _
    ((lspgPolicy_refines name hname S _ _ (assembleDefault_ok hF S) (mem.pol.data.getD 1 0)).congrF (fun y prev t dt x w => equations_lspg name hname S f Df y prev t dt x w))
    (lspg_ne hn name S) _ _ (fine_lsSolve env cfg .wgn he) (fine_lsSolve env cfg .gn he) (busy_lsSolve env cfg _ h1) (busy_lsSolve env cfg _ h1) (fun a b => (LsIdle a ∧ LsIdle b) ∧ a.c = b.c ∧ a.lin = b.lin) ?_ dts (fun _ _ => trivial) t0 x0 mem hmem.1
    (good_start _ S x0 mem.pol hmem.2.1 (by rcases hname with rfl | rfl <;> simp [numStates]) hmem.2.2) reg reg' ⟨⟨hreg, hreg'⟩, hc, hl⟩
  intro rg rg' y prev t dt _ hr r r'
  have hwt := lspg_wellTyped name S f Df (y :: prev) t dt
  have hsame := C98_identity_weights env cfg (sysOf (lspg name S f Df (y :: prev) t dt)) hR hJ hE { rg with x := y } { rg' with x := y } (hr.1.1 y) (hr.1.2 y) rfl hr.2.1 hr.2.2
  unfold runLs at hsame
  rw [toF_sysOf _ hwt] at hsame
  exact ⟨hsame.1.1, hsame.1.2.1, hsame.1.2.2.2.1, ⟨lsIdle_run env cfg _ _ hwt rg y hr.1.1, lsIdle_run env cfg _ _ hwt rg' y hr.1.2⟩, hsame.2⟩

end
end Pressio.Props
