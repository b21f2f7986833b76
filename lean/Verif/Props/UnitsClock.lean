import Verif.Props.Units
import Verif.Props.CoordinatesGalerkin

/-
  C100 for another clock: whatever solver is used; systems with mass matrix, LSPG problems (default, hyper-reduced, masked), Galerkin problems.
-/
namespace Pressio.Props
set_option autoImplicit false
set_option linter.unusedSectionVars false
open Pressio Matrix
open Pressio.Model.Advance Pressio.Spec.AdvanceTarget Pressio.Spec.AdvanceDrive Pressio.Spec.CustomSchemes Pressio.Spec.Units Pressio.Lemmas.Units
open Pressio.Model.Nonlinear (Env Cfg Reg StopCrit Update Tag Ans SP)
open Pressio.Spec.Nonlinear Pressio.Spec.SolverAlike Pressio.Spec.Coordinates
open Pressio.Lemmas.Nonlinear Pressio.Lemmas.SolverAlike Pressio.Lemmas.Coordinates
open Pressio.Model.Implicit Pressio.Spec.Implicit Pressio.Lemmas.Implicit Pressio.Spec.SolverRun Pressio.Lemmas.SolverTree Pressio.Lemmas.SolverRun
open Pressio.Model.Explicit (Scheme System numRhs asStepper dummyObserver)
open Pressio.Model.Galerkin Pressio.Spec.Galerkin
open Pressio.Model.Lspg Pressio.Spec.Lspg Pressio.Lemmas.Lspg
open Pressio.Spec.Explicit

/-! ### Advancers -/
section
variable {K m m' n n' p p' L L' S S' U : Type} [Field K] [Fintype n] [Fintype n']

/-- **C100, advancers.** Two implicit steppers with their solvers whose runs agree up to units, for all step sizes in a set `D` in which the policy stays: their calls of `advance_n_steps` with the same policy and observer agree up to units. -/
theorem C100_n_steps (c : Clock K) (φ : (n' → K) → n → K) (D : K → Prop) (step : ((n → K) → SolveTree (n → K) (Ans K m n)) → K → K → Int → Prog (SolveSt (n → K) S (Ans K m n)) Unit)
    (step' : ((n' → K) → SolveTree (n' → K) (Ans K m' n')) → K → K → Int → Prog (SolveSt (n' → K) S' (Ans K m' n')) Unit) (solve : SP K m n p L Unit) (solve' : SP K m' n' p' L' Unit) (start : K) (y0 : n' → K) (mem : S) (mem' : S') (reg : Reg K m n p L) (reg' : Reg K m' n' p' L')
    (h : ∀ dts, (∀ d ∈ dts, D d) → (driveObj step solve (dts.map c.size) (c.time start) [φ y0] (φ y0) mem reg).map (shown id) = (driveObj step' solve' dts start [y0] y0 mem' reg').map (shownIn c φ))
    (pol pol' : Int → K → K → Prog U K) (pol5 pol5' : Int → K → DtVars K → Prog U (DtVars K)) (obs : Int → K → (n → K) → Prog U Unit) (obs' : Int → K → (n' → K) → Prog U Unit) (hpol : SamePolicy c pol pol') (hobs : SameObserver c φ obs obs') (hD : ∀ i t d u d' u', pol' i t d u = .ok d' u' → D d') (N : Int) (u : U) :
    visible (advanceN 0 (userObjects (objStepper step solve) pol pol5 obs) N (c.time start) ⟨((mem, reg), u), φ y0, []⟩) =
      seenIn c id φ (visible (advanceN 0 (userObjects (objStepper step' solve') pol' pol5' obs') N start ⟨((mem', reg'), u), y0, []⟩)) :=
  n_steps_units c _ D _ _ pol pol' pol5 pol5' obs obs' hpol hobs hD start y0 _ _ (moved_of_runs c D φ _ _ _ _ _ _ _ _ _ _ h) N u

/-- … and, if the tolerance on reaching the target is the same duration in both units, their calls of the advancers to a target time, without and with recovery -/
theorem C100_target_partial [LinearOrder K] [IsStrictOrderedRing K] (c : Clock K) (hc : 0 < c.rate) (φ : (n' → K) → n → K) (D : K → Prop) (step : ((n → K) → SolveTree (n → K) (Ans K m n)) → K → K → Int → Prog (SolveSt (n → K) S (Ans K m n)) Unit)
    (step' : ((n' → K) → SolveTree (n' → K) (Ans K m' n')) → K → K → Int → Prog (SolveSt (n' → K) S' (Ans K m' n')) Unit) (solve : SP K m n p L Unit) (solve' : SP K m' n' p' L' Unit) (start : K) (y0 : n' → K) (mem : S) (mem' : S') (reg : Reg K m n p L) (reg' : Reg K m' n' p' L')
    (h : ∀ dts, (∀ d ∈ dts, D d) → (driveObj step solve (dts.map c.size) (c.time start) [φ y0] (φ y0) mem reg).map (shown id) = (driveObj step' solve' dts start [y0] y0 mem' reg').map (shownIn c φ))
    (pol pol' : Int → K → K → Prog U K) (pol5 pol5' : Int → K → DtVars K → Prog U (DtVars K)) (obs : Int → K → (n → K) → Prog U Unit) (obs' : Int → K → (n' → K) → Prog U Unit) (hpol : SamePolicy c pol pol') (hpol5 : SamePolicy5 c pol5 pol5') (hobs : SameObserver c φ obs obs')
    (hD : ∀ i t d u d' u', pol' i t d u = .ok d' u' → D d') (hD5 : ∀ i t v u v' u', pol5' i t v u = .ok v' u' → D v'.dt) (hq : ∀ d q, D d → 1 < q → D (d / q)) (rec : Bool) (eps eps' : K) (heps : eps = c.size eps') (final : K) (fuel : Nat) (u : U) :
    visible (advanceT rec eps (userObjects (objStepper step solve) pol pol5 obs) fuel (c.time start) (c.time final) ⟨((mem, reg), u), φ y0, []⟩) =
      seenIn c c.time φ (visible (advanceT rec eps' (userObjects (objStepper step' solve') pol' pol5' obs') fuel start final ⟨((mem', reg'), u), y0, []⟩)) :=
  target_units c _ D _ _ pol pol' pol5 pol5' obs obs' hc hpol hpol5 hobs hD hD5 hq rec eps eps' heps start final y0 _ _ (moved_of_runs c D φ _ _ _ _ _ _ _ _ _ _ h) fuel u
end

/-! ### Systems with and without mass matrix -/
section
variable {K n p L : Type} [Field K] [LinearOrder K] [IsStrictOrderedRing K] [Fintype n] [DecidableEq n]

theorem chart_one (x : n → K) : chart (1 : Matrix n n K) 0 x = x := by simp [chart]
theorem chart_one_eq : chart (1 : Matrix n n K) 0 = id := funext chart_one

/-- **C100, another clock.** A system and the same system for a clock with another unit and origin (`f'(y, t') = rate f(y, rate t' + origin)`), each with an implicit stepper of the same scheme, with the same solver object, whatever it is (as long as it does not throw `TimeStepFailure`
    itself) and whatever its options: the two runs agree up to the clock. -/
theorem C100_implicit_clock (c : Clock K) (sys sys' : ISystem K (n → K) (Matrix n n K)) (hrhs : SameRhs c 1 1 0 sys sys') (hsys : NoTSF sys) (name : Scheme) (mem mem' : SMem K (n → K) (n → K) PMem) (hmem : Ready name mem) (hmem' : Ready name mem')
    (solve : SP K n n p L Unit) (hs : Fine solve) (reg : Reg K n n p L) (dts : List K) (t0 : K) (y0 : n → K) :
    (driveObj (stdStep name sys) solve (dts.map c.size) (c.time t0) [y0] y0 mem reg).map (shown id) = (driveObj (stdStep name sys') solve dts t0 [y0] y0 mem' reg).map (shownIn c id) := by
  refine runs_clock c (fun _ => True) _ _ (textbook name sys) (textbook name sys') _ _ (refinesOn_true (std_refines name (ready_name name mem hmem) _)) (refinesOn_true (std_refines name (ready_name name mem hmem) _)) (textbook_ne name _ hsys) ?_ solve hs (fun _ _ => trivial)
    dts t0 y0 mem mem' reg (ready_inv name _ mem hmem _ _) (ready_inv name _ mem' hmem' t0 _)
  intro y prev t dt x w
  rw [textbook_units (Matrix.one_mul 1) hrhs name (y :: prev) t dt x w, chart_one_eq, List.map_id]
  simp only [id]
  generalize textbook name sys (y :: prev) (c.time t) (c.size dt) x w = E
  rcases E with e | ⟨r, j⟩ <;> simp [Except.map, inUnits]

/-- the same with mass matrix (BDF1, BDF2): mass matrix `M(y, rate t' + origin)` -/
theorem C100_mass_matrix_clock {Mt : Type} (act : Mt → (n → K) → n → K) (asJac : Mt → Matrix n n K) (c : Clock K) (sys sys' : IMMSystem K (n → K) (Matrix n n K) Mt) (hrhs : SameRhsMM c sys sys') (hsys : NoTSFMM sys) (name : Scheme)
    (mem mem' : SMem K (n → K) (n → K) (MMMem (n → K) Mt)) (hmem : ReadyMM name mem) (hmem' : ReadyMM name mem') (solve : SP K n n p L Unit) (hs : Fine solve) (reg : Reg K n n p L) (dts : List K) (t0 : K) (y0 : n → K) :
    (driveObj (mmStep act asJac name sys) solve (dts.map c.size) (c.time t0) [y0] y0 mem reg).map (shown id) = (driveObj (mmStep act asJac name sys') solve dts t0 [y0] y0 mem' reg).map (shownIn c id) := by
  refine runs_clock c (fun _ => True) _ _ (textbookMM act asJac name sys) (textbookMM act asJac name sys') _ _ (refinesOn_true (mm_refines act asJac name (massReady_name name mem hmem) _)) (refinesOn_true (mm_refines act asJac name (massReady_name name mem hmem) _))
    (textbookMM_ne act asJac name _ hsys) ?_ solve hs (fun _ _ => trivial) dts t0 y0 mem mem' reg (readyMM_inv name mem hmem _ _) (readyMM_inv name mem' hmem' t0 _)
  intro y prev t dt x w
  have h1 := hrhs x (t + dt) w
  rw [← time_add] at h1
  generalize hA : sys'.eval x (t + dt) w = E at h1
  generalize hB : sys.eval x (c.time t + c.size dt) w = E' at h1
  rcases E with ⟨e, j⟩ | ⟨M, v, j⟩ <;> rcases E' with ⟨e', j'⟩ | ⟨M', v', j'⟩ <;>
    simp only [Except.mapError, Except.map, reduceCtorEq, Except.error.injEq, Except.ok.injEq] at h1
  · subst h1
    rcases massReady_name name mem hmem with rfl | rfl <;> rcases prev with _ | ⟨ynm1, prev⟩ <;> simp only [textbookMM, hA, hB]
  · obtain ⟨rfl, rfl, rfl⟩ : M = M' ∧ v = c.rate • v' ∧ j = j'.map (fun J => c.rate • J) := by simpa using h1
    have e1 : dt * c.rate = c.size dt := mul_comm _ _
    have e2 : (2:K) / 3 * dt * c.rate = (2:K) / 3 * c.size dt := by rw [mul_assoc, e1]
    rcases massReady_name name mem hmem with rfl | rfl <;> rcases prev with _ | ⟨ynm1, prev⟩ <;> simp only [textbookMM, hA, hB, Option.map_map, Function.comp_def, smul_smul, e1, e2]
end

/-! ### Reduced models -/
section
variable {K m n q p L : Type} [Field K] [LinearOrder K] [IsStrictOrderedRing K] [Fintype m] [DecidableEq m] [Fintype n] [DecidableEq n] [Fintype q]

/-- a full-order right-hand side (or its Jacobian) for another clock -/
def onClock {V : Type} [SMul K V] (c : Clock K) (f : (m → K) → K → Except Exc V) (y : m → K) (t : K) : Except Exc V := (f y (c.time t)).map (fun v => c.rate • v)

/-- **C100, implicit Galerkin on another clock.** The default Galerkin problem for a FOM and for the same FOM with another clock, with the same solver: the two runs agree up to the clock. -/
theorem C100_galerkin_clock (c : Clock K) {F F' : Fom K m m n} {f : (m → K) → K → Except Exc (m → K)} {Df Mm Mm' : (m → K) → K → Except Exc (Matrix m m K)} (hF : FomIs F f Df Mm) (hF' : FomIs F' (onClock c f) (onClock c Df) Mm') (hn : FomNoTSF f Df)
    (S : Trial K m n) (s0 s0' : GSt K m m q n) (name : Scheme) (mem mem' : SMem K (n → K) (n → K) PMem) (hmem : Ready name mem) (hmem' : Ready name mem') (solve : SP K n n p L Unit) (hs : Fine solve) (reg : Reg K n n p L) (dts : List K) (t0 : K) (x0 : n → K) :
    (driveObj (stdStep name (asISystem (defaultRhsJac S F) s0)) solve (dts.map c.size) (c.time t0) [x0] x0 mem reg).map (shown id) =
      (driveObj (stdStep name (asISystem (defaultRhsJac S F') s0')) solve dts t0 [x0] x0 mem' reg).map (shownIn c id) := by
  refine C100_implicit_clock c _ _ ?_ (galerkin_noTSF hF hn S s0) name mem mem' hmem hmem' solve hs reg dts t0 x0
  intro x t w
  rw [galerkin_eval hF' S s0' x t w, chart_one, galerkin_eval hF S s0 x (c.time t) w]
  simp only [fomSystem, onClock]
  rcases f (lift S x) (c.time t) with e | v
  · rfl
  cases w
  · simp [Except.map, Except.mapError, project, Matrix.mulVec_smul]
  · rcases Df (lift S x) (c.time t) with e | J
    · rfl
    · simp [Except.map, Except.mapError, project, Matrix.mulVec_smul]

theorem policyObj_clock {Pm : Type} {p' : Type} (c : Clock K) (name : Scheme) (hname : name = .BDF1 ∨ name = .BDF2) (policy policy' : Policy K (n → K) (n → K) Pm (Ans K p' n))
    (F F' : List (n → K) → K → K → (n → K) → Bool → Except Exc (Ans K p' n)) (PI PD PI' PD' : List (n → K) → List (n → K) → Pm → Prop)
    (h : PolicyRefinesA name policy F (StOf name) PI PD) (h' : PolicyRefinesA name policy' F' (StOf name) PI' PD') (hF : ∀ hist t dt x w, F hist t dt x w ≠ .error .timeStepFailure) (hFF : ∀ y prev t dt x w, F' (y :: prev) t dt x w = F (y :: prev) (c.time t) (c.size dt) x w)
    (solve : SP K p' n p L Unit) (hs : Fine solve) (hb : Busy solve) (dts : List K) (t0 : K) (x0 : n → K) (mem mem' : SMem K (n → K) (n → K) Pm) (hmem : Sized name mem) (hmem' : Sized name mem') (hp : PI [x0] mem.rhs mem.pol) (hp' : PI' [x0] mem'.rhs mem'.pol) (reg : Reg K p' n p L) :
    (driveObj (stepWith name policy) solve (dts.map c.size) (c.time t0) [x0] x0 mem reg).map (shown id) = (driveObj (stepWith name policy') solve dts t0 [x0] x0 mem' reg).map (shownIn c id) := by
  rcases hname with rfl | rfl
  · exact runs_clock c Asks _ _ F F' _ _ (refinesOn_asks (refines_bdf1_asked policy F PI PD h)) (refinesOn_asks (refines_bdf1_asked policy' F' PI' PD' h')) hF hFF solve hs (asks_solverOf solve hb) dts t0 x0 mem mem' reg ⟨hmem, hp⟩ ⟨hmem', hp'⟩
  · obtain ⟨a, b, hab⟩ := List.length_eq_two.1 hmem
    obtain ⟨a', b', hab'⟩ := List.length_eq_two.1 hmem'
    exact runs_clock c Asks _ _ F F' _ _ (refinesOn_asks (refines_bdf2_asked policy F PI PD h)) (refinesOn_asks (refines_bdf2_asked policy' F' PI' PD' h')) hF hFF solve hs (asks_solverOf solve hb) dts t0 x0 mem mem' reg
      ⟨⟨a, b, hab, by simp⟩, hp⟩ ⟨⟨a', b', hab', by simp⟩, hp'⟩

theorem coef_clock {V : Type} (c : Clock K) (name : Scheme) (hist : List V) (dt : K) : coef name hist dt * c.rate = coef name hist (c.size dt) := by
  unfold coef Clock.size
  split <;> ring

theorem lspg_clock (c : Clock K) (name : Scheme) (S : Trial K m n) (f : (m → K) → K → Except Exc (m → K)) (Df : (m → K) → K → Except Exc (Matrix m m K)) (hist : List (n → K)) (t dt : K) (x : n → K) (w : Bool) :
    lspg name S (onClock c f) (onClock c Df) hist t dt x w = lspg name S f Df hist (c.time t) (c.size dt) x w := by
  unfold lspg onClock
  rw [time_add]
  rcases f (lift S x) (c.time (t + dt)) with e | v
  · rfl
  rcases Df (lift S x) (c.time (t + dt)) with e | J <;> cases w <;> simp [Except.map, bind, Except.bind, pure, Except.pure, smul_smul, coef_clock]

theorem hypredLspg_clock {P : Type} [Fintype P] (c : Clock K) (E : Matrix P m K) (name : Scheme) (S : Trial K m n) (f : (m → K) → K → Except Exc (P → K)) (Df : (m → K) → K → Except Exc (Matrix P m K)) (hist : List (n → K)) (t dt : K) (x : n → K) (w : Bool) :
    hypredLspg E name S (onClock c f) (onClock c Df) hist t dt x w = hypredLspg E name S f Df hist (c.time t) (c.size dt) x w := by
  unfold hypredLspg onClock
  rw [time_add]
  rcases f (lift S x) (c.time (t + dt)) with e | v
  · rfl
  rcases Df (lift S x) (c.time (t + dt)) with e | J <;> cases w <;> simp [Except.map, bind, Except.bind, pure, Except.pure, smul_smul, coef_clock]

/-- **C100, LSPG on another clock.** The LSPG problem for a FOM and for the same FOM with another clock, with the same solver, whatever it is (as long as it evaluates before it returns, and does not throw `TimeStepFailure` itself): the two runs agree up to the clock. -/
theorem C100_lspg_clock (c : Clock K) {F F' : Fom K m m n} {f : (m → K) → K → Except Exc (m → K)} {Df Mm Mm' : (m → K) → K → Except Exc (Matrix m m K)} (hF : FomIs F f Df Mm) (hF' : FomIs F' (onClock c f) (onClock c Df) Mm') (hn : FomNoTSF f Df)
    (S : Trial K m n) (name : Scheme) (hname : name = .BDF1 ∨ name = .BDF2) (mem mem' : SMem K (n → K) (n → K) (LMem K m m n)) (hmem : LspgReady name mem) (hmem' : LspgReady name mem') (solve : SP K m n p L Unit) (hs : Fine solve) (hb : Busy solve)
    (reg : Reg K m n p L) (dts : List K) (t0 : K) (x0 : n → K) :
    (driveObj (stepWith name (defaultPolicy S F)) solve (dts.map c.size) (c.time t0) [x0] x0 mem reg).map (shown id) = (driveObj (stepWith name (defaultPolicy S F')) solve dts t0 [x0] x0 mem' reg).map (shownIn c id) :=
  policyObj_clock c name hname _ _ _ _ _ _ _ _
    ((lspgPolicy_refines name hname S _ _ (assembleDefault_ok hF S) (mem.pol.data.getD 1 0)).congrF (fun y prev t dt x w => equations_lspg name hname S f Df y prev t dt x w))
    ((lspgPolicy_refines name hname S _ _ (assembleDefault_ok hF' S) (mem'.pol.data.getD 1 0)).congrF (fun y prev t dt x w => equations_lspg name hname S (onClock c f) (onClock c Df) y prev t dt x w))
    (lspg_ne hn name S) (fun y prev t dt x w => lspg_clock c name S f Df (y :: prev) t dt x w) solve hs hb dts t0 x0 mem mem' hmem.1 hmem'.1
    (good_start _ S _ mem.pol hmem.2.1 (by rcases hname with rfl | rfl <;> simp [numStates]) hmem.2.2) (good_start _ S _ mem'.pol hmem'.2.1 (by rcases hname with rfl | rfl <;> simp [numStates]) hmem'.2.2) reg

/-- the same for hyper-reduced LSPG problems -/
theorem C100_hyper_reduced_lspg_clock {P : Type} [Fintype P] (c : Clock K) {F F' : Fom K m P n} {f : (m → K) → K → Except Exc (P → K)} {Df Mm Mm' : (m → K) → K → Except Exc (Matrix P m K)} (hF : FomIs F f Df Mm) (hF' : FomIs F' (onClock c f) (onClock c Df) Mm')
    (h1 : ∀ y t, f y t ≠ .error .timeStepFailure) (h2 : ∀ y t, Df y t ≠ .error .timeStepFailure) (U : Updater K m P n) (E : Matrix P m K) (hU : UpdaterIs U E)
    (S : Trial K m n) (name : Scheme) (hname : name = .BDF1 ∨ name = .BDF2) (mem mem' : SMem K (n → K) (n → K) (LMem K m P n)) (hmem : LspgReady name mem) (hmem' : LspgReady name mem') (solve : SP K P n p L Unit) (hs : Fine solve) (hb : Busy solve)
    (reg : Reg K P n p L) (dts : List K) (t0 : K) (x0 : n → K) :
    (driveObj (stepWith name (hypredPolicy U S F)) solve (dts.map c.size) (c.time t0) [x0] x0 mem reg).map (shown id) = (driveObj (stepWith name (hypredPolicy U S F')) solve dts t0 [x0] x0 mem' reg).map (shownIn c id) :=
  policyObj_clock c name hname _ _ _ _ _ _ _ _
    ((lspgPolicy_refines name hname S _ _ (assembleHypred_ok hF S U E hU) (mem.pol.data.getD 1 0)).congrF (fun y prev t dt x w => equations_hypred E name hname S f Df y prev t dt x w))
    ((lspgPolicy_refines name hname S _ _ (assembleHypred_ok hF' S U E hU) (mem'.pol.data.getD 1 0)).congrF (fun y prev t dt x w => equations_hypred E name hname S (onClock c f) (onClock c Df) y prev t dt x w))
    (hypredLspg_ne h1 h2 E name S) (fun y prev t dt x w => hypredLspg_clock c E name S f Df (y :: prev) t dt x w) solve hs hb dts t0 x0 mem mem' hmem.1 hmem'.1
    (good_start _ S _ mem.pol hmem.2.1 (by rcases hname with rfl | rfl <;> simp [numStates]) hmem.2.2) (good_start _ S _ mem'.pol hmem'.2.1 (by rcases hname with rfl | rfl <;> simp [numStates]) hmem'.2.2) reg

/-- the same for masked LSPG problems -/
theorem C100_masked_lspg_clock {P : Type} [Fintype P] (c : Clock K) {F F' : Fom K m m n} {f : (m → K) → K → Except Exc (m → K)} {Df Mm Mm' : (m → K) → K → Except Exc (Matrix m m K)} (hF : FomIs F f Df Mm) (hF' : FomIs F' (onClock c f) (onClock c Df) Mm') (hn : FomNoTSF f Df)
    {Mk : Masker K m P n} {mv : (m → K) → (P → K)} {mm : Matrix m n K → Matrix P n K} (hM : MaskIs Mk mv mm) (S : Trial K m n) (name : Scheme) (hname : name = .BDF1 ∨ name = .BDF2) (mem mem' : SMem K (n → K) (n → K) (LMem K m m n × (P → K) × Matrix P n K))
    (hz : Sized name mem ∧ mem.pol.1.data.length = numStates name ∧ mem.pol.1.tracker ≠ 1) (hz' : Sized name mem' ∧ mem'.pol.1.data.length = numStates name ∧ mem'.pol.1.tracker ≠ 1) (solve : SP K P n p L Unit) (hs : Fine solve) (hb : Busy solve)
    (reg : Reg K P n p L) (dts : List K) (t0 : K) (x0 : n → K) :
    (driveObj (stepWith name (maskDecorator Mk (defaultPolicy S F))) solve (dts.map c.size) (c.time t0) [x0] x0 mem reg).map (shown id) =
      (driveObj (stepWith name (maskDecorator Mk (defaultPolicy S F'))) solve dts t0 [x0] x0 mem' reg).map (shownIn c id) :=
  policyObj_clock c name hname _ _ _ _ _ _ _ _ (masked_refines hF hM S name hname (mem.pol.1.data.getD 1 0)) (masked_refines hF' hM S name hname (mem'.pol.1.data.getD 1 0)) (maskedLspg_ne hn mv mm name S)
    (fun y prev t dt x w => by unfold maskedLspg; rw [lspg_clock]) solve hs hb dts t0 x0 mem mem' hz.1 hz'.1
    (good_start _ S x0 mem.pol.1 hz.2.1 (by rcases hname with rfl | rfl <;> simp [numStates]) hz.2.2) (good_start _ S x0 mem'.pol.1 hz'.2.1 (by rcases hname with rfl | rfl <;> simp [numStates]) hz'.2.2) reg
end
end Pressio.Props
