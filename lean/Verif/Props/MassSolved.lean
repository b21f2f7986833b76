import Verif.Props.FullBasisAdvance

/-
  C105: an implicit stepper for `M(t) dy/dt = f` goes through the same run as one for `dy/dt = M(t)⁻¹ f`.
-/
namespace Pressio.Props
set_option autoImplicit false
set_option linter.unusedSectionVars false
open Pressio Matrix
open Pressio.Model.Advance Pressio.Spec.AdvanceTarget Pressio.Spec.AdvanceDrive Pressio.Spec.CustomSchemes Pressio.Spec.Units Pressio.Lemmas.Units
open Pressio.Model.Nonlinear (Env Cfg Reg StopCrit Update Tag newContainer newtonDiagnostics Ans SP)
open Pressio.Spec.Nonlinear Pressio.Spec.SolverAlike Pressio.Spec.Coordinates
open Pressio.Lemmas.Nonlinear Pressio.Lemmas.SolverAlike Pressio.Lemmas.Coordinates
open Pressio.Model.Implicit Pressio.Spec.Implicit Pressio.Lemmas.Implicit Pressio.Spec.SolverRun Pressio.Lemmas.SolverTree Pressio.Lemmas.SolverRun
open Pressio.Model.Explicit (Scheme)
open Pressio.Model.Galerkin Pressio.Spec.Galerkin Pressio.Model.Lspg Pressio.Spec.Lspg Pressio.Spec.Run Pressio.Lemmas.Lspg

section
variable {K n p p' L L' U : Type} [Field K] [LinearOrder K] [IsStrictOrderedRing K] [Fintype n] [DecidableEq n] [Fintype p] [Fintype p']

/-- the right-hand side of the equation solved for the time derivative, `M(t)⁻¹ f(y, t)`; it throws when `f` throws -/
noncomputable def solvedRhs (M : K → Matrix n n K) (f : (n → K) → K → Except Exc (n → K)) (y : n → K) (t : K) : Except Exc (n → K) := (f y t).map (fun v => (M t)⁻¹ *ᵥ v)
/-- its Jacobian, `M(t)⁻¹ df/dy` -/
noncomputable def solvedJac (M : K → Matrix n n K) (Df : (n → K) → K → Except Exc (Matrix n n K)) (y : n → K) (t : K) : Except Exc (Matrix n n K) := (Df y t).map (fun D => (M t)⁻¹ * D)

/-- the equations of a step with mass matrix are those of the step without, combined by the mass matrix at the end of the step -/
theorem solved_textbook (f : (n → K) → K → Except Exc (n → K)) (Df : (n → K) → K → Except Exc (Matrix n n K)) (M : K → Matrix n n K) (hM : ∀ t, IsUnit (M t).det) (name : Scheme) (hname : name = .BDF1 ∨ name = .BDF2) (yn : n → K) (prev : List (n → K)) (t dt : K) (x : n → K) (w : Bool) :
    textbookMM Matrix.mulVec id name (fomSystemMM f Df (fun _ t => .ok (M t))) (yn :: prev) t dt x w =
      (textbook name (fomSystem (solvedRhs M f) (solvedJac M Df)) (yn :: prev) t dt x w).map (fun v => (M (t + dt) *ᵥ v.1, v.2.map (fun J => M (t + dt) * J))) := by
  have h1 : ∀ v, M (t + dt) *ᵥ ((M (t + dt))⁻¹ *ᵥ v) = v := fun v => by rw [Matrix.mulVec_mulVec, Matrix.mul_nonsing_inv _ (hM _), Matrix.one_mulVec]
  have h2 : ∀ D, M (t + dt) * ((M (t + dt))⁻¹ * D) = D := fun D => by rw [← Matrix.mul_assoc, Matrix.mul_nonsing_inv _ (hM _), Matrix.one_mul]
  rcases hf : f x (t + dt) with e | v
  · rcases hname with rfl | rfl <;> rcases prev with _ | ⟨a, l⟩ <;> simp [textbook, textbookMM, fomSystem, fomSystemMM, solvedRhs, hf, Except.map, bind, Except.bind, Except.mapError]
  cases w
  · rcases hname with rfl | rfl <;> rcases prev with _ | ⟨a, l⟩ <;>
      simp [textbook, textbookMM, fomSystem, fomSystemMM, solvedRhs, hf, Except.map, bind, Except.bind, Except.mapError, pure, Except.pure, bdf1Res, bdf2Res, Matrix.mulVec_sub, Matrix.mulVec_add, Matrix.mulVec_smul, h1]
  · rcases hD : Df x (t + dt) with e | D
    · rcases hname with rfl | rfl <;> rcases prev with _ | ⟨a, l⟩ <;> simp [textbook, textbookMM, fomSystem, fomSystemMM, solvedRhs, solvedJac, hf, hD, Except.map, bind, Except.bind, Except.mapError]
    · rcases hname with rfl | rfl <;> rcases prev with _ | ⟨a, l⟩ <;>
        simp [textbook, textbookMM, fomSystem, fomSystemMM, solvedRhs, solvedJac, hf, hD, Except.map, bind, Except.bind, Except.mapError, pure, Except.pure, bdf1Res, bdf2Res, bdf1Jac, bdf2Jac, Matrix.mulVec_sub, Matrix.mulVec_add, Matrix.mulVec_smul, Matrix.mul_sub, h1, h2]

theorem solved_noTSF {f : (n → K) → K → Except Exc (n → K)} {Df : (n → K) → K → Except Exc (Matrix n n K)} (M : K → Matrix n n K) (hn : FomNoTSF f Df) : FomNoTSF (solvedRhs M f) (solvedJac M Df) := by
  constructor
  · intro y t
    have := hn.1 y t
    unfold solvedRhs
    rcases hf : f y t with e | v
    · intro h; cases h; exact this hf
    · intro h; cases h
  · intro y t
    have := hn.2 y t
    unfold solvedJac
    rcases hf : Df y t with e | v
    · intro h; cases h; exact this hf
    · intro h; cases h

theorem solved_regular {Df : (n → K) → K → Except Exc (Matrix n n K)} (M : K → Matrix n n K) (hM : ∀ t, IsUnit (M t).det) (name : Scheme) (dt : K) (h : FomRegularMM name Df (fun _ t => .ok (M t)) dt) : FomRegular name (solvedJac M Df) dt := by
  intro y t D hD c hc
  unfold solvedJac at hD
  rcases hDf : Df y t with e | D0
  · rw [hDf] at hD; cases hD
  rw [hDf] at hD
  cases hD
  have hu := h y t (M t) D0 rfl hDf c hc
  have e : M t - c • D0 = M t * (1 - c • ((M t)⁻¹ * D0)) := by
    rw [Matrix.mul_sub, Matrix.mul_one, Matrix.mul_smul, ← Matrix.mul_assoc, Matrix.mul_nonsing_inv _ (hM t), Matrix.one_mul]
  rw [e, Matrix.det_mul] at hu
  exact isUnit_of_mul_isUnit_right hu

/-- **C105.** Let `M(t)` be invertible.  An implicit stepper with mass matrix (BDF1, BDF2) for `M(t) dy/dt = f(y, t)` and one without for `dy/dt = M(t)⁻¹ f(y, t)`, each with its own Newton object with the same options, from the same initial state, through the same step sizes: the two runs go through the same states,
    accept and fail in the same steps in the same way, and evaluate the system at the same states; for every criterion that measures the same for both (always so for the correction), if the matrices of the steps are regular; whatever the objects did before. -/
theorem C105_implicit {f : (n → K) → K → Except Exc (n → K)} {Df : (n → K) → K → Except Exc (Matrix n n K)} (hn : FomNoTSF f Df) (M : K → Matrix n n K) (hM : ∀ t, IsUnit (M t).det)
    (sysM : IMMSystem K (n → K) (Matrix n n K) (Matrix n n K)) (hsysM : OdeIsMM sysM f Df (fun _ t => .ok (M t))) (sys : ISystem K (n → K) (Matrix n n K)) (hsys : OdeIs sys (solvedRhs M f) (solvedJac M Df))
    (name : Scheme) (mem : SMem K (n → K) (n → K) PMem) (memM : SMem K (n → K) (n → K) (MMMem (n → K) (Matrix n n K))) (hmem : Ready name mem) (hmemM : ReadyMM name memM)
    (env : Env K n n p L) (envM : Env K n n p' L') (he : ∀ A b s, (env.linJ A b s).stop? ≠ some (.exc .timeStepFailure)) (heM : ∀ A b s, (envM.linJ A b s).stop? ≠ some (.exc .timeStepFailure)) (hlin : SolvesRegular env.linJ) (hlinM : SolvesRegular envM.linJ)
    (cfg : Cfg K) (hupd : cfg.update = .Standard ∨ ∀ t r, envM.normM (M t *ᵥ r) = env.normM r) (hcrit : ∀ t, SameMeasure (M t) 1 env.normM envM.normM env.normN envM.normN cfg.stop) (reg : Reg K n n p L) (regM : Reg K n n p' L') (hreg : NewtonIdle reg) (hregM : NewtonIdle regM)
    (dts : List K) (hdt : ∀ dt ∈ dts, FomRegularMM name Df (fun _ t => .ok (M t)) dt) (t0 : K) (y0 : n → K) :
    (driveObj (mmStep Matrix.mulVec id name sysM) (Model.Nonlinear.newtonSolve envM cfg) dts t0 [y0] y0 memM regM).map (shown id) =
      (driveObj (stdStep name sys) (Model.Nonlinear.newtonSolve env cfg) dts t0 [y0] y0 mem reg).map (shown id) := by
  have hname := massReady_name name memM hmemM
  symm
  refine driveObj_moved (FomRegularMM name Df (fun _ t => .ok (M t))) id (fun _ => True) (fun _ => True) _ _ (textbook name sys) (textbookMM Matrix.mulVec id name sysM) _ _
    (refinesOn_true (std_refines name (ready_name name mem hmem) _)) (refinesOn_true (mm_refines Matrix.mulVec id name hname _)) (textbook_ne name _ (odeIs_noTSF hsys (solved_noTSF M hn))) _ _ (fine_newtonSolve env he cfg) (fine_newtonSolve envM heM cfg)
    (fun _ _ => trivial) (fun _ _ => trivial) (fun a b => NewtonIdle a ∧ NewtonIdle b) ?_ dts hdt t0 y0 [] mem memM reg regM (ready_inv name _ mem hmem t0 _) (readyMM_inv name memM hmemM t0 _) ⟨hreg, hregM⟩
  intro rg rg' y prev t dt hd hr r r'
  have hwt := textbook_wellTyped name _ (odeIs_wellTyped hsys) ((y :: prev).map id) t dt
  have hwt' := textbookMM_wellTyped Matrix.mulVec id name _ (fun y t w M f j h => (odeIsMM_eval hsysM y t w M f j h).2.1) (y :: prev) t dt
  have hsame := C99_newton env envM cfg (M (t + dt)) 1 0 (hM _) (by simp) (sysOf (textbook name sys ((y :: prev).map id) t dt)) (sysOf (textbookMM Matrix.mulVec id name sysM (y :: prev) t dt))
    (sysOf_units _ _ (fun x w => by
      rw [odeIs_textbook hsys, odeIsMM_textbook hsysM, solved_textbook f Df M hM name hname, chart_one, List.map_id]
      generalize textbook name (fomSystem (solvedRhs M f) (solvedJac M Df)) (y :: prev) t dt x w = E
      rcases E with e | ⟨v, j⟩ <;> simp [Except.map, inUnits]))
    (hupd.imp id (fun h => h _)) (hcrit _) hlin hlinM (textbook_regular name _ dt (fun y t v J h => solved_regular M hM name dt hd y t J (odeIs_eval hsys y t v J h)) _ t) { rg with x := y } { rg' with x := y } (hr.1 _) (hr.2 y) (chart_one y).symm
  unfold runNewton at hsame
  rw [toF_sysOf _ hwt, toF_sysOf _ hwt', chart_one_eq] at hsame
  exact ⟨hsame, newtonIdle_run env cfg _ hwt rg _ hr.1, newtonIdle_run envM cfg _ hwt' rg' y hr.2⟩

theorem event_same {Y : Type} (e : Ev K Y) : event sameClock id e = e := by cases e <;> simp [event, sameClock_time, sameClock_size, sameClock_vars]
theorem seenIn_same {Y α : Type} (r : Except Stop α × Y × List (Ev K Y) × U) : seenIn sameClock id id r = r := by
  obtain ⟨e, y, l, u⟩ := r
  simp only [seenIn, show event (Y' := Y) (sameClock (K := K)) id = id from funext event_same, List.map_id, id]
  rcases e with e | a <;> rfl

/-- … and a call of `advance_n_steps` is the same for the caller with both: how it ends, the state, and all calls of policy, stepper and observer; for policies that choose sizes of regular steps -/
theorem C105_n_steps {f : (n → K) → K → Except Exc (n → K)} {Df : (n → K) → K → Except Exc (Matrix n n K)} (hn : FomNoTSF f Df) (M : K → Matrix n n K) (hM : ∀ t, IsUnit (M t).det)
    (sysM : IMMSystem K (n → K) (Matrix n n K) (Matrix n n K)) (hsysM : OdeIsMM sysM f Df (fun _ t => .ok (M t))) (sys : ISystem K (n → K) (Matrix n n K)) (hsys : OdeIs sys (solvedRhs M f) (solvedJac M Df))
    (name : Scheme) (mem : SMem K (n → K) (n → K) PMem) (memM : SMem K (n → K) (n → K) (MMMem (n → K) (Matrix n n K))) (hmem : Ready name mem) (hmemM : ReadyMM name memM)
    (env : Env K n n p L) (envM : Env K n n p' L') (he : ∀ A b s, (env.linJ A b s).stop? ≠ some (.exc .timeStepFailure)) (heM : ∀ A b s, (envM.linJ A b s).stop? ≠ some (.exc .timeStepFailure)) (hlin : SolvesRegular env.linJ) (hlinM : SolvesRegular envM.linJ)
    (cfg : Cfg K) (hupd : cfg.update = .Standard ∨ ∀ t r, envM.normM (M t *ᵥ r) = env.normM r) (hcrit : ∀ t, SameMeasure (M t) 1 env.normM envM.normM env.normN envM.normN cfg.stop) (reg : Reg K n n p L) (regM : Reg K n n p' L') (hreg : NewtonIdle reg) (hregM : NewtonIdle regM)
    (pol : Int → K → K → Prog U K) (pol5 : Int → K → DtVars K → Prog U (DtVars K)) (obs : Int → K → (n → K) → Prog U Unit) (hD : ∀ i t d u d' u', pol i t d u = .ok d' u' → FomRegularMM name Df (fun _ t => .ok (M t)) d') (N : Int) (start : K) (y0 : n → K) (u : U) :
    visible (advanceN 0 (userObjects (objStepper (mmStep Matrix.mulVec id name sysM) (Model.Nonlinear.newtonSolve envM cfg)) pol pol5 obs) N start ⟨((memM, regM), u), y0, []⟩) =
      visible (advanceN 0 (userObjects (objStepper (stdStep name sys) (Model.Nonlinear.newtonSolve env cfg)) pol pol5 obs) N start ⟨((mem, reg), u), y0, []⟩) := by
  have hrun := C100_n_steps sameClock id (FomRegularMM name Df (fun _ t => .ok (M t))) (stdStep name sys) (mmStep Matrix.mulVec id name sysM) (Model.Nonlinear.newtonSolve env cfg) (Model.Nonlinear.newtonSolve envM cfg) start y0 mem memM reg regM
    (fun dts hd => by
      rw [sameClock_time, show dts.map sameClock.size = dts by simp [funext sameClock_size], shown_same]
      exact (C105_implicit hn M hM sysM hsysM sys hsys name mem memM hmem hmemM env envM he heM hlin hlinM cfg hupd hcrit reg regM hreg hregM dts hd start y0).symm) pol pol pol5 pol5 obs obs
    (fun i t d u => by rw [sameClock_time, sameClock_size]; rcases pol i t d u with ⟨d', u'⟩ | ⟨e, u'⟩ <;> simp [sameClock_size]) (fun i t y u => by rw [sameClock_time]; rfl) hD N u
  rw [sameClock_time, seenIn_same] at hrun
  exact hrun.symm

/-- … and so are calls of the advancers to a target time, without and with recovery -/
theorem C105_target {f : (n → K) → K → Except Exc (n → K)} {Df : (n → K) → K → Except Exc (Matrix n n K)} (hn : FomNoTSF f Df) (M : K → Matrix n n K) (hM : ∀ t, IsUnit (M t).det)
    (sysM : IMMSystem K (n → K) (Matrix n n K) (Matrix n n K)) (hsysM : OdeIsMM sysM f Df (fun _ t => .ok (M t))) (sys : ISystem K (n → K) (Matrix n n K)) (hsys : OdeIs sys (solvedRhs M f) (solvedJac M Df))
    (name : Scheme) (mem : SMem K (n → K) (n → K) PMem) (memM : SMem K (n → K) (n → K) (MMMem (n → K) (Matrix n n K))) (hmem : Ready name mem) (hmemM : ReadyMM name memM)
    (env : Env K n n p L) (envM : Env K n n p' L') (he : ∀ A b s, (env.linJ A b s).stop? ≠ some (.exc .timeStepFailure)) (heM : ∀ A b s, (envM.linJ A b s).stop? ≠ some (.exc .timeStepFailure)) (hlin : SolvesRegular env.linJ) (hlinM : SolvesRegular envM.linJ)
    (cfg : Cfg K) (hupd : cfg.update = .Standard ∨ ∀ t r, envM.normM (M t *ᵥ r) = env.normM r) (hcrit : ∀ t, SameMeasure (M t) 1 env.normM envM.normM env.normN envM.normN cfg.stop) (reg : Reg K n n p L) (regM : Reg K n n p' L') (hreg : NewtonIdle reg) (hregM : NewtonIdle regM)
    (D : K → Prop) (hdt : ∀ d, D d → FomRegularMM name Df (fun _ t => .ok (M t)) d) (hq : ∀ d q, D d → 1 < q → D (d / q)) (pol : Int → K → K → Prog U K) (pol5 : Int → K → DtVars K → Prog U (DtVars K)) (obs : Int → K → (n → K) → Prog U Unit)
    (hD : ∀ i t d u d' u', pol i t d u = .ok d' u' → D d') (hD5 : ∀ i t v u v' u', pol5 i t v u = .ok v' u' → D v'.dt) (rec : Bool) (eps start final : K) (fuel : Nat) (y0 : n → K) (u : U) :
    visible (advanceT rec eps (userObjects (objStepper (mmStep Matrix.mulVec id name sysM) (Model.Nonlinear.newtonSolve envM cfg)) pol pol5 obs) fuel start final ⟨((memM, regM), u), y0, []⟩) =
      visible (advanceT rec eps (userObjects (objStepper (stdStep name sys) (Model.Nonlinear.newtonSolve env cfg)) pol pol5 obs) fuel start final ⟨((mem, reg), u), y0, []⟩) := by
  have hrun := C100_target_partial sameClock (by simp [sameClock]) id D (stdStep name sys) (mmStep Matrix.mulVec id name sysM) (Model.Nonlinear.newtonSolve env cfg) (Model.Nonlinear.newtonSolve envM cfg) start y0 mem memM reg regM
    (fun dts hd => by
      rw [sameClock_time, show dts.map sameClock.size = dts by simp [funext sameClock_size], shown_same]
      exact (C105_implicit hn M hM sysM hsysM sys hsys name mem memM hmem hmemM env envM he heM hlin hlinM cfg hupd hcrit reg regM hreg hregM dts (fun d h => hdt d (hd d h)) start y0).symm) pol pol pol5 pol5 obs obs
    (fun i t d u => by rw [sameClock_time, sameClock_size]; rcases pol i t d u with ⟨d', u'⟩ | ⟨e, u'⟩ <;> simp [sameClock_size])
    (fun i t v u => by rw [sameClock_time, sameClock_vars]; rcases pol5 i t v u with ⟨d', u'⟩ | ⟨e, u'⟩ <;> simp [sameClock_vars]) (fun i t y u => by rw [sameClock_time]; rfl) hD hD5 hq rec eps eps (sameClock_size eps).symm final fuel u
  rw [sameClock_time, sameClock_time, show (sameClock : Clock K).time = id from funext sameClock_time, seenIn_same] at hrun
  exact hrun.symm
end

/-! ### Cases -/

/-- a mass matrix that changes in time -/
noncomputable def growing (t : ℝ) : Matrix (Fin 2) (Fin 2) ℝ := !![1 + t ^ 2, 0; t, 2]
theorem growing_regular (t : ℝ) : IsUnit (growing t).det := by
  apply isUnit_iff_ne_zero.2
  have : 0 ≤ t ^ 2 := sq_nonneg t
  simp [growing, Matrix.det_fin_two]
  linarith

theorem growing_steps (dt : ℝ) (h : 0 < dt) : FomRegularMM .BDF2 (fun (y : Fin 2 → ℝ) (_ : ℝ) => .ok !![-1, 0; 2 * y 0, 0]) (fun _ t => .ok (growing t)) dt := by
  intro y t A D hA hD c hc
  cases hA
  cases hD
  have h0 : 0 < c := by
    simp [rhsFactors] at hc
    rcases hc with rfl | rfl <;> linarith
  have : 0 ≤ t ^ 2 := sq_nonneg t
  apply isUnit_iff_ne_zero.2
  rw [Matrix.det_fin_two]
  simp [growing]
  linarith

noncomputable def cfgSteps : Cfg ℝ := ⟨10, .WhenRelativel2NormOfCorrectionBelowTolerance, 1/100, .Standard, none⟩

example := C105_implicit chain_noTSF growing growing_regular _ (fomSystemMM_is _ _ _) _ (fomSystem_is _ _) .BDF2 memBdf memMMR (by simp [Ready, memBdf, freshPMem]) rfl envInv envInv (by simp [envInv]) (by simp [envInv]) envInv_solves envInv_solves
  cfgSteps (.inl rfl) (fun _ c => by simp) regInv regInv (fun _ => .created _ rfl) (fun _ => .created _ rfl) [1, 1/2, 3] (fun dt h => growing_steps dt (positive_steps dt h)) 0 ![1, -1]
example := C105_n_steps chain_noTSF growing growing_regular _ (fomSystemMM_is _ _ _) _ (fomSystem_is _ _) .BDF2 memBdf memMMR (by simp [Ready, memBdf, freshPMem]) rfl envInv envInv (by simp [envInv]) (by simp [envInv]) envInv_solves envInv_solves
  cfgSteps (.inl rfl) (fun _ c => by simp) regInv regInv (fun _ => .created _ rfl) (fun _ => .created _ rfl) (fun i _ _ u => .ok (1 / (i ^ 2 + 1)) u) (fun _ _ v => pure v) (fun _ t y (u : ℝ) => .ok () (u + t + y 0)) (by intro i t d u d' u' h; cases h; exact growing_steps _ (by positivity)) 6 0 ![1, -1] 0
example (rec : Bool) := C105_target chain_noTSF growing growing_regular _ (fomSystemMM_is _ _ _) _ (fomSystem_is _ _) .BDF2 memBdf memMMR (by simp [Ready, memBdf, freshPMem]) rfl envInv envInv (by simp [envInv]) (by simp [envInv]) envInv_solves envInv_solves
  cfgSteps (.inl rfl) (fun _ c => by simp) regInv regInv (fun _ => .created _ rfl) (fun _ => .created _ rfl) (fun d => 0 < d) growing_steps (fun d q hd hq => by positivity) (fun i _ _ u => .ok (1 / (i ^ 2 + 1)) u) (fun _ _ _ u => .ok ⟨1/4, 1/8, 2⟩ u) (fun _ t y (u : ℝ) => .ok () (u + t + y 0))
  (by intro i t d u d' u' h; cases h; positivity) (by intro i t d u d' u' h; cases h; norm_num) rec (1/1000) 0 3 10 ![1, -1] 0

/-- `(1 + y²) y' = 1` -/
def heavy : IMMSystem ℚ (Unit → ℚ) (Matrix Unit Unit ℚ) (Matrix Unit Unit ℚ) := fomSystemMM (fun _ _ => .ok (v1 1)) (fun _ _ => .ok (m1 0)) (fun y _ => .ok (m1 (1 + y () ^ 2)))
/-- the same equation solved for `y'` -/
def heavySolved : ISystem ℚ (Unit → ℚ) (Matrix Unit Unit ℚ) := fomSystem (fun y _ => .ok (v1 (1 / (1 + y () ^ 2)))) (fun y _ => .ok (m1 (-(2 * y ()) / (1 + y () ^ 2) ^ 2)))
def memQ : SMem ℚ (Unit → ℚ) (Unit → ℚ) PMem := ⟨0, 0, 0, 0, [0], [], freshPMem⟩
def memMMQ : SMem ℚ (Unit → ℚ) (Unit → ℚ) (MMMem (Unit → ℚ) (Matrix Unit Unit ℚ)) := ⟨0, 0, 0, 0, [0], [], ⟨-1, 0, 0, 0⟩⟩

/-- **C105, mass matrices that depend on the state.** For these the runs differ: the Jacobian of the stepper is `M(y, t) - dt df/dy`, without the derivative of the mass matrix.  One step of BDF1 with one Newton iteration, `(1 + y²) y' = 1`, from `y = 1`. -/
theorem C105_state_dependent_refuted :
    ((driveObj (mmStep Matrix.mulVec id .BDF1 heavy) (Model.Nonlinear.newtonSolve env1 ⟨1, .WhenAbsolutel2NormOfCorrectionBelowTolerance, 1/100, .Standard, none⟩) [1] 0 [v1 1] (v1 1) memMMQ (reg1 newtonDiagnostics 0)).map (fun r => (r.stop, r.y ())) = [(none, 3/2)]) ∧
      ((driveObj (stdStep .BDF1 heavySolved) (Model.Nonlinear.newtonSolve env1 ⟨1, .WhenAbsolutel2NormOfCorrectionBelowTolerance, 1/100, .Standard, none⟩) [1] 0 [v1 1] (v1 1) memQ (reg1 newtonDiagnostics 0)).map (fun r => (r.stop, r.y ())) = [(none, 4/3)]) := by
  constructor <;> decide +kernel

end Pressio.Props
