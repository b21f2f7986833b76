import Verif.Lemmas.LspgAssemble
import Verif.Props.GalerkinRun

/-
  Properties of unsteady LSPG: C52 (residual and Jacobian), C53 (reuse), C54 (hyper-reduction), C55 (mask, scaling), C65 (failures of the FOM).
-/
namespace Pressio.Props
set_option autoImplicit false
set_option linter.unusedSectionVars false
open Pressio Pressio.Model.Galerkin Pressio.Model.Lspg Pressio.Spec.Galerkin Pressio.Spec.Lspg Pressio.Model.Implicit Pressio.Lemmas.Implicit Pressio.Spec.Implicit
open Pressio.Lemmas.Lspg (Good During numStates StOf stepWith Sized equations assembled run_of_policy good_start lspgPolicy_refines lspgPolicy_call assembleDefault_ok assembleHypred_ok equations_lspg
  equations_hypred Assembles)
open Pressio.Model.Explicit (Scheme)
open scoped Matrix

section
variable {K m p q n : Type} [Field K] [Fintype m] [Fintype p] [Fintype q] [Fintype n]

/-! ### helpers -/

theorem _root_.Pressio.Lemmas.Implicit.PolicyRefinesA.congrF {P A : Type} {name : Scheme} {policy : Policy K (n → K) (n → K) P A} {F F' : List (n → K) → K → K → (n → K) → Bool → Except Exc A}
    {St : List (n → K) → List (n → K) → Prop} {PI PD : List (n → K) → List (n → K) → P → Prop} (h : PolicyRefinesA name policy F St PI PD)
    (hF : ∀ y prev t dt x w, F (y :: prev) t dt x w = F' (y :: prev) t dt x w) : PolicyRefinesA name policy F' St PI PD where
  answers := by
    intro y prev t dt states hst x w r p hp
    obtain ⟨r', p', h1, h2⟩ := h.answers y prev t dt states hst x w r p hp
    exact ⟨r', p', h1, by rw [h2, hF]⟩
  weaken := h.weaken
  accept := h.accept

theorem lspg_ne {f : (m → K) → K → Except Exc (m → K)} {Df : (m → K) → K → Except Exc (Matrix m m K)} (hn : FomNoTSF f Df) (name : Scheme) (S : Trial K m n) (hist : List (n → K)) (t dt : K) (x : n → K) (w : Bool) :
    lspg name S f Df hist t dt x w ≠ .error .timeStepFailure := by
  unfold lspg
  rcases hv : f (lift S x) (t + dt) with e | v
  · intro h
    exact hn.1 _ _ (hv.trans (by cases h; rfl))
  · cases w with
    | false => intro h; cases h
    | true =>
      rcases hD : Df (lift S x) (t + dt) with e | D
      · intro h; exact hn.2 _ _ (hD.trans (by cases h; rfl))
      · intro h; cases h

/-- every evaluation of a run that is ideal -/
theorem every_evaluation_of_ideal {P A : Type} (step : ((n → K) → SolveTree (n → K) A) → K → K → Int → Prog (SolveSt (n → K) P A) Unit) (F : List (n → K) → K → K → (n → K) → Bool → Except Exc A)
    (atts : List (Attempt K (n → K) A)) (t0 : K) (x0 : n → K) (mem : P) (hid : drive step atts t0 [x0] x0 mem = ideal F atts t0 x0 [])
    (pre post : List (Record K (n → K) A)) (r : Record K (n → K) A) (h : drive step atts t0 [x0] x0 mem = pre ++ r :: post) :
    r.hist = accepted x0 pre ∧ r.t = timeAfter t0 pre ∧ ∀ q ∈ r.queries, q.ans = F (accepted x0 pre) (timeAfter t0 pre) r.dt q.x q.wantJ := by
  obtain ⟨h1, h2⟩ := drive_split _ _ _ _ _ _ _ _ _ h
  have h1' : r.hist = accepted x0 pre := h1
  refine ⟨h1', h2, ?_⟩
  rw [hid] at h
  obtain ⟨a, -, yn, pv, -, -, e, -⟩ := ideal_record _ _ _ _ _ r (by rw [h]; simp)
  intro q hq
  rw [e] at hq
  rw [← h1', ← h2]
  exact outcome_query _ _ q hq

/-- The problem object is ready for a run that starts with step 1: sizes are as constructed, and the last step in which the equations were evaluated (-1 for a new problem) was not step 1. -/
def LspgReady {K m q n : Type} (name : Scheme) (mem : SMem K (n → K) (n → K) (LMem K m q n)) : Prop :=
  Sized name mem ∧ mem.pol.data.length = numStates name ∧ mem.pol.tracker ≠ 1

/-! ### C52 -/

/-- a new problem is ready -/
theorem C52_new_problem_ready (name : Scheme) (helper : m → K) (R : p → K) (J : Matrix p n K) (rec : n → K) (mem : SMem K (n → K) (n → K) (LMem K m p n))
    (h : createProblem name helper R J rec = .ok mem) : (name = .BDF1 ∨ name = .BDF2) ∧ LspgReady name mem := by
  cases name <;> simp [createProblem, createMgrFor, createImplicit, createMgr] at h <;> subst h <;> simp [LspgReady, Sized, numStates]

/-- other schemes are refused -/
theorem C52_other_schemes_refused (name : Scheme) (h1 : name ≠ .BDF1) (h2 : name ≠ .BDF2) (helper : m → K) (R : p → K) (J : Matrix p n K) (rec : n → K) :
    ∃ s, createProblem name helper R J rec = (.error (.runtimeError s) : Except Exc (SMem K (n → K) (n → K) (LMem K m p n))) :=
  ⟨"LSPG currently accepting BDF1 or BDF2", by simp [createProblem, h1, h2]⟩

/-- **C52.** Default unsteady LSPG, BDF1 and BDF2: in every run, over all attempts (including failed and repeated ones), the solver gets the full-order time-discrete residual at `Phi x + s` and its
    Jacobian times `Phi`, with the accepted reduced states, lifted, as previous states.  The solver must not accept a step without having evaluated the equations. -/
theorem C52_run_is_ideal {F : Fom K m m n} {f : (m → K) → K → Except Exc (m → K)} {Df Mm : (m → K) → K → Except Exc (Matrix m m K)} (hF : FomIs F f Df Mm) (hn : FomNoTSF f Df)
    (S : Trial K m n) (name : Scheme) (hname : name = .BDF1 ∨ name = .BDF2) (mem : SMem K (n → K) (n → K) (LMem K m m n)) (hmem : LspgReady name mem)
    (atts : List (Attempt K (n → K) ((m → K) × Option (Matrix m n K)))) (hon : ∀ a ∈ atts, ∀ y, Honest (a.solver y)) (hask : ∀ a ∈ atts, ∀ y, Asks (a.solver y)) (t0 : K) (x0 : n → K) :
    drive (stepWith name (defaultPolicy S F)) atts t0 [x0] x0 mem = ideal (lspg name S f Df) atts t0 x0 [] :=
  run_of_policy name hname _ _ _ _
    ((lspgPolicy_refines name hname S _ _ (assembleDefault_ok hF S) (mem.pol.data.getD 1 0)).congrF (fun y prev t dt x w => equations_lspg name hname S f Df y prev t dt x w))
    (lspg_ne hn name S) atts hon hask t0 x0 mem hmem.1
    (good_start _ S x0 mem.pol hmem.2.1 (by rcases hname with rfl | rfl <;> simp [numStates]) hmem.2.2)

/-- **C52**, evaluation by evaluation -/
theorem C52_every_evaluation {F : Fom K m m n} {f : (m → K) → K → Except Exc (m → K)} {Df Mm : (m → K) → K → Except Exc (Matrix m m K)} (hF : FomIs F f Df Mm) (hn : FomNoTSF f Df)
    (S : Trial K m n) (name : Scheme) (hname : name = .BDF1 ∨ name = .BDF2) (mem : SMem K (n → K) (n → K) (LMem K m m n)) (hmem : LspgReady name mem)
    (atts : List (Attempt K (n → K) ((m → K) × Option (Matrix m n K)))) (hon : ∀ a ∈ atts, ∀ y, Honest (a.solver y)) (hask : ∀ a ∈ atts, ∀ y, Asks (a.solver y)) (t0 : K) (x0 : n → K)
    (pre post : List (Record K (n → K) ((m → K) × Option (Matrix m n K)))) (r : Record K (n → K) ((m → K) × Option (Matrix m n K)))
    (h : drive (stepWith name (defaultPolicy S F)) atts t0 [x0] x0 mem = pre ++ r :: post) :
    r.hist = accepted x0 pre ∧ r.t = timeAfter t0 pre ∧ ∀ q ∈ r.queries, q.ans = lspg name S f Df (accepted x0 pre) (timeAfter t0 pre) r.dt q.x q.wantJ :=
  every_evaluation_of_ideal _ _ atts t0 x0 mem (C52_run_is_ideal hF hn S name hname mem hmem atts hon hask t0 x0) pre post r h

/-- The LSPG equations are the equations of the same scheme for the full-order model, at the lifted states, with the Jacobian multiplied by the basis (apart from the
    translation of exceptions: see C65). -/
theorem C52_is_the_full_order_scheme [DecidableEq m] (S : Trial K m n) (name : Scheme) (hname : name = .BDF1 ∨ name = .BDF2) (f : (m → K) → K → Except Exc (m → K)) (Df : (m → K) → K → Except Exc (Matrix m m K))
    (yn : n → K) (prev : List (n → K)) (t dt : K) (x : n → K) (w : Bool)
    (h1 : f (lift S x) (t + dt) ≠ .error .velocityFailureUnrecoverable) (h2 : Df (lift S x) (t + dt) ≠ .error .velocityFailureUnrecoverable) :
    lspg name S f Df (yn :: prev) t dt x w =
      (textbook name (fomSystem f Df) ((yn :: prev).map (lift S)) t dt (lift S x) w).map (fun a => (a.1, a.2.map (fun J => J * S.basis))) := by
  have hrep : ∀ e, e ≠ .velocityFailureUnrecoverable → reported e = e := fun e he => by simp [reported, he]
  have hJ : ∀ (c : K) (D : Matrix m m K), S.basis - c • (D * S.basis) = (1 - c • D) * S.basis := by
    intro c D; rw [Matrix.sub_mul, Matrix.one_mul, Matrix.smul_mul]
  rcases hv : f (lift S x) (t + dt) with e | v
  · have he : e ≠ .velocityFailureUnrecoverable := fun h => h1 (by rw [hv, h])
    rcases hname with rfl | rfl
    · simp [lspg, textbook, fomSystem, hv, error_bind, Except.map, hrep e he]
    · cases prev <;> simp [lspg, textbook, fomSystem, hv, error_bind, Except.map, hrep e he]
  · cases w with
    | false =>
      rcases hname with rfl | rfl
      · simp [lspg, textbook, fomSystem, hv, ok_bind, Except.map, bdf1Res, combination, coef, Pure.pure, Except.pure, bind, Except.bind]
      · cases prev <;> simp [lspg, textbook, fomSystem, hv, ok_bind, Except.map, bdf1Res, bdf2Res, combination, coef, Pure.pure, Except.pure, bind, Except.bind]
    | true =>
      rcases hD : Df (lift S x) (t + dt) with e | D
      · have he : e ≠ .velocityFailureUnrecoverable := fun h => h2 (by rw [hD, h])
        rcases hname with rfl | rfl
        · simp [lspg, textbook, fomSystem, hv, hD, ok_bind, Except.map, bind, Except.bind, hrep e he]
        · cases prev <;> simp [lspg, textbook, fomSystem, hv, hD, ok_bind, Except.map, bind, Except.bind, hrep e he]
      · rcases hname with rfl | rfl
        · simp [lspg, textbook, fomSystem, hv, hD, ok_bind, Except.map, bdf1Res, bdf1Jac, combination, coef, Pure.pure, Except.pure, bind, Except.bind, hJ]
        · cases prev <;> simp [lspg, textbook, fomSystem, hv, hD, ok_bind, Except.map, bdf1Res, bdf2Res, bdf1Jac, bdf2Jac, combination, coef, Pure.pure, Except.pure, bind, Except.bind, hJ]

/-! ### C53 -/

/-- **C53, what holds.** A used problem, if the last step in which its equations were evaluated was not step 1, behaves in a new run exactly like a new problem. -/
theorem C53_reuse_partial {F : Fom K m m n} {f : (m → K) → K → Except Exc (m → K)} {Df Mm : (m → K) → K → Except Exc (Matrix m m K)} (hF : FomIs F f Df Mm) (hn : FomNoTSF f Df)
    (S : Trial K m n) (name : Scheme) (hname : name = .BDF1 ∨ name = .BDF2) (used new : SMem K (n → K) (n → K) (LMem K m m n)) (hused : LspgReady name used) (hnew : LspgReady name new)
    (atts : List (Attempt K (n → K) ((m → K) × Option (Matrix m n K)))) (hon : ∀ a ∈ atts, ∀ y, Honest (a.solver y)) (hask : ∀ a ∈ atts, ∀ y, Asks (a.solver y)) (t0 : K) (x0 : n → K) :
    drive (stepWith name (defaultPolicy S F)) atts t0 [x0] x0 used = drive (stepWith name (defaultPolicy S F)) atts t0 [x0] x0 new := by
  rw [C52_run_is_ideal hF hn S name hname used hused atts hon hask, C52_run_is_ideal hF hn S name hname new hnew atts hon hask]

/-- **C53 is false** if the last step evaluated was step 1 (a run of one step, or a run that failed in its first step): an evaluation in the first step of the next run uses the FOM state `d1` left by the previous
    run in place of the new initial state, for every new initial state `x0`. -/
theorem C53_stale_state {F : Fom K m m n} {f : (m → K) → K → Except Exc (m → K)} {Df Mm : (m → K) → K → Except Exc (Matrix m m K)} (hF : FomIs F f Df Mm) (S : Trial K m n)
    (d0 d1 : m → K) (helper R : m → K) (J : Matrix m n K) (x0 x : n → K) (t dt : K) (w : Bool) (v : m → K) (hv : f (lift S x) (t + dt) = .ok v) (D : Matrix m m K) (hD : Df (lift S x) (t + dt) = .ok D) :
    ∃ s, defaultPolicy S F .BDF1 x [x0] (t + dt) 1 dt w ([], ⟨[d0, d1], 1, helper, R, J⟩) = .ok (lift S x - d1 - dt • v, if w then some (S.basis - dt • (D * S.basis)) else none) s := by
  have ht : track S x [x0] 1 (⟨[d0, d1], 1, helper, R, J⟩ : LMem K m m n) = .ok () ⟨[lift S x, d1], 1, helper, R, J⟩ := by
    unfold track
    have e1 : withMgr (mgrSet S x .nPlusOne) (⟨[d0, d1], 1, helper, R, J⟩ : LMem K m m n) = .ok () ⟨[lift S x, d1], 1, helper, R, J⟩ := by
      simp [withMgr, mgrSet, trial_map_lift]
    rw [bind_ok e1, bind_ok (show Prog.get _ = .ok _ _ from rfl), if_neg (by simp)]
    rfl
  obtain ⟨s', -, -, h3⟩ := assembleDefault_ok hF S (lift S x) d1 [] (t + dt) dt w false ⟨[lift S x, d1], 1, helper, R, J⟩ rfl (by simp)
  beta_reduce at h3
  refine ⟨([], s'), ?_⟩
  simp only [defaultPolicy, lspgPolicy, onPol]
  rw [bind_ok ht, h3]
  cases w <;> simp [assembled, hv, hD, ok_bind, Lemmas.Lspg.combOf, Lemmas.Lspg.cOf, Except.map, Pure.pure, Except.pure, bind, Except.bind]

/-! ### C54 -/

theorem hypredLspg_ne {f : (m → K) → K → Except Exc (p → K)} {Df : (m → K) → K → Except Exc (Matrix p m K)} (h1 : ∀ y t, f y t ≠ .error .timeStepFailure) (h2 : ∀ y t, Df y t ≠ .error .timeStepFailure)
    (E : Matrix p m K) (name : Scheme) (S : Trial K m n) (hist : List (n → K)) (t dt : K) (x : n → K) (w : Bool) : hypredLspg E name S f Df hist t dt x w ≠ .error .timeStepFailure := by
  unfold hypredLspg
  rcases hv : f (lift S x) (t + dt) with e | v
  · intro h
    exact h1 _ _ (hv.trans (by cases h; rfl))
  · cases w with
    | false => intro h; cases h
    | true =>
      rcases hD : Df (lift S x) (t + dt) with e | D
      · intro h; exact h2 _ _ (hD.trans (by cases h; rfl))
      · intro h; cases h

/-- **C54.** Hyper-reduced LSPG: every run is the ideal run of the hyper-reduced equations: states combined on the stencil mesh and restricted, right-hand side and Jacobian action on the sample mesh. -/
theorem C54_run_is_ideal {F : Fom K m p n} {f : (m → K) → K → Except Exc (p → K)} {Df Mm : (m → K) → K → Except Exc (Matrix p m K)} (hF : FomIs F f Df Mm)
    (h1 : ∀ y t, f y t ≠ .error .timeStepFailure) (h2 : ∀ y t, Df y t ≠ .error .timeStepFailure) (U : Updater K m p n) (E : Matrix p m K) (hU : UpdaterIs U E)
    (S : Trial K m n) (name : Scheme) (hname : name = .BDF1 ∨ name = .BDF2) (mem : SMem K (n → K) (n → K) (LMem K m p n)) (hmem : LspgReady name mem)
    (atts : List (Attempt K (n → K) ((p → K) × Option (Matrix p n K)))) (hon : ∀ a ∈ atts, ∀ y, Honest (a.solver y)) (hask : ∀ a ∈ atts, ∀ y, Asks (a.solver y)) (t0 : K) (x0 : n → K) :
    drive (stepWith name (hypredPolicy U S F)) atts t0 [x0] x0 mem = ideal (hypredLspg E name S f Df) atts t0 x0 [] :=
  run_of_policy name hname _ _ _ _
    ((lspgPolicy_refines name hname S _ _ (assembleHypred_ok hF S U E hU) (mem.pol.data.getD 1 0)).congrF (fun y prev t dt x w => equations_hypred E name hname S f Df y prev t dt x w))
    (hypredLspg_ne h1 h2 E name S) atts hon hask t0 x0 mem hmem.1
    (good_start _ S x0 mem.pol hmem.2.1 (by rcases hname with rfl | rfl <;> simp [numStates]) hmem.2.2)

/-- **C54.** If the sample-mesh operators are the restrictions of operators on the stencil mesh, the hyper-reduced residual and Jacobian are the restrictions of the default ones: nothing is computed from
    other entries. -/
theorem C54_is_restriction (E : Matrix p m K) (name : Scheme) (S : Trial K m n) (f : (m → K) → K → Except Exc (m → K)) (Df : (m → K) → K → Except Exc (Matrix m m K))
    (hist : List (n → K)) (t dt : K) (x : n → K) (w : Bool) :
    hypredLspg E name S (fun y t => (f y t).map E.mulVec) (fun y t => (Df y t).map (fun D => E * D)) hist t dt x w =
      (lspg name S f Df hist t dt x w).map (fun a => (E.mulVec a.1, a.2.map (fun J => E * J))) := by
  unfold hypredLspg lspg
  have hv' : ∀ (c : K) (u v : m → K), E.mulVec (u - c • v) = E.mulVec u - c • E.mulVec v := by
    intro c u v; rw [Matrix.mulVec_sub, Matrix.mulVec_smul]
  have hJ : ∀ (c : K) (D : Matrix m m K), E * (S.basis - c • (D * S.basis)) = E * S.basis - c • (E * D * S.basis) := by
    intro c D; rw [Matrix.mul_sub, Matrix.mul_smul, Matrix.mul_assoc]
  beta_reduce
  rcases hv : f (lift S x) (t + dt) with e | v
  · rfl
  · cases w with
    | false => simp [Except.map, Pure.pure, Except.pure, bind, Except.bind, hv']
    | true => rcases hD : Df (lift S x) (t + dt) with e | D <;> simp [Except.map, Pure.pure, Except.pure, bind, Except.bind, hv', hJ]

/-! ### C55 -/

theorem masked_refines {F : Fom K m m n} {f : (m → K) → K → Except Exc (m → K)} {Df Mm : (m → K) → K → Except Exc (Matrix m m K)} (hF : FomIs F f Df Mm)
    {Mk : Masker K m q n} {mv : (m → K) → (q → K)} {mm : Matrix m n K → Matrix q n K} (hM : MaskIs Mk mv mm)
    (S : Trial K m n) (name : Scheme) (hname : name = .BDF1 ∨ name = .BDF2) (init : m → K) :
    PolicyRefinesA name (maskDecorator Mk (defaultPolicy S F)) (maskedLspg mv mm name S f Df) (StOf name)
      (fun hist _ p => Good (numStates name) S init hist p.1) (fun hist _ p => During (numStates name) S init hist p.1) := by
  refine ⟨?_, fun _ _ _ _ h => h.good, fun y' _ _ _ _ h => h.accept (by rcases hname with rfl | rfl <;> simp [numStates]) y'⟩
  rintro y prev t dt states hst x w r ⟨p, b1, b2⟩ hp
  obtain ⟨p', g1, g2, g3⟩ := lspgPolicy_call name hname S _ _ (assembleDefault_ok hF S) init y prev t dt states hst.head x true r p hp
  rw [equations_lspg name hname] at g3
  have hdur : During (numStates name) S init (y :: prev) p' := ⟨y, prev, _, rfl, g1, g2⟩
  simp only [maskDecorator, maskedLspg]
  change defaultPolicy S F name x states (t + dt) (y :: prev).length dt true (r, p) = _ at g3
  rw [g3]
  rcases hl : lspg name S f Df (y :: prev) t dt x true with e | ⟨uR, uJ⟩
  · exact ⟨r, (p', b1, b2), hdur, rfl⟩
  · have hsome : ∃ j, uJ = some j := by
      unfold lspg at hl
      rcases hv : f (lift S x) (t + dt) with e | v
      · rw [hv] at hl; cases hl
      · rcases hD : Df (lift S x) (t + dt) with e | D
        · rw [hv, hD] at hl; cases hl
        · rw [hv, hD] at hl; cases hl; exact ⟨_, rfl⟩
    obtain ⟨j, rfl⟩ := hsome
    cases w with
    | false => exact ⟨r, (p', mv uR, b2), hdur, by simp [settle, hM.vec, ok_bind, Pure.pure, Except.pure]⟩
    | true => exact ⟨r, (p', mv uR, mm j), hdur, by simp [settle, hM.vec, hM.mat, ok_bind, Pure.pure, Except.pure]⟩

theorem maskedLspg_ne {f : (m → K) → K → Except Exc (m → K)} {Df : (m → K) → K → Except Exc (Matrix m m K)} (hn : FomNoTSF f Df) (mv : (m → K) → (q → K)) (mm : Matrix m n K → Matrix q n K) (name : Scheme)
    (S : Trial K m n) (hist : List (n → K)) (t dt : K) (x : n → K) (w : Bool) : maskedLspg mv mm name S f Df hist t dt x w ≠ .error .timeStepFailure := by
  intro h
  unfold maskedLspg at h
  rcases hl : lspg name S f Df hist t dt x true with e | a
  · rw [hl] at h; cases h; exact lspg_ne hn name S hist t dt x true hl
  · rw [hl] at h; cases h

/-- **C55, mask.** Every run of masked LSPG is the ideal run of the masked equations. -/
theorem C55_masked_run_is_ideal {F : Fom K m m n} {f : (m → K) → K → Except Exc (m → K)} {Df Mm : (m → K) → K → Except Exc (Matrix m m K)} (hF : FomIs F f Df Mm) (hn : FomNoTSF f Df)
    {Mk : Masker K m q n} {mv : (m → K) → (q → K)} {mm : Matrix m n K → Matrix q n K} (hM : MaskIs Mk mv mm)
    (S : Trial K m n) (name : Scheme) (hname : name = .BDF1 ∨ name = .BDF2) (mem : SMem K (n → K) (n → K) (LMem K m m n × (q → K) × Matrix q n K))
    (hs : Sized name mem) (hd : mem.pol.1.data.length = numStates name) (ht : mem.pol.1.tracker ≠ 1)
    (atts : List (Attempt K (n → K) ((q → K) × Option (Matrix q n K)))) (hon : ∀ a ∈ atts, ∀ y, Honest (a.solver y)) (hask : ∀ a ∈ atts, ∀ y, Asks (a.solver y)) (t0 : K) (x0 : n → K) :
    drive (stepWith name (maskDecorator Mk (defaultPolicy S F))) atts t0 [x0] x0 mem = ideal (maskedLspg mv mm name S f Df) atts t0 x0 [] :=
  run_of_policy name hname _ _ _ _ (masked_refines hF hM S name hname (mem.pol.1.data.getD 1 0)) (maskedLspg_ne hn mv mm name S) atts hon hask t0 x0 mem hs
    (good_start _ S x0 mem.pol.1 hd (by rcases hname with rfl | rfl <;> simp [numStates]) ht)

theorem scaled_refines (name : Scheme) (hname : name = .BDF1 ∨ name = .BDF2) (S : Trial K m n) (assemble : Bool → K → K → Bool → Prog (LMem K m p n) ((p → K) × Option (Matrix p n K)))
    (G : (m → K) → (m → K) → Option (m → K) → K → K → Bool → Except Exc ((p → K) × Option (Matrix p n K))) (hG : Assembles assemble G) (sc : Scaler K m p n) (init : m → K) :
    PolicyRefinesA name (scalingDecorator sc (lspgPolicy assemble S)) (scaled sc S (equations name S G)) (StOf name)
      (fun hist _ p => Good (numStates name) S init hist p) (fun hist _ p => During (numStates name) S init hist p) := by
  refine ⟨?_, fun _ _ _ _ h => h.good, fun y' _ _ _ _ h => h.accept (by rcases hname with rfl | rfl <;> simp [numStates]) y'⟩
  intro y prev t dt states hst x w r p hp
  obtain ⟨p', g1, g2, g3⟩ := lspgPolicy_call name hname S assemble G hG init y prev t dt states hst.head x w r p hp
  refine ⟨r, p', ⟨y, prev, _, rfl, g1, g2⟩, ?_⟩
  simp only [scalingDecorator, scaled]
  rw [g3]
  rcases equations name S G (y :: prev) t dt x w with e | a
  · rfl
  · simp only [settle_ok, ok_bind]
    have : mgrRead .nPlusOne p'.data = some (lift S x) := by rw [g1]; rfl
    simp only [this]
    rcases sc (lift S x) (t + dt) a with e | b <;> rfl

theorem scaled_ne (sc : Scaler K m p n) (hsc : ∀ y t a, sc y t a ≠ .error .timeStepFailure) (S : Trial K m n) (base : List (n → K) → K → K → (n → K) → Bool → Except Exc ((p → K) × Option (Matrix p n K)))
    (hb : ∀ hist t dt x w, base hist t dt x w ≠ .error .timeStepFailure) (hist : List (n → K)) (t dt : K) (x : n → K) (w : Bool) : scaled sc S base hist t dt x w ≠ .error .timeStepFailure := by
  unfold scaled
  rcases h : base hist t dt x w with e | a
  · intro h'; cases h'; exact hb _ _ _ _ _ h
  · exact hsc _ _ _

/-- **C55, scaling of the default equations.** -/
theorem C55_scaled_run_is_ideal {F : Fom K m m n} {f : (m → K) → K → Except Exc (m → K)} {Df Mm : (m → K) → K → Except Exc (Matrix m m K)} (hF : FomIs F f Df Mm) (hn : FomNoTSF f Df)
    (sc : Scaler K m m n) (hsc : ∀ y t a, sc y t a ≠ .error .timeStepFailure) (S : Trial K m n) (name : Scheme) (hname : name = .BDF1 ∨ name = .BDF2) (mem : SMem K (n → K) (n → K) (LMem K m m n))
    (hmem : LspgReady name mem) (atts : List (Attempt K (n → K) ((m → K) × Option (Matrix m n K)))) (hon : ∀ a ∈ atts, ∀ y, Honest (a.solver y)) (hask : ∀ a ∈ atts, ∀ y, Asks (a.solver y)) (t0 : K) (x0 : n → K) :
    drive (stepWith name (scalingDecorator sc (defaultPolicy S F))) atts t0 [x0] x0 mem = ideal (scaled sc S (lspg name S f Df)) atts t0 x0 [] :=
  run_of_policy name hname _ _ _ _
    ((scaled_refines name hname S _ _ (assembleDefault_ok hF S) sc (mem.pol.data.getD 1 0)).congrF
      (fun y prev t dt x w => by simp only [scaled, equations_lspg name hname]))
    (scaled_ne sc hsc S _ (lspg_ne hn name S)) atts hon hask t0 x0 mem hmem.1
    (good_start _ S x0 mem.pol hmem.2.1 (by rcases hname with rfl | rfl <;> simp [numStates]) hmem.2.2)

/-- **C55, scaling of the hyper-reduced equations.** -/
theorem C55_scaled_hypred_run_is_ideal {F : Fom K m p n} {f : (m → K) → K → Except Exc (p → K)} {Df Mm : (m → K) → K → Except Exc (Matrix p m K)} (hF : FomIs F f Df Mm)
    (h1 : ∀ y t, f y t ≠ .error .timeStepFailure) (h2 : ∀ y t, Df y t ≠ .error .timeStepFailure) (U : Updater K m p n) (E : Matrix p m K) (hU : UpdaterIs U E)
    (sc : Scaler K m p n) (hsc : ∀ y t a, sc y t a ≠ .error .timeStepFailure) (S : Trial K m n) (name : Scheme) (hname : name = .BDF1 ∨ name = .BDF2) (mem : SMem K (n → K) (n → K) (LMem K m p n))
    (hmem : LspgReady name mem) (atts : List (Attempt K (n → K) ((p → K) × Option (Matrix p n K)))) (hon : ∀ a ∈ atts, ∀ y, Honest (a.solver y)) (hask : ∀ a ∈ atts, ∀ y, Asks (a.solver y)) (t0 : K) (x0 : n → K) :
    drive (stepWith name (scalingDecorator sc (hypredPolicy U S F))) atts t0 [x0] x0 mem = ideal (scaled sc S (hypredLspg E name S f Df)) atts t0 x0 [] :=
  run_of_policy name hname _ _ _ _
    ((scaled_refines name hname S _ _ (assembleHypred_ok hF S U E hU) sc (mem.pol.data.getD 1 0)).congrF
      (fun y prev t dt x w => by simp only [scaled, equations_hypred E name hname]))
    (scaled_ne sc hsc S _ (hypredLspg_ne h1 h2 E name S)) atts hon hask t0 x0 mem hmem.1
    (good_start _ S x0 mem.pol hmem.2.1 (by rcases hname with rfl | rfl <;> simp [numStates]) hmem.2.2)

end
end Pressio.Props
