import Verif.Spec.SolverRun
import Verif.Lemmas.ImplicitAsked
import Verif.Lemmas.ImplicitRun
import Verif.Lemmas.NonlinearObjects

/-
  The programs of pressio's solvers as seen by a stepper: they record all their evaluations, they do not throw `TimeStepFailure` themselves, they evaluate before they return.
-/
namespace Pressio.Lemmas.SolverTree
set_option autoImplicit false
set_option linter.unusedSectionVars false
open Pressio Matrix
open Pressio.Model.Nonlinear Pressio.Spec.Nonlinear Pressio.Spec.SolverRun Pressio.Spec.Implicit

section
variable {X A σ ρ τ : Type}

/-- every possible end satisfies `Q`, if no answer is the exception `TimeStepFailure` -/
def All (Q : ρ → Prop) : Ask X A ρ → Prop
  | .ret r => Q r
  | .ask _ _ k => ∀ a, (∀ e, a = .error e → e ≠ .timeStepFailure) → All Q (k a)

theorem all_bind {Q : ρ → Prop} {Q' : τ → Prop} {m : Ask X A ρ} {f : ρ → Ask X A τ} (hm : All Q m) (hf : ∀ r, Q r → All Q' (f r)) : All Q' (m.bind f) := by
  induction m with
  | ret r => exact hf r hm
  | ask x w k ih => exact fun a ha => ih a (hm a ha)

theorem asked_bind (F : X → Bool → Except Exc A) (m : Ask X A ρ) (f : ρ → Ask X A τ) : (m.bind f).asked F = m.asked F ++ (f (m.eval F)).asked F := by
  induction m with
  | ret r => rfl
  | ask x w k ih => simp only [Ask.bind, Ask.asked, Ask.eval, ih, List.cons_append]

theorem outcome_toTree (F : X → Bool → Except Exc A) (getX : σ → X) (m : Ask X A (Res σ Unit)) :
    outcome F (m.toTree getX) = ⟨(m.eval F).stop?, getX (m.eval F).state, m.asked F⟩ := by
  induction m with
  | ret r => cases r <;> rfl
  | ask x w k ih => simp only [Ask.toTree, outcome, Ask.asked, Ask.eval, ih]

theorem replay_asked (F : X → Bool → Except Exc A) (dflt : σ) (m : Ask X A (Res σ Unit)) : m.replay dflt ((m.asked F).map (·.ans)) = (m.eval F).state := by
  induction m with
  | ret r => rfl
  | ask x w k ih => simp only [Ask.replay, Ask.asked, List.map_cons, Ask.eval, ih]

theorem honest_toTree (getX : σ → X) (m : Ask X A (Res σ Unit)) (h : All (fun r : Res σ Unit => r.stop? ≠ some (.exc .timeStepFailure)) m) : Honest (m.toTree getX) := by
  induction m with
  | ret r =>
    cases r with
    | ok a s => trivial
    | stop w s => intro hw; exact h (by rw [hw]; rfl)
  | ask x w k ih => exact fun a ha => ih a (h a ha)

end

variable {K m n p L α β : Type}

/-- a part of a solver that does not evaluate: it leaves the record of evaluations alone and does not throw `TimeStepFailure` -/
def Quiet (p : Prog (Reg K m n p L) α) : Prop := ∀ s, (p s).state.log = s.log ∧ (p s).stop? ≠ some (.exc .timeStepFailure)

/-- a part of a solver: it records its evaluations and does not throw `TimeStepFailure` of its own -/
def Fine (q : SP K m n p L α) : Prop :=
  ∀ s, All (fun r : Res (Reg K m n p L) α => r.stop? ≠ some (.exc .timeStepFailure)) (q s) ∧ ∀ F, ((q s).eval F).state.log = s.log ++ (q s).asked F

theorem Quiet.pure (a : α) : Quiet (pure a : Prog (Reg K m n p L) α) := fun _ => ⟨rfl, by simp⟩
theorem Quiet.get : Quiet (Prog.get : Prog (Reg K m n p L) _) := fun _ => ⟨rfl, by simp⟩
theorem Quiet.modify (f : Reg K m n p L → Reg K m n p L) (hf : ∀ s, (f s).log = s.log) : Quiet (Prog.modify f) := fun s => ⟨hf s, by simp⟩
theorem Quiet.throwE (e : Exc) (h : e ≠ .timeStepFailure) : Quiet (Prog.throwE e : Prog (Reg K m n p L) α) := fun _ => ⟨rfl, by simpa using h⟩
theorem Quiet.undef (w : String) : Quiet (Prog.undef w : Prog (Reg K m n p L) α) := fun _ => ⟨rfl, by simp⟩
theorem Quiet.noFuel : Quiet (Prog.noFuel : Prog (Reg K m n p L) α) := fun _ => ⟨rfl, by simp⟩
theorem Quiet.bind {q : Prog (Reg K m n p L) α} {f : α → Prog (Reg K m n p L) β} (hq : Quiet q) (hf : ∀ a, Quiet (f a)) : Quiet (q >>= f) := by
  intro s
  rw [Prog.bind_run]
  obtain ⟨h1, h2⟩ := hq s
  rcases hr : q s with ⟨a, s'⟩ | ⟨h, s'⟩
  · rw [hr] at h1
    obtain ⟨h3, h4⟩ := hf a s'
    exact ⟨h3.trans h1, h4⟩
  · rw [hr] at h1 h2
    exact ⟨h1, h2⟩
theorem Quiet.onC {f : Prog ((n → K) × L) Unit} (hf : ∀ s, (f s).stop? ≠ some (.exc .timeStepFailure)) : Quiet (onC f : Prog (Reg K m n p L) Unit) := by
  intro s
  have := hf (s.c, s.lin)
  unfold Model.Nonlinear.onC
  rcases hr : f (s.c, s.lin) with ⟨a, s'⟩ | ⟨h, s'⟩
  · exact ⟨rfl, by simp⟩
  · rw [hr] at this; exact ⟨rfl, this⟩
theorem Quiet.onLin {f : Prog L Unit} (hf : ∀ s, (f s).stop? ≠ some (.exc .timeStepFailure)) : Quiet (onLin f : Prog (Reg K m n p L) Unit) := by
  intro s
  have := hf s.lin
  unfold Model.Nonlinear.onLin
  rcases hr : f s.lin with ⟨a, s'⟩ | ⟨h, s'⟩
  · exact ⟨rfl, by simp⟩
  · rw [hr] at this; exact ⟨rfl, this⟩
theorem Quiet.onQTr {f : Prog ((n → K) × L) Unit} (hf : ∀ s, (f s).stop? ≠ some (.exc .timeStepFailure)) : Quiet (onQTr f : Prog (Reg K m n p L) Unit) := by
  intro s
  have := hf (s.QTr, s.lin)
  unfold Model.Nonlinear.onQTr
  rcases hr : f (s.QTr, s.lin) with ⟨a, s'⟩ | ⟨h, s'⟩
  · exact ⟨rfl, by simp⟩
  · rw [hr] at this; exact ⟨rfl, this⟩
theorem Quiet.onlyC {f : Prog (n → K) Unit} (hf : ∀ s, (f s).stop? ≠ some (.exc .timeStepFailure)) : Quiet (onlyC f : Prog (Reg K m n p L) Unit) := by
  intro s
  have := hf s.c
  unfold Model.Nonlinear.onlyC
  rcases hr : f s.c with ⟨a, s'⟩ | ⟨h, s'⟩
  · exact ⟨rfl, by simp⟩
  · rw [hr] at this; exact ⟨rfl, this⟩

theorem Fine.lift {q : Prog (Reg K m n p L) α} (hq : Quiet q) : Fine (SM.lift q : SP K m n p L α) := fun s => ⟨(hq s).2, fun _ => by simp [SM.lift, Ask.eval, Ask.asked, (hq s).1]⟩
theorem Fine.pure (a : α) : Fine (pure a : SP K m n p L α) := Fine.lift (Quiet.pure a)
theorem Fine.bind {q : SP K m n p L α} {f : α → SP K m n p L β} (hq : Fine q) (hf : ∀ a, Fine (f a)) : Fine (q >>= f) := by
  intro s
  obtain ⟨h1, h2⟩ := hq s
  refine ⟨all_bind h1 ?_, fun F => ?_⟩
  · rintro (⟨a, s'⟩ | ⟨h, s'⟩) hr
    · exact (hf a s').1
    · exact hr
  · have h2 := h2 F
    simp only [Bind.bind, SM.bind]
    rw [Ask.eval_bind, asked_bind]
    rcases hr : (q s).eval F with ⟨a, s'⟩ | ⟨h, s'⟩
    · rw [hr] at h2
      simp only []
      rw [(hf a s').2 F]
      rw [show s'.log = s.log ++ (q s).asked F from h2, List.append_assoc]
    · rw [hr] at h2
      simp only [Ask.eval, Ask.asked, List.append_nil]
      exact h2
theorem Fine.catchE {q : SP K m n p L α} {h : Exc → Option (SP K m n p L α)} (hq : Fine q) (hh : ∀ e r, h e = some r → Fine r) : Fine (SM.catchE q h) := by
  intro s
  obtain ⟨h1, h2⟩ := hq s
  refine ⟨all_bind h1 ?_, fun F => ?_⟩
  · rintro (⟨a, s'⟩ | ⟨e | u | _, s'⟩) hr
    · exact hr
    · rcases he : h e with _ | r
      · simp only [he]; exact hr
      · simp only [he]; exact (hh e r he s').1
    · exact hr
    · exact hr
  · have h2 := h2 F
    simp only [SM.catchE]
    rw [Ask.eval_bind, asked_bind]
    rcases hr : (q s).eval F with ⟨a, s'⟩ | ⟨e | u | _, s'⟩
    · rw [hr] at h2
      simp only [Ask.eval, Ask.asked, List.append_nil]; exact h2
    · rw [hr] at h2
      rcases he : h e with _ | r
      · simp only [Ask.eval, Ask.asked, List.append_nil, he]; exact h2
      · simp only [he]
        rw [(hh e r he s').2 F, show s'.log = s.log ++ (q s).asked F from h2, List.append_assoc]
    · rw [hr] at h2
      simp only [Ask.eval, Ask.asked, List.append_nil]; exact h2
    · rw [hr] at h2
      simp only [Ask.eval, Ask.asked, List.append_nil]; exact h2
theorem Fine.ite {c : Prop} [Decidable c] {q r : SP K m n p L α} (hq : Fine q) (hr : Fine r) : Fine (if c then q else r) := by split <;> assumption

theorem fine_evalSys (x : n → K) (w : Bool) : Fine (evalSys x w : SP K m n p L Unit) := by
  intro s
  refine ⟨?_, ?_⟩
  · intro a ha
    rcases a with e | ⟨r, j⟩
    · intro h
      cases h
      exact ha _ rfl rfl
    · intro h; cases h
  · intro F
    rcases h : F x w with e | ⟨r, j⟩
    · simp only [evalSys, SM.call, SM.lift, bind, SM.bind, Ask.bind, Ask.eval, Ask.asked, h]; rfl
    · simp only [evalSys, SM.call, SM.lift, bind, SM.bind, Ask.bind, Ask.eval, Ask.asked, h]; rfl

theorem fine_writeFile (t : String) : Fine (writeFile t : SP K m n p L Unit) := Fine.lift (Quiet.modify _ (fun _ => rfl))

section
variable [Field K] [LinearOrder K] [IsStrictOrderedRing K] [Fintype m] [Fintype n] [Fintype p]

theorem quiet_negateC : Quiet (negateC : Prog (Reg K m n p L) Unit) := Quiet.modify _ (fun _ => rfl)
theorem quiet_objectiveOfR (env : Env K m n p L) (tag : Tag) : Quiet (objectiveOfR env tag) := by
  cases tag
  all_goals first
    | exact Quiet.bind Quiet.get (fun _ => Quiet.pure _)
    | exact Quiet.bind (Quiet.modify _ (fun _ => rfl)) (fun _ => Quiet.bind Quiet.get (fun _ => Quiet.pure _))
theorem quiet_operators [DecidableEq n] (env : Env K m n p L) (tag : Tag) : Quiet (operators env tag) := by
  cases tag
  all_goals
    unfold operators
    repeat (first | exact Quiet.bind Quiet.get (fun _ => Quiet.pure _) | refine Quiet.bind (Quiet.modify _ (fun _ => rfl)) (fun _ => ?_))
theorem quiet_correction (env : Env K m n p L) (tag : Tag) (he : InnerHonest env tag) : Quiet (correction env tag) := by
  cases tag
  all_goals first
    | exact Quiet.bind Quiet.get (fun _ => Quiet.bind (Quiet.onC (he _ _)) (fun _ => quiet_negateC))
    | exact Quiet.bind Quiet.get (fun _ => Quiet.bind (Quiet.onLin (he.1 _)) (fun _ => Quiet.bind (Quiet.onQTr (he.2.1 _)) (fun _ => Quiet.bind Quiet.get
        (fun _ => Quiet.bind (Quiet.onC (he.2.2 _)) (fun _ => quiet_negateC)))))
theorem quiet_updateDiagnostics (env : Env K m n p L) (a b : Bool) : Quiet (updateDiagnostics env a b) := Quiet.modify _ (fun _ => rfl)
theorem quiet_updateObjective (v : K) (b : Bool) : Quiet (updateObjective v b : Prog (Reg K m n p L) Unit) := by
  intro s; unfold updateObjective; split <;> simp
theorem quiet_atInternal (c : DContainer K) (d : InternalDiagnostic) : Quiet (c.atInternal d : Prog (Reg K m n p L) (DData K)) := by
  unfold DContainer.atInternal; split
  · exact Quiet.pure _
  · exact Quiet.undef _
theorem quiet_belowTol (cfg : Cfg K) : Quiet (belowTol cfg : Prog (Reg K m n p L) Bool) := by
  intro s
  unfold belowTol
  refine Quiet.bind ?_ (fun _ => Quiet.pure _) s
  unfold DContainer.atPublic
  split
  · exact Quiet.throwE _ (by simp)
  · split
    · exact Quiet.pure _
    · exact Quiet.undef _
theorem quiet_reset (tag : Tag) : Quiet (resetForNewSolve tag : Prog (Reg K m n p L) Unit) := by
  cases tag
  all_goals first
    | exact Quiet.pure _
    | exact Quiet.modify _ (fun _ => rfl)
theorem quiet_zeta (l : Option (List K)) : Quiet (backtrackZeta l : Prog (Reg K m n p L) K) := by
  rcases l with _ | _ | ⟨z, zs⟩
  · exact Quiet.pure _
  · exact Quiet.undef _
  · exact Quiet.pure _

theorem fine_default : Fine (defaultUpdater : SP K m n p L Unit) := Fine.lift (Quiet.modify _ (fun _ => rfl))
theorem fine_backtrackLoop (z v : K) (obj : (n → K) → SP K m n p L K) (ho : ∀ x, Fine (obj x)) (k : Nat) (a : K) : Fine (backtrackLoop z v obj k a) := by
  induction k generalizing a with
  | zero => exact Fine.lift Quiet.noFuel
  | succ k ih =>
    unfold backtrackLoop
    refine Fine.ite (Fine.lift (Quiet.throwE _ (by simp))) ?_
    refine Fine.bind (Fine.lift (Quiet.modify _ (fun _ => rfl))) (fun _ => ?_)
    refine Fine.bind (Fine.lift Quiet.get) (fun _ => ?_)
    refine Fine.bind (ho _) (fun _ => ?_)
    exact Fine.ite (Fine.lift (Quiet.modify _ (fun _ => rfl))) (ih _)
theorem fine_gain (obj : (n → K) → SP K m n p L K) (ho : ∀ x, Fine (obj x)) (v : K) : Fine (lmGainFactor obj v) := by
  unfold lmGainFactor
  refine Fine.bind (Fine.lift (Quiet.modify _ (fun _ => rfl))) (fun _ => ?_)
  refine Fine.bind (Fine.lift Quiet.get) (fun _ => ?_)
  refine Fine.bind (ho _) (fun _ => ?_)
  refine Fine.bind (Fine.lift (Quiet.modify _ (fun _ => rfl))) (fun _ => ?_)
  exact Fine.bind (Fine.lift Quiet.get) (fun _ => Fine.pure _)
theorem fine_lm1 (obj : (n → K) → SP K m n p L K) (ho : ∀ x, Fine (obj x)) (v : K) : Fine (lm1Updater obj v) := by
  unfold lm1Updater
  refine Fine.bind (fine_gain obj ho v) (fun _ => Fine.ite ?_ ?_)
  · exact Fine.bind (Fine.lift (Quiet.modify _ (fun _ => rfl))) (fun _ => Fine.bind (Fine.lift (Quiet.modify _ (fun _ => rfl))) (fun _ => Fine.lift (Quiet.modify _ (fun _ => rfl))))
  · exact Fine.bind (Fine.lift (Quiet.modify _ (fun _ => rfl))) (fun _ => Fine.lift (Quiet.modify _ (fun _ => rfl)))
theorem fine_lm2 (obj : (n → K) → SP K m n p L K) (ho : ∀ x, Fine (obj x)) (v : K) : Fine (lm2Updater obj v) := by
  unfold lm2Updater
  refine Fine.bind (fine_gain obj ho v) (fun _ => ?_)
  dsimp only
  repeat' first
    | exact Fine.pure _
    | exact Fine.lift (Quiet.modify _ (fun _ => rfl))
    | refine Fine.ite ?_ ?_
    | refine Fine.bind ?_ (fun _ => ?_)

theorem fine_lsObjective (env : Env K m n p L) (tag : Tag) (x : n → K) : Fine (lsObjective env tag x) :=
  Fine.bind (fine_evalSys x false) (fun _ => Fine.lift (quiet_objectiveOfR env tag))
theorem fine_newtonObjective (env : Env K m n p L) (x : n → K) : Fine (newtonObjective env x) :=
  Fine.bind (fine_evalSys x false) (fun _ => Fine.bind (Fine.lift Quiet.get) (fun _ => Fine.pure _))

theorem fine_newtonAssemble (w : Bool) : Fine (newtonAssemble w : SP K m n p L Unit) := by
  refine Fine.catchE (Fine.bind (Fine.lift Quiet.get) (fun _ => fine_evalSys _ w)) (fun e r h => ?_)
  split at h
  · cases h; exact Fine.bind (fine_writeFile _) (fun _ => Fine.lift (Quiet.throwE _ (by simp)))
  · split at h
    · cases h; exact Fine.bind (fine_writeFile _) (fun _ => Fine.lift (Quiet.throwE _ (by simp)))
    · cases h
theorem fine_lsAssemble [DecidableEq n] (env : Env K m n p L) (tag : Tag) (first : Bool) : Fine (lsAssemble env tag first) := by
  refine Fine.catchE (Fine.bind (Fine.lift Quiet.get) (fun _ => Fine.bind (fine_evalSys _ _) (fun _ => Fine.bind (Fine.lift (quiet_operators env tag)) (fun _ => Fine.lift (quiet_updateObjective _ _)))))
    (fun e r h => ?_)
  split at h
  · cases h; exact Fine.lift (Quiet.throwE _ (by simp))
  · split at h
    · cases h; exact Fine.lift (Quiet.throwE _ (by simp))
    · cases h

/-- an update strategy that only evaluates the given objective -/
def FineUpd (upd : ((n → K) → SP K m n p L K) → K → SP K m n p L Unit) : Prop := ∀ obj, (∀ x, Fine (obj x)) → ∀ v, Fine (upd obj v)

theorem fine_newtonUpdate (env : Env K m n p L) (upd : ((n → K) → SP K m n p L K) → K → SP K m n p L Unit) (hu : FineUpd upd) : Fine (newtonUpdate env upd) := by
  refine Fine.catchE (Fine.bind (Fine.lift Quiet.get) (fun _ => Fine.bind (Fine.lift (quiet_atInternal _ _)) (fun _ => Fine.bind (hu _ (fine_newtonObjective env) _) (fun _ => Fine.pure _))))
    (fun e r h => ?_)
  split at h
  · cases h; exact Fine.bind (fine_writeFile _) (fun _ => Fine.pure _)
  · split at h
    · cases h; exact Fine.bind (fine_writeFile _) (fun _ => Fine.pure _)
    · cases h
theorem fine_lsUpdate (env : Env K m n p L) (tag : Tag) (upd : ((n → K) → SP K m n p L K) → K → SP K m n p L Unit) (hu : FineUpd upd) : Fine (lsUpdate env tag upd) := by
  refine Fine.catchE (Fine.bind (Fine.lift Quiet.get) (fun _ => Fine.bind (Fine.lift (quiet_atInternal _ _)) (fun _ => Fine.bind (hu _ (fine_lsObjective env tag) _) (fun _ => Fine.pure _))))
    (fun e r h => ?_)
  split at h
  · cases h; exact Fine.pure _
  · split at h
    · cases h; exact Fine.pure _
    · cases h

theorem fine_newtonMustStop (cfg : Cfg K) (i : Int) : Fine (newtonMustStop cfg i : SP K m n p L Bool) := by
  unfold newtonMustStop
  refine Fine.bind (Fine.lift (quiet_belowTol cfg)) (fun _ => ?_)
  dsimp only
  repeat' first
    | exact Fine.pure _
    | exact fine_writeFile _
    | refine Fine.ite ?_ ?_
    | refine Fine.bind ?_ (fun _ => ?_)

theorem fine_newtonLoop (env : Env K m n p L) (cfg : Cfg K) (mf : Bool) (hl : mf = false → ∀ A b s, (env.linJ A b s).stop? ≠ some (.exc .timeStepFailure))
    (hk : mf = true → ∀ op b s, (env.krylov op b s).stop? ≠ some (.exc .timeStepFailure)) (upd : ((n → K) → SP K m n p L K) → K → SP K m n p L Unit) (hu : FineUpd upd) (k : Nat) (i : Int) :
    Fine (newtonLoop env cfg mf upd k i) := by
  induction k generalizing i with
  | zero =>
    unfold newtonLoop
    exact Fine.ite (Fine.lift (Quiet.undef _)) (Fine.pure _)
  | succ k ih =>
    unfold newtonLoop
    refine Fine.bind (fine_newtonAssemble _) (fun _ => ?_)
    refine Fine.bind (Fine.lift ?_) (fun _ => ?_)
    · split
      · next hmf => exact Quiet.bind Quiet.get (fun _ => Quiet.bind (Quiet.onlyC (hk hmf _ _)) (fun _ => quiet_negateC))
      · next hmf => exact Quiet.bind Quiet.get (fun _ => Quiet.bind (Quiet.onC (hl (by simpa using hmf) _ _)) (fun _ => quiet_negateC))
    refine Fine.bind (Fine.lift (quiet_updateDiagnostics _ _ _)) (fun _ => ?_)
    refine Fine.bind (fine_newtonMustStop _ _) (fun _ => Fine.ite (Fine.pure _) ?_)
    exact Fine.bind (fine_newtonUpdate env upd hu) (fun _ => Fine.ite (Fine.pure _) (ih _))

theorem fine_lsLoop [DecidableEq n] (env : Env K m n p L) (cfg : Cfg K) (tag : Tag) (he : InnerHonest env tag) (upd : ((n → K) → SP K m n p L K) → K → SP K m n p L Unit) (hu : FineUpd upd) (k : Nat)
    (i : Int) : Fine (lsLoop env cfg tag upd k i) := by
  induction k generalizing i with
  | zero =>
    unfold lsLoop
    exact Fine.ite (Fine.lift (Quiet.undef _)) (Fine.pure _)
  | succ k ih =>
    unfold lsLoop
    refine Fine.bind (fine_lsAssemble env tag _) (fun _ => ?_)
    refine Fine.bind (Fine.lift (quiet_correction env tag he)) (fun _ => ?_)
    refine Fine.bind (Fine.lift (quiet_updateDiagnostics _ _ _)) (fun _ => ?_)
    refine Fine.bind (Fine.lift ?_) (fun _ => Fine.ite (Fine.pure _) ?_)
    · unfold lsMustStop; split
      · exact Quiet.pure _
      · exact quiet_belowTol cfg
    exact Fine.bind (fine_lsUpdate env tag upd hu) (fun _ => Fine.ite (Fine.pure _) (ih _))

theorem fineUpd_default : FineUpd (fun _ _ => defaultUpdater : ((n → K) → SP K m n p L K) → K → SP K m n p L Unit) := fun _ _ _ => fine_default
theorem fineUpd_backtrack (z : K) : FineUpd (backtrackUpdater z : ((n → K) → SP K m n p L K) → K → SP K m n p L Unit) := fun _ ho _ => fine_backtrackLoop _ _ _ ho _ _
theorem fineUpd_lm1 : FineUpd (lm1Updater : ((n → K) → SP K m n p L K) → K → SP K m n p L Unit) := fun obj ho v => fine_lm1 obj ho v
theorem fineUpd_lm2 : FineUpd (lm2Updater : ((n → K) → SP K m n p L K) → K → SP K m n p L Unit) := fun obj ho v => fine_lm2 obj ho v

theorem fine_newtonSolve (env : Env K m n p L) (he : ∀ A b s, (env.linJ A b s).stop? ≠ some (.exc .timeStepFailure)) (cfg : Cfg K) : Fine (Model.Nonlinear.newtonSolve env cfg) := by
  unfold Model.Nonlinear.newtonSolve
  split
  · exact fine_newtonLoop env cfg _ (fun _ => he) (by simp) _ fineUpd_default _ _
  · exact Fine.bind (Fine.lift (Quiet.modify _ (fun _ => rfl))) (fun _ => Fine.bind (Fine.lift (quiet_zeta _)) (fun _ => fine_newtonLoop env cfg _ (fun _ => he) (by simp) _ (fineUpd_backtrack _) _ _))
  · exact Fine.lift (Quiet.throwE _ (by simp))

theorem fine_matrixFreeSolve (env : Env K m n p L) (he : ∀ op b s, (env.krylov op b s).stop? ≠ some (.exc .timeStepFailure)) (cfg : Cfg K) : Fine (Model.Nonlinear.matrixFreeSolve env cfg) :=
  fine_newtonLoop env cfg _ (by simp) (fun _ => he) _ fineUpd_default _ _

theorem fine_lsSolve [DecidableEq n] (env : Env K m n p L) (cfg : Cfg K) (tag : Tag) (he : InnerHonest env tag) : Fine (Model.Nonlinear.lsSolve env cfg tag) := by
  have hm : ∀ f : Reg K m n p L → Reg K m n p L, (∀ s, (f s).log = s.log) → Fine (SM.lift (Prog.modify f) : SP K m n p L Unit) := fun f hf => Fine.lift (Quiet.modify f hf)
  have hr : Fine (SM.lift (resetForNewSolve tag) : SP K m n p L Unit) := Fine.lift (quiet_reset tag)
  have hb : Fine (do
      SM.lift (Prog.modify (fun s => { s with trial := env.createState }))
      SM.lift (resetForNewSolve tag)
      let z ← SM.lift (backtrackZeta cfg.params)
      lsLoop env cfg tag (backtrackUpdater z) cfg.maxIters.toNat 1 : SP K m n p L Unit) :=
    Fine.bind (hm _ (fun _ => rfl)) (fun _ => Fine.bind hr (fun _ => Fine.bind (Fine.lift (quiet_zeta _)) (fun _ => fine_lsLoop env cfg tag he _ (fineUpd_backtrack _) _ _)))
  unfold Model.Nonlinear.lsSolve
  split
  · exact Fine.bind hr (fun _ => fine_lsLoop env cfg tag he _ fineUpd_default _ _)
  · exact hb
  · exact hb
  · refine Fine.ite ?_ (Fine.lift (Quiet.throwE _ (by simp)))
    exact Fine.bind (hm _ (fun _ => rfl)) (fun _ => Fine.bind hr (fun _ => Fine.bind (hm _ (fun _ => rfl)) (fun _ => fine_lsLoop env cfg tag he _ fineUpd_lm1 _ _)))
  · refine Fine.ite ?_ (Fine.lift (Quiet.throwE _ (by simp)))
    exact Fine.bind (hm _ (fun _ => rfl)) (fun _ => Fine.bind hr (fun _ => Fine.bind (hm _ (fun _ => rfl)) (fun _ => fine_lsLoop env cfg tag he _ fineUpd_lm2 _ _)))
  · exact Fine.lift (Quiet.throwE _ (by simp))

end
end Pressio.Lemmas.SolverTree
