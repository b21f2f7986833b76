import Verif.Lemmas.AdvanceBisim
import Verif.Lemmas.AdvanceComplete
import Verif.Lemmas.SolverAsks
import Verif.Props.FomStates
import Verif.Props.ImplicitNewton
import Verif.Props.AdvanceImplicit
import Verif.Props.FullyDiscrete
import Verif.Props.Lspg
import Verif.Props.GalerkinRun
import Verif.Props.LspgGaussNewton

/-
  C96: user-defined schemes that spell out a built-in scheme behave like the built-in scheme, for systems, LSPG and Galerkin problems, and through the advancers.
-/
namespace Pressio.Props
set_option autoImplicit false
set_option linter.unusedSectionVars false
open Pressio Pressio.Model.Implicit Pressio.Spec.Implicit Pressio.Lemmas.Implicit Pressio.Spec.CustomSchemes
open Pressio.Model.Explicit (Scheme)
open Pressio.Model.Advance (DtVars advanceT advanceN Ev)
open Pressio.Spec.AdvanceDrive

/-! ### Advancers cannot tell alike steppers apart -/
section
variable {K Y M N U : Type}

/-- **C96, advancers.** If the attempts of two stepper objects agree, for every list of step sizes, then `advance_n_steps` gives the same with both: the same calls, the same states, the same end. -/
theorem C96_n_steps_alike [Add K] (s1 : K → Int → K → Prog (Y × M) Unit) (s2 : K → Int → K → Prog (Y × N) Unit) (pol3 : Int → K → K → Prog U K) (pol5 : Int → K → DtVars K → Prog U (DtVars K)) (obs : Int → K → Y → Prog U Unit)
    (zero start : K) (y0 : Y) (a : M) (b : N) (h : ∀ dts, attempts s1 dts ⟨start, 1, y0, a⟩ = attempts s2 dts ⟨start, 1, y0, b⟩) (n : Int) (u : U) :
    visible (advanceN zero (userObjects s1 pol3 pol5 obs) n start ⟨(a, u), y0, []⟩) = visible (advanceN zero (userObjects s2 pol3 pol5 obs) n start ⟨(b, u), y0, []⟩) := by
  simp only [advanceN, Prog.bind_run, Lemmas.AdvanceBisim.callObs_user]
  rcases obs 0 start y0 u with ⟨_, u'⟩ | ⟨z, u'⟩
  · exact Lemmas.AdvanceBisim.nLoop_alike (fun _ => True) s1 s2 pol3 pol5 obs (fun _ _ _ _ _ _ _ => trivial) _ _ _ _ _ _ _ _ _ (fun dts _ => h dts)
  · rfl

/-- … and so do the advancers to a target time, with and without recovery. -/
theorem C96_target_alike [Field K] [LinearOrder K] (s1 : K → Int → K → Prog (Y × M) Unit) (s2 : K → Int → K → Prog (Y × N) Unit) (pol3 : Int → K → K → Prog U K) (pol5 : Int → K → DtVars K → Prog U (DtVars K)) (obs : Int → K → Y → Prog U Unit)
    (rec : Bool) (eps start final : K) (y0 : Y) (a : M) (b : N) (h : ∀ dts, attempts s1 dts ⟨start, 1, y0, a⟩ = attempts s2 dts ⟨start, 1, y0, b⟩) (fuel : Nat) (u : U) :
    visible (advanceT rec eps (userObjects s1 pol3 pol5 obs) fuel start final ⟨(a, u), y0, []⟩) = visible (advanceT rec eps (userObjects s2 pol3 pol5 obs) fuel start final ⟨(b, u), y0, []⟩) := by
  simp only [advanceT]
  split
  · rfl
  split
  · rfl
  simp only [Prog.bind_run, Lemmas.AdvanceBisim.callObs_user]
  rcases obs 0 start y0 u with ⟨_, u'⟩ | ⟨z, u'⟩
  · exact Lemmas.AdvanceBisim.tLoop_alike (fun _ => True) s1 s2 pol3 pol5 obs (fun _ _ _ _ _ _ _ => trivial) (fun _ _ _ _ _ _ _ => trivial) (fun _ _ _ _ => trivial) rec eps final _ _ _ _ _ _ _ _ _ (fun dts _ => h dts)
  · rfl
end

/-! ### Systems -/
section
variable {K Y J : Type} [Field K] [AddCommGroup Y] [Module K Y] [AddCommGroup J] [Module K J] [One J]

theorem ideal_congr_gen {A : Type} (F F' : List Y → K → K → Y → Bool → Except Exc A) (h : ∀ y prev t dt x w, F (y :: prev) t dt x w = F' (y :: prev) t dt x w) (atts : List (Attempt K Y A)) (t : K) (y : Y) (prev : List Y) :
    ideal F atts t y prev = ideal F' atts t y prev := by
  have h' : ∀ y prev, F (y :: prev) = F' (y :: prev) := fun y prev => by funext t dt x w; exact h y prev t dt x w
  induction atts generalizing t y prev with
  | nil => rfl
  | cons a rest ih =>
    simp only [ideal, h']
    split
    · rw [ih]
    · rw [ih]
    · rfl

theorem reported_asDiscrete (e : Exc) (h : e ≠ .discreteTimeResidualFailureUnrecoverable) :
    (if asDiscrete e = .discreteTimeResidualFailureUnrecoverable then .residualEvaluationFailureUnrecoverable else asDiscrete e) = reported e := by
  unfold asDiscrete reported
  by_cases hv : e = .velocityFailureUnrecoverable
  · simp [hv]
  · simp [hv, h]

/-- the user's equations are the textbook's -/
theorem arbitrary_spelled (name : Scheme) (hname : IsImplicit name) (sys : ISystem K Y J) (hsys : Mannered sys) (numAux : Nat) (hh : history name ≤ numAux) (asys : ASystem K Y (Y × Option J)) (hs : Spells name numAux sys asys)
    (init : List Y) (hi : init.length = numAux) (yn : Y) (prev : List Y) (t dt : K) (y : Y) (w : Bool) : arbitrary asys numAux init (yn :: prev) t dt y w = textbook name sys (yn :: prev) t dt y w := by
  have hl : ((yn :: prev ++ init).take numAux).length = numAux := by simp [hi]; omega
  simp only [arbitrary]
  rw [hs _ _ _ _ _ _ hl]
  rcases hname with rfl | rfl | rfl
  · obtain ⟨k, rfl⟩ : ∃ k, numAux = k + 1 := ⟨numAux - 1, by simp [history] at hh; omega⟩
    simp only [List.cons_append, List.take_succ_cons, spelled, textbook]
    rcases he : sys.eval y (t + dt) w with ⟨e, junk⟩ | ⟨f, j⟩
    · simp only [reported_asDiscrete e (hsys _ _ _ _ _ he).2]
    · rfl
  · obtain ⟨k, rfl⟩ : ∃ k, numAux = k + 2 := ⟨numAux - 2, by simp [history] at hh; omega⟩
    cases prev with
    | nil =>
      obtain ⟨z, init', rfl⟩ : ∃ z l, init = z :: l := by
        cases init with
        | nil => simp at hi
        | cons z l => exact ⟨z, l, rfl⟩
      simp only [List.cons_append, List.nil_append, List.take_succ_cons, spelled, textbook]
      rcases he : sys.eval y (t + dt) w with ⟨e, junk⟩ | ⟨f, j⟩
      · simp only [reported_asDiscrete e (hsys _ _ _ _ _ he).2]
      · simp [bdf1Res, bdf1Jac]
        rfl
    | cons ynm1 prev =>
      have hstep : ¬ (((yn :: ynm1 :: prev).length : Int) = 1) := by simp only [List.length_cons]; push_cast; omega
      simp only [List.cons_append, List.take_succ_cons, spelled, textbook]
      rcases he : sys.eval y (t + dt) w with ⟨e, junk⟩ | ⟨f, j⟩
      · simp only [reported_asDiscrete e (hsys _ _ _ _ _ he).2]
      · simp only [if_neg hstep, bdf2Res]
        rfl
  · obtain ⟨k, rfl⟩ : ∃ k, numAux = k + 1 := ⟨numAux - 1, by simp [history] at hh; omega⟩
    simp only [List.cons_append, List.take_succ_cons, spelled, textbook, add_sub_cancel_right]
    rcases he : sys.eval yn t false with ⟨e, junk⟩ | ⟨fn, jn⟩
    · simp only [if_neg (hsys _ _ _ _ _ he).2]
    · rcases he : sys.eval y (t + dt) w with ⟨e, junk⟩ | ⟨f, j⟩
      · simp only [if_neg (hsys _ _ _ _ _ he).2]
      · rfl

theorem mannered_noTSF {sys : ISystem K Y J} (h : Mannered sys) : NoTSF sys := fun _ _ _ _ _ he => (h _ _ _ _ _ he).1

/-- **C96, systems.** A user who spells out BDF1, BDF2 or Crank–Nicolson and passes it to the stepper for user-defined schemes (with as many previous states as the scheme needs, or more) gets the same run as with the built-in scheme: the same
    evaluations, answers, states, exceptions and rolled back steps, whatever the solver and the step sizes, and with exceptions of the right-hand side. -/
theorem C96_custom_scheme (name : Scheme) (hname : IsImplicit name) (sys : ISystem K Y J) (hsys : Mannered sys) (numAux : Nat) (hn : numAux ≤ 3) (hh : history name ≤ numAux) (asys : ASystem K Y (Y × Option J)) (hs : Spells name numAux sys asys)
    (hasys : NoTSFA asys) (mem : SMem K Y Y PMem) (hmem : Ready name mem) (amem : AMem K Y) (hamem : amem.states.length = numAux)
    (atts : List (Attempt K Y (Y × Option J))) (hon : ∀ a ∈ atts, ∀ y, Honest (a.solver y)) (t0 : K) (y0 : Y) :
    drive (fun solver t dt k => arbStep asys numAux solver t dt k) atts t0 [y0] y0 amem = drive (stdStep name sys) atts t0 [y0] y0 mem := by
  have h1 : 1 ≤ history name := by cases name <;> simp [history]
  rw [C25_arbitrary_run_is_ideal asys hasys numAux (by omega) amem hamem atts hon t0 y0, C19_run_is_ideal name sys (mannered_noTSF hsys) mem hmem atts hon t0 y0]
  exact ideal_congr_gen _ _ (fun yn prev t dt y w => arbitrary_spelled name hname sys hsys numAux hh asys hs amem.states hamem yn prev t dt y w) atts t0 y0 []
end

/-! ### With a solver object, and through the advancers -/
section
open Pressio.Spec.SolverRun Pressio.Lemmas.SolverTree Pressio.Lemmas.SolverRun
open Pressio.Model.Nonlinear (Env Cfg Reg Ans SP newtonSolve)
variable {K m n p L S S' : Type}

/-- what is recorded of an attempt, and how the run goes on -/
def branch {K Y S A : Type} (hist : List Y) (t dt : K) (k1 k2 : SolveSt Y S A → List (Record K Y A)) : Res (SolveSt Y S A) Unit → List (Record K Y A)
  | .ok _ s => ⟨hist, t, dt, s.log, none, s.y⟩ :: k1 s
  | .stop z s => ⟨hist, t, dt, s.log, some z, s.y⟩ :: if z = .exc .timeStepFailure then k2 s else []

theorem drive_cons {K Y S A : Type} [Add K] (step : (Y → SolveTree Y A) → K → K → Int → Prog (SolveSt Y S A) Unit) (a : Attempt K Y A) (rest : List (Attempt K Y A)) (t : K) (hist : List Y) (y : Y) (mem : S) :
    drive step (a :: rest) t hist y mem = branch hist t a.dt (fun s => drive step rest (t + a.dt) (s.y :: hist) s.y s.mem) (fun s => drive step rest t hist s.y s.mem) (step a.solver t a.dt hist.length ⟨y, mem, []⟩) := by
  rw [drive]
  split
  · rename_i h; rw [h]; rfl
  · rename_i h; rw [h]; simp [branch]
  · rename_i z s hz h
    rw [h]
    simp only [branch]
    rw [if_neg hz]

theorem driveObj_cons [Add K] (step : ((n → K) → SolveTree (n → K) (Ans K m n)) → K → K → Int → Prog (SolveSt (n → K) S (Ans K m n)) Unit) (solve : SP K m n p L Unit) (dt : K) (rest : List K) (t : K) (hist : List (n → K)) (y : n → K) (mem : S) (reg : Reg K m n p L) :
    driveObj step solve (dt :: rest) t hist y mem reg = branch hist t dt (fun s => driveObj step solve rest (t + dt) (s.y :: hist) s.y s.mem ((solve { reg with x := y }).replay reg (s.log.map (·.ans))))
      (fun s => driveObj step solve rest t hist s.y s.mem ((solve { reg with x := y }).replay reg (s.log.map (·.ans)))) (step (solverOf solve reg) t dt hist.length ⟨y, mem, []⟩) := by
  rw [driveObj]
  split
  · rename_i h; rw [h]; rfl
  · rename_i h; rw [h]; simp [branch]
  · rename_i z s hz h
    rw [h]
    simp only [branch]
    rw [if_neg hz]

theorem driveObj_congr [Add K] (step : ((n → K) → SolveTree (n → K) (Ans K m n)) → K → K → Int → Prog (SolveSt (n → K) S (Ans K m n)) Unit) (step' : ((n → K) → SolveTree (n → K) (Ans K m n)) → K → K → Int → Prog (SolveSt (n → K) S' (Ans K m n)) Unit)
    (solve : SP K m n p L Unit) (dts : List K) (t : K) (hist : List (n → K)) (y : n → K) (mem : S) (mem' : S') (reg : Reg K m n p L)
    (h : ∀ atts : List (Attempt K (n → K) (Ans K m n)), (∀ a ∈ atts, ∃ r, a.solver = solverOf solve r) → drive step atts t hist y mem = drive step' atts t hist y mem') :
    driveObj step solve dts t hist y mem reg = driveObj step' solve dts t hist y mem' reg := by
  induction dts generalizing t hist y mem mem' reg with
  | nil => rfl
  | cons dt rest ih =>
    have h' : ∀ atts : List (Attempt K (n → K) (Ans K m n)), (∀ a ∈ atts, ∃ r, a.solver = solverOf solve r) → drive step (⟨dt, solverOf solve reg⟩ :: atts) t hist y mem = drive step' (⟨dt, solverOf solve reg⟩ :: atts) t hist y mem' :=
      fun atts ha => h _ (by
        intro a hm
        rcases List.mem_cons.1 hm with rfl | hm
        · exact ⟨reg, rfl⟩
        · exact ha a hm)
    simp only [drive_cons] at h'
    have h0 := h' [] (by simp)
    simp only [driveObj_cons]
    generalize step (solverOf solve reg) t dt hist.length ⟨y, mem, []⟩ = r1 at h' h0 ⊢
    generalize step' (solverOf solve reg) t dt hist.length ⟨y, mem', []⟩ = r2 at h' h0 ⊢
    rcases r1 with ⟨_, s1⟩ | ⟨z1, s1⟩ <;> rcases r2 with ⟨_, s2⟩ | ⟨z2, s2⟩ <;>
    simp only [branch, List.cons.injEq, Record.mk.injEq, true_and, reduceCtorEq, false_and, and_false, Option.some.injEq] at h' h0 ⊢
    · obtain ⟨⟨e1, e2⟩, -⟩ := h0
      refine ⟨⟨e1, e2⟩, ?_⟩
      rw [e1, e2]
      refine ih _ _ _ _ _ _ (fun atts ha => ?_)
      have := (h' atts ha).2
      rwa [e2] at this
    · obtain ⟨⟨e1, e2, e3⟩, -⟩ := h0
      refine ⟨⟨e1, e2, e3⟩, ?_⟩
      subst e2
      split
      · rename_i hz
        rw [e1, e3]
        refine ih _ _ _ _ _ _ (fun atts ha => ?_)
        have := (h' atts ha).2
        rwa [if_pos hz, if_pos hz, e3] at this
      · rfl

/-- solves that end, however they end, with something that steppers may pass on, and that evaluate something before they succeed -/
theorem hon_of {solve : SP K m n p L Unit} (hf : Fine solve) (atts : List (Attempt K (n → K) (Ans K m n))) (ha : ∀ a ∈ atts, ∃ r, a.solver = solverOf solve r) : ∀ a ∈ atts, ∀ y, Honest (a.solver y) := by
  intro a hm y
  obtain ⟨r, hr⟩ := ha a hm
  rw [hr]
  exact honest_solverOf solve hf r y

theorem ask_of {solve : SP K m n p L Unit} (hb : Lemmas.SolverRun.Busy solve) (atts : List (Attempt K (n → K) (Ans K m n))) (ha : ∀ a ∈ atts, ∃ r, a.solver = solverOf solve r) : ∀ a ∈ atts, ∀ y, Asks (a.solver y) := by
  intro a hm y
  obtain ⟨r, hr⟩ := ha a hm
  rw [hr]
  exact Lemmas.SolverRun.asks_solverOf solve hb r y

/-- steppers with the same runs are alike for the advancers -/
theorem attempts_of_drive [Add K] (step : ((n → K) → SolveTree (n → K) (Ans K m n)) → K → K → Int → Prog (SolveSt (n → K) S (Ans K m n)) Unit) (step' : ((n → K) → SolveTree (n → K) (Ans K m n)) → K → K → Int → Prog (SolveSt (n → K) S' (Ans K m n)) Unit)
    (solve : SP K m n p L Unit) (t : K) (y : n → K) (mem : S) (mem' : S') (reg : Reg K m n p L)
    (h : ∀ atts : List (Attempt K (n → K) (Ans K m n)), (∀ a ∈ atts, ∃ r, a.solver = solverOf solve r) → drive step atts t [y] y mem = drive step' atts t [y] y mem') (dts : List K) :
    attempts (objStepper step solve) dts ⟨t, 1, y, (mem, reg)⟩ = attempts (objStepper step' solve) dts ⟨t, 1, y, (mem', reg)⟩ := by
  rw [← C92_runs, ← C92_runs, driveObj_congr step step' solve dts t [y] y mem mem' reg h]

variable [Field K] [Fintype n] [DecidableEq n]

/-- **C96, systems, with a Newton object.** The solver is any of Pressio's Newton solvers, with its memory, for the whole run. -/
theorem C96_custom_newton (name : Scheme) (hname : IsImplicit name) (sys : ISystem K (n → K) (Matrix n n K)) (hsys : Mannered sys) (numAux : Nat) (hn : numAux ≤ 3) (hh : history name ≤ numAux) (asys : ASystem K (n → K) ((n → K) × Option (Matrix n n K)))
    (hs : Spells name numAux sys asys) (hasys : NoTSFA asys) (mem : SMem K (n → K) (n → K) PMem) (hmem : Ready name mem) (amem : AMem K (n → K)) (hamem : amem.states.length = numAux)
    (solve : SP K n n p L Unit) (hf : Fine solve) (reg : Reg K n n p L) (dts : List K) (t0 : K) (y0 : n → K) :
    driveObj (fun solver t dt k => arbStep asys numAux solver t dt k) solve dts t0 [y0] y0 amem reg = driveObj (stdStep name sys) solve dts t0 [y0] y0 mem reg :=
  driveObj_congr _ _ solve dts t0 [y0] y0 amem mem reg (fun atts ha => C96_custom_scheme name hname sys hsys numAux hn hh asys hs hasys mem hmem amem hamem atts (hon_of hf atts ha) t0 y0)

/-- **C96, systems, through the advancers.** … with policies, observers and a solver object, `advance_n_steps` cannot tell the user's scheme from the built-in one … -/
theorem C96_custom_n_steps {U : Type} (name : Scheme) (hname : IsImplicit name) (sys : ISystem K (n → K) (Matrix n n K)) (hsys : Mannered sys) (numAux : Nat) (hn : numAux ≤ 3) (hh : history name ≤ numAux) (asys : ASystem K (n → K) ((n → K) × Option (Matrix n n K)))
    (hs : Spells name numAux sys asys) (hasys : NoTSFA asys) (mem : SMem K (n → K) (n → K) PMem) (hmem : Ready name mem) (amem : AMem K (n → K)) (hamem : amem.states.length = numAux)
    (solve : SP K n n p L Unit) (hf : Fine solve) (reg : Reg K n n p L) (pol3 : Int → K → K → Prog U K) (pol5 : Int → K → DtVars K → Prog U (DtVars K)) (obs : Int → K → (n → K) → Prog U Unit) (zero start : K) (y0 : n → K) (N : Int) (u : U) :
    visible (advanceN zero (userObjects (objStepper (fun solver t dt k => arbStep asys numAux solver t dt k) solve) pol3 pol5 obs) N start ⟨((amem, reg), u), y0, []⟩) =
      visible (advanceN zero (userObjects (objStepper (stdStep name sys) solve) pol3 pol5 obs) N start ⟨((mem, reg), u), y0, []⟩) :=
  C96_n_steps_alike _ _ pol3 pol5 obs zero start y0 _ _ (attempts_of_drive _ _ solve start y0 amem mem reg
    (fun atts ha => C96_custom_scheme name hname sys hsys numAux hn hh asys hs hasys mem hmem amem hamem atts (hon_of hf atts ha) start y0)) N u

/-- … nor can the advancers to a target time, with or without recovery from failed steps -/
theorem C96_custom_target {U : Type} [LinearOrder K] (name : Scheme) (hname : IsImplicit name) (sys : ISystem K (n → K) (Matrix n n K)) (hsys : Mannered sys) (numAux : Nat) (hn : numAux ≤ 3) (hh : history name ≤ numAux) (asys : ASystem K (n → K) ((n → K) × Option (Matrix n n K)))
    (hs : Spells name numAux sys asys) (hasys : NoTSFA asys) (mem : SMem K (n → K) (n → K) PMem) (hmem : Ready name mem) (amem : AMem K (n → K)) (hamem : amem.states.length = numAux)
    (solve : SP K n n p L Unit) (hf : Fine solve) (reg : Reg K n n p L) (pol3 : Int → K → K → Prog U K) (pol5 : Int → K → DtVars K → Prog U (DtVars K)) (obs : Int → K → (n → K) → Prog U Unit) (rec : Bool) (eps start final : K) (y0 : n → K) (fuel : Nat) (u : U) :
    visible (advanceT rec eps (userObjects (objStepper (fun solver t dt k => arbStep asys numAux solver t dt k) solve) pol3 pol5 obs) fuel start final ⟨((amem, reg), u), y0, []⟩) =
      visible (advanceT rec eps (userObjects (objStepper (stdStep name sys) solve) pol3 pol5 obs) fuel start final ⟨((mem, reg), u), y0, []⟩) :=
  C96_target_alike _ _ pol3 pol5 obs rec eps start final y0 _ _ (attempts_of_drive _ _ solve start y0 amem mem reg
    (fun atts ha => C96_custom_scheme name hname sys hsys numAux hn hh asys hs hasys mem hmem amem hamem atts (hon_of hf atts ha) start y0)) fuel u

end

/-! ### Reduced-order models -/
section
open Pressio.Spec.SolverRun Pressio.Lemmas.SolverTree Pressio.Lemmas.SolverRun
open Pressio.Model.Nonlinear (Env Cfg Reg Ans SP newtonSolve)
open Pressio.Model.Galerkin Pressio.Model.Lspg Pressio.Spec.Galerkin Pressio.Spec.Lspg Pressio.Lemmas.Lspg
open scoped Matrix
variable {K m p n q : Type} [Field K] [Fintype m] [Fintype n] [Fintype p] [Fintype q] [DecidableEq n]

theorem plain_error {Z : Type} {f : (m → K) → K → Except Exc Z} (hf : Plain f) {y : m → K} {t : K} {e : Exc} (h : f y t = .error e) : e ≠ .timeStepFailure ∧ e ≠ .discreteTimeResidualFailureUnrecoverable ∧ e ≠ .velocityFailureUnrecoverable := by
  have := hf y t
  rw [h] at this
  simpa using this

theorem spelledRes_error (E : Matrix p m K) (name : Scheme) {f : (m → K) → K → Except Exc (p → K)} (hf : Plain f) (k : Int) (t dt : K) (y : m → K) (prev : List (m → K)) (e : Exc) (h : spelledRes E name f k t dt y prev = .error e) :
    e ≠ .timeStepFailure ∧ e ≠ .discreteTimeResidualFailureUnrecoverable ∧ e ≠ .velocityFailureUnrecoverable := by
  unfold spelledRes at h
  split at h
  · rcases hv : f y t with e | v <;> simp [hv, bind, Except.bind, pure, Except.pure] at h
    exact h ▸ plain_error hf hv
  · rcases hv : f y t with e | v <;> simp [hv, bind, Except.bind, pure, Except.pure] at h
    exact h ▸ plain_error hf hv
  · rename_i yn _
    rcases hv : f yn (t - dt) with e | v <;> simp [hv, bind, Except.bind, pure, Except.pure] at h
    · exact h ▸ plain_error hf hv
    · rcases hv : f y t with e | v <;> simp [hv] at h
      exact h ▸ plain_error hf hv
  · cases h; simp

theorem spelledJac_error (E : Matrix p m K) (name : Scheme) {Df : (m → K) → K → Except Exc (Matrix p m K)} (hDf : Plain Df) (k : Int) (t dt : K) (y : m → K) (prev : List (m → K)) (e : Exc) (h : spelledJac E name Df k t dt y prev = .error e) :
    e ≠ .timeStepFailure ∧ e ≠ .discreteTimeResidualFailureUnrecoverable ∧ e ≠ .velocityFailureUnrecoverable := by
  unfold spelledJac at h
  rcases hv : Df y t with e | v <;> simp [hv, bind, Except.bind, pure, Except.pure] at h
  exact h ▸ plain_error hDf hv

theorem spelled_noTSF (E : Matrix p m K) (name : Scheme) {f : (m → K) → K → Except Exc (p → K)} {Df : (m → K) → K → Except Exc (Matrix p m K)} (hf : Plain f) (hDf : Plain Df) : DFomNoTSF (spelledRes E name f) (spelledJac E name Df) :=
  ⟨fun k t dt y prev h => (spelledRes_error E name hf k t dt y prev _ h).1 rfl, fun k t dt y prev h => (spelledJac_error E name hDf k t dt y prev _ h).1 rfl⟩

/-- exceptions of the full-order model arrive unchanged -/
theorem fullyDiscrete_raw (E : Matrix p m K) (name : Scheme) {f : (m → K) → K → Except Exc (p → K)} {Df : (m → K) → K → Except Exc (Matrix p m K)} (hf : Plain f) (hDf : Plain Df) (N : Nat) (S : Trial K m n) (init : m → K) (hist : List (n → K)) (t dt : K) (x : n → K) (w : Bool) :
    fullyDiscrete N S (spelledRes E name f) (spelledJac E name Df) init hist t dt x w = (do
      let r ← spelledRes E name f hist.length (t + dt) dt (lift S x) ((hist.map (lift S) ++ [init]).take (N - 1))
      let J ← if w then (spelledJac E name Df hist.length (t + dt) dt (lift S x) ((hist.map (lift S) ++ [init]).take (N - 1))).map (fun D => some (D * S.basis)) else pure none
      pure (r, J)) := by
  unfold fullyDiscrete
  rcases hr : spelledRes E name f hist.length (t + dt) dt (lift S x) ((hist.map (lift S) ++ [init]).take (N - 1)) with e | r
  · simp [hr, bind, Except.bind, Except.mapError, (spelledRes_error E name hf _ _ _ _ _ _ hr).2.1]
  · cases w
    · simp [hr, bind, Except.bind, Except.mapError, pure, Except.pure]
    · rcases hJ : spelledJac E name Df hist.length (t + dt) dt (lift S x) ((hist.map (lift S) ++ [init]).take (N - 1)) with e | D
      · simp [hr, hJ, bind, Except.bind, Except.mapError, Except.map, (spelledJac_error E name hDf _ _ _ _ _ _ hJ).2.1]
      · simp [hr, hJ, bind, Except.bind, Except.mapError, Except.map, pure, Except.pure]

/-- the equations of the fully discrete problem are those of hyper-reduced LSPG -/
theorem fullyDiscrete_spelled (E : Matrix p m K) (name : Scheme) (hname : name = .BDF1 ∨ name = .BDF2) {f : (m → K) → K → Except Exc (p → K)} {Df : (m → K) → K → Except Exc (Matrix p m K)} (hf : Plain f) (hDf : Plain Df) (N : Nat) (hN : N = 2 ∨ N = 3) (hh : history name + 1 ≤ N)
    (S : Trial K m n) (init : m → K) (y : n → K) (prev : List (n → K)) (t dt : K) (x : n → K) (w : Bool) :
    fullyDiscrete N S (spelledRes E name f) (spelledJac E name Df) init (y :: prev) t dt x w = hypredLspg E name S f Df (y :: prev) t dt x w := by
  rw [fullyDiscrete_raw E name hf hDf]
  unfold hypredLspg
  rcases hname with rfl | rfl
  · have h2 : ∃ l, ((y :: prev).map (lift S) ++ [init]).take (N - 1) = lift S y :: l := by rcases hN with rfl | rfl <;> simp
    obtain ⟨l, hl⟩ := h2
    rw [hl]
    simp only [spelledRes, spelledJac, bind_assoc, pure_bind, combination, coef, List.map_cons]
    rcases f (lift S x) (t + dt) with e | v
    · rfl
    · cases w
      · rfl
      · rcases Df (lift S x) (t + dt) with e | D
        · rfl
        · simp [bind, Except.bind, pure, Except.pure, Except.map, Matrix.sub_mul]
  · have hN3 : N = 3 := by rcases hN with rfl | rfl <;> simp [history] at hh ⊢
    subst hN3
    cases prev with
    | nil =>
      simp only [List.map_cons, List.map_nil, List.cons_append, List.nil_append, List.take_succ_cons, List.take_zero, spelledRes, spelledJac, bind_assoc, pure_bind, combination, coef]
      rcases f (lift S x) (t + dt) with e | v
      · rfl
      · cases w
        · simp [bind, Except.bind, pure, Except.pure]
        · rcases Df (lift S x) (t + dt) with e | D
          · rfl
          · simp [bind, Except.bind, pure, Except.pure, Except.map, Matrix.sub_mul]
    | cons y' prev =>
      have hstep : ¬ (((y :: y' :: prev).length : Int) = 1) := by simp only [List.length_cons]; push_cast; omega
      simp only [List.map_cons, List.cons_append, List.take_succ_cons, List.take_zero, spelledRes, spelledJac, bind_assoc, pure_bind, combination, coef, if_neg hstep]
      rcases f (lift S x) (t + dt) with e | v
      · rfl
      · cases w
        · rfl
        · rcases Df (lift S x) (t + dt) with e | D
          · rfl
          · simp [bind, Except.bind, pure, Except.pure, Except.map, Matrix.sub_mul]

/-- **C96, hyper-reduced LSPG.** A fully discrete problem whose full-order model spells out BDF1 or BDF2 on the sample mesh gives the same runs as the hyper-reduced problem with the built-in scheme. -/
theorem C96_hypred_lspg {F : Fom K m p n} {f : (m → K) → K → Except Exc (p → K)} {Df Mm : (m → K) → K → Except Exc (Matrix p m K)} (hF : FomIs F f Df Mm) (hf : Plain f) (hDf : Plain Df) (U : Updater K m p n) (E : Matrix p m K) (hU : UpdaterIs U E)
    (S : Trial K m n) (name : Scheme) (hname : name = .BDF1 ∨ name = .BDF2) (mem : SMem K (n → K) (n → K) (LMem K m p n)) (hmem : LspgReady name mem) {F' : DFom K m p n} (hF' : DFomIs F' (spelledRes E name f) (spelledJac E name Df))
    {N : Nat} (hN : N = 2 ∨ N = 3) (hh : history name + 1 ≤ N) (st : AMem K (n → K)) (s : LMem K m p n) (hr : FDReady N st s)
    (atts : List (Attempt K (n → K) ((p → K) × Option (Matrix p n K)))) (hon : ∀ a ∈ atts, ∀ y, Honest (a.solver y)) (hask : ∀ a ∈ atts, ∀ y, Asks (a.solver y)) (t0 : K) (x0 : n → K) :
    drive (fun solver t dt k => arbStepS (lspgDiscrete N S F') (N - 1) solver t dt k) atts t0 [x0] x0 (st, s) = drive (stepWith name (hypredPolicy U S F)) atts t0 [x0] x0 mem := by
  rw [C57_lspg_run_is_ideal hN hF' (spelled_noTSF E name hf hDf) S st s hr atts hon hask t0 x0, C54_run_is_ideal hF (fun y t => (hf y t).1) (fun y t => (hDf y t).1) U E hU S name hname mem hmem atts hon hask t0 x0]
  exact ideal_congr_gen _ _ (fun y prev t dt x w => fullyDiscrete_spelled E name hname hf hDf N hN hh S _ y prev t dt x w) atts t0 x0 []

theorem hypred_one [DecidableEq m] (name : Scheme) (S : Trial K m n) (f : (m → K) → K → Except Exc (m → K)) (Df : (m → K) → K → Except Exc (Matrix m m K)) (hist : List (n → K)) (t dt : K) (x : n → K) (w : Bool) :
    hypredLspg (1 : Matrix m m K) name S f Df hist t dt x w = lspg name S f Df hist t dt x w := by
  unfold hypredLspg lspg
  simp

/-- **C96, LSPG.** The same without sampling: a fully discrete LSPG problem for a full-order model that spells out BDF1 or BDF2 gives the same runs as the LSPG problem for that scheme. -/
theorem C96_lspg [DecidableEq m] {F : Fom K m m n} {f : (m → K) → K → Except Exc (m → K)} {Df Mm : (m → K) → K → Except Exc (Matrix m m K)} (hF : FomIs F f Df Mm) (hf : Plain f) (hDf : Plain Df)
    (S : Trial K m n) (name : Scheme) (hname : name = .BDF1 ∨ name = .BDF2) (mem : SMem K (n → K) (n → K) (LMem K m m n)) (hmem : LspgReady name mem) {F' : DFom K m m n} (hF' : DFomIs F' (spelledRes 1 name f) (spelledJac 1 name Df))
    {N : Nat} (hN : N = 2 ∨ N = 3) (hh : history name + 1 ≤ N) (st : AMem K (n → K)) (s : LMem K m m n) (hr : FDReady N st s)
    (atts : List (Attempt K (n → K) ((m → K) × Option (Matrix m n K)))) (hon : ∀ a ∈ atts, ∀ y, Honest (a.solver y)) (hask : ∀ a ∈ atts, ∀ y, Asks (a.solver y)) (t0 : K) (x0 : n → K) :
    drive (fun solver t dt k => arbStepS (lspgDiscrete N S F') (N - 1) solver t dt k) atts t0 [x0] x0 (st, s) = drive (stepWith name (defaultPolicy S F)) atts t0 [x0] x0 mem := by
  rw [C57_lspg_run_is_ideal hN hF' (spelled_noTSF 1 name hf hDf) S st s hr atts hon hask t0 x0, C52_run_is_ideal hF ⟨fun y t => (hf y t).1, fun y t => (hDf y t).1⟩ S name hname mem hmem atts hon hask t0 x0]
  exact ideal_congr_gen _ _ (fun y prev t dt x w => (fullyDiscrete_spelled 1 name hname hf hDf N hN hh S _ y prev t dt x w).trans (hypred_one name S f Df _ t dt x w)) atts t0 x0 []

/-- **C96, LSPG, through the advancers**, with any of Pressio's least-squares solvers (or another solver object that evaluates something before it succeeds) -/
theorem C96_lspg_target {W L U : Type} [LinearOrder K] [DecidableEq m] {F : Fom K m m n} {f : (m → K) → K → Except Exc (m → K)} {Df Mm : (m → K) → K → Except Exc (Matrix m m K)} (hF : FomIs F f Df Mm) (hf : Plain f) (hDf : Plain Df)
    (S : Trial K m n) (name : Scheme) (hname : name = .BDF1 ∨ name = .BDF2) (mem : SMem K (n → K) (n → K) (LMem K m m n)) (hmem : LspgReady name mem) {F' : DFom K m m n} (hF' : DFomIs F' (spelledRes 1 name f) (spelledJac 1 name Df))
    {N : Nat} (hN : N = 2 ∨ N = 3) (hh : history name + 1 ≤ N) (st : AMem K (n → K)) (s : LMem K m m n) (hr : FDReady N st s)
    (solve : SP K m n W L Unit) (hs : Fine solve) (hb : Busy solve) (reg : Reg K m n W L) (pol3 : Int → K → K → Prog U K) (pol5 : Int → K → DtVars K → Prog U (DtVars K)) (obs : Int → K → (n → K) → Prog U Unit) (rec : Bool) (eps start final : K) (x0 : n → K) (fuel : Nat) (u : U) :
    visible (advanceT rec eps (userObjects (objStepper (fun solver t dt k => arbStepS (lspgDiscrete N S F') (N - 1) solver t dt k) solve) pol3 pol5 obs) fuel start final ⟨(((st, s), reg), u), x0, []⟩) =
      visible (advanceT rec eps (userObjects (objStepper (stepWith name (defaultPolicy S F)) solve) pol3 pol5 obs) fuel start final ⟨((mem, reg), u), x0, []⟩) :=
  C96_target_alike _ _ pol3 pol5 obs rec eps start final x0 _ _ (attempts_of_drive _ _ solve start x0 _ mem reg
    (fun atts ha => C96_lspg hF hf hDf S name hname mem hmem hF' hN hh st s hr atts (hon_of hs atts ha) (ask_of hb atts ha) start x0)) fuel u

/-- the projected equations of the fully discrete problem are those of the Galerkin problem -/
theorem projected_spelled [DecidableEq m] (name : Scheme) (hname : IsImplicit name) {f : (m → K) → K → Except Exc (m → K)} {Df : (m → K) → K → Except Exc (Matrix m m K)} (hf : Plain f) (hDf : Plain Df) (N : Nat) (hN : N = 2 ∨ N = 3) (hh : history name + 1 ≤ N)
    (S : Trial K m n) (init : m → K) (y : n → K) (prev : List (n → K)) (t dt : K) (x : n → K) (w : Bool) :
    projected (fun _ v => S.basisᵀ.mulVec v) (fun _ B => S.basisᵀ * B) (fullyDiscrete N S (spelledRes 1 name f) (spelledJac 1 name Df) init) (y :: prev) t dt x w =
      (textbook name (fomSystem f Df) ((y :: prev).map (lift S)) t dt (lift S x) w).map (project S) := by
  unfold projected
  rw [fullyDiscrete_raw 1 name hf hDf]
  have hrep : ∀ {Z : Type} {f : (m → K) → K → Except Exc Z}, Plain f → ∀ {y t e}, f y t = .error e → reported e = e := fun h _ _ _ he => if_neg (plain_error h he).2.2
  rcases hname with rfl | rfl | rfl
  · have h2 : ∃ l, ((y :: prev).map (lift S) ++ [init]).take (N - 1) = lift S y :: l := by rcases hN with rfl | rfl <;> simp
    obtain ⟨l, hl⟩ := h2
    rw [hl]
    simp only [spelledRes, spelledJac, textbook, fomSystem, List.map_cons, bind_assoc, pure_bind]
    rcases hv : f (lift S x) (t + dt) with e | v
    · simp [bind, Except.bind, Except.map, hrep hf hv]
    · cases w
      · simp [bind, Except.bind, Except.map, pure, Except.pure, project, bdf1Res]
      · rcases hD : Df (lift S x) (t + dt) with e | D
        · simp [bind, Except.bind, Except.map, hrep hDf hD]
        · simp [bind, Except.bind, Except.map, pure, Except.pure, project, bdf1Res, bdf1Jac, Matrix.mul_assoc]
  · have hN3 : N = 3 := by rcases hN with rfl | rfl <;> simp [history] at hh ⊢
    subst hN3
    cases prev with
    | nil =>
      simp only [List.map_cons, List.map_nil, List.cons_append, List.nil_append, List.take_succ_cons, List.take_zero, spelledRes, spelledJac, textbook, fomSystem, bind_assoc, pure_bind]
      rcases hv : f (lift S x) (t + dt) with e | v
      · simp [bind, Except.bind, Except.map, hrep hf hv]
      · cases w
        · simp [bind, Except.bind, Except.map, pure, Except.pure, project, bdf1Res]
        · rcases hD : Df (lift S x) (t + dt) with e | D
          · simp [bind, Except.bind, Except.map, hrep hDf hD]
          · simp [bind, Except.bind, Except.map, pure, Except.pure, project, bdf1Res, bdf1Jac, Matrix.mul_assoc]
    | cons y' prev =>
      have hstep : ¬ (((y :: y' :: prev).length : Int) = 1) := by simp only [List.length_cons]; push_cast; omega
      simp only [List.map_cons, List.cons_append, List.take_succ_cons, List.take_zero, spelledRes, spelledJac, textbook, fomSystem, bind_assoc, pure_bind, if_neg hstep]
      rcases hv : f (lift S x) (t + dt) with e | v
      · simp [bind, Except.bind, Except.map, hrep hf hv]
      · cases w
        · simp [bind, Except.bind, Except.map, pure, Except.pure, project, bdf2Res]
        · rcases hD : Df (lift S x) (t + dt) with e | D
          · simp [bind, Except.bind, Except.map, hrep hDf hD]
          · simp [bind, Except.bind, Except.map, pure, Except.pure, project, bdf2Res, bdf2Jac, Matrix.mul_assoc]
  · have h2 : ∃ l, ((y :: prev).map (lift S) ++ [init]).take (N - 1) = lift S y :: l := by rcases hN with rfl | rfl <;> simp
    obtain ⟨l, hl⟩ := h2
    rw [hl]
    simp only [spelledRes, spelledJac, textbook, fomSystem, List.map_cons, bind_assoc, pure_bind, add_sub_cancel_right]
    rcases hvn : f (lift S y) t with e | vn
    · simp [bind, Except.bind, Except.map]
    · rcases hv : f (lift S x) (t + dt) with e | v
      · simp [bind, Except.bind, Except.map]
      · cases w
        · simp [bind, Except.bind, Except.map, pure, Except.pure, project, cnRes]
        · rcases hD : Df (lift S x) (t + dt) with e | D
          · simp [bind, Except.bind, Except.map]
          · simp [bind, Except.bind, Except.map, pure, Except.pure, project, cnRes, cnJac, Matrix.mul_assoc]

/-- **C96, Galerkin.** With an orthonormal basis, a fully discrete Galerkin problem for a full-order model that spells out BDF1, BDF2 or Crank–Nicolson gives the same runs as the implicit Galerkin problem for that scheme (to first project
    and then discretise is the same as the other way round). -/
theorem C96_galerkin [CharZero K] [DecidableEq m] {F : Fom K m m n} {f : (m → K) → K → Except Exc (m → K)} {Df Mm : (m → K) → K → Except Exc (Matrix m m K)} (hF : FomIs F f Df Mm) (hf : Plain f) (hDf : Plain Df) (S : Trial K m n) (hS : Orthonormal S)
    (s0 : GSt K m m q n) (name : Scheme) (hname : IsImplicit name) (mem : SMem K (n → K) (n → K) PMem) (hmem : Ready name mem) {F' : DFom K m m n} (hF' : DFomIs F' (spelledRes 1 name f) (spelledJac 1 name Df))
    {N : Nat} (hN : N = 2 ∨ N = 3) (hh : history name + 1 ≤ N) (st : AMem K (n → K)) (s : DGMem K m m n) (hr : FDReady N st s.1)
    (atts : List (Attempt K (n → K) ((n → K) × Option (Matrix n n K)))) (hon : ∀ a ∈ atts, ∀ y, Honest (a.solver y)) (hask : ∀ a ∈ atts, ∀ y, Asks (a.solver y)) (t0 : K) (x0 : n → K) :
    drive (fun solver t dt k => arbStepS (galerkinDiscrete N S F') (N - 1) solver t dt k) atts t0 [x0] x0 (st, s) = drive (stdStep name (asISystem (defaultRhsJac S F) s0)) atts t0 [x0] x0 mem := by
  rw [C57_galerkin_run_is_ideal hN hF' (spelled_noTSF 1 name hf hDf) S st s hr atts hon hask t0 x0,
    C19_run_is_ideal name _ (galerkin_noTSF hF ⟨fun y t => (hf y t).1, fun y t => (hDf y t).1⟩ S s0) mem hmem atts hon t0 x0]
  exact ideal_congr_gen _ _ (fun y prev t dt x w => (projected_spelled name hname hf hDf N hN hh S _ y prev t dt x w).trans (galerkin_textbook hF S hS s0 name _ t dt x w).symm) atts t0 x0 []

/-- **C96, Galerkin, through the advancers**, with any of Pressio's solvers that evaluates something before it succeeds -/
theorem C96_galerkin_target {W L U : Type} [LinearOrder K] [CharZero K] [DecidableEq m] {F : Fom K m m n} {f : (m → K) → K → Except Exc (m → K)} {Df Mm : (m → K) → K → Except Exc (Matrix m m K)} (hF : FomIs F f Df Mm) (hf : Plain f) (hDf : Plain Df) (S : Trial K m n) (hS : Orthonormal S)
    (s0 : GSt K m m q n) (name : Scheme) (hname : IsImplicit name) (mem : SMem K (n → K) (n → K) PMem) (hmem : Ready name mem) {F' : DFom K m m n} (hF' : DFomIs F' (spelledRes 1 name f) (spelledJac 1 name Df))
    {N : Nat} (hN : N = 2 ∨ N = 3) (hh : history name + 1 ≤ N) (st : AMem K (n → K)) (s : DGMem K m m n) (hr : FDReady N st s.1)
    (solve : SP K n n W L Unit) (hs : Fine solve) (hb : Busy solve) (reg : Reg K n n W L) (pol3 : Int → K → K → Prog U K) (pol5 : Int → K → DtVars K → Prog U (DtVars K)) (obs : Int → K → (n → K) → Prog U Unit) (rec : Bool) (eps start final : K) (x0 : n → K) (fuel : Nat) (u : U) :
    visible (advanceT rec eps (userObjects (objStepper (fun solver t dt k => arbStepS (galerkinDiscrete N S F') (N - 1) solver t dt k) solve) pol3 pol5 obs) fuel start final ⟨(((st, s), reg), u), x0, []⟩) =
      visible (advanceT rec eps (userObjects (objStepper (stdStep name (asISystem (defaultRhsJac S F) s0)) solve) pol3 pol5 obs) fuel start final ⟨((mem, reg), u), x0, []⟩) :=
  C96_target_alike _ _ pol3 pol5 obs rec eps start final x0 _ _ (attempts_of_drive _ _ solve start x0 _ mem reg
    (fun atts ha => C96_galerkin hF hf hDf S hS s0 name hname mem hmem hF' hN hh st s hr atts (hon_of hs atts ha) (ask_of hb atts ha) start x0)) fuel u

end

/-! ### What a user writes, and concrete cases -/
section
open Pressio.Spec.SolverRun Pressio.Lemmas.SolverTree Pressio.Lemmas.SolverRun
open Pressio.Model.Nonlinear (Env Cfg Reg Ans SP newtonSolve)
open Pressio.Model.Galerkin Pressio.Model.Lspg Pressio.Spec.Galerkin Pressio.Spec.Lspg Pressio.Lemmas.Lspg
open scoped Matrix

/-- a system object for user-defined schemes that spells out a built-in one -/
def spellSystem {K Y J : Type} [Field K] [AddCommGroup Y] [Module K Y] [AddCommGroup J] [Module K J] [One J] (name : Scheme) (sys : ISystem K Y J) : ASystem K Y (Y × Option J) := ⟨spelled name sys⟩

theorem spellSystem_spells {K Y J : Type} [Field K] [AddCommGroup Y] [Module K Y] [AddCommGroup J] [Module K J] [One J] (name : Scheme) (sys : ISystem K Y J) (numAux : Nat) : Spells name numAux sys (spellSystem name sys) := fun _ _ _ _ _ _ _ => rfl

theorem asDiscrete_ne (e : Exc) (h : e ≠ .timeStepFailure) : asDiscrete e ≠ .timeStepFailure := by
  unfold asDiscrete; split
  · simp
  · exact h

theorem spellSystem_noTSF {K Y J : Type} [Field K] [AddCommGroup Y] [Module K Y] [AddCommGroup J] [Module K J] [One J] (name : Scheme) (sys : ISystem K Y J) (hsys : Mannered sys) : NoTSFA (spellSystem name sys) := by
  intro step t dt w y prev h
  simp only [spellSystem] at h
  unfold spelled at h
  split at h
  · rcases he : sys.eval y t w with ⟨e, junk⟩ | ⟨f, j⟩ <;> simp only [he, Except.error.injEq, reduceCtorEq] at h
    exact asDiscrete_ne e (hsys _ _ _ _ _ he).1 h
  · rcases he : sys.eval y t w with ⟨e, junk⟩ | ⟨f, j⟩ <;> simp only [he, Except.error.injEq] at h
    · exact asDiscrete_ne e (hsys _ _ _ _ _ he).1 h
    · split at h <;> simp at h
  · rename_i yn _
    rcases he : sys.eval yn (t - dt) false with ⟨e, junk⟩ | ⟨f, j⟩ <;> simp only [he, Except.error.injEq] at h
    · exact (hsys _ _ _ _ _ he).1 h
    · rcases he : sys.eval y t w with ⟨e, junk⟩ | ⟨f, j⟩ <;> simp only [he, Except.error.injEq, reduceCtorEq] at h
      exact (hsys _ _ _ _ _ he).1 h
  · simp at h

/-- a fully discrete full-order model object -/
def spellFom {K m p n : Type} [Field K] [Fintype m] [Fintype n] (E : Matrix p m K) (name : Scheme) (f : (m → K) → K → Except Exc (p → K)) (Df : (m → K) → K → Except Exc (Matrix p m K)) : DFom K m p n where
  eval := fun k t dt B w y prev b =>
    match spelledRes E name f k t dt y prev with
    | .error e => .error (e, b)
    | .ok r =>
      if w then
        match spelledJac E name Df k t dt y prev with
        | .error e => .error (e, (r, b.2))
        | .ok D => .ok (r, D * B)
      else .ok (r, b.2)

theorem spellFom_is {K m p n : Type} [Field K] [Fintype m] [Fintype n] (E : Matrix p m K) (name : Scheme) (f : (m → K) → K → Except Exc (p → K)) (Df : (m → K) → K → Except Exc (Matrix p m K)) :
    DFomIs (spellFom (n := n) E name f Df) (spelledRes E name f) (spelledJac E name Df) where
  residualOnly := fun k t dt B y prev b => by
    simp only [spellFom]
    rcases spelledRes E name f k t dt y prev with e | r <;> rfl
  residualAndJac := fun k t dt B y prev b => by
    simp only [spellFom]
    rcases spelledRes E name f k t dt y prev with e | r
    · rfl
    · rcases spelledJac E name Df k t dt y prev with e | D <;> rfl

/-- `y' = y`, which fails above 30 -/
def limitedSys : ISystem ℚ ℚ ℚ := ⟨fun y _ w => if 30 < y then .error (.velocityFailureUnrecoverable, 0) else .ok (y, if w then some 1 else none)⟩
theorem limitedSys_mannered : Mannered limitedSys := by
  intro y t w e junk h
  simp only [limitedSys] at h
  split at h
  · cases h; simp
  · simp at h

example := C96_custom_scheme .BDF2 (.inr (.inl rfl)) limitedSys limitedSys_mannered 3 le_rfl (by decide) (spellSystem .BDF2 limitedSys) (spellSystem_spells _ _ _) (spellSystem_noTSF _ _ limitedSys_mannered) newBDF2 (by decide) (createArbitrary 3 0) rfl fourAtts fourAtts_honest 0 1
example := C96_custom_scheme .CrankNicolson (.inr (.inr rfl)) limitedSys limitedSys_mannered 1 (by decide) (by decide) (spellSystem .CrankNicolson limitedSys) (spellSystem_spells _ _ _) (spellSystem_noTSF _ _ limitedSys_mannered) newCN (by decide) (createArbitrary 1 0) rfl fourAtts fourAtts_honest 0 1
/-- the run: four attempts, one of which fails -/
example : ((drive (fun solver t dt k => arbStep (spellSystem .BDF2 limitedSys) 3 solver t dt k) fourAtts 0 [1] 1 (createArbitrary 3 0)).map (fun r => (r.hist.length, r.stop, r.y))) =
    [(1, none, 2), (2, some (.exc .timeStepFailure), 2), (2, none, 7/2), (3, none, 6)] := by decide +kernel


theorem busy_newtonSolve {K m n p L : Type} [Field K] [LinearOrder K] [IsStrictOrderedRing K] [Fintype m] [Fintype n] [Fintype p] (env : Env K m n p L) (cfg : Cfg K) (h1 : 1 ≤ cfg.maxIters) (h2 : cfg.update = .Standard) : Busy (newtonSolve env cfg) := by
  obtain ⟨k, hk⟩ : ∃ k, cfg.maxIters.toNat = k + 1 := ⟨cfg.maxIters.toNat - 1, by omega⟩
  unfold Model.Nonlinear.newtonSolve
  rw [h2, hk]
  exact busy_newtonLoop _ _ _ _ _ _

theorem envR_fine (tol : ℝ) : Fine (newtonSolve envR (cfgR tol)) := fine_newtonSolve envR (by intro A b s; simp [envR]) (cfgR tol)

/-- `y' = y²` -/
noncomputable def squareR : ISystem ℝ (Unit → ℝ) (Matrix Unit Unit ℝ) := ⟨fun y _ w => .ok (fun _ => y () ^ 2, if w then some (Matrix.of fun _ _ => 2 * y ()) else none)⟩
theorem squareR_mannered : Mannered squareR := by intro y t w e junk h; simp [squareR] at h

example (tol : ℝ) (dts : List ℝ) := C96_custom_newton .BDF2 (.inr (.inl rfl)) squareR squareR_mannered 2 (by decide) (by decide) (spellSystem .BDF2 squareR) (spellSystem_spells _ _ _) (spellSystem_noTSF _ _ squareR_mannered) (newStepperR .BDF2) rfl
  (createArbitrary 2 0) rfl (newtonSolve envR (cfgR tol)) (envR_fine tol) regR dts 0 1
example (tol : ℝ) := C96_custom_n_steps .BDF1 (.inl rfl) squareR squareR_mannered 1 (by decide) (by decide) (spellSystem .BDF1 squareR) (spellSystem_spells _ _ _) (spellSystem_noTSF _ _ squareR_mannered) (newStepperR .BDF1) rfl
  (createArbitrary 1 0) rfl (newtonSolve envR (cfgR tol)) (envR_fine tol) regR (fun _ _ _ => pure (1 / 4)) (fun _ _ v => pure v) (fun _ _ _ => pure ()) 0 0 1 10 ()
example (tol : ℝ) (rec : Bool) := C96_custom_target .CrankNicolson (.inr (.inr rfl)) squareR squareR_mannered 1 (by decide) (by decide) (spellSystem .CrankNicolson squareR) (spellSystem_spells _ _ _) (spellSystem_noTSF _ _ squareR_mannered)
  (newStepperR .CrankNicolson) ⟨rfl, rfl, by decide⟩ (createArbitrary 1 0) rfl (newtonSolve envR (cfgR tol)) (envR_fine tol) regR (fun _ _ _ => pure (1 / 4)) (fun _ _ v => pure v) (fun _ _ _ => pure ()) rec 0 0 (1 / 2) 1 10 ()

/-- Two steppers that add the step size; the second one counts its calls. They are alike, and so is what advancers make of them. -/
def counted : ℚ → Int → ℚ → Prog (ℚ × Nat) Unit := fun _ _ dt s => .ok () (s.1 + dt, s.2 + 1)
def plain : ℚ → Int → ℚ → Prog (ℚ × Unit) Unit := fun _ _ dt s => .ok () (s.1 + dt, s.2)
theorem counted_alike (dts : List ℚ) (t : ℚ) (i : Int) (y : ℚ) (c : Nat) : attempts counted dts ⟨t, i, y, c⟩ = attempts plain dts ⟨t, i, y, ()⟩ := by
  induction dts generalizing t i y c with
  | nil => rfl
  | cons d rest ih =>
    simp only [attempts, attemptAt, counted, plain] at ih ⊢
    rw [ih]
example := C96_n_steps_alike counted plain (fun _ _ _ => pure (1 / 4)) (fun _ _ v => pure v) (fun _ _ _ => pure ()) 0 0 1 0 () (fun dts => counted_alike dts 0 1 1 0) 3 ()
example := C96_target_alike counted plain (fun _ _ _ => pure (1 / 4)) (fun _ _ v => pure v) (fun _ _ _ => pure ()) true 0 0 1 1 0 () (fun dts => counted_alike dts 0 1 1 0) 10 ()

/-! reduced-order models -/
def rotF : (Fin 2 → ℚ) → ℚ → Except Exc (Fin 2 → ℚ) := fun y _ => .ok ((!![0, 1; -1, 0] : Matrix (Fin 2) (Fin 2) ℚ) *ᵥ y + ![0, 1])
def rotD : (Fin 2 → ℚ) → ℚ → Except Exc (Matrix (Fin 2) (Fin 2) ℚ) := fun _ _ => .ok !![0, 1; -1, 0]
theorem rotF_plain : Plain rotF := fun _ _ => ⟨by simp [rotF], by simp [rotF], by simp [rotF]⟩
theorem rotD_plain : Plain rotD := fun _ _ => ⟨by simp [rotD], by simp [rotD], by simp [rotD]⟩
theorem fdReady2 : FDReady 3 (fdStencil 3) (fdMem 3) := by refine ⟨?_, ?_, ?_⟩ <;> simp [fdStencil, fdMem]

example := C96_lspg rotFom_is rotF_plain rotD_plain trial2 .BDF2 (.inr rfl) (lspgMem .BDF2 3 2) lspgMem_ready (spellFom_is 1 .BDF2 rotF rotD) (Or.inr rfl) (by decide) (fdStencil 3) (fdMem 3) fdReady2 lspgAtts lspgAtts_ok.1 lspgAtts_ok.2 0 ![0]
example (rec : Bool) := C96_lspg_target rotFom_is rotF_plain rotD_plain trial2 .BDF2 (.inr rfl) (lspgMem .BDF2 3 2) lspgMem_ready (spellFom_is 1 .BDF2 rotF rotD) (Or.inr rfl) (by decide) (fdStencil 3) (fdMem 3) fdReady2
  (Model.Nonlinear.lsSolve envGN cfgGN .gn) (fine_lsSolve envGN cfgGN .gn envGN_honest) (busy_lsSolve envGN cfgGN .gn (by decide)) regGN (fun _ _ _ => pure (1 / 4)) (fun _ _ v => pure v) (fun _ _ _ => pure ()) rec 0 0 1 ![0] 10 ()
/-- the fully discrete problem takes the same three steps as the LSPG problem above (`gnRun`) -/
example : ((driveObj (fun solver t dt k => arbStepS (lspgDiscrete 3 trial2 (spellFom 1 .BDF2 rotF rotD)) 2 solver t dt k) (Model.Nonlinear.lsSolve envGN cfgGN .gn) [1/2, 1/2, 1/4] 0 [![0]] ![0] (fdStencil 3, fdMem 3) regGN).map
    (fun r => (r.t, r.stop, r.queries.length, r.y 0))) = [(0, none, 2, 4/125), (1/2, none, 2, 49/625), (1, none, 2, 76/625)] := by decide +kernel

def hypF : (Fin 2 → ℚ) → ℚ → Except Exc (Fin 1 → ℚ) := fun y t => .ok ![t + y 0 * y 1]
def hypD : (Fin 2 → ℚ) → ℚ → Except Exc (Matrix (Fin 1) (Fin 2) ℚ) := fun y _ => .ok !![y 1, y 0]
theorem hypF_plain : Plain hypF := fun _ _ => ⟨by simp [hypF], by simp [hypF], by simp [hypF]⟩
theorem hypD_plain : Plain hypD := fun _ _ => ⟨by simp [hypD], by simp [hypD], by simp [hypD]⟩
def fdMem1 : LMem ℚ (Fin 2) (Fin 1) (Fin 1) := ⟨[0, 0, 0], -1, ![9, 9], ![8], !![7]⟩
example := C96_hypred_lspg hypFom2_is hypF_plain hypD_plain upd2 !![0, 1] upd2_is trial2 .BDF2 (.inr rfl) hypMem2 hypMem2_ready (spellFom_is !![0, 1] .BDF2 hypF hypD) (Or.inr rfl) (by decide) (fdStencil 3) fdMem1
  (by refine ⟨?_, ?_, ?_⟩ <;> simp [fdStencil, fdMem1]) oneAtts oneAtts_ok.1 oneAtts_ok.2 0 ![1]

/-- the first component -/
def first2 : Trial ℚ (Fin 2) (Fin 1) := ⟨!![1; 0], ![0, 0], false⟩
theorem first2_orthonormal : Spec.Galerkin.Orthonormal first2 := by unfold Spec.Galerkin.Orthonormal; decide +kernel
def newCN1 : SMem ℚ (Fin 1 → ℚ) (Fin 1 → ℚ) PMem := ⟨0, 0, 0, ![0], [![0]], [![0], ![0]], freshPMem⟩
def newBDF2' : SMem ℚ (Fin 1 → ℚ) (Fin 1 → ℚ) PMem := ⟨0, 0, 0, ![0], [![0], ![0]], [], freshPMem⟩
def fdMemG : DGMem ℚ (Fin 2) (Fin 2) (Fin 1) := (fdMem 3, ![5], !![6])
example := C96_galerkin rotFom_is rotF_plain rotD_plain first2 first2_orthonormal gst2 .CrankNicolson (.inr (.inr rfl)) newCN1 (by decide) (spellFom_is 1 .CrankNicolson rotF rotD) (Or.inr rfl) (by decide) (fdStencil 3) fdMemG fdReady2
  galerkinAtts galerkinAtts_ok.1 galerkinAtts_ok.2 0 ![1]
example : ((drive (fun solver t dt k => arbStepS (galerkinDiscrete 3 first2 (spellFom 1 .BDF2 rotF rotD)) 2 solver t dt k) galerkinAtts 0 [![1]] ![1] (fdStencil 3, fdMemG)).map (fun r => (r.hist.length, r.stop))) =
    [(1, none), (2, some (.exc .timeStepFailure)), (2, none), (3, none)] := by decide +kernel
def env11N : Env ℚ (Fin 1) (Fin 1) (Fin 1) Nat := { env11 with linJ := fun A b (_, l) => .ok () (fun _ => b 0 / A 0 0, l + 1) }
def cfg11N : Cfg ℚ := ⟨10, .WhenAbsolutel2NormOfResidualBelowTolerance, 1 / 100, .Standard, none⟩
example (rec : Bool) := C96_galerkin_target rotFom_is rotF_plain rotD_plain first2 first2_orthonormal gst2 .BDF2 (.inr (.inl rfl)) newBDF2' (by decide) (spellFom_is 1 .BDF2 rotF rotD) (Or.inr rfl) (by decide) (fdStencil 3) fdMemG fdReady2
  (newtonSolve env11N cfg11N) (fine_newtonSolve env11N (by intro A b s; simp [env11N]) cfg11N) (busy_newtonSolve env11N cfg11N (by decide) rfl) reg11 (fun _ _ _ => pure (1 / 4)) (fun _ _ v => pure v) (fun _ _ _ => pure ()) rec 0 0 1 ![1] 10 ()

/-- **C96, Galerkin, needs the orthonormal basis.** With the basis `(3, 4)` the two problems give different first steps: the fully discrete one has `Φᵀ Φ` in front of the difference of the states, the other one has not. -/
theorem C96_galerkin_not_orthonormal_refuted :
    ((drive (fun solver t dt k => arbStepS (galerkinDiscrete 3 trial2 (spellFom 1 .BDF1 rotF rotD)) 2 solver t dt k) [⟨1/2, newton1⟩] 0 [![0]] ![0] (fdStencil 3, fdMemG)).map (fun r => (r.stop, r.y 0))) = [(none, 3/25)] ∧
    ((drive (stdStep .BDF1 (asISystem (defaultRhsJac trial2 rotFom) gst2)) [⟨1/2, newton1⟩] 0 [![0]] ![0] ⟨0, 0, 0, ![0], [![0]], [], freshPMem⟩).map (fun r => (r.stop, r.y 0))) = [(none, 3)] := by
  decide +kernel

end
end Pressio.Props
