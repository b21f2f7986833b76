import Verif.Lemmas.ImplicitRun
import Verif.Props.AdvanceTarget
import Verif.Props.AdvanceN
import Mathlib.Tactic.NormNum
import Mathlib.Data.Rat.Defs
import Mathlib.Algebra.Field.Rat

/-
  C19, C21 - C27: implicit steppers. The runs are those of `Spec.Implicit.drive`: any list of attempts (size and solver behaviour may differ in each),
  with consecutive step numbers from 1, repeated after `TimeStepFailure`.

  Two hypotheses occur throughout:
  * the user's system does not throw `TimeStepFailure` (an exception that only steppers throw);
  * `Honest`: the nonlinear solver does not throw it either.
  A `TimeStepFailure` thrown from below would pass through the stepper without the state being restored.
-/
namespace Pressio.Props
set_option autoImplicit false
open Pressio Pressio.Model.Implicit Pressio.Spec.Implicit Pressio.Lemmas.Implicit
open Pressio.Model.Explicit (Scheme)

set_option linter.unusedSectionVars false

variable {K Y J A Mt : Type} [Field K] [AddCommGroup Y] [Module K Y] [AddCommGroup J] [Module K J] [One J]

/-- a call of the stepper created with the standard policy, as a function of the solver -/
abbrev stdStep (name : Scheme) (sys : ISystem K Y J) (solver : Y → SolveTree Y (Y × Option J)) (t dt : K) (n : Int) :
    Prog (ISt K Y Y PMem (Y × Option J)) Unit := doStep name (standardPolicy sys) solver t dt n

/-- the same with mass matrix -/
abbrev mmStep (act : Mt → Y → Y) (asJac : Mt → J) (name : Scheme) (sys : IMMSystem K Y J Mt) (solver : Y → SolveTree Y (Y × Option J))
    (t dt : K) (n : Int) : Prog (ISt K Y Y (MMMem Y Mt) (Y × Option J)) Unit :=
  doStep name (massMatrixPolicy act asJac sys) solver t dt n

/-- the right-hand side never throws `TimeStepFailure` -/
def NoTSF (sys : ISystem K Y J) : Prop := ∀ y t w e junk, sys.eval y t w = .error (e, junk) → e ≠ .timeStepFailure
def NoTSFMM (sys : IMMSystem K Y J Mt) : Prop := ∀ y t w e junk, sys.eval y t w = .error (e, junk) → e ≠ .timeStepFailure
def NoTSFA (sys : ASystem K Y A) : Prop := ∀ n t dt w y l, sys.eval n t dt w y l ≠ .error .timeStepFailure

theorem reported_ne (e : Exc) (h : e ≠ .timeStepFailure) : reported e ≠ .timeStepFailure := by
  unfold reported; split
  · simp
  · exact h

theorem textbook_ne (name : Scheme) (sys : ISystem K Y J) (hsys : NoTSF sys) (hist : List Y) (t dt : K) (y : Y) (w : Bool) :
    textbook name sys hist t dt y w ≠ .error .timeStepFailure := by
  intro h
  have key : ∀ (R : Y → Y) (Jc : J → J) (x : Y) (s : K) (b : Bool),
      (match sys.eval x s b with
        | .ok (f, j) => (.ok (R f, j.map Jc) : Except Exc (Y × Option J))
        | .error (e, _) => .error (reported e)) ≠ .error .timeStepFailure := by
    intro R Jc x s b
    rcases he : sys.eval x s b with ⟨e, junk⟩ | ⟨f, j⟩
    · simpa using reported_ne e (hsys _ _ _ _ _ he)
    · simp
  unfold textbook at h
  split at h
  · exact key _ _ _ _ _ h
  · exact key _ _ _ _ _ h
  · exact key _ _ _ _ _ h
  · split at h
    · rename_i e junk he
      simp only [Except.error.injEq] at h
      exact hsys _ _ _ _ _ he h
    · split at h
      · simp at h
      · rename_i e junk he
        simp only [Except.error.injEq] at h
        exact hsys _ _ _ _ _ he h
  · simp at h

theorem textbookMM_ne (act : Mt → Y → Y) (asJac : Mt → J) (name : Scheme) (sys : IMMSystem K Y J Mt) (hsys : NoTSFMM sys)
    (hist : List Y) (t dt : K) (y : Y) (w : Bool) :
    textbookMM act asJac name sys hist t dt y w ≠ .error .timeStepFailure := by
  intro h
  have key : ∀ (R : Mt → Y → Y) (Jc : Mt → J → J) (x : Y) (s : K) (b : Bool),
      (match sys.eval x s b with
        | .ok (M, f, j) => (.ok (R M f, j.map (Jc M)) : Except Exc (Y × Option J))
        | .error (e, _, _) => .error (reported e)) ≠ .error .timeStepFailure := by
    intro R Jc x s b
    rcases he : sys.eval x s b with ⟨e, junk⟩ | ⟨M, f, j⟩
    · simpa using reported_ne e (hsys _ _ _ _ _ he)
    · simp
  unfold textbookMM at h
  split at h
  · exact key (fun M f => act M (y - _) - dt • f) (fun M j => asJac M - dt • j) _ _ _ h
  · exact key (fun M f => act M (y - _) - dt • f) (fun M j => asJac M - dt • j) _ _ _ h
  · exact key (fun M f => act M (y - ((4:K)/3) • _ + ((1:K)/3) • _) - ((2:K)/3 * dt) • f)
      (fun M j => asJac M - ((2:K)/3 * dt) • j) _ _ _ h
  · simp at h

theorem arbitrary_ne (sys : ASystem K Y A) (hsys : NoTSFA sys) (numAux : Nat) (init hist : List Y) (t dt : K) (y : Y) (w : Bool) :
    arbitrary sys numAux init hist t dt y w ≠ .error .timeStepFailure := by
  intro h
  unfold arbitrary at h
  rcases he : sys.eval hist.length (t + dt) dt w y ((hist ++ init).take numAux) with e | a
  · rw [he] at h
    simp only [Except.error.injEq] at h
    split at h
    · simp at h
    · subst h; exact hsys _ _ _ _ _ _ he
  · rw [he] at h; simp at h

/-- the contents of a stepper object that may be used for a run of the given scheme: BDF1 and BDF2 only need the storage to have the
    right size; CrankNicolson moreover that its step counter is below the first step number, as it is after creation -/
def Ready (name : Scheme) (m : SMem K Y Y PMem) : Prop :=
  match name with
  | .BDF1 => m.states.length = 1
  | .BDF2 => m.states.length = 2
  | .CrankNicolson => m.states.length = 1 ∧ m.rhs.length = 2 ∧ m.pol.tracker < 1
  | _ => False

instance (name : Scheme) (m : SMem K Y Y PMem) : Decidable (Ready name m) := by
  unfold Ready; split <;> infer_instance

/-- what `create_implicit_stepper` returns is ready -/
theorem create_ready (name : Scheme) (rec : Y) (m : SMem K Y Y PMem) (h : createImplicit name rec freshPMem = .ok m) : Ready name m := by
  cases name <;> simp only [createImplicit, Except.ok.injEq, reduceCtorEq] at h <;> subst h <;> simp [Ready, freshPMem]

/-- invariant used for each scheme -/
def StdInv (name : Scheme) (sys : ISystem K Y J) : K → List Y → SMem K Y Y PMem → Prop := fun t hist m =>
  match name with
  | .BDF1 => m.states.length = 1 ∧ True
  | .BDF2 => Pre2 hist m.states ∧ True
  | .CrankNicolson => m.states.length = 1 ∧ CNInv sys t hist m.rhs m.pol
  | _ => False

theorem std_refines (name : Scheme) (hname : name = .BDF1 ∨ name = .BDF2 ∨ name = .CrankNicolson) (sys : ISystem K Y J) :
    Refines (stdStep name sys) (textbook name sys) (StdInv name sys) := by
  rcases hname with rfl | rfl | rfl
  · exact refines_bdf1 _ _ _ (policy_bdf1 sys)
  · exact refines_bdf2 _ _ _ (policy_bdf2 sys)
  · exact refines_cn _ _ _ (policy_cn sys)

theorem ready_inv (name : Scheme) (sys : ISystem K Y J) (m : SMem K Y Y PMem) (h : Ready name m) (t : K) (y0 : Y) :
    StdInv name sys t [y0] m := by
  cases name <;> simp only [Ready] at h
  case BDF1 => exact ⟨h, trivial⟩
  case BDF2 =>
    obtain ⟨a, b, hab⟩ := List.length_eq_two.1 h
    exact ⟨⟨a, b, hab, by simp⟩, trivial⟩
  case CrankNicolson =>
    obtain ⟨h1, h2, h3⟩ := h
    obtain ⟨a, b, hab⟩ := List.length_eq_two.1 h2
    exact ⟨h1, a, b, y0, [], rfl, hab, Or.inl (by simpa using h3)⟩

theorem ready_name (name : Scheme) (m : SMem K Y Y PMem) (h : Ready name m) : name = .BDF1 ∨ name = .BDF2 ∨ name = .CrankNicolson := by
  cases name <;> simp [Ready] at h <;> simp

/-! ### C19 -/

/-- **C19.** A run with a stepper created by `create_implicit_stepper` (or any stepper object that is `Ready`) is the ideal run: in every attempt the
    solver works on the textbook residual and Jacobian of the accepted states, and gets nothing else. -/
theorem C19_run_is_ideal (name : Scheme) (sys : ISystem K Y J) (hsys : NoTSF sys) (mem : SMem K Y Y PMem) (hmem : Ready name mem)
    (atts : List (Attempt K Y (Y × Option J))) (hon : ∀ a ∈ atts, ∀ y, Honest (a.solver y)) (t0 : K) (y0 : Y) :
    drive (stdStep name sys) atts t0 [y0] y0 mem = ideal (textbook name sys) atts t0 y0 [] :=
  drive_eq_ideal _ _ _ (std_refines name (ready_name name mem hmem) sys) (textbook_ne name sys hsys) atts hon t0 y0 [] mem
    (ready_inv name sys mem hmem t0 y0)

/-- every evaluation in a run: with which history and time, and its answer -/
theorem C19_every_evaluation (name : Scheme) (sys : ISystem K Y J) (hsys : NoTSF sys) (mem : SMem K Y Y PMem) (hmem : Ready name mem)
    (atts : List (Attempt K Y (Y × Option J))) (hon : ∀ a ∈ atts, ∀ y, Honest (a.solver y)) (t0 : K) (y0 : Y)
    (pre post : List (Record K Y (Y × Option J))) (r : Record K Y (Y × Option J))
    (h : drive (stdStep name sys) atts t0 [y0] y0 mem = pre ++ r :: post) :
    r.hist = accepted y0 pre ∧ r.t = timeAfter t0 pre ∧
      ∀ q ∈ r.queries, q.ans = textbook name sys (accepted y0 pre) (timeAfter t0 pre) r.dt q.x q.wantJ := by
  obtain ⟨h1, h2⟩ := drive_split _ _ _ _ _ _ _ _ _ h
  have h1' : r.hist = accepted y0 pre := h1
  refine ⟨h1', h2, ?_⟩
  rw [C19_run_is_ideal name sys hsys mem hmem atts hon] at h
  obtain ⟨a, -, yn, pv, -, -, e, -⟩ := ideal_record _ _ _ _ _ r (by rw [h]; simp)
  intro q hq
  rw [e] at hq
  rw [← h1', ← h2]
  exact outcome_query _ _ q hq

/-- **C19, BDF1.** Whenever the solver evaluates at `x` in a step of size `dt` from time `t`, with `y_n` the last accepted state, it gets
    `x - y_n - dt f(x, t+dt)`. -/
theorem C19_bdf1_residual (sys : ISystem K Y J) (hsys : NoTSF sys) (mem : SMem K Y Y PMem) (hmem : Ready .BDF1 mem)
    (atts : List (Attempt K Y (Y × Option J))) (hon : ∀ a ∈ atts, ∀ y, Honest (a.solver y)) (t0 : K) (y0 : Y)
    (pre post : List (Record K Y (Y × Option J))) (r : Record K Y (Y × Option J))
    (h : drive (stdStep .BDF1 sys) atts t0 [y0] y0 mem = pre ++ r :: post) (yn : Y) (older : List Y) (hyn : accepted y0 pre = yn :: older)
    (q) (hq : q ∈ r.queries) (f : Y) (j : Option J) (hf : sys.eval q.x (timeAfter t0 pre + r.dt) q.wantJ = .ok (f, j)) :
    q.ans = .ok (q.x - yn - r.dt • f, j.map (fun j => 1 - r.dt • j)) := by
  have := (C19_every_evaluation .BDF1 sys hsys mem hmem atts hon t0 y0 pre post r h).2.2 q hq
  rw [this, hyn]
  simp only [textbook, hf]
  rfl

/-- **C19, BDF2.** In the first step the BDF1 residual; later `x - 4/3 y_n + 1/3 y_{n-1} - 2/3 dt f(x, t+dt)`. -/
theorem C19_bdf2_residual (sys : ISystem K Y J) (hsys : NoTSF sys) (mem : SMem K Y Y PMem) (hmem : Ready .BDF2 mem)
    (atts : List (Attempt K Y (Y × Option J))) (hon : ∀ a ∈ atts, ∀ y, Honest (a.solver y)) (t0 : K) (y0 : Y)
    (pre post : List (Record K Y (Y × Option J))) (r : Record K Y (Y × Option J))
    (h : drive (stdStep .BDF2 sys) atts t0 [y0] y0 mem = pre ++ r :: post)
    (q) (hq : q ∈ r.queries) (f : Y) (j : Option J) (hf : sys.eval q.x (timeAfter t0 pre + r.dt) q.wantJ = .ok (f, j)) :
    (∀ yn, accepted y0 pre = [yn] → q.ans = .ok (q.x - yn - r.dt • f, j.map (fun j => 1 - r.dt • j))) ∧
    (∀ yn ynm1 older, accepted y0 pre = yn :: ynm1 :: older →
      q.ans = .ok (q.x - ((4:K)/3) • yn + ((1:K)/3) • ynm1 - ((2:K)/3 * r.dt) • f, j.map (fun j => 1 - ((2:K)/3 * r.dt) • j))) := by
  have := (C19_every_evaluation .BDF2 sys hsys mem hmem atts hon t0 y0 pre post r h).2.2 q hq
  constructor
  · intro yn hyn
    rw [this, hyn]; simp only [textbook, hf]; rfl
  · intro yn ynm1 older hyn
    rw [this, hyn]; simp only [textbook, hf]; rfl

/-- **C19, CrankNicolson.** `x - y_n - dt/2 (f(x, t+dt) + f(y_n, t))`. -/
theorem C19_cn_residual (sys : ISystem K Y J) (hsys : NoTSF sys) (mem : SMem K Y Y PMem) (hmem : Ready .CrankNicolson mem)
    (atts : List (Attempt K Y (Y × Option J))) (hon : ∀ a ∈ atts, ∀ y, Honest (a.solver y)) (t0 : K) (y0 : Y)
    (pre post : List (Record K Y (Y × Option J))) (r : Record K Y (Y × Option J))
    (h : drive (stdStep .CrankNicolson sys) atts t0 [y0] y0 mem = pre ++ r :: post)
    (yn : Y) (older : List Y) (hyn : accepted y0 pre = yn :: older)
    (q) (hq : q ∈ r.queries) (f fn : Y) (j jn : Option J) (hf : sys.eval q.x (timeAfter t0 pre + r.dt) q.wantJ = .ok (f, j))
    (hfn : sys.eval yn (timeAfter t0 pre) false = .ok (fn, jn)) :
    q.ans = .ok (q.x - yn - (r.dt / 2) • (f + fn), j.map (fun j => 1 - (r.dt / 2) • j)) := by
  have := (C19_every_evaluation .CrankNicolson sys hsys mem hmem atts hon t0 y0 pre post r h).2.2 q hq
  rw [this, hyn]; simp only [textbook, hf, hfn]; rfl

/-! ### C21 -/

/-- a failed attempt in any stepper that follows an ideal run -/
theorem rollback_of_ideal {S : Type} (step : (Y → SolveTree Y A) → K → K → Int → Prog (SolveSt Y S A) Unit)
    (F : List Y → K → K → Y → Bool → Except Exc A) (hF : ∀ hist t dt x w, F hist t dt x w ≠ .error .timeStepFailure)
    (mem : S) (t0 : K) (y0 : Y)
    (hid : ∀ atts : List (Attempt K Y A), (∀ a ∈ atts, ∀ y, Honest (a.solver y)) →
      drive step atts t0 [y0] y0 mem = ideal F atts t0 y0 [])
    (before after : List (Attempt K Y A)) (a : Attempt K Y A) (hon : ∀ b ∈ before ++ a :: after, ∀ y, Honest (b.solver y))
    (R1 R2 : List (Record K Y A)) (r : Record K Y A)
    (h : drive step (before ++ a :: after) t0 [y0] y0 mem = R1 ++ r :: R2) (hl : R1.length = before.length)
    (hr : r.stop = some (.exc .timeStepFailure)) :
    r.hist.head? = some r.y ∧ drive step (before ++ after) t0 [y0] y0 mem = R1 ++ R2 := by
  have hon' : ∀ b ∈ before ++ after, ∀ y, Honest (b.solver y) := fun b hb => hon b (by simp at hb ⊢; tauto)
  rw [hid _ hon] at h
  rw [hid _ hon']
  refine ⟨?_, ideal_drop F hF before after a hon t0 y0 [] R1 R2 r h hl hr⟩
  obtain ⟨b, hb, yn, pv, e1, -, -, e3, e4⟩ := ideal_record _ _ _ _ _ r (by rw [h]; simp)
  have hh := honest_outcome (F r.hist r.t r.dt) (hF _ _ _) (b.solver yn) (hon b hb yn)
  rw [e1]
  rw [e3] at hr
  rw [e4]
  generalize (outcome (F r.hist r.t r.dt) (b.solver yn)).stop = st at *
  match st with
  | none => simp at hr
  | some (.exc e) => cases e <;> simp_all
  | some (.ub w) => simp at hr
  | some .fuel => simp at hr

/-- **C21, BDF1, BDF2, CrankNicolson.** In any run, an attempt that ends in `TimeStepFailure` leaves in the state the value that it had before (the last accepted
    state), and all the other attempts of the run do exactly what they do in the run without that attempt. -/
theorem C21_failed_attempt_has_no_effect (name : Scheme) (sys : ISystem K Y J) (hsys : NoTSF sys) (mem : SMem K Y Y PMem)
    (hmem : Ready name mem) (t0 : K) (y0 : Y)
    (before after : List (Attempt K Y (Y × Option J))) (a : Attempt K Y (Y × Option J))
    (hon : ∀ b ∈ before ++ a :: after, ∀ y, Honest (b.solver y)) (R1 R2 : List (Record K Y (Y × Option J))) (r : Record K Y (Y × Option J))
    (h : drive (stdStep name sys) (before ++ a :: after) t0 [y0] y0 mem = R1 ++ r :: R2) (hl : R1.length = before.length)
    (hr : r.stop = some (.exc .timeStepFailure)) :
    r.hist.head? = some r.y ∧ drive (stdStep name sys) (before ++ after) t0 [y0] y0 mem = R1 ++ R2 :=
  rollback_of_ideal _ _ (textbook_ne name sys hsys) mem t0 y0
    (fun atts hon => C19_run_is_ideal name sys hsys mem hmem atts hon t0 y0) before after a hon R1 R2 r h hl hr

/-- and the attempt ends in `TimeStepFailure` exactly when the solver gave up with `NonlinearSolveFailure` -/
theorem C21_failure_iff (name : Scheme) (sys : ISystem K Y J) (hsys : NoTSF sys) (mem : SMem K Y Y PMem)
    (hmem : Ready name mem) (t0 : K) (y0 : Y) (atts : List (Attempt K Y (Y × Option J))) (hon : ∀ b ∈ atts, ∀ y, Honest (b.solver y))
    (r : Record K Y (Y × Option J)) (h : r ∈ drive (stdStep name sys) atts t0 [y0] y0 mem) :
    ∃ a ∈ atts, ∃ yn older, r.hist = yn :: older ∧
      (r.stop = some (.exc .timeStepFailure) ↔
        (outcome (textbook name sys r.hist r.t r.dt) (a.solver yn)).stop = some (.exc .nonlinearSolveFailure)) := by
  rw [C19_run_is_ideal name sys hsys mem hmem atts hon] at h
  obtain ⟨b, hb, yn, pv, e1, -, -, e3, e4⟩ := ideal_record _ _ _ _ _ r h
  have hh := honest_outcome (textbook name sys r.hist r.t r.dt) (textbook_ne name sys hsys _ _ _) (b.solver yn) (hon b hb yn)
  refine ⟨b, hb, yn, pv, e1, ?_⟩
  rw [e3]
  generalize (outcome (textbook name sys r.hist r.t r.dt) (b.solver yn)).stop = st at *
  match st with
  | none => simp
  | some (.exc e) => cases e <;> simp_all
  | some (.ub w) => simp
  | some .fuel => simp

/-! ### C25, C26 -/

/-- **C25.** A run with a user-defined scheme (1, 2 or 3 previous states, i.e. 2, 3 or 4 in total): in every attempt the user's function gets the step number, the
    end time, the size, the unknown, and the last accepted states (before the start of the run: what the storage contained, zeros after creation). -/
theorem C25_arbitrary_run_is_ideal (sys : ASystem K Y A) (hsys : NoTSFA sys) (numAux : Nat) (hn : numAux = 1 ∨ numAux = 2 ∨ numAux = 3)
    (mem : AMem K Y) (hmem : mem.states.length = numAux)
    (atts : List (Attempt K Y A)) (hon : ∀ a ∈ atts, ∀ y, Honest (a.solver y)) (t0 : K) (y0 : Y) :
    drive (fun solver t dt n => arbStep sys numAux solver t dt n) atts t0 [y0] y0 mem
      = ideal (arbitrary sys numAux mem.states) atts t0 y0 [] :=
  drive_eq_ideal _ _ _ (refines_arb sys numAux hn mem.states hmem) (arbitrary_ne sys hsys numAux mem.states) atts hon t0 y0 [] mem
    (by simp [← hmem])

/-- the arguments of the user's function, spelled out -/
theorem C25_history (sys : ASystem K Y A) (hsys : NoTSFA sys) (numAux : Nat) (hn : numAux = 1 ∨ numAux = 2 ∨ numAux = 3)
    (mem : AMem K Y) (hmem : mem.states.length = numAux)
    (atts : List (Attempt K Y A)) (hon : ∀ a ∈ atts, ∀ y, Honest (a.solver y)) (t0 : K) (y0 : Y)
    (pre post : List (Record K Y A)) (r : Record K Y A)
    (h : drive (fun solver t dt n => arbStep sys numAux solver t dt n) atts t0 [y0] y0 mem = pre ++ r :: post)
    (q) (hq : q ∈ r.queries) (a : A)
    (ha : sys.eval (accepted y0 pre).length (timeAfter t0 pre + r.dt) r.dt q.wantJ q.x ((accepted y0 pre ++ mem.states).take numAux) = .ok a) :
    q.ans = .ok a := by
  obtain ⟨h1, h2⟩ := drive_split _ _ _ _ _ _ _ _ _ h
  have h1' : r.hist = accepted y0 pre := h1
  rw [C25_arbitrary_run_is_ideal sys hsys numAux hn mem hmem atts hon] at h
  obtain ⟨b, -, yn, pv, -, -, e, -⟩ := ideal_record _ _ _ _ _ r (by rw [h]; simp)
  rw [e] at hq
  rw [outcome_query _ _ q hq]
  simp only [arbitrary, h1', h2, ha]

/-- the storage of a new stepper has the right size -/
theorem create_arbitrary_ready (numAux : Nat) (rec : Y) : (createArbitrary numAux rec : AMem K Y).states.length = numAux := by
  simp [createArbitrary]

/-- **C21, user-defined schemes.** -/
theorem C21_arbitrary_failed_attempt_has_no_effect (sys : ASystem K Y A) (hsys : NoTSFA sys) (numAux : Nat)
    (hn : numAux = 1 ∨ numAux = 2 ∨ numAux = 3) (mem : AMem K Y) (hmem : mem.states.length = numAux) (t0 : K) (y0 : Y)
    (before after : List (Attempt K Y A)) (a : Attempt K Y A)
    (hon : ∀ b ∈ before ++ a :: after, ∀ y, Honest (b.solver y)) (R1 R2 : List (Record K Y A)) (r : Record K Y A)
    (h : drive (fun solver t dt n => arbStep sys numAux solver t dt n) (before ++ a :: after) t0 [y0] y0 mem = R1 ++ r :: R2)
    (hl : R1.length = before.length) (hr : r.stop = some (.exc .timeStepFailure)) :
    r.hist.head? = some r.y ∧
    drive (fun solver t dt n => arbStep sys numAux solver t dt n) (before ++ after) t0 [y0] y0 mem = R1 ++ R2 :=
  rollback_of_ideal _ _ (arbitrary_ne sys hsys numAux mem.states) mem t0 y0
    (fun atts hon => C25_arbitrary_run_is_ideal sys hsys numAux hn mem hmem atts hon t0 y0) before after a hon R1 R2 r h hl hr

/-- size of the storage of the stepper with mass matrix -/
def ReadyMM (name : Scheme) (m : SMem K Y Y (MMMem Y Mt)) : Prop :=
  match name with
  | .BDF1 => m.states.length = 1
  | .BDF2 => m.states.length = 2
  | _ => False

/-- **C26.** Runs with mass matrix, BDF1 and BDF2: the solver gets the textbook residual and Jacobian with `M = M(x, t+dt)`. -/
theorem C26_run_is_ideal (act : Mt → Y → Y) (asJac : Mt → J) (name : Scheme) (sys : IMMSystem K Y J Mt) (hsys : NoTSFMM sys)
    (mem : SMem K Y Y (MMMem Y Mt)) (hmem : ReadyMM name mem)
    (atts : List (Attempt K Y (Y × Option J))) (hon : ∀ a ∈ atts, ∀ y, Honest (a.solver y)) (t0 : K) (y0 : Y) :
    drive (mmStep act asJac name sys) atts t0 [y0] y0 mem = ideal (textbookMM act asJac name sys) atts t0 y0 [] := by
  cases name <;> simp only [ReadyMM] at hmem
  case BDF1 =>
    exact drive_eq_ideal _ _ _ (refines_bdf1 _ _ _ (policy_mm_bdf1 act asJac sys)) (textbookMM_ne act asJac _ sys hsys) atts hon t0 y0 [] mem
      ⟨hmem, trivial⟩
  case BDF2 =>
    obtain ⟨a, b, hab⟩ := List.length_eq_two.1 hmem
    exact drive_eq_ideal _ _ _ (refines_bdf2 _ _ _ (policy_mm_bdf2 act asJac sys)) (textbookMM_ne act asJac _ sys hsys) atts hon t0 y0 [] mem
      ⟨⟨a, b, hab, by simp⟩, trivial⟩

/-- every evaluation with mass matrix, spelled out: `M (x - y_n) - dt f`, and for BDF2 after the first step `M (x - 4/3 y_n + 1/3 y_{n-1}) - 2/3 dt f` -/
theorem C26_residual (act : Mt → Y → Y) (asJac : Mt → J) (name : Scheme) (sys : IMMSystem K Y J Mt) (hsys : NoTSFMM sys)
    (mem : SMem K Y Y (MMMem Y Mt)) (hmem : ReadyMM name mem)
    (atts : List (Attempt K Y (Y × Option J))) (hon : ∀ a ∈ atts, ∀ y, Honest (a.solver y)) (t0 : K) (y0 : Y)
    (pre post : List (Record K Y (Y × Option J))) (r : Record K Y (Y × Option J))
    (h : drive (mmStep act asJac name sys) atts t0 [y0] y0 mem = pre ++ r :: post)
    (q) (hq : q ∈ r.queries) (M : Mt) (f : Y) (j : Option J) (hf : sys.eval q.x (timeAfter t0 pre + r.dt) q.wantJ = .ok (M, f, j))
    (yn : Y) (older : List Y) (hyn : accepted y0 pre = yn :: older) :
    (name = .BDF1 ∨ older = [] → q.ans = .ok (act M (q.x - yn) - r.dt • f, j.map (fun j => asJac M - r.dt • j))) ∧
    (∀ ynm1 rest, name = .BDF2 → older = ynm1 :: rest →
      q.ans = .ok (act M (q.x - ((4:K)/3) • yn + ((1:K)/3) • ynm1) - ((2:K)/3 * r.dt) • f, j.map (fun j => asJac M - ((2:K)/3 * r.dt) • j))) := by
  obtain ⟨h1, h2⟩ := drive_split _ _ _ _ _ _ _ _ _ h
  have h1' : r.hist = accepted y0 pre := h1
  rw [C26_run_is_ideal act asJac name sys hsys mem hmem atts hon] at h
  obtain ⟨b, -, yn', pv, -, -, e, -⟩ := ideal_record _ _ _ _ _ r (by rw [h]; simp)
  rw [e] at hq
  have ha := outcome_query _ _ q hq
  rw [h1', h2, hyn] at ha
  cases name <;> simp only [ReadyMM] at hmem
  case BDF1 => exact ⟨fun _ => by rw [ha]; simp only [textbookMM, hf], fun _ _ hc => by simp at hc⟩
  case BDF2 =>
    refine ⟨?_, ?_⟩
    · rintro (hc | rfl)
      · simp at hc
      · rw [ha]; simp only [textbookMM, hf]
    · rintro ynm1 rest - rfl
      rw [ha]; simp only [textbookMM, hf]

/-- with the identity as mass matrix these are the residuals without mass matrix -/
theorem C26_identity_mass_matrix (act : Mt → Y → Y) (asJac : Mt → J) (M1 : Mt) (hact : ∀ x, act M1 x = x) (hj : asJac M1 = 1)
    (sys : ISystem K Y J) (name : Scheme) (hname : name = .BDF1 ∨ name = .BDF2) (hist : List Y) (t dt : K) (y : Y) (w : Bool) :
    textbookMM act asJac name ⟨fun y t w => match sys.eval y t w with
        | .ok (f, j) => .ok (M1, f, j)
        | .error (e, junk) => .error (e, M1, junk)⟩ hist t dt y w = textbook name sys hist t dt y w := by
  rcases hname with rfl | rfl
  · rcases hist with _ | ⟨yn, pv⟩
    · rfl
    · simp only [textbookMM, textbook]
      rcases sys.eval y (t + dt) w with ⟨e, junk⟩ | ⟨f, j⟩
      · rfl
      · simp only [hact, hj, bdf1Res]; rfl
  · rcases hist with _ | ⟨yn, _ | ⟨ynm1, pv⟩⟩
    · rfl
    · simp only [textbookMM, textbook]
      rcases sys.eval y (t + dt) w with ⟨e, junk⟩ | ⟨f, j⟩
      · rfl
      · simp only [hact, hj, bdf1Res]; rfl
    · simp only [textbookMM, textbook]
      rcases sys.eval y (t + dt) w with ⟨e, junk⟩ | ⟨f, j⟩
      · rfl
      · simp only [hact, hj, bdf2Res]; rfl

/-- CrankNicolson with mass matrix: the first evaluation throws (whatever it is asked), and nothing is changed by it. -/
theorem C26_cn_refused (act : Mt → Y → Y) (asJac : Mt → J) (sys : IMMSystem K Y J Mt) (m : SMem K Y Y (MMMem Y Mt)) (x : Y) (w : Bool) :
    residualAndJacobian .CrankNicolson (massMatrixPolicy act asJac sys) x w m =
      .stop (.exc (.runtimeError "CrankNicolson with mass matrix not yet implemented")) m := rfl

/-- **C21, with mass matrix.** -/
theorem C21_mass_matrix_failed_attempt_has_no_effect (act : Mt → Y → Y) (asJac : Mt → J) (name : Scheme) (sys : IMMSystem K Y J Mt)
    (hsys : NoTSFMM sys) (mem : SMem K Y Y (MMMem Y Mt)) (hmem : ReadyMM name mem) (t0 : K) (y0 : Y)
    (before after : List (Attempt K Y (Y × Option J))) (a : Attempt K Y (Y × Option J))
    (hon : ∀ b ∈ before ++ a :: after, ∀ y, Honest (b.solver y)) (R1 R2 : List (Record K Y (Y × Option J))) (r : Record K Y (Y × Option J))
    (h : drive (mmStep act asJac name sys) (before ++ a :: after) t0 [y0] y0 mem = R1 ++ r :: R2) (hl : R1.length = before.length)
    (hr : r.stop = some (.exc .timeStepFailure)) :
    r.hist.head? = some r.y ∧ drive (mmStep act asJac name sys) (before ++ after) t0 [y0] y0 mem = R1 ++ R2 :=
  rollback_of_ideal _ _ (textbookMM_ne act asJac name sys hsys) mem t0 y0
    (fun atts hon => C26_run_is_ideal act asJac name sys hsys mem hmem atts hon t0 y0) before after a hon R1 R2 r h hl hr

/-! ### C23 -/

theorem gives_up (F : Y → Bool → Except Exc A) (tree : SolveTree Y A) (ht : GivesUpOnResidualFailure tree)
    (q) (hq : q ∈ (outcome F tree).queries) (he : q.ans = .error .residualEvaluationFailureUnrecoverable) :
    (outcome F tree).stop = some (.exc .nonlinearSolveFailure) := by
  induction tree with
  | ret y => simp [outcome] at hq
  | stop h y => simp [outcome] at hq
  | ask x w k ih =>
    simp only [outcome, List.mem_cons] at hq ⊢
    rcases hq with rfl | hq
    · simp only at he
      obtain ⟨y, hy⟩ := ht.1
      rw [he, hy]; rfl
    · exact ih _ (ht.2 _) hq

/-- **C23, BDF1 and BDF2.** If the right-hand side throws `VelocityFailureUnrecoverable` in any of the evaluations of an attempt, and the solver gives up with
    `NonlinearSolveFailure` on `ResidualEvaluationFailureUnrecoverable` (`C45` shows it of pressio's solvers), then the attempt ends in `TimeStepFailure`
    and the state is the last accepted one. -/
theorem C23_bdf_rhs_failure_becomes_step_failure_partial (name : Scheme) (hname : name = .BDF1 ∨ name = .BDF2) (sys : ISystem K Y J) (hsys : NoTSF sys)
    (mem : SMem K Y Y PMem) (hmem : Ready name mem) (t0 : K) (y0 : Y) (atts : List (Attempt K Y (Y × Option J)))
    (hon : ∀ b ∈ atts, ∀ y, Honest (b.solver y)) (hgive : ∀ b ∈ atts, ∀ y, GivesUpOnResidualFailure (b.solver y))
    (r : Record K Y (Y × Option J)) (h : r ∈ drive (stdStep name sys) atts t0 [y0] y0 mem)
    (q) (hq : q ∈ r.queries) (junk : Y) (hf : sys.eval q.x (r.t + r.dt) q.wantJ = .error (.velocityFailureUnrecoverable, junk)) :
    r.stop = some (.exc .timeStepFailure) ∧ r.hist.head? = some r.y := by
  rw [C19_run_is_ideal name sys hsys mem hmem atts hon] at h
  obtain ⟨b, hb, yn, pv, e1, -, e2, e3, e4⟩ := ideal_record _ _ _ _ _ r h
  rw [e2] at hq
  have ha := outcome_query _ _ q hq
  have hans : q.ans = .error .residualEvaluationFailureUnrecoverable := by
    rw [ha, e1]
    rcases hname with rfl | rfl
    · simp [textbook, hf, reported]
    · cases pv <;> simp [textbook, hf, reported]
  have := gives_up _ _ (hgive b hb yn) q hq hans
  rw [this] at e3 e4
  exact ⟨e3, by rw [e1, e4]; rfl⟩

theorem passes_on (F : Y → Bool → Except Exc A) (tree : SolveTree Y A) (ht : PassesOnVelocityFailure tree)
    (q) (hq : q ∈ (outcome F tree).queries) (he : q.ans = .error .velocityFailureUnrecoverable) :
    (outcome F tree).stop = some (.exc .velocityFailureUnrecoverable) := by
  induction tree with
  | ret y => simp [outcome] at hq
  | stop h y => simp [outcome] at hq
  | ask x w k ih =>
    simp only [outcome, List.mem_cons] at hq ⊢
    rcases hq with rfl | hq
    · simp only at he
      obtain ⟨y, hy⟩ := ht.1
      rw [he, hy]; rfl
    · exact ih _ (ht.2 _) hq

/-- **C23 is false of CrankNicolson.** There, for every solver that only translates the failures that it knows, a `VelocityFailureUnrecoverable` from the
    right-hand side always ends the attempt with that exception, so that a recovering advancer does not retry. -/
theorem C23_refuted_crank_nicolson (sys : ISystem K Y J) (hsys : NoTSF sys)
    (mem : SMem K Y Y PMem) (hmem : Ready .CrankNicolson mem) (t0 : K) (y0 : Y) (atts : List (Attempt K Y (Y × Option J)))
    (hon : ∀ b ∈ atts, ∀ y, Honest (b.solver y)) (hpass : ∀ b ∈ atts, ∀ y, PassesOnVelocityFailure (b.solver y))
    (r : Record K Y (Y × Option J)) (h : r ∈ drive (stdStep .CrankNicolson sys) atts t0 [y0] y0 mem)
    (q) (hq : q ∈ r.queries) (junk : Y) (hf : sys.eval q.x (r.t + r.dt) q.wantJ = .error (.velocityFailureUnrecoverable, junk))
    (yn : Y) (hyn : r.hist.head? = some yn) (fn : Y × Option J) (hfn : sys.eval yn r.t false = .ok fn) :
    r.stop = some (.exc .velocityFailureUnrecoverable) := by
  rw [C19_run_is_ideal _ sys hsys mem hmem atts hon] at h
  obtain ⟨b, hb, yn', pv, e1, -, e2, e3, e4⟩ := ideal_record _ _ _ _ _ r h
  rw [e1] at hyn
  simp only [List.head?_cons, Option.some.injEq] at hyn
  subst hyn
  rw [e2] at hq
  have ha := outcome_query _ _ q hq
  have hans : q.ans = .error .velocityFailureUnrecoverable := by
    rw [ha, e1]
    simp [textbook, hf, hfn]
  have := passes_on _ _ (hpass b hb yn') q hq hans
  rw [this] at e3
  exact e3

/-! ### C24 -/

/-- **C24, BDF1 and BDF2.** After any run whatsoever (also one that ended with an exception), the same stepper object used for another run behaves as a new one. -/
theorem C24_reuse_bdf (name : Scheme) (hname : name = .BDF1 ∨ name = .BDF2) (sys : ISystem K Y J) (hsys : NoTSF sys)
    (mem : SMem K Y Y PMem) (hmem : Ready name mem)
    (atts1 : List (Attempt K Y (Y × Option J))) (t1 : K) (y1 : Y)
    (atts2 : List (Attempt K Y (Y × Option J))) (hon : ∀ a ∈ atts2, ∀ y, Honest (a.solver y)) (t2 : K) (y2 : Y) :
    drive (stdStep name sys) atts2 t2 [y2] y2 (driveEnd (stdStep name sys) atts1 t1 [y1] y1 mem) =
    drive (stdStep name sys) atts2 t2 [y2] y2 mem := by
  have hl := driveEnd_len name (standardPolicy sys) atts1 t1 [y1] y1 mem
  have hready : Ready name (driveEnd (stdStep name sys) atts1 t1 [y1] y1 mem) := by
    rcases hname with rfl | rfl
    · simp only [Ready] at hmem ⊢; exact hl.trans hmem
    · simp only [Ready] at hmem ⊢; exact hl.trans hmem
  rw [C19_run_is_ideal name sys hsys _ hready atts2 hon, C19_run_is_ideal name sys hsys _ hmem atts2 hon]

/-- **C24, user-defined schemes with one previous state**; with two or three the first steps of the second run see the last states of the first one
    (`C25`: the part of the history before the start of the run is what the storage contained). -/
theorem C24_reuse_arbitrary_one_state (sys : ASystem K Y A) (hsys : NoTSFA sys) (mem mem' : AMem K Y) (h1 : mem.states.length = 1)
    (h2 : mem'.states.length = 1) (atts : List (Attempt K Y A)) (hon : ∀ a ∈ atts, ∀ y, Honest (a.solver y)) (t0 : K) (y0 : Y) :
    drive (fun solver t dt n => arbStep sys 1 solver t dt n) atts t0 [y0] y0 mem =
    drive (fun solver t dt n => arbStep sys 1 solver t dt n) atts t0 [y0] y0 mem' := by
  rw [C25_arbitrary_run_is_ideal sys hsys 1 (by simp) mem h1 atts hon, C25_arbitrary_run_is_ideal sys hsys 1 (by simp) mem' h2 atts hon]
  have hind : ∀ (l : List (Attempt K Y A)) (t : K) (y : Y) (prev : List Y),
      ideal (arbitrary sys 1 mem.states) l t y prev = ideal (arbitrary sys 1 mem'.states) l t y prev := by
    intro l
    have hF : ∀ (y : Y) (prev : List Y) (t dt : K), arbitrary sys 1 mem.states (y :: prev) t dt = arbitrary sys 1 mem'.states (y :: prev) t dt := by
      intro y prev t dt
      funext x w
      simp [arbitrary]
    induction l with
    | nil => intros; rfl
    | cons a rest ih =>
      intro t y prev
      simp only [ideal]
      rw [hF]
      simp only [ih]
  exact hind atts t0 y0 []

/-! ### C11 for implicit steppers -/
open Pressio.Model.Advance Pressio.Spec.AdvanceTarget

/-- **C11, implicit steppers (BDF1, BDF2, CrankNicolson).** A recovering run to a target time with a new implicit stepper, any solver, any step-size policy and observer: if it
    returns, then the same stepper created anew and run with exactly the accepted sizes and no failures gives the same states at the same times. -/
theorem C11_implicit_recovered_run_equals_failure_free_run [LinearOrder K] [IsStrictOrderedRing K] {U : Type} (eps : K) (heps : 0 ≤ eps)
    (name : Scheme) (sys : ISystem K Y J) (hsys : NoTSF sys) (mem : SMem K Y Y PMem) (hmem : Ready name mem)
    (solver : Y → SolveTree Y (Y × Option J)) (hs : ∀ y, Honest (solver y))
    (pol5 : Int → K → DtVars K → Prog U (DtVars K)) (obs : Int → K → Y → Prog U Unit) (u : U)
    (fuel : Nat) (start final tEnd : K) (y0 : Y) (s' : St (SMem K Y Y PMem × U) K Y) (hlt : start < final)
    (h : advanceT true eps (implicitCalls (stdStep name sys) solver pol5 obs) fuel start final ⟨(mem, u), y0, []⟩ = .ok tEnd s') :
    ∃ (n : Nat) (sizes : Nat → K) (s'' : St (SMem K Y Y PMem × U) K Y),
      advanceN 0 (replay (implicitCalls (stdStep name sys) solver pol5 obs) sizes) n start ⟨(mem, u), y0, []⟩ = .ok () s'' ∧
      s''.y = s'.y ∧ observations s'.log = observations s''.log := by
  have hi := ready_inv name sys mem hmem start y0
  obtain ⟨n, sizes, s'', g1, g2, -, g3⟩ := C11_recovered_run_equals_failure_free_run eps heps _ _
    (refines_transparent _ _ _ (std_refines name (ready_name name mem hmem) sys) (textbook_ne name sys hsys) solver hs pol5 obs)
    fuel start final tEnd _ s' ⟨[], by simp, hi, hi⟩ hlt h
  exact ⟨n, sizes, s'', g1, g2, by simpa [observations] using g3⟩

/-! ### Concrete instances and counterexamples -/
section Examples

/-- `y' = y`, one-dimensional, with Jacobian 1 -/
def expSys : ISystem ℚ ℚ ℚ := ⟨fun y _ w => .ok (y, if w then some 1 else none)⟩

/-- one Newton step for a scalar problem, then return -/
def oneNewton : ℚ → SolveTree ℚ (ℚ × Option ℚ) := fun y =>
  .ask y true (fun a => match a with
    | .ok (r, some j) => .ret (y - r / j)
    | .ok (_, none) => .stop (.exc .outOfRange) y
    | .error .residualEvaluationFailureUnrecoverable => .stop (.exc .nonlinearSolveFailure) y
    | .error e => .stop (.exc e) y)

/-- a solver that looks at the residual somewhere, spoils the state, and fails -/
def failing : ℚ → SolveTree ℚ (ℚ × Option ℚ) := fun y => .ask (y + 7) false (fun _ => .stop (.exc .nonlinearSolveFailure) (y + 100))

theorem expSys_noTSF : NoTSF expSys := by intro y t w e junk h; simp [expSys] at h

theorem oneNewton_honest (y : ℚ) : Honest (oneNewton y) := by
  intro a ha
  rcases a with e | ⟨r, _ | j⟩
  · have := ha e rfl
    cases e <;> simp_all [Honest]
  · simp [Honest]
  · trivial

theorem failing_honest (y : ℚ) : Honest (failing y) := by
  intro a _; simp [Honest]

/-- a new BDF2 stepper -/
def newBDF2 : SMem ℚ ℚ ℚ PMem := ⟨0, 0, 0, 0, [0, 0], [], freshPMem⟩
example : createImplicit .BDF2 (0:ℚ) freshPMem = .ok newBDF2 := rfl
example : Ready .BDF2 newBDF2 := by decide

/-- A BDF2 run of three steps with sizes 1/2, in which the second step is first attempted with size 1 and fails: the accepted states are 1, 2, 7/2, 6 -/
example : (drive (stdStep .BDF2 expSys) [⟨1/2, oneNewton⟩, ⟨1, failing⟩, ⟨1/2, oneNewton⟩, ⟨1/2, oneNewton⟩] 0 [1] 1 newBDF2).map
    (fun r => (r.hist, r.t, r.dt, r.stop, r.y)) =
    [([1], 0, 1/2, none, 2), ([2, 1], 1/2, 1, some (.exc .timeStepFailure), 2), ([2, 1], 1/2, 1/2, none, 7/2),
     ([7/2, 2, 1], 1, 1/2, none, 6)] := by decide +kernel

/-- hypotheses of C21 on that run -/
example := C21_failed_attempt_has_no_effect .BDF2 expSys expSys_noTSF newBDF2 (by decide) 0 1
  [⟨1/2, oneNewton⟩] [⟨1/2, oneNewton⟩, ⟨1/2, oneNewton⟩] ⟨1, failing⟩
  (by
    simp only [List.mem_append, List.mem_cons, List.not_mem_nil, or_false]
    rintro b (rfl | rfl | rfl | rfl) y <;> first | exact oneNewton_honest y | exact failing_honest y)

/-- **C22 is false.** A solver that ends with another exception (here one from the user's code) after having changed the state: the state is left changed. -/
theorem C22_refuted : ∃ (sys : ISystem ℚ ℚ ℚ) (mem : SMem ℚ ℚ ℚ PMem) (solver : ℚ → SolveTree ℚ (ℚ × Option ℚ)),
    NoTSF sys ∧ createImplicit .BDF1 0 freshPMem = .ok mem ∧ (∀ y, Honest (solver y)) ∧
    (stdStep .BDF1 sys solver 0 1 1 ⟨1, mem, []⟩).stop? = some (.exc (.other 0)) ∧
    (stdStep .BDF1 sys solver 0 1 1 ⟨1, mem, []⟩).state.y ≠ 1 := by
  refine ⟨expSys, ⟨0, 0, 0, 0, [0], [], freshPMem⟩, fun y => .ask y false (fun a => match a with
    | .ok (r, _) => .stop (.exc (.other 0)) (y - r)
    | .error e => .stop (.exc e) y), expSys_noTSF, rfl, ?_, ?_⟩
  · intro y a ha
    rcases a with e | ⟨r, j⟩
    · simpa [Honest] using ha e rfl
    · simp [Honest]
  · exact ⟨by decide +kernel, by decide +kernel⟩

/-- What is true of other exceptions: the state is what the solver left, and nothing else is changed (BDF1, BDF2, CrankNicolson, in any run). -/
theorem C22_other_exceptions_partial (name : Scheme) (sys : ISystem K Y J) (hsys : NoTSF sys) (mem : SMem K Y Y PMem)
    (hmem : Ready name mem) (t0 : K) (y0 : Y) (atts : List (Attempt K Y (Y × Option J))) (hon : ∀ b ∈ atts, ∀ y, Honest (b.solver y))
    (r : Record K Y (Y × Option J)) (h : r ∈ drive (stdStep name sys) atts t0 [y0] y0 mem) (e : Exc) (he : e ≠ .timeStepFailure)
    (hr : r.stop = some (.exc e)) :
    ∃ a ∈ atts, ∃ yn older, r.hist = yn :: older ∧
      (outcome (textbook name sys r.hist r.t r.dt) (a.solver yn)).stop = some (.exc e) ∧
      r.y = (outcome (textbook name sys r.hist r.t r.dt) (a.solver yn)).y := by
  rw [C19_run_is_ideal name sys hsys mem hmem atts hon] at h
  obtain ⟨b, hb, yn, pv, e1, -, -, e3, e4⟩ := ideal_record _ _ _ _ _ r h
  refine ⟨b, hb, yn, pv, e1, ?_⟩
  rw [hr] at e3
  generalize (outcome (textbook name sys r.hist r.t r.dt) (b.solver yn)).stop = st at *
  match st with
  | none => simp at e3
  | some (.exc e') =>
    cases e'
    case nonlinearSolveFailure => simp at e3; exact absurd e3 he
    all_goals exact ⟨e3.symm, e4⟩
  | some (.ub w) => simp at e3
  | some .fuel => simp at e3

/-- `y' = 2 y t`-like system whose rhs fails for states above 3 -/
def fragileSys : ISystem ℚ ℚ ℚ := ⟨fun y _ w => if 3 < y then .error (.velocityFailureUnrecoverable, 0) else .ok (y, if w then some 1 else none)⟩

/-- C23 on a run: step 2 of size 1 takes the Newton iterate above 3; with BDF1 the attempt is reported as failed, the retry with 1/4 succeeds -/
def twoNewton : ℚ → SolveTree ℚ (ℚ × Option ℚ) := fun y =>
  .ask y true (fun a => match a with
    | .ok (r, some j) => .ask (y - r / j) false (fun b => match b with
      | .ok _ => .ret (y - r / j)
      | .error .residualEvaluationFailureUnrecoverable => .stop (.exc .nonlinearSolveFailure) (y - r / j)
      | .error e => .stop (.exc e) (y - r / j))
    | .ok (_, none) => .stop (.exc .outOfRange) y
    | .error .residualEvaluationFailureUnrecoverable => .stop (.exc .nonlinearSolveFailure) y
    | .error e => .stop (.exc e) y)

example : (drive (stdStep .BDF1 fragileSys) [⟨1/2, twoNewton⟩, ⟨1/2, twoNewton⟩, ⟨1/4, twoNewton⟩] 0 [1] 1 ⟨0, 0, 0, 0, [0], [], freshPMem⟩).map
    (fun r => (r.stop, r.y)) = [(none, 2), (some (.exc .timeStepFailure), 2), (none, 8/3)] := by decide +kernel

/-- **C22 and C23 are false of CrankNicolson**, on a run: the second step ends with `VelocityFailureUnrecoverable` and leaves the Newton iterate 5 in the state,
    which was 5/3 before. -/
theorem C22_refuted_crank_nicolson : (drive (stdStep .CrankNicolson fragileSys) [⟨1/2, twoNewton⟩, ⟨1, twoNewton⟩, ⟨1/4, twoNewton⟩] 0 [1] 1 ⟨0, 0, 0, 0, [0], [0, 0], freshPMem⟩).map
    (fun r => (r.stop, r.y)) = [(none, 5/3), (some (.exc .velocityFailureUnrecoverable), 5)] := by decide +kernel

example : ∀ y, GivesUpOnResidualFailure (twoNewton y) := by
  intro y
  refine ⟨⟨y, rfl⟩, fun a => ?_⟩
  rcases a with e | ⟨r, _ | j⟩
  · cases e <;> trivial
  · trivial
  · refine ⟨⟨_, rfl⟩, fun b => ?_⟩
    rcases b with e | b
    · cases e <;> trivial
    · trivial

/-- **C24 is false of CrankNicolson.** Two runs of one step each with the same stepper object: in the second one the residual is formed with `f(y_n)` of the first run. -/
theorem C24_refuted_crank_nicolson : ∃ (mem : SMem ℚ ℚ ℚ PMem) (atts : List (Attempt ℚ ℚ (ℚ × Option ℚ))),
    createImplicit .CrankNicolson 0 freshPMem = .ok mem ∧ (∀ a ∈ atts, ∀ y, Honest (a.solver y)) ∧
    (drive (stdStep .CrankNicolson expSys) atts 0 [4] 4 (driveEnd (stdStep .CrankNicolson expSys) atts 0 [1] 1 mem)).map (·.y) ≠
    (drive (stdStep .CrankNicolson expSys) atts 0 [4] 4 mem).map (·.y) := by
  refine ⟨⟨0, 0, 0, 0, [0], [0, 0], freshPMem⟩, [⟨1, oneNewton⟩], rfl, ?_, by decide +kernel⟩
  simp only [List.mem_cons, List.not_mem_nil, or_false]
  rintro a rfl y
  exact oneNewton_honest y

/-- C25 on a run: a user-defined scheme with two previous states whose residual is `y - 2 y_n + y_{n-1}`; the first step sees `y_{n-1} = 0`
    (the zeroed storage), a failed attempt in the middle does not matter. -/
def linSys : ASystem ℚ ℚ (ℚ × Option ℚ) := ⟨fun _ _ _ w y l => match l with
  | [yn, ynm1] => .ok (y - 2 * yn + ynm1, if w then some 1 else none)
  | _ => .error .outOfRange⟩

example : (drive (fun solver t dt n => arbStep linSys 2 solver t dt n) [⟨1, oneNewton⟩, ⟨1, failing⟩, ⟨1, oneNewton⟩, ⟨1, oneNewton⟩] 0 [1] 1
    (createArbitrary 2 0)).map (fun r => (r.hist, r.stop, r.y)) =
    [([1], none, 2), ([2, 1], some (.exc .timeStepFailure), 2), ([2, 1], none, 3), ([3, 2, 1], none, 4)] := by decide +kernel

/-- C26 on a run: `2 y' = y` -/
def impMMSys : IMMSystem ℚ ℚ ℚ ℚ := ⟨fun y _ w => .ok (2, y, if w then some 1 else none)⟩
example : (drive (mmStep (fun M x => M * x) (fun M => M) .BDF1 impMMSys) [⟨1, oneNewton⟩, ⟨1, oneNewton⟩] 0 [1] 1
    ⟨0, 0, 0, 0, [0], [], ⟨-1, 0, 0, 0⟩⟩).map (fun r => (r.stop, r.y)) = [(none, 2), (none, 4)] := by decide +kernel

/-- user objects of an n-step run with `y' = 0`, BDF1, one Newton iteration per step and a guesser -/
def guessCalls (g : ℚ → ℚ) : Calls (SMem ℚ ℚ ℚ PMem) ℚ ℚ where
  dtPolicy3 := fun _ _ _ w => .ok 1 w
  dtPolicy5 := fun _ _ v w => .ok v w
  guesser := fun _ _ x => .ok () (g x.1, x.2)
  stepper := fun t n d x => match stdStep .BDF1 (⟨fun _ _ w => .ok (0, if w then some 0 else none)⟩ : ISystem ℚ ℚ ℚ) oneNewton t d n ⟨x.1, x.2, []⟩ with
    | .ok _ s => .ok () (s.y, s.mem)
    | .stop h s => .stop h (s.y, s.mem)
  observer := fun _ _ _ w => .ok () w

/-- **C27 is false.** The equation `y_{n+1} = y_n` has one solution, and the solver finds it from every starting point; yet the result depends on the
    guess, because the guess is what the stepper takes for `y_n`. -/
theorem C27_refuted :
    (∀ yn guess : ℚ, (outcome (fun x w => .ok (x - yn, if w then some 1 else none)) (oneNewton guess)).y = yn) ∧
    ∃ mem : SMem ℚ ℚ ℚ PMem, createImplicit .BDF1 0 freshPMem = .ok mem ∧
      (advanceN 0 (guessCalls (fun y => y)) 1 0 ⟨mem, 1, []⟩).state.y = 1 ∧
      (advanceN 0 (guessCalls (fun y => y + 1)) 1 0 ⟨mem, 1, []⟩).state.y = 2 := by
  refine ⟨?_, ⟨0, 0, 0, 0, [0], [], freshPMem⟩, rfl, by decide +kernel, by decide +kernel⟩
  intro yn guess
  simp [oneNewton, outcome]

/-! Applications: four attempts, the second of which fails -/
theorem list_split {α : Type} (l : List α) (k : Nat) (h : k < l.length) : l = l.take k ++ l[k] :: l.drop (k + 1) := by
  rw [← List.drop_eq_getElem_cons, List.take_append_drop]
def fourAtts : List (Attempt ℚ ℚ (ℚ × Option ℚ)) := [⟨1/2, oneNewton⟩, ⟨1, failing⟩, ⟨1/2, oneNewton⟩, ⟨1/2, oneNewton⟩]
theorem fourAtts_honest : ∀ a ∈ fourAtts, ∀ y, Honest (a.solver y) := by
  simp only [fourAtts, List.mem_cons, List.not_mem_nil, or_false]
  rintro b (rfl | rfl | rfl | rfl) y <;> first | exact oneNewton_honest y | exact failing_honest y
def newBDF1 : SMem ℚ ℚ ℚ PMem := ⟨0, 0, 0, 0, [0], [], freshPMem⟩
def newCN : SMem ℚ ℚ ℚ PMem := ⟨0, 0, 0, 0, [0], [0, 0], freshPMem⟩
def fourRun (name : Scheme) (mem : SMem ℚ ℚ ℚ PMem) := drive (stdStep name expSys) fourAtts 0 [1] 1 mem
theorem fourRun_length : (fourRun .BDF1 newBDF1).length = 4 ∧ (fourRun .BDF2 newBDF2).length = 4 ∧ (fourRun .CrankNicolson newCN).length = 4 := by decide +kernel
/-- the fourth attempts, and the one evaluation of each -/
def last1 := (fourRun .BDF1 newBDF1)[3]'(by rw [fourRun_length.1]; decide)
def last2 := (fourRun .BDF2 newBDF2)[3]'(by rw [fourRun_length.2.1]; decide)
def lastC := (fourRun .CrankNicolson newCN)[3]'(by rw [fourRun_length.2.2]; decide)
theorem last_queries : last1.queries.length = 1 ∧ last2.queries.length = 1 ∧ lastC.queries.length = 1 := by decide +kernel
example := C19_every_evaluation .BDF2 expSys expSys_noTSF newBDF2 (by decide) fourAtts fourAtts_honest 0 1 _ _ last2 (list_split (fourRun .BDF2 newBDF2) 3 _)
example := C19_bdf1_residual expSys expSys_noTSF newBDF1 (by decide) fourAtts fourAtts_honest 0 1 _ _ last1 (list_split (fourRun .BDF1 newBDF1) 3 _) 4 [2, 1] (by decide +kernel)
  _ (List.getElem_mem (h := by rw [last_queries.1]; decide) (n := 0)) _ _ rfl
example := C19_bdf2_residual expSys expSys_noTSF newBDF2 (by decide) fourAtts fourAtts_honest 0 1 _ _ last2 (list_split (fourRun .BDF2 newBDF2) 3 _) _ (List.getElem_mem (h := by rw [last_queries.2.1]; decide) (n := 0)) _ _ rfl
example : accepted 1 ((fourRun .BDF2 newBDF2).take 3) = [7/2, 2, 1] := by decide +kernel
example := C19_cn_residual expSys expSys_noTSF newCN (by decide) fourAtts fourAtts_honest 0 1 _ _ lastC (list_split (fourRun .CrankNicolson newCN) 3 _) (25/9) [5/3, 1] (by decide +kernel)
  _ (List.getElem_mem (h := by rw [last_queries.2.2]; decide) (n := 0)) _ _ _ _ rfl rfl
example := C21_failure_iff .BDF2 expSys expSys_noTSF newBDF2 (by decide) 0 1 fourAtts fourAtts_honest last2 (List.getElem_mem _)

/-- a system of the user's own, which fails above 30 -/
def ownSys : ASystem ℚ ℚ (ℚ × Option ℚ) := ⟨fun _ _ dt w y l => if 30 < y then .error .residualEvaluationFailureUnrecoverable else .ok (y - 2 * l.getD 0 0 + l.getD 1 0 - dt * y, if w then some (1 - dt) else none)⟩
theorem ownSys_noTSF : NoTSFA ownSys := by
  intro n t dt w y l
  simp only [ownSys]
  split <;> simp
def ownRun := drive (fun solver t dt n => arbStep ownSys 2 solver t dt n) fourAtts 0 [1] 1 (createArbitrary 2 0)
theorem ownRun_length : ownRun.length = 4 := by decide +kernel
example := C25_arbitrary_run_is_ideal ownSys ownSys_noTSF 2 (.inr (.inl rfl)) (createArbitrary 2 0) rfl fourAtts fourAtts_honest 0 1
def ownThird := ownRun[2]'(by rw [ownRun_length]; decide)
theorem ownThird_queries : ownThird.queries.length = 1 := by decide +kernel
def ownQuery := ownThird.queries[0]'(by rw [ownThird_queries]; decide)
example := C25_history ownSys ownSys_noTSF 2 (.inr (.inl rfl)) (createArbitrary 2 0) rfl fourAtts fourAtts_honest 0 1 _ _ ownThird (list_split ownRun 2 _) ownQuery (List.getElem_mem _) (-5, some (1/2)) (by decide +kernel)
example := C21_arbitrary_failed_attempt_has_no_effect ownSys ownSys_noTSF 2 (.inr (.inl rfl)) (createArbitrary 2 0) rfl 0 1 [⟨1/2, oneNewton⟩] [⟨1/2, oneNewton⟩, ⟨1/2, oneNewton⟩] ⟨1, failing⟩ fourAtts_honest (ownRun.take 1) (ownRun.drop 2) (ownRun[1]'(by rw [ownRun_length]; decide))
  (list_split ownRun 1 (by rw [ownRun_length]; decide)) (by decide +kernel) (by decide +kernel)

/-- mass matrix 2 -/
theorem impMMSys_noTSF : NoTSFMM impMMSys := by
  intro y t w e junk h
  simp [impMMSys] at h
def mmNew2 : SMem ℚ ℚ ℚ (MMMem ℚ ℚ) := ⟨0, 0, 0, 0, [0, 0], [], ⟨-1, 0, 0, 0⟩⟩
def massRun := drive (mmStep (fun M x : ℚ => M * x) (fun M => M) .BDF2 impMMSys) fourAtts 0 [1] 1 mmNew2
theorem massRun_length : massRun.length = 4 := by decide +kernel
def massThird := massRun[2]'(by rw [massRun_length]; decide)
theorem massThird_queries : massThird.queries.length = 1 := by decide +kernel
example := C26_run_is_ideal (fun M x : ℚ => M * x) (fun M => M) .BDF2 impMMSys impMMSys_noTSF mmNew2 rfl fourAtts fourAtts_honest 0 1
example := C26_residual (fun M x : ℚ => M * x) (fun M => M) .BDF2 impMMSys impMMSys_noTSF mmNew2 rfl fourAtts fourAtts_honest 0 1 _ _ massThird (list_split massRun 2 _)
  _ (List.getElem_mem (h := by rw [massThird_queries]; decide) (n := 0)) 2 _ _ rfl (4/3) [1] (by decide +kernel)
example := C26_identity_mass_matrix (fun M x : ℚ => M * x) (fun M => M) 1 one_mul rfl expSys .BDF2 (.inr rfl) [2, 1] 0 (1/2) 3 true
example := C21_mass_matrix_failed_attempt_has_no_effect (fun M x : ℚ => M * x) (fun M => M) .BDF2 impMMSys impMMSys_noTSF mmNew2 rfl 0 1 [⟨1/2, oneNewton⟩] [⟨1/2, oneNewton⟩, ⟨1/2, oneNewton⟩] ⟨1, failing⟩ fourAtts_honest (massRun.take 1) (massRun.drop 2) (massRun[1]'(by rw [massRun_length]; decide))
  (list_split massRun 1 (by rw [massRun_length]; decide)) (by decide +kernel) (by decide +kernel)

/-- the right-hand side that fails above 3 and the solver that gives up then -/
theorem fragileSys_noTSF : NoTSF fragileSys := by
  intro y t w e junk h
  simp only [fragileSys] at h
  split at h
  · cases h; simp
  · cases h
theorem twoNewton_honest (y : ℚ) : Honest (twoNewton y) := by
  rintro (e | ⟨r, _ | j⟩) ha
  · have := ha e rfl
    cases e <;> simp_all [Honest]
  · simp [Honest]
  · rintro (e | ⟨r', j'⟩) hb
    · have := hb e rfl
      cases e <;> simp_all [Honest]
    · simp [Honest]
theorem twoNewton_gives_up (y : ℚ) : GivesUpOnResidualFailure (twoNewton y) := by
  refine ⟨⟨y, rfl⟩, fun a => ?_⟩
  rcases a with e | ⟨r, _ | j⟩
  · cases e <;> trivial
  · trivial
  · refine ⟨⟨_, rfl⟩, fun b => ?_⟩
    rcases b with e | b
    · cases e <;> trivial
    · trivial
theorem twoNewton_passes (y : ℚ) : PassesOnVelocityFailure (twoNewton y) := by
  refine ⟨⟨y, rfl⟩, fun a => ?_⟩
  rcases a with e | ⟨r, _ | j⟩
  · cases e <;> trivial
  · trivial
  · refine ⟨⟨_, rfl⟩, fun b => ?_⟩
    rcases b with e | b
    · cases e <;> trivial
    · trivial
def twoAtts : List (Attempt ℚ ℚ (ℚ × Option ℚ)) := [⟨1/2, twoNewton⟩, ⟨1/2, twoNewton⟩, ⟨1/4, twoNewton⟩]
def fragileRun := drive (stdStep .BDF1 fragileSys) twoAtts 0 [1] 1 newBDF1
def fragileRunC := drive (stdStep .CrankNicolson fragileSys) [⟨1, twoNewton⟩, ⟨1, twoNewton⟩] 0 [1] 1 newCN
theorem fragileRun_length : fragileRun.length = 3 ∧ fragileRunC.length = 2 := by decide +kernel
def fragileSecond := fragileRun[1]'(by rw [fragileRun_length.1]; decide)
def fragileSecondC := fragileRunC[1]'(by rw [fragileRun_length.2]; decide)
theorem fragileSecond_queries : fragileSecond.queries.length = 2 ∧ fragileSecondC.queries.length = 2 := by decide +kernel

theorem twoAtts_ok : (∀ a ∈ twoAtts, ∀ y, Honest (a.solver y)) ∧ ∀ a ∈ twoAtts, ∀ y, GivesUpOnResidualFailure (a.solver y) := by
  constructor <;>
  · simp only [twoAtts, List.mem_cons, List.not_mem_nil, or_false]
    rintro b (rfl | rfl | rfl) y <;> first | exact twoNewton_honest y | exact twoNewton_gives_up y
/-- the second evaluation of the second attempt fails -/
example := C23_bdf_rhs_failure_becomes_step_failure_partial .BDF1 (.inl rfl) fragileSys fragileSys_noTSF newBDF1 (by decide) 0 1 twoAtts twoAtts_ok.1 twoAtts_ok.2 fragileSecond (List.getElem_mem _)
  (fragileSecond.queries[1]'(by rw [fragileSecond_queries.1]; decide)) (List.getElem_mem _) 0 (by decide +kernel)
example := C23_refuted_crank_nicolson fragileSys fragileSys_noTSF newCN (by decide) 0 1 [⟨1, twoNewton⟩, ⟨1, twoNewton⟩]
  (by simp only [List.mem_cons, List.not_mem_nil, or_false]; rintro b (rfl | rfl) y <;> exact twoNewton_honest y)
  (by simp only [List.mem_cons, List.not_mem_nil, or_false]; rintro b (rfl | rfl) y <;> exact twoNewton_passes y) fragileSecondC (List.getElem_mem _)
  (fragileSecondC.queries[1]'(by rw [fragileSecond_queries.2]; decide)) (List.getElem_mem _) 0 (by decide +kernel) 3 (by decide +kernel) (3, none) (by decide +kernel)
example := C24_reuse_bdf .BDF2 (.inr rfl) expSys expSys_noTSF newBDF2 (by decide) fourAtts 0 1 fourAtts fourAtts_honest 5 7
example := C24_reuse_arbitrary_one_state ownSys ownSys_noTSF (createArbitrary 1 0) (createArbitrary 1 9) rfl rfl fourAtts fourAtts_honest 0 1

end Examples

/-- **C27**, what happens instead: in a run without failures with a guesser `g`, every step of an implicit stepper forms its equation with the guess as `y_n`
    (for one step, of any scheme, from a ready stepper). -/
theorem C27_guess_replaces_yn (name : Scheme) (sys : ISystem K Y J) (hsys : NoTSF sys) (mem : SMem K Y Y PMem) (hmem : Ready name mem)
    (g : Y → Y) (solver : Y → SolveTree Y (Y × Option J)) (hs : ∀ y, Honest (solver y)) (t dt : K) (y : Y)
    (q) (r) (hr : r ∈ drive (stdStep name sys) [⟨dt, solver⟩] t [g y] (g y) mem) (hq : q ∈ r.queries) :
    q.ans = textbook name sys [g y] t dt q.x q.wantJ := by
  rw [C19_run_is_ideal name sys hsys mem hmem _ (by simp only [List.mem_cons, List.not_mem_nil, or_false]; rintro a rfl y; exact hs y)] at hr
  have : r.hist = [g y] ∧ r.t = t ∧ r.dt = dt ∧ r.queries = (outcome (textbook name sys [g y] t dt) (solver (g y))).queries := by
    simp only [ideal] at hr
    split at hr <;> simp at hr <;> subst hr <;> exact ⟨rfl, rfl, rfl, rfl⟩
  rw [this.2.2.2] at hq
  exact outcome_query _ _ q hq

example := C27_guess_replaces_yn .BDF1 expSys expSys_noTSF newBDF1 (by decide) (fun y => y + 1) oneNewton oneNewton_honest 0 1 1

end Pressio.Props
