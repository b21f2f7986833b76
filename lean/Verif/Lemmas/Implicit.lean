import Verif.Spec.Implicit

namespace Pressio.Lemmas.Implicit
set_option autoImplicit false
open Pressio Pressio.Model.Implicit Pressio.Spec.Implicit
open Pressio.Model.Explicit (Scheme)

variable {K Y J A S : Type}

/-- evaluating gives the answers of `F` and keeps the invariant `I` of the memory -/
def Answers (ans : Y → Bool → Prog S A) (F : Y → Bool → Except Exc A) (I : S → Prop) : Prop :=
  ∀ x w m, I m → ∃ m', I m' ∧ ans x w m = (match F x w with | .ok a => .ok a m' | .error e => .stop (.exc e) m')

theorem run_eq (ans : Y → Bool → Prog S A) (F : Y → Bool → Except Exc A) (I : S → Prop) (h : Answers ans F I)
    (tree : SolveTree Y A) (s : SolveSt Y S A) (hI : I s.mem) :
    ∃ m', I m' ∧ tree.run ans s =
      (match (outcome F tree).stop with
        | none => .ok () ⟨(outcome F tree).y, m', s.log ++ (outcome F tree).queries⟩
        | some st => .stop st ⟨(outcome F tree).y, m', s.log ++ (outcome F tree).queries⟩) := by
  induction tree generalizing s with
  | ret y => exact ⟨s.mem, hI, by simp [SolveTree.run, outcome]⟩
  | stop h y => exact ⟨s.mem, hI, by simp [SolveTree.run, outcome]⟩
  | ask x w k ih =>
    obtain ⟨m', hm', e⟩ := h x w s.mem hI
    rcases hF : F x w with err | a
    · rw [hF] at e
      obtain ⟨m2, hm2, e2⟩ := ih (.error err) ⟨s.y, m', s.log ++ [⟨x, w, .error err⟩]⟩ hm'
      refine ⟨m2, hm2, ?_⟩
      simp only [SolveTree.run, e, outcome, hF]
      rw [e2]
      simp
    · rw [hF] at e
      obtain ⟨m2, hm2, e2⟩ := ih (.ok a) ⟨s.y, m', s.log ++ [⟨x, w, .ok a⟩]⟩ hm'
      refine ⟨m2, hm2, ?_⟩
      simp only [SolveTree.run, e, outcome, hF]
      rw [e2]
      simp

theorem honest_outcome (F : Y → Bool → Except Exc A) (hF : ∀ x w, F x w ≠ .error .timeStepFailure)
    (tree : SolveTree Y A) (ht : Honest tree) : (outcome F tree).stop ≠ some (.exc .timeStepFailure) := by
  induction tree with
  | ret y => simp [outcome]
  | stop h y => simpa [outcome, Honest] using ht
  | ask x w k ih =>
    simp only [outcome]
    apply ih
    apply ht
    intro e he hte
    exact hF x w (by rw [he, hte])

/-- A stepper object whose memory satisfies `Inv t hist` before an attempt: the attempt does what the ideal attempt does. -/
def Refines [Add K] (step : (Y → SolveTree Y A) → K → K → Int → Prog (SolveSt Y S A) Unit)
    (F : List Y → K → K → Y → Bool → Except Exc A) (Inv : K → List Y → S → Prop) : Prop :=
  ∀ (solver : Y → SolveTree Y A) (t dt : K) (y : Y) (prev : List Y) (mem : S), Inv t (y :: prev) mem →
    ∃ m', (match (outcome (F (y :: prev) t dt) (solver y)).stop with
      | none => Inv (t + dt) ((outcome (F (y :: prev) t dt) (solver y)).y :: y :: prev) m'
      | some (.exc .nonlinearSolveFailure) => Inv t (y :: prev) m'
      | some _ => True) ∧
    step solver t dt (y :: prev).length ⟨y, mem, []⟩ =
      (match (outcome (F (y :: prev) t dt) (solver y)).stop with
      | none => .ok () ⟨(outcome (F (y :: prev) t dt) (solver y)).y, m', (outcome (F (y :: prev) t dt) (solver y)).queries⟩
      | some (.exc .nonlinearSolveFailure) =>
        .stop (.exc .timeStepFailure) ⟨y, m', (outcome (F (y :: prev) t dt) (solver y)).queries⟩
      | some h => .stop h ⟨(outcome (F (y :: prev) t dt) (solver y)).y, m', (outcome (F (y :: prev) t dt) (solver y)).queries⟩)

theorem drive_eq_ideal [Add K] (step : (Y → SolveTree Y A) → K → K → Int → Prog (SolveSt Y S A) Unit)
    (F : List Y → K → K → Y → Bool → Except Exc A) (Inv : K → List Y → S → Prop) (h : Refines step F Inv)
    (hF : ∀ hist t dt x w, F hist t dt x w ≠ .error .timeStepFailure)
    (atts : List (Attempt K Y A)) (hon : ∀ a ∈ atts, ∀ y, Honest (a.solver y))
    (t : K) (y : Y) (prev : List Y) (mem : S) (hI : Inv t (y :: prev) mem) :
    drive step atts t (y :: prev) y mem = ideal F atts t y prev := by
  induction atts generalizing t y prev mem with
  | nil => rfl
  | cons a rest ih =>
    obtain ⟨m', hm', e⟩ := h a.solver t a.dt y prev mem hI
    have hh := honest_outcome (F (y :: prev) t a.dt) (hF _ _ _) (a.solver y) (hon a (by simp) y)
    have hr : ∀ b ∈ rest, ∀ y, Honest (b.solver y) := fun b hb => hon b (by simp [hb])
    simp only [drive, ideal]
    rw [e]
    generalize outcome (F (y :: prev) t a.dt) (a.solver y) = o at *
    obtain ⟨st, oy, oq⟩ := o
    match st with
    | none =>
      simp only at hm' ⊢
      rw [ih hr _ _ _ _ hm']
    | some (.exc .nonlinearSolveFailure) =>
      simp only at hm' ⊢
      rw [ih hr _ _ _ _ hm']
    | some (.exc e) =>
      cases e <;> simp_all
    | some (.ub w) => rfl
    | some .fuel => rfl

/-! ### The standard stepper -/

/-- A policy whose answers, on stencil states that agree with `hist`, are those of `F`, and that keeps `PI` -/
def PolicyAnswers [Add K] {R P : Type} (name : Scheme) (policy : Policy K Y R P A)
    (F : Y → Bool → Except Exc A) (states : List Y) (tnp1 : K) (step : Int) (dt : K) (PI : List R → P → Prop) : Prop :=
  ∀ x w r p, PI r p → ∃ r' p', PI r' p' ∧ policy name x states tnp1 step dt w (r, p) =
    (match F x w with | .ok a => .ok a (r', p') | .error e => .stop (.exc e) (r', p'))

theorem policy_answers [Add K] {R P : Type} (name : Scheme) (policy : Policy K Y R P A)
    (F : Y → Bool → Except Exc A) (states : List Y) (tnp1 : K) (step : Int) (dt : K) (PI : List R → P → Prop)
    (h : PolicyAnswers name policy F states tnp1 step dt PI) :
    Answers (residualAndJacobian name policy) F
      (fun m => m.states = states ∧ m.tnp1 = tnp1 ∧ m.step = step ∧ m.dt = dt ∧ PI m.rhs m.pol) := by
  rintro x w ⟨mt, mdt, ms, mr, mst, mrhs, mp⟩ ⟨rfl, rfl, rfl, rfl, hP⟩
  obtain ⟨r', p', h1, h2⟩ := h x w mrhs mp hP
  refine ⟨⟨mt, mdt, ms, mr, mst, r', p'⟩, ⟨rfl, rfl, rfl, rfl, h1⟩, ?_⟩
  simp only [residualAndJacobian]
  simp only at h2
  rw [h2]
  rcases F x w with e | a <;> rfl

/-- Policy contract for a scheme: `PI t hist` is an invariant of the policy's memory (and of `stencil_rhs_`), kept by evaluations, not lost when a step is
    accepted, and under which the answers are those of `F hist t dt` for all stencil contents allowed by `St hist`. -/
structure PolicyRefines [Add K] {R P : Type} (name : Scheme) (policy : Policy K Y R P A)
    (F : List Y → K → K → Y → Bool → Except Exc A) (St : List Y → List Y → Prop) (PI : K → List Y → List R → P → Prop) : Prop where
  answers : ∀ y prev t dt states, St (y :: prev) states →
    PolicyAnswers name policy (F (y :: prev) t dt) states (t + dt) (y :: prev).length dt (PI t (y :: prev))
  accept : ∀ y' y prev t dt r p, PI t (y :: prev) r p → PI (t + dt) (y' :: y :: prev) r p

/-- stencil during a step with one stored state -/
def St1 : List Y → List Y → Prop := fun hist states => ∃ y prev, hist = y :: prev ∧ states = [y]

/-- stencil during a step with two stored states -/
def St2 : List Y → List Y → Prop := fun hist states =>
  ∃ y prev b, hist = y :: prev ∧ states = [y, b] ∧ ∀ z rest, prev = z :: rest → b = z

/-- stencil before a BDF2 step -/
def Pre2 : List Y → List Y → Prop := fun hist states =>
  ∃ a b, states = [a, b] ∧ ∀ y z rest, hist = y :: z :: rest → a = z

theorem refines_bdf1 [Add K] {R P : Type} (policy : Policy K Y R P A) (F : List Y → K → K → Y → Bool → Except Exc A)
    (PI : K → List Y → List R → P → Prop) (h : PolicyRefines .BDF1 policy F St1 PI) :
    Refines (S := SMem K Y R P) (fun solver t dt n => doStep .BDF1 policy solver t dt n) F
      (fun t hist m => m.states.length = 1 ∧ PI t hist m.rhs m.pol) := by
  rintro solver t dt y prev ⟨mt, mdt, ms, mr, mst, mrhs, mp⟩ ⟨hlen, hPI⟩
  obtain ⟨a, rfl⟩ := List.length_eq_one_iff.1 hlen
  have key := run_eq _ _ _ (policy_answers .BDF1 policy (F (y :: prev) t dt) [y] (t + dt) (y :: prev).length dt (PI t (y :: prev))
    (h.answers y prev t dt [y] ⟨y, prev, rfl, rfl⟩)) (solver y)
    ⟨y, ⟨t + dt, dt, (y :: prev).length, mr, [y], mrhs, mp⟩, []⟩ ⟨rfl, rfl, rfl, rfl, hPI⟩
  obtain ⟨m', ⟨i1, i2, i3, i4, i5⟩, e⟩ := key
  have hst : ∀ q, stepBDF1 policy solver t dt q ⟨y, ⟨mt, mdt, ms, mr, [a], mrhs, mp⟩, []⟩ =
      Prog.catchE (solve .BDF1 policy solver) (fun e =>
        if e = .nonlinearSolveFailure then
          some (do
            let yn ← getState 0
            setY yn
            Prog.throwE .timeStepFailure)
        else none) ⟨y, ⟨t + dt, dt, q, mr, [y], mrhs, mp⟩, []⟩ := by
    intro q; simp [stepBDF1, Prog.bind_run, setTimes, setState]
  simp only [doStep, hst, Prog.catchE, solve]
  rw [e]
  generalize outcome (F (y :: prev) t dt) (solver y) = o at *
  obtain ⟨st, oy, oq⟩ := o
  refine ⟨m', ?_⟩
  match st with
  | none => exact ⟨⟨by simp [i1], h.accept _ _ _ _ _ _ _ i5⟩, by simp⟩
  | some (.exc ex) =>
    cases ex <;> simp [i1, Prog.bind_run, getState, slot, setY, i5]
  | some (.ub w) => simp
  | some .fuel => simp

theorem refines_cn [Add K] {R P : Type} (policy : Policy K Y R P A) (F : List Y → K → K → Y → Bool → Except Exc A)
    (PI : K → List Y → List R → P → Prop) (h : PolicyRefines .CrankNicolson policy F St1 PI) :
    Refines (S := SMem K Y R P) (fun solver t dt n => doStep .CrankNicolson policy solver t dt n) F
      (fun t hist m => m.states.length = 1 ∧ PI t hist m.rhs m.pol) := by
  rintro solver t dt y prev ⟨mt, mdt, ms, mr, mst, mrhs, mp⟩ ⟨hlen, hPI⟩
  obtain ⟨a, rfl⟩ := List.length_eq_one_iff.1 hlen
  have key := run_eq _ _ _ (policy_answers .CrankNicolson policy (F (y :: prev) t dt) [y] (t + dt) (y :: prev).length dt (PI t (y :: prev))
    (h.answers y prev t dt [y] ⟨y, prev, rfl, rfl⟩)) (solver y)
    ⟨y, ⟨t + dt, dt, (y :: prev).length, mr, [y], mrhs, mp⟩, []⟩ ⟨rfl, rfl, rfl, rfl, hPI⟩
  obtain ⟨m', ⟨i1, i2, i3, i4, i5⟩, e⟩ := key
  have hst : ∀ q, stepCN policy solver t dt q ⟨y, ⟨mt, mdt, ms, mr, [a], mrhs, mp⟩, []⟩ =
      Prog.catchE (solve .CrankNicolson policy solver) (fun e =>
        if e = .nonlinearSolveFailure then
          some (do
            let yn ← getState 0
            setY yn
            Prog.throwE .timeStepFailure)
        else none) ⟨y, ⟨t + dt, dt, q, mr, [y], mrhs, mp⟩, []⟩ := by
    intro q; simp [stepCN, Prog.bind_run, setTimes, setState]
  simp only [doStep, hst, Prog.catchE, solve]
  rw [e]
  generalize outcome (F (y :: prev) t dt) (solver y) = o at *
  obtain ⟨st, oy, oq⟩ := o
  refine ⟨m', ?_⟩
  match st with
  | none => exact ⟨⟨by simp [i1], h.accept _ _ _ _ _ _ _ i5⟩, by simp⟩
  | some (.exc ex) =>
    cases ex <;> simp [i1, Prog.bind_run, getState, slot, setY, i5]
  | some (.ub w) => simp
  | some .fuel => simp

theorem refines_bdf2 [Add K] {R P : Type} (policy : Policy K Y R P A) (F : List Y → K → K → Y → Bool → Except Exc A)
    (PI : K → List Y → List R → P → Prop) (h : PolicyRefines .BDF2 policy F St2 PI) :
    Refines (S := SMem K Y R P) (fun solver t dt n => doStep .BDF2 policy solver t dt n) F
      (fun t hist m => Pre2 hist m.states ∧ PI t hist m.rhs m.pol) := by
  rintro solver t dt y prev ⟨mt, mdt, ms, mr, mst, mrhs, mp⟩ ⟨⟨a, b, hab, hpre⟩, hPI⟩
  simp only at hab hPI
  subst hab
  -- the stencil during the step
  obtain ⟨b', hb', hst⟩ : ∃ b', (∀ z rest, prev = z :: rest → b' = z) ∧
      stepBDF2 policy solver t dt (y :: prev).length ⟨y, ⟨mt, mdt, ms, mr, [a, b], mrhs, mp⟩, []⟩ =
      Prog.catchE (solve .BDF2 policy solver) (fun e =>
        if e = .nonlinearSolveFailure then
          some (do
            let yn ← getState 0
            let ynm1 ← getState 1
            if ((y :: prev).length : Int) = 1 then
              setY yn
            else do
              setY yn
              setState 0 ynm1
            Prog.throwE .timeStepFailure)
        else none) ⟨y, ⟨t + dt, dt, (y :: prev).length, mr, [y, b'], mrhs, mp⟩, []⟩ := by
    cases prev with
    | nil => exact ⟨b, by simp, by simp [stepBDF2, Prog.bind_run, setTimes, setState]⟩
    | cons z rest =>
      refine ⟨a, by intro z' r' hz; cases hz; exact hpre y z rest rfl, ?_⟩
      have h1 : ¬ (((y :: z :: rest).length : Int) = 1) := by simp only [List.length_cons]; omega
      simp only [stepBDF2, if_neg h1]
      simp [Prog.bind_run, setTimes, setState, getState, slot]
  have key := run_eq _ _ _ (policy_answers .BDF2 policy (F (y :: prev) t dt) [y, b'] (t + dt) (y :: prev).length dt (PI t (y :: prev))
    (h.answers y prev t dt [y, b'] ⟨y, prev, b', rfl, rfl, hb'⟩)) (solver y)
    ⟨y, ⟨t + dt, dt, (y :: prev).length, mr, [y, b'], mrhs, mp⟩, []⟩ ⟨rfl, rfl, rfl, rfl, hPI⟩
  obtain ⟨m', ⟨i1, i2, i3, i4, i5⟩, e⟩ := key
  simp only [doStep]
  rw [hst]
  simp only [Prog.catchE, solve]
  rw [e]
  generalize outcome (F (y :: prev) t dt) (solver y) = o at *
  obtain ⟨st, oy, oq⟩ := o
  match st with
  | none =>
    refine ⟨m', ⟨⟨y, b', i1, ?_⟩, h.accept _ _ _ _ _ _ _ i5⟩, by simp⟩
    intro y1 z rest hz
    simp only [List.cons.injEq] at hz
    exact hz.2.1
  | some (.exc ex) =>
    by_cases hex : ex = .nonlinearSolveFailure
    · subst hex
      cases prev with
      | nil =>
        refine ⟨m', ⟨⟨y, b', i1, by simp⟩, i5⟩, ?_⟩
        simp [i1, Prog.bind_run, getState, slot, setY]
      | cons z rest =>
        have h1 : ¬ ((rest.length : Int) + 1 = 0) := by omega
        refine ⟨{ m' with states := [b', b'] }, ⟨⟨b', b', rfl, ?_⟩, i5⟩, ?_⟩
        · intro y1 z1 r1 hz
          simp only [List.cons.injEq] at hz
          rw [hb' z rest rfl]; exact hz.2.1
        · simp [i1, Prog.bind_run, getState, setState, slot, setY, h1]
    · refine ⟨m', ?_, ?_⟩
      · cases ex <;> first | trivial | (exfalso; exact hex rfl)
      · cases ex <;> first | (exfalso; exact hex rfl) | simp
  | some (.ub w) => exact ⟨m', trivial, by simp⟩
  | some .fuel => exact ⟨m', trivial, by simp⟩

end Pressio.Lemmas.Implicit
