import Verif.Lemmas.ImplicitArbitrary
import Verif.Model.Lspg

/-
  Refinement of the ideal run for equations with a memory that is advanced by evaluations (LSPG, fully discrete ROMs): the memory is only right for the next step if the accepted step evaluated the equations
  at least once.
-/
namespace Pressio.Lemmas.Implicit
set_option autoImplicit false
open Pressio Pressio.Model.Implicit Pressio.Spec.Implicit
open Pressio.Model.Explicit (Scheme)

variable {K Y J A S : Type}

/-- the solver does not return without evaluating -/
def Asks : SolveTree Y A → Prop
  | .ret _ => False
  | _ => True

/-- end with the value or the exception -/
def settle (e : Except Exc A) (s : S) : Res S A :=
  match e with
  | .ok a => .ok a s
  | .error e => .stop (.exc e) s

@[simp] theorem settle_ok (a : A) (s : S) : settle (.ok a) s = .ok a s := rfl
@[simp] theorem settle_error (e : Exc) (s : S) : settle (.error e : Except Exc A) s = .stop (.exc e) s := rfl

/-- evaluating gives the answers of `F`, and leads from `I` to `D` -/
def AnswersA (ans : Y → Bool → Prog S A) (F : Y → Bool → Except Exc A) (I D : S → Prop) : Prop :=
  ∀ x w m, I m → ∃ m', D m' ∧ ans x w m = settle (F x w) m'

theorem run_eq_asked (ans : Y → Bool → Prog S A) (F : Y → Bool → Except Exc A) (I D : S → Prop) (h : AnswersA ans F I D) (hDI : ∀ m, D m → I m)
    (tree : SolveTree Y A) (ha : Asks tree) (s : SolveSt Y S A) (hI : I s.mem) :
    ∃ m', I m' ∧ ((outcome F tree).stop = none → D m') ∧ tree.run ans s =
      (match (outcome F tree).stop with
        | none => .ok () ⟨(outcome F tree).y, m', s.log ++ (outcome F tree).queries⟩
        | some st => .stop st ⟨(outcome F tree).y, m', s.log ++ (outcome F tree).queries⟩) := by
  have hD : Answers ans F D := fun x w m hm => by
    obtain ⟨m', h1, h2⟩ := h x w m (hDI m hm)
    exact ⟨m', h1, by rw [h2]; cases F x w <;> rfl⟩
  cases tree with
  | ret y => exact ha.elim
  | stop h y => exact ⟨s.mem, hI, by simp [outcome], by simp [SolveTree.run, outcome]⟩
  | ask x w k =>
    obtain ⟨m', hm', e⟩ := h x w s.mem hI
    rcases hF : F x w with err | a
    · rw [hF] at e
      obtain ⟨m2, hm2, e2⟩ := run_eq ans F D hD (k (.error err)) ⟨s.y, m', s.log ++ [⟨x, w, .error err⟩]⟩ hm'
      refine ⟨m2, hDI _ hm2, fun _ => hm2, ?_⟩
      simp only [SolveTree.run, e, outcome, hF, settle_ok, settle_error]
      rw [e2]
      cases (outcome F (k (.error err))).stop <;> simp
    · rw [hF] at e
      obtain ⟨m2, hm2, e2⟩ := run_eq ans F D hD (k (.ok a)) ⟨s.y, m', s.log ++ [⟨x, w, .ok a⟩]⟩ hm'
      refine ⟨m2, hDI _ hm2, fun _ => hm2, ?_⟩
      simp only [SolveTree.run, e, outcome, hF, settle_ok, settle_error]
      rw [e2]
      cases (outcome F (k (.ok a))).stop <;> simp

/-- `Refines` for solvers that ask -/
def RefinesAsked [Add K] (step : (Y → SolveTree Y A) → K → K → Int → Prog (SolveSt Y S A) Unit)
    (F : List Y → K → K → Y → Bool → Except Exc A) (Inv : K → List Y → S → Prop) : Prop :=
  ∀ (solver : Y → SolveTree Y A) (t dt : K) (y : Y) (prev : List Y) (mem : S), Inv t (y :: prev) mem → Asks (solver y) →
    ∃ m', (match (outcome (F (y :: prev) t dt) (solver y)).stop with
      | none => Inv (t + dt) ((outcome (F (y :: prev) t dt) (solver y)).y :: y :: prev) m'
      | some (.exc .nonlinearSolveFailure) => Inv t (y :: prev) m'
      | some _ => True) ∧
    step solver t dt (y :: prev).length ⟨y, mem, []⟩ =
      (match (outcome (F (y :: prev) t dt) (solver y)).stop with
      | none => .ok () ⟨(outcome (F (y :: prev) t dt) (solver y)).y, m', (outcome (F (y :: prev) t dt) (solver y)).queries⟩
      | some (.exc .nonlinearSolveFailure) =>
        .stop (.exc .timeStepFailure) ⟨y, m', (outcome (F (y :: prev) t dt) (solver y)).queries⟩
      | some h => .stop h ⟨(outcome (F (y :: prev) t dt) (solver y)).y, m', (outcome (F (y :: prev) t dt) (solver y)).queries⟩)

theorem drive_eq_ideal_asked [Add K] (step : (Y → SolveTree Y A) → K → K → Int → Prog (SolveSt Y S A) Unit)
    (F : List Y → K → K → Y → Bool → Except Exc A) (Inv : K → List Y → S → Prop) (h : RefinesAsked step F Inv)
    (hF : ∀ hist t dt x w, F hist t dt x w ≠ .error .timeStepFailure)
    (atts : List (Attempt K Y A)) (hon : ∀ a ∈ atts, ∀ y, Honest (a.solver y)) (hask : ∀ a ∈ atts, ∀ y, Asks (a.solver y))
    (t : K) (y : Y) (prev : List Y) (mem : S) (hI : Inv t (y :: prev) mem) :
    drive step atts t (y :: prev) y mem = ideal F atts t y prev := by
  induction atts generalizing t y prev mem with
  | nil => rfl
  | cons a rest ih =>
    obtain ⟨m', hm', e⟩ := h a.solver t a.dt y prev mem hI (hask a (by simp) y)
    have hh := honest_outcome (F (y :: prev) t a.dt) (hF _ _ _) (a.solver y) (hon a (by simp) y)
    have hr : ∀ b ∈ rest, ∀ y, Honest (b.solver y) := fun b hb => hon b (by simp [hb])
    have hr' : ∀ b ∈ rest, ∀ y, Asks (b.solver y) := fun b hb => hask b (by simp [hb])
    simp only [drive, ideal]
    rw [e]
    generalize outcome (F (y :: prev) t a.dt) (a.solver y) = o at *
    obtain ⟨st, oy, oq⟩ := o
    match st with
    | none =>
      simp only at hm' ⊢
      rw [ih hr hr' _ _ _ _ hm']
    | some (.exc .nonlinearSolveFailure) =>
      simp only at hm' ⊢
      rw [ih hr hr' _ _ _ _ hm']
    | some (.exc e) =>
      cases e <;> simp_all
    | some (.ub w) => rfl
    | some .fuel => rfl

/-- Policy contract: `PI hist` holds of the policy's memory whenever a step from `hist` may begin or repeat, `PD hist` once the equations have been evaluated in it. -/
structure PolicyRefinesA [Add K] {R P : Type} (name : Scheme) (policy : Policy K Y R P A)
    (F : List Y → K → K → Y → Bool → Except Exc A) (St : List Y → List Y → Prop) (PI PD : List Y → List R → P → Prop) : Prop where
  answers : ∀ y prev t dt states, St (y :: prev) states → ∀ x w r p, PI (y :: prev) r p → ∃ r' p', PD (y :: prev) r' p' ∧
    policy name x states (t + dt) (y :: prev).length dt w (r, p) = settle (F (y :: prev) t dt x w) (r', p')
  weaken : ∀ y prev r p, PD (y :: prev) r p → PI (y :: prev) r p
  accept : ∀ y' y prev r p, PD (y :: prev) r p → PI (y' :: y :: prev) r p

theorem policy_answersA [Add K] {R P : Type} (name : Scheme) (policy : Policy K Y R P A) (F : List Y → K → K → Y → Bool → Except Exc A) (St : List Y → List Y → Prop)
    (PI PD : List Y → List R → P → Prop) (h : PolicyRefinesA name policy F St PI PD) (y : Y) (prev : List Y) (t dt : K) (states : List Y) (hSt : St (y :: prev) states) :
    AnswersA (residualAndJacobian name policy) (F (y :: prev) t dt)
      (fun m => m.states = states ∧ m.tnp1 = t + dt ∧ m.step = (y :: prev).length ∧ m.dt = dt ∧ PI (y :: prev) m.rhs m.pol)
      (fun m => m.states = states ∧ m.tnp1 = t + dt ∧ m.step = (y :: prev).length ∧ m.dt = dt ∧ PD (y :: prev) m.rhs m.pol) := by
  rintro x w ⟨mt, mdt, ms, mr, mst, mrhs, mp⟩ ⟨h1, h2, h3, h4, hP⟩
  simp only at h1 h2 h3 h4 hP
  subst h1 h2 h3 h4
  obtain ⟨r', p', h1, h2⟩ := h.answers y prev t mdt mst hSt x w mrhs mp hP
  refine ⟨⟨t + mdt, mdt, (y :: prev).length, mr, mst, r', p'⟩, ⟨rfl, rfl, rfl, rfl, h1⟩, ?_⟩
  simp only [residualAndJacobian]
  rw [h2]
  rcases F (y :: prev) t mdt x w with e | a <;> rfl

theorem refines_bdf1_asked [Add K] {R P : Type} (policy : Policy K Y R P A) (F : List Y → K → K → Y → Bool → Except Exc A)
    (PI PD : List Y → List R → P → Prop) (h : PolicyRefinesA .BDF1 policy F St1 PI PD) :
    RefinesAsked (S := SMem K Y R P) (fun solver t dt n => doStep .BDF1 policy solver t dt n) F
      (fun _ hist m => m.states.length = 1 ∧ PI hist m.rhs m.pol) := by
  rintro solver t dt y prev ⟨mt, mdt, ms, mr, mst, mrhs, mp⟩ ⟨hlen, hPI⟩ hask
  obtain ⟨a, rfl⟩ := List.length_eq_one_iff.1 hlen
  have key := run_eq_asked _ _ _ _ (policy_answersA .BDF1 policy F St1 PI PD h y prev t dt [y] ⟨y, prev, rfl, rfl⟩)
    (fun m hm => ⟨hm.1, hm.2.1, hm.2.2.1, hm.2.2.2.1, h.weaken _ _ _ _ hm.2.2.2.2⟩) (solver y) hask
    ⟨y, ⟨t + dt, dt, (y :: prev).length, mr, [y], mrhs, mp⟩, []⟩ ⟨rfl, rfl, rfl, rfl, hPI⟩
  obtain ⟨m', ⟨i1, i2, i3, i4, i5⟩, hd, e⟩ := key
  have hst : ∀ q, stepBDF1 policy solver t dt q ⟨y, ⟨mt, mdt, ms, mr, [a], mrhs, mp⟩, []⟩ =
      Prog.catchE (solve .BDF1 policy solver) (fun e =>
        if e = .nonlinearSolveFailure then
          some (do
            let yn ← getState 0
            setY yn
            Prog.throwE .timeStepFailure)
        else none) ⟨y, ⟨t + dt, dt, q, mr, [y], mrhs, mp⟩, []⟩ := by
    intro q; simp [stepBDF1, Prog.bind_run, setTimes, setState]
  simp only [doStep, hst, Prog.catchE, solve]
  rw [e]
  generalize outcome (F (y :: prev) t dt) (solver y) = o at *
  obtain ⟨st, oy, oq⟩ := o
  refine ⟨m', ?_⟩
  match st with
  | none => exact ⟨⟨by simp [i1], h.accept _ _ _ _ _ (hd rfl).2.2.2.2⟩, by simp⟩
  | some (.exc ex) =>
    cases ex <;> simp [i1, Prog.bind_run, getState, slot, setY, i5]
  | some (.ub w) => simp
  | some .fuel => simp

theorem refines_bdf2_asked [Add K] {R P : Type} (policy : Policy K Y R P A) (F : List Y → K → K → Y → Bool → Except Exc A)
    (PI PD : List Y → List R → P → Prop) (h : PolicyRefinesA .BDF2 policy F St2 PI PD) :
    RefinesAsked (S := SMem K Y R P) (fun solver t dt n => doStep .BDF2 policy solver t dt n) F
      (fun _ hist m => Pre2 hist m.states ∧ PI hist m.rhs m.pol) := by
  rintro solver t dt y prev ⟨mt, mdt, ms, mr, mst, mrhs, mp⟩ ⟨⟨a, b, hab, hpre⟩, hPI⟩ hask
  simp only at hab hPI
  subst hab
  obtain ⟨b', hb', hst⟩ : ∃ b', (∀ z rest, prev = z :: rest → b' = z) ∧
      stepBDF2 policy solver t dt (y :: prev).length ⟨y, ⟨mt, mdt, ms, mr, [a, b], mrhs, mp⟩, []⟩ =
      Prog.catchE (solve .BDF2 policy solver) (fun e =>
        if e = .nonlinearSolveFailure then
          some (do
            let yn ← getState 0
            let ynm1 ← getState 1
            if ((y :: prev).length : Int) = 1 then
              setY yn
            else do
              setY yn
              setState 0 ynm1
            Prog.throwE .timeStepFailure)
        else none) ⟨y, ⟨t + dt, dt, (y :: prev).length, mr, [y, b'], mrhs, mp⟩, []⟩ := by
    cases prev with
    | nil => exact ⟨b, by simp, by simp [stepBDF2, Prog.bind_run, setTimes, setState]⟩
    | cons z rest =>
      refine ⟨a, by intro z' r' hz; cases hz; exact hpre y z rest rfl, ?_⟩
      have h1 : ¬ (((y :: z :: rest).length : Int) = 1) := by simp only [List.length_cons]; omega
      simp only [stepBDF2, if_neg h1]
      simp [Prog.bind_run, setTimes, setState, getState, slot]
  have key := run_eq_asked _ _ _ _ (policy_answersA .BDF2 policy F St2 PI PD h y prev t dt [y, b'] ⟨y, prev, b', rfl, rfl, hb'⟩)
    (fun m hm => ⟨hm.1, hm.2.1, hm.2.2.1, hm.2.2.2.1, h.weaken _ _ _ _ hm.2.2.2.2⟩) (solver y) hask
    ⟨y, ⟨t + dt, dt, (y :: prev).length, mr, [y, b'], mrhs, mp⟩, []⟩ ⟨rfl, rfl, rfl, rfl, hPI⟩
  obtain ⟨m', ⟨i1, i2, i3, i4, i5⟩, hd, e⟩ := key
  simp only [doStep]
  rw [hst]
  simp only [Prog.catchE, solve]
  rw [e]
  generalize outcome (F (y :: prev) t dt) (solver y) = o at *
  obtain ⟨st, oy, oq⟩ := o
  match st with
  | none =>
    refine ⟨m', ⟨⟨y, b', i1, ?_⟩, h.accept _ _ _ _ _ (hd rfl).2.2.2.2⟩, by simp⟩
    intro y1 z rest hz
    simp only [List.cons.injEq] at hz
    exact hz.2.1
  | some (.exc ex) =>
    by_cases hex : ex = .nonlinearSolveFailure
    · subst hex
      cases prev with
      | nil =>
        refine ⟨m', ⟨⟨y, b', i1, by simp⟩, i5⟩, ?_⟩
        simp [i1, Prog.bind_run, getState, slot, setY]
      | cons z rest =>
        have h1 : ¬ ((rest.length : Int) + 1 = 0) := by omega
        refine ⟨{ m' with states := [b', b'] }, ⟨⟨b', b', rfl, ?_⟩, i5⟩, ?_⟩
        · intro y1 z1 r1 hz
          simp only [List.cons.injEq] at hz
          rw [hb' z rest rfl]; exact hz.2.1
        · simp [i1, Prog.bind_run, getState, setState, slot, setY, h1]
    · refine ⟨m', ?_, ?_⟩
      · cases ex <;> first | trivial | (exfalso; exact hex rfl)
      · cases ex <;> first | (exfalso; exact hex rfl) | simp
  | some (.ub w) => exact ⟨m', trivial, by simp⟩
  | some .fuel => exact ⟨m', trivial, by simp⟩

/-! ### User-defined schemes on a system with memory -/

open Pressio.Model.Lspg (SSystem arbResidualS arbStepS)

/-- Contract of a fully discrete system with memory: `PI hist` holds of its memory whenever a step from `hist` may begin or repeat, `PD hist` once it has been evaluated in it; the answers are those of `G` up
    to the stepper's translation of exceptions. -/
structure SystemRefinesA [Add K] {P : Type} (sys : SSystem K Y P A) (numAux : Nat) (init : List Y) (G : List Y → K → K → Y → Bool → Except Exc A) (PI PD : List Y → P → Prop) : Prop where
  answers : ∀ y prev t dt x w p, PI (y :: prev) p → ∃ p', PD (y :: prev) p' ∧
    sys (y :: prev).length (t + dt) dt w x (((y :: prev) ++ init).take numAux) p = settle (G (y :: prev) t dt x w) p'
  weaken : ∀ y prev p, PD (y :: prev) p → PI (y :: prev) p
  accept : ∀ y' y prev p, PD (y :: prev) p → PI (y' :: y :: prev) p

/-- the stepper's translation -/
def translated (G : List Y → K → K → Y → Bool → Except Exc A) : List Y → K → K → Y → Bool → Except Exc A := fun hist t dt x w =>
  (G hist t dt x w).mapError (fun e => if e = .discreteTimeResidualFailureUnrecoverable then .residualEvaluationFailureUnrecoverable else e)

theorem refines_arbS [Add K] {P : Type} (sys : SSystem K Y P A) (numAux : Nat) (hn : numAux = 1 ∨ numAux = 2 ∨ numAux = 3)
    (init : List Y) (hinit : init.length = numAux) (G : List Y → K → K → Y → Bool → Except Exc A) (PI PD : List Y → P → Prop) (h : SystemRefinesA sys numAux init G PI PD) :
    RefinesAsked (S := AMem K Y × P) (fun solver t dt n => arbStepS sys numAux solver t dt n) (translated G)
      (fun _ hist m => m.1.states = (hist.tail ++ init).take numAux ∧ PI hist m.2) := by
  rintro solver t dt y prev ⟨⟨mt, mdt, ms, mst, mrec⟩, mp⟩ ⟨hI, hPI⟩ hask
  simp only [List.tail_cons] at hI hPI
  subst hI
  have hlp : ((prev ++ init).take numAux).length = numAux := by
    rw [List.length_take, List.length_append]; omega
  have hlc : (((y :: prev) ++ init).take numAux).length = numAux := by
    rw [List.length_take, List.length_append, List.length_cons]; omega
  obtain ⟨z, hup, hrb⟩ : ∃ z, updateAux numAux y (⟨t + dt, dt, (y :: prev).length, (prev ++ init).take numAux, mrec⟩ : AMem K Y) =
      some ⟨t + dt, dt, (y :: prev).length, ((y :: prev) ++ init).take numAux, z⟩ ∧
      rollBack numAux (⟨t + dt, dt, (y :: prev).length, ((y :: prev) ++ init).take numAux, z⟩ : AMem K Y) =
        some (y, ⟨t + dt, dt, (y :: prev).length, (prev ++ init).take numAux, z⟩) := by
    obtain ⟨k, rfl⟩ : ∃ k, numAux = k + 1 := ⟨numAux - 1, by omega⟩
    obtain ⟨z, h1, h2⟩ := take_succ_cons_form k y (prev ++ init) hlp
    rw [List.cons_append]
    refine ⟨z, ?_, ?_⟩
    all_goals
      have h3 : ((prev ++ init).take k).length = k := by
        rw [List.length_take, List.length_append]; omega
      rw [h1, h2]
      generalize (prev ++ init).take k = l at *
      obtain hn | hn | hn := hn
      · obtain rfl : k = 0 := by omega
        obtain rfl := List.length_eq_zero_iff.1 h3
        rfl
      · obtain rfl : k = 1 := by omega
        obtain ⟨a, rfl⟩ := List.length_eq_one_iff.1 h3
        rfl
      · obtain rfl : k = 2 := by omega
        obtain ⟨a, b, rfl⟩ := List.length_eq_two.1 h3
        rfl
  have hans : AnswersA (arbResidualS sys numAux) (translated G (y :: prev) t dt)
      (fun m => m.1 = ⟨t + dt, dt, (y :: prev).length, ((y :: prev) ++ init).take numAux, z⟩ ∧ PI (y :: prev) m.2)
      (fun m => m.1 = ⟨t + dt, dt, (y :: prev).length, ((y :: prev) ++ init).take numAux, z⟩ ∧ PD (y :: prev) m.2) := by
    rintro x w ⟨m1, m2⟩ ⟨rfl, hm⟩
    obtain ⟨p', hp', e⟩ := h.answers y prev t dt x w m2 hm
    refine ⟨(_, p'), ⟨rfl, hp'⟩, ?_⟩
    simp only [arbResidualS]
    rw [if_pos ⟨hlc, hn⟩, e]
    simp only [translated]
    rcases G (y :: prev) t dt x w with e | a <;> rfl
  obtain ⟨⟨m1, m2⟩, ⟨rfl, i5⟩, hd, e⟩ := run_eq_asked _ _ _ _ hans (fun m hm => ⟨hm.1, h.weaken _ _ _ hm.2⟩) (solver y) hask
    ⟨y, (⟨t + dt, dt, (y :: prev).length, ((y :: prev) ++ init).take numAux, z⟩, mp), []⟩ ⟨rfl, hPI⟩
  simp only [arbStepS]
  simp only [hup, e]
  generalize outcome (translated G (y :: prev) t dt) (solver y) = o at *
  obtain ⟨st, oy, oq⟩ := o
  match st with
  | none => exact ⟨_, ⟨rfl, h.accept _ _ _ _ (hd rfl).2⟩, rfl⟩
  | some (.exc ex) =>
    by_cases hex : ex = .nonlinearSolveFailure
    · subst hex
      refine ⟨(⟨t + dt, dt, (y :: prev).length, (prev ++ init).take numAux, z⟩, m2), ⟨rfl, i5⟩, ?_⟩
      simp only [if_true]
      rw [hrb]
      simp
    · refine ⟨(⟨t + dt, dt, (y :: prev).length, ((y :: prev) ++ init).take numAux, z⟩, m2), ?_, ?_⟩
      · cases ex <;> first | trivial | (exfalso; exact hex rfl)
      · cases ex <;> first | (exfalso; exact hex rfl) | simp
  | some (.ub w) => exact ⟨_, trivial, rfl⟩
  | some .fuel => exact ⟨_, trivial, rfl⟩

end Pressio.Lemmas.Implicit
