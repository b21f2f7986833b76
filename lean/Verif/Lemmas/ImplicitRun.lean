import Verif.Lemmas.Implicit
import Verif.Lemmas.ImplicitPolicy
import Verif.Lemmas.ImplicitArbitrary
import Verif.Spec.AdvanceTargetFail

namespace Pressio.Lemmas.Implicit
set_option autoImplicit false
open Pressio Pressio.Model.Implicit Pressio.Spec.Implicit
open Pressio.Model.Explicit (Scheme)

variable {K Y J A S : Type}

theorem drive_split [Add K] (step : (Y → SolveTree Y A) → K → K → Int → Prog (SolveSt Y S A) Unit)
    (atts : List (Attempt K Y A)) (t : K) (hist : List Y) (y : Y) (mem : S) (pre post : List (Record K Y A)) (r : Record K Y A)
    (h : drive step atts t hist y mem = pre ++ r :: post) :
    r.hist = ((pre.filter (fun r => r.stop.isNone)).map (·.y)).reverse ++ hist ∧ r.t = timeAfter t pre := by
  induction atts generalizing t hist y mem pre with
  | nil => simp [drive] at h
  | cons a rest ih =>
    simp only [drive] at h
    have hnil : ∀ (x : Record K Y A) l, x.hist = hist → x.t = t → x :: l = [] ++ r :: post →
        r.hist = ((([] : List (Record K Y A)).filter (fun r => r.stop.isNone)).map (·.y)).reverse ++ hist ∧ r.t = timeAfter t ([] : List (Record K Y A)) := by
      intro x l h1 h2 h3
      simp only [List.nil_append, List.cons.injEq] at h3
      rw [← h3.1, h1, h2]
      simp [timeAfter]
    generalize step a.solver t a.dt hist.length ⟨y, mem, []⟩ = res at h
    cases res with
    | ok u s =>
      cases pre with
      | nil => exact hnil _ _ rfl rfl h
      | cons p pre =>
        simp only [List.cons_append, List.cons.injEq] at h
        obtain ⟨rfl, h⟩ := h
        obtain ⟨h1, h2⟩ := ih _ _ _ _ _ h
        refine ⟨by simp [h1], by simp [h2, timeAfter]⟩
    | stop st s =>
      by_cases hst : st = .exc .timeStepFailure
      · subst hst
        cases pre with
        | nil => exact hnil _ _ rfl rfl h
        | cons p pre =>
          simp only [List.cons_append, List.cons.injEq] at h
          obtain ⟨rfl, h⟩ := h
          obtain ⟨h1, h2⟩ := ih _ _ _ _ _ h
          refine ⟨by simp [h1], by simp [h2, timeAfter]⟩
      · have h' : [(⟨hist, t, a.dt, s.log, some st, s.y⟩ : Record K Y A)] = pre ++ r :: post := by
          match st, hst with
          | .exc e, hst => cases e <;> simp_all
          | .ub w, _ => exact h
          | .fuel, _ => exact h
        cases pre with
        | nil => exact hnil _ _ rfl rfl h'
        | cons p pre => simp at h'

theorem outcome_query (F : Y → Bool → Except Exc A) (tree : SolveTree Y A) :
    ∀ q ∈ (outcome F tree).queries, q.ans = F q.x q.wantJ := by
  induction tree with
  | ret y => simp [outcome]
  | stop h y => simp [outcome]
  | ask x w k ih =>
    simp only [outcome, List.mem_cons]
    rintro q (rfl | hq)
    · rfl
    · exact ih _ q hq

/-- the attempt that produced a record of the ideal run -/
theorem ideal_record [Add K] (F : List Y → K → K → Y → Bool → Except Exc A) (atts : List (Attempt K Y A)) (t : K) (y : Y)
    (prev : List Y) (r : Record K Y A) (h : r ∈ ideal F atts t y prev) :
    ∃ a ∈ atts, ∃ yn pv, r.hist = yn :: pv ∧ r.dt = a.dt ∧
      r.queries = (outcome (F r.hist r.t r.dt) (a.solver yn)).queries ∧
      r.stop = (match (outcome (F r.hist r.t r.dt) (a.solver yn)).stop with
        | some (.exc .nonlinearSolveFailure) => some (.exc .timeStepFailure)
        | x => x) ∧
      r.y = (match (outcome (F r.hist r.t r.dt) (a.solver yn)).stop with
        | some (.exc .nonlinearSolveFailure) => yn
        | _ => (outcome (F r.hist r.t r.dt) (a.solver yn)).y) := by
  induction atts generalizing t y prev with
  | nil => simp [ideal] at h
  | cons a rest ih =>
    simp only [ideal] at h
    have here : ∀ st, (outcome (F (y :: prev) t a.dt) (a.solver y)).stop = st →
        r = ⟨y :: prev, t, a.dt, (outcome (F (y :: prev) t a.dt) (a.solver y)).queries,
          (match st with | some (.exc .nonlinearSolveFailure) => some (.exc .timeStepFailure) | x => x),
          (match st with | some (.exc .nonlinearSolveFailure) => y | _ => (outcome (F (y :: prev) t a.dt) (a.solver y)).y)⟩ →
        ∃ a' ∈ a :: rest, ∃ yn pv, r.hist = yn :: pv ∧ r.dt = a'.dt ∧
          r.queries = (outcome (F r.hist r.t r.dt) (a'.solver yn)).queries ∧
          r.stop = (match (outcome (F r.hist r.t r.dt) (a'.solver yn)).stop with
            | some (.exc .nonlinearSolveFailure) => some (.exc .timeStepFailure)
            | x => x) ∧
          r.y = (match (outcome (F r.hist r.t r.dt) (a'.solver yn)).stop with
            | some (.exc .nonlinearSolveFailure) => yn
            | _ => (outcome (F r.hist r.t r.dt) (a'.solver yn)).y) := by
      rintro st hst rfl
      exact ⟨a, by simp, y, prev, rfl, rfl, rfl, by rw [hst], by rw [hst]⟩
    have later : ∀ t y prev, r ∈ ideal F rest t y prev → ∃ a' ∈ a :: rest, ∃ yn pv, r.hist = yn :: pv ∧ r.dt = a'.dt ∧
          r.queries = (outcome (F r.hist r.t r.dt) (a'.solver yn)).queries ∧
          r.stop = (match (outcome (F r.hist r.t r.dt) (a'.solver yn)).stop with
            | some (.exc .nonlinearSolveFailure) => some (.exc .timeStepFailure)
            | x => x) ∧
          r.y = (match (outcome (F r.hist r.t r.dt) (a'.solver yn)).stop with
            | some (.exc .nonlinearSolveFailure) => yn
            | _ => (outcome (F r.hist r.t r.dt) (a'.solver yn)).y) := by
      intro t y prev hr
      obtain ⟨a', ha', rest'⟩ := ih t y prev hr
      exact ⟨a', by simp [ha'], rest'⟩
    rcases hst : (outcome (F (y :: prev) t a.dt) (a.solver y)).stop with _ | st
    · rw [hst] at h
      simp only [List.mem_cons] at h
      rcases h with h | h
      · exact here _ hst h
      · exact later _ _ _ h
    · rw [hst] at h
      by_cases hn : st = .exc .nonlinearSolveFailure
      · subst hn
        simp only [List.mem_cons] at h
        rcases h with h | h
        · exact here _ hst h
        · exact later _ _ _ h
      · refine here _ hst ?_
        match st, hn with
        | .exc e, hn => cases e <;> simp_all
        | .ub w, _ => simpa using h
        | .fuel, _ => simpa using h

/-- a failed attempt can be removed from an ideal run -/
theorem ideal_drop [Add K] (F : List Y → K → K → Y → Bool → Except Exc A)
    (hF : ∀ hist t dt x w, F hist t dt x w ≠ .error .timeStepFailure)
    (pre post : List (Attempt K Y A)) (a : Attempt K Y A) (hon : ∀ b ∈ pre ++ a :: post, ∀ y, Honest (b.solver y))
    (t : K) (y : Y) (prev : List Y) (R1 R2 : List (Record K Y A)) (r : Record K Y A)
    (h : ideal F (pre ++ a :: post) t y prev = R1 ++ r :: R2) (hl : R1.length = pre.length)
    (hr : r.stop = some (.exc .timeStepFailure)) :
    ideal F (pre ++ post) t y prev = R1 ++ R2 := by
  induction pre generalizing t y prev R1 with
  | nil =>
    obtain rfl : R1 = [] := by simpa using hl
    simp only [List.nil_append, ideal] at h ⊢
    have hh := honest_outcome (F (y :: prev) t a.dt) (hF _ _ _) (a.solver y) (hon a (by simp) y)
    rcases hst : (outcome (F (y :: prev) t a.dt) (a.solver y)).stop with _ | st
    · rw [hst] at h
      simp only [List.cons.injEq] at h
      rw [← h.1] at hr; simp at hr
    · rw [hst] at h hh
      match st, hh, h with
      | .exc e, hh, h =>
        cases e
        case nonlinearSolveFailure => simp only [List.cons.injEq] at h; exact h.2
        all_goals
          simp only [List.cons.injEq] at h
          rw [← h.1] at hr
          simp_all
      | .ub w, _, h =>
        simp only [List.cons.injEq] at h
        rw [← h.1] at hr
        simp at hr
      | .fuel, _, h =>
        simp only [List.cons.injEq] at h
        rw [← h.1] at hr
        simp at hr
  | cons b pre ih =>
    obtain ⟨x, R1, rfl⟩ : ∃ x R, R1 = x :: R := by
      cases R1 with
      | nil => simp at hl
      | cons x R => exact ⟨x, R, rfl⟩
    have hl' : R1.length = pre.length := by simpa using hl
    have hon' : ∀ b ∈ pre ++ a :: post, ∀ y, Honest (b.solver y) := fun c hc => hon c (by simp at hc ⊢; tauto)
    simp only [List.cons_append, ideal] at h ⊢
    rcases hst : (outcome (F (y :: prev) t b.dt) (b.solver y)).stop with _ | st
    · rw [hst] at h
      simp only [List.cons.injEq] at h ⊢
      exact ⟨h.1, ih hon' _ _ _ _ h.2 hl'⟩
    · rw [hst] at h
      match st, h with
      | .exc e, h =>
        cases e
        case nonlinearSolveFailure =>
          simp only [List.cons.injEq] at h ⊢
          exact ⟨h.1, ih hon' _ _ _ _ h.2 hl'⟩
        all_goals simp at h
      | .ub w, h => simp at h
      | .fuel, h => simp at h

/-! ### number of stored states -/

theorem run_states {R P : Type} (name : Scheme) (policy : Policy K Y R P A) (tree : SolveTree Y A) (s : ISt K Y R P A) :
    (tree.run (residualAndJacobian name policy) s).state.mem.states = s.mem.states := by
  induction tree generalizing s with
  | ret y => rfl
  | stop h y => rfl
  | ask x w k ih =>
    simp only [SolveTree.run, residualAndJacobian]
    rcases policy name x s.mem.states s.mem.tnp1 s.mem.step s.mem.dt w (s.mem.rhs, s.mem.pol) with ⟨a, r, p⟩ | ⟨h, r, p⟩
    · simp only; rw [ih]
    · simp only
      match h with
      | .exc e => simp only; rw [ih]
      | .ub w => rfl
      | .fuel => rfl

/-- programs that keep the number of stored states -/
def KeepsLen {R P α : Type} (p : Prog (ISt K Y R P A) α) : Prop := ∀ s, (p s).state.mem.states.length = s.mem.states.length

theorem KeepsLen.bind {R P α β : Type} {p : Prog (ISt K Y R P A) α} {f : α → Prog (ISt K Y R P A) β}
    (hp : KeepsLen p) (hf : ∀ a, KeepsLen (f a)) : KeepsLen (p >>= f) := by
  intro s
  have := hp s
  rw [Prog.bind_run]
  generalize p s = res at *
  rcases res with ⟨a, s'⟩ | ⟨h, s'⟩
  · simp only; rw [hf]; exact this
  · exact this

theorem KeepsLen.catchE {R P α : Type} {p : Prog (ISt K Y R P A) α} {f : Exc → Option (Prog (ISt K Y R P A) α)}
    (hp : KeepsLen p) (hf : ∀ e q, f e = some q → KeepsLen q) : KeepsLen (Prog.catchE p f) := by
  intro s
  have := hp s
  unfold Prog.catchE
  generalize p s = res at *
  rcases res with ⟨a, s'⟩ | ⟨h, s'⟩
  · exact this
  · match h with
    | .exc e =>
      simp only
      rcases hfe : f e with _ | q
      · exact this
      · simp only; rw [hf e q hfe]; exact this
    | .ub w => exact this
    | .fuel => exact this

theorem keeps_setState {R P : Type} (i : Nat) (v : Y) : KeepsLen (setState i v : Prog (ISt K Y R P A) Unit) := by
  intro s; unfold setState; split <;> simp
theorem keeps_getState {R P : Type} (i : Nat) : KeepsLen (getState i : Prog (ISt K Y R P A) Y) := by
  intro s; unfold getState slot; split <;> simp
theorem keeps_setY {R P : Type} (v : Y) : KeepsLen (setY v : Prog (ISt K Y R P A) Unit) := fun _ => rfl
theorem keeps_throw {R P α : Type} (e : Exc) : KeepsLen (Prog.throwE e : Prog (ISt K Y R P A) α) := fun _ => rfl
theorem keeps_get {R P : Type} : KeepsLen (Prog.get : Prog (ISt K Y R P A) _) := fun _ => rfl
theorem keeps_setTimes [Add K] {R P : Type} (t dt : K) (n : Int) : KeepsLen (setTimes t dt n : Prog (ISt K Y R P A) Unit) := fun _ => rfl
theorem keeps_solve {R P : Type} (name : Scheme) (policy : Policy K Y R P A) (solver : Y → SolveTree Y A) :
    KeepsLen (solve name policy solver) := fun s => by unfold solve; rw [run_states]

theorem keeps_doStep [Add K] {R P : Type} (name : Scheme) (policy : Policy K Y R P A) (solver : Y → SolveTree Y A) (t dt : K) (n : Int) :
    KeepsLen (doStep name policy solver t dt n) := by
  have hite : ∀ {α : Type} (c : Prop) [Decidable c] (p q : Prog (ISt K Y R P A) α), KeepsLen p → KeepsLen q → KeepsLen (if c then p else q) := by
    intro α c _ p q hp hq; split <;> assumption
  cases name
  case BDF1 =>
    refine (keeps_setTimes _ _ _).bind fun _ => keeps_get.bind fun _ => (keeps_setState _ _).bind fun _ => (keeps_solve _ _ _).catchE ?_
    intro e q hq
    split at hq
    · simp only [Option.some.injEq] at hq
      subst hq
      exact (keeps_getState _).bind fun _ => (keeps_setY _).bind fun _ => keeps_throw _
    · simp at hq
  case CrankNicolson =>
    refine (keeps_setTimes _ _ _).bind fun _ => keeps_get.bind fun _ => (keeps_setState _ _).bind fun _ => (keeps_solve _ _ _).catchE ?_
    intro e q hq
    split at hq
    · simp only [Option.some.injEq] at hq
      subst hq
      exact (keeps_getState _).bind fun _ => (keeps_setY _).bind fun _ => keeps_throw _
    · simp at hq
  case BDF2 =>
    refine (keeps_setTimes _ _ _).bind fun _ => keeps_get.bind fun s => ?_
    have hc : KeepsLen (Prog.catchE (solve .BDF2 policy solver) (fun e =>
        if e = .nonlinearSolveFailure then
          some (do
            let yn ← getState 0
            let ynm1 ← getState 1
            if n = 1 then
              setY yn
            else do
              setY yn
              setState 0 ynm1
            Prog.throwE .timeStepFailure)
        else none)) := by
      refine (keeps_solve _ _ _).catchE ?_
      intro e q hq
      split at hq
      · simp only [Option.some.injEq] at hq
        subst hq
        refine (keeps_getState _).bind fun _ => (keeps_getState _).bind fun _ => ?_
        split
        · exact (keeps_setY _).bind fun _ => keeps_throw _
        · exact (keeps_setY _).bind fun _ => (keeps_setState _ _).bind fun _ => keeps_throw _
      · simp at hq
    by_cases hn : n = 1
    · simp only [if_pos hn] at hc ⊢
      exact (keeps_setState _ _).bind fun _ => hc
    · simp only [if_neg hn] at hc ⊢
      exact (keeps_getState _).bind fun _ => (keeps_setState _ _).bind fun _ => (keeps_setState _ _).bind fun _ => hc
  all_goals exact fun s => rfl

theorem driveEnd_len [Add K] {R P : Type} (name : Scheme) (policy : Policy K Y R P A) (atts : List (Attempt K Y A)) (t : K) (hist : List Y) (y : Y)
    (mem : SMem K Y R P) :
    (driveEnd (fun solver t dt n => doStep name policy solver t dt n) atts t hist y mem).states.length = mem.states.length := by
  induction atts generalizing t hist y mem with
  | nil => rfl
  | cons a rest ih =>
    have hk := keeps_doStep name policy a.solver t a.dt hist.length ⟨y, mem, []⟩
    simp only [driveEnd]
    generalize doStep name policy a.solver t a.dt hist.length ⟨y, mem, []⟩ = res at hk
    cases res with
    | ok u s => simp only; rw [ih]; exact hk
    | stop st s =>
      match st with
      | .exc e => cases e <;> first | exact hk | (simp only; rw [ih]; exact hk)
      | .ub w => exact hk
      | .fuel => exact hk

/-! ### connection with the advancers -/
open Pressio.Model.Advance Pressio.Spec.AdvanceTarget

/-- the user objects of an advancer when the stepper is an implicit stepper with memory `S` and a fixed solver, and the step-size
    policy and the observer use the rest `U` of the world -/
def implicitCalls {U : Type} (step : (Y → SolveTree Y A) → K → K → Int → Prog (SolveSt Y S A) Unit) (solver : Y → SolveTree Y A)
    (pol5 : Int → K → DtVars K → Prog U (DtVars K)) (obs : Int → K → Y → Prog U Unit) : Calls (S × U) K Y where
  dtPolicy3 := fun _ _ d w => .ok d w
  dtPolicy5 := fun n t v w => match pol5 n t v w.2 with
    | .ok v' u => .ok v' (w.1, u)
    | .stop h u => .stop h (w.1, u)
  guesser := fun _ _ x => .ok () x
  stepper := fun t n d x => match step solver t d n ⟨x.1, x.2.1, []⟩ with
    | .ok _ s => .ok () (s.y, (s.mem, x.2.2))
    | .stop h s => .stop h (s.y, (s.mem, x.2.2))
  observer := fun n t y w => match obs n t y w.2 with
    | .ok _ u => .ok () (w.1, u)
    | .stop h u => .stop h (w.1, u)

theorem refines_transparent [Add K] {U : Type} (step : (Y → SolveTree Y A) → K → K → Int → Prog (SolveSt Y S A) Unit)
    (F : List Y → K → K → Y → Bool → Except Exc A) (Inv : K → List Y → S → Prop) (h : Refines step F Inv)
    (hF : ∀ hist t dt x w, F hist t dt x w ≠ .error .timeStepFailure)
    (solver : Y → SolveTree Y A) (hs : ∀ y, Honest (solver y))
    (pol5 : Int → K → DtVars K → Prog U (DtVars K)) (obs : Int → K → Y → Prog U Unit) :
    FailureTransparent (implicitCalls step solver pol5 obs) (fun n t y w w1 => ∃ prev : List Y, ((y :: prev).length : Int) = n ∧
      Inv t (y :: prev) w.1 ∧ Inv t (y :: prev) w1.1) where
  respects := by
    rintro t n d y y' ⟨m, u⟩ ⟨m1, u1⟩ ⟨m', u'⟩ ⟨prev, rfl, i0, i1⟩ hok
    obtain ⟨ma, ha, ea⟩ := h solver t d y prev m i0
    obtain ⟨mb, hb, eb⟩ := h solver t d y prev m1 i1
    simp only [implicitCalls] at hok ⊢
    rw [ea] at hok
    rw [eb]
    generalize outcome (F (y :: prev) t d) (solver y) = o at *
    obtain ⟨st, oy, oq⟩ := o
    match st with
    | none =>
      simp only [Res.ok.injEq, Prod.mk.injEq, true_and] at hok
      obtain ⟨rfl, rfl, rfl⟩ := hok
      exact ⟨(mb, u1), rfl, y :: prev, by simp, ha, hb⟩
    | some (.exc e) => cases e <;> simp at hok
    | some (.ub w) => simp at hok
    | some .fuel => simp at hok
  failure := by
    rintro t n d y y' ⟨m, u⟩ ⟨m1, u1⟩ ⟨m', u'⟩ ⟨prev, rfl, i0, i1⟩ hf
    obtain ⟨ma, ha, ea⟩ := h solver t d y prev m i0
    have hh := honest_outcome (F (y :: prev) t d) (hF _ _ _) (solver y) (hs y)
    simp only [implicitCalls] at hf
    rw [ea] at hf
    generalize outcome (F (y :: prev) t d) (solver y) = o at *
    obtain ⟨st, oy, oq⟩ := o
    match st with
    | none => simp at hf
    | some (.exc e) =>
      cases e
      case nonlinearSolveFailure =>
        simp only [Res.stop.injEq, Prod.mk.injEq, true_and] at hf
        obtain ⟨rfl, rfl, rfl⟩ := hf
        exact ⟨rfl, prev, rfl, ha, i1⟩
      all_goals simp_all
    | some (.ub w) => simp at hf
    | some .fuel => simp at hf
  policy := by
    rintro n t y v ⟨m, u⟩ ⟨m1, u1⟩ v' ⟨m', u'⟩ ⟨prev, hp, i0, i1⟩ hok
    simp only [implicitCalls] at hok
    generalize pol5 n t v u = res at hok
    rcases res with ⟨v2, u2⟩ | ⟨hh, u2⟩
    · simp only [Res.ok.injEq, Prod.mk.injEq] at hok
      obtain ⟨-, rfl, -⟩ := hok
      exact ⟨prev, hp, i0, i1⟩
    · simp at hok
  observer := by
    rintro n t y ⟨m, u⟩ ⟨m1, u1⟩ ⟨m', u'⟩ ⟨prev, hp, i0, i1⟩ hok
    simp only [implicitCalls] at hok
    generalize obs n t y u = res at hok
    rcases res with ⟨v2, u2⟩ | ⟨hh, u2⟩
    · simp only [Res.ok.injEq, Prod.mk.injEq] at hok
      obtain ⟨-, rfl, -⟩ := hok
      exact ⟨prev, hp, i0, i1⟩
    · simp at hok

end Pressio.Lemmas.Implicit
