import Verif.Props.ExplicitRun
import Verif.Props.ExplicitMM
import Verif.Spec.ExplicitTry

/-
  C77: what a step of an explicit scheme does when the user's functions, the right-hand-side observer or the linear solver throw.
-/
namespace Pressio.Props
set_option autoImplicit false
set_option linter.unusedSectionVars false
open Pressio Pressio.Model.Explicit Pressio.Spec.Explicit Pressio.Spec.ExplicitTry

section
variable {K Y E : Type} [Field K] [CharZero K] [AddCommGroup Y] [Module K Y]

/-! ### The specification, written out -/

variable (rhs : Y → K → Except Exc E) (seen : E → Y) (slope : E → Except Exc Y) (obs : RhsEv K Y → Except Exc Unit) (n : Int) (y : Y) (t h : K)

/-- one stage, then the rest -/
def stageThen (i : Nat) (y : Y) (t : K) (l : List (RhsEv K Y)) (next : Y → List (RhsEv K Y) → List (RhsEv K Y) × Except Exc Y) : List (RhsEv K Y) × Except Exc Y :=
  match rhs y t with
  | .error e => (l, .error e)
  | .ok r =>
    match obs ⟨n, i, t, seen r⟩ with
    | .error e => (l ++ [⟨n, i, t, seen r⟩], .error e)
    | .ok _ =>
      match slope r with
      | .error e => (l ++ [⟨n, i, t, seen r⟩], .error e)
      | .ok k => next k (l ++ [⟨n, i, t, seen r⟩])

theorem try_euler : tryStep eulerTableau rhs seen slope obs n y t h = stageThen rhs seen slope obs n 0 y t [] (fun k l => (l, .ok (y + h • k))) := by
  simp only [tryStep, tryStages, eulerTableau, stageThen, sumBelow, ofRow, List.getD_cons_zero, smul_zero, add_zero, zero_mul, List.nil_append]
  rcases rhs y t with e | r
  · rfl
  simp only
  rcases obs ⟨n, 0, t, seen r⟩ with e | u
  · rfl
  simp only
  rcases slope r with e | k
  · rfl
  simp

theorem try_ssprk3 : tryStep ssprk3Tableau rhs seen slope obs n y t h =
    stageThen rhs seen slope obs n 0 y t [] fun k1 l => stageThen rhs seen slope obs n 1 (y + h • k1) (t + h) l fun k2 l =>
      stageThen rhs seen slope obs n 2 (((1:K) / 4) • (y + h • k1) + ((3:K) / 4) • y + (((1:K) / 4) * h) • k2) (t + h / 2) l fun k3 l =>
        (l, .ok (((1:K) / 3) • y + ((2:K) / 3) • (((1:K) / 4) • (y + h • k1) + ((3:K) / 4) • y + (((1:K) / 4) * h) • k2) + (((2:K) / 3) * h) • k3)) := by
  have hu2 : ∀ k1 k2 : Y, ((1:K) / 4) • (y + h • k1) + ((3:K) / 4) • y + ((1:K) / 4 * h) • k2 = y + h • ((1/4 : K) • k1 + (1/4 : K) • k2) := by intro k1 k2; module
  simp only [hu2]
  have hh : t + 1 / 2 * h = t + h / 2 := by ring
  simp only [tryStep, tryStages, ssprk3Tableau, stageThen, sumBelow, ofRow, ofRows, List.getD_cons_zero, List.getD_cons_succ, smul_zero, add_zero, zero_add, zero_mul, one_mul, hh, List.nil_append, one_smul]
  rcases rhs y t with e | r
  · rfl
  simp only
  rcases obs ⟨n, 0, t, seen r⟩ with e | u
  · rfl
  simp only
  rcases slope r with e | k
  · rfl
  simp only [List.nil_append, List.cons_append, List.getD_cons_zero, List.getD_cons_succ]
  rcases rhs (y + h • k) (t + h) with e | r2
  · rfl
  simp only
  rcases obs ⟨n, 1, t + h, seen r2⟩ with e | u
  · rfl
  simp only
  rcases slope r2 with e | k2
  · rfl
  simp only [List.nil_append, List.cons_append, List.getD_cons_zero, List.getD_cons_succ]
  rcases rhs (y + h • ((1/4 : K) • k + (1/4 : K) • k2)) (t + h / 2) with e | r3
  · rfl
  simp only
  rcases obs ⟨n, 2, t + h / 2, seen r3⟩ with e | u
  · rfl
  simp only
  rcases slope r3 with e | k3
  · rfl
  simp only [List.nil_append, List.cons_append, List.getD_cons_zero, List.getD_cons_succ, Prod.mk.injEq, true_and, Except.ok.injEq]
  module

theorem try_rk4 : tryStep rk4Tableau rhs seen slope obs n y t h =
    stageThen rhs seen slope obs n 0 y t [] fun k1 l => stageThen rhs seen slope obs n 1 (y + (h / 2) • k1) (t + h / 2) l fun k2 l =>
      stageThen rhs seen slope obs n 2 (y + (h / 2) • k2) (t + h / 2) l fun k3 l => stageThen rhs seen slope obs n 3 (y + h • k3) (t + h) l fun k4 l =>
        (l, .ok (y + (h / 6) • k1 + (h / 3) • k2 + (h / 3) • k3 + (h / 6) • k4)) := by
  have hh : t + 1 / 2 * h = t + h / 2 := by ring
  have hk : ∀ k : Y, h • (1 / 2 : K) • k = (h / 2) • k := by intro k; module
  simp only [tryStep, tryStages, rk4Tableau, stageThen, sumBelow, ofRow, ofRows, List.getD_cons_zero, List.getD_cons_succ, smul_zero, zero_smul, add_zero, zero_add, zero_mul, one_mul, hh, hk, List.nil_append, one_smul]
  rcases rhs y t with e | r
  · rfl
  simp only
  rcases obs ⟨n, 0, t, seen r⟩ with e | u
  · rfl
  simp only
  rcases slope r with e | k
  · rfl
  simp only [List.nil_append, List.cons_append, List.getD_cons_zero, List.getD_cons_succ]
  rcases rhs (y + (h / 2) • k) (t + h / 2) with e | r2
  · rfl
  simp only
  rcases obs ⟨n, 1, t + h / 2, seen r2⟩ with e | u
  · rfl
  simp only
  rcases slope r2 with e | k2
  · rfl
  simp only [List.nil_append, List.cons_append, List.getD_cons_zero, List.getD_cons_succ]
  rcases rhs (y + (h / 2) • k2) (t + h / 2) with e | r3
  · rfl
  simp only
  rcases obs ⟨n, 2, t + h / 2, seen r3⟩ with e | u
  · rfl
  simp only
  rcases slope r3 with e | k3
  · rfl
  simp only [List.nil_append, List.cons_append, List.getD_cons_zero, List.getD_cons_succ]
  rcases rhs (y + h • k3) (t + h) with e | r4
  · rfl
  simp only
  rcases obs ⟨n, 3, t + h, seen r4⟩ with e | u
  · rfl
  simp only
  rcases slope r4 with e | k4
  · rfl
  simp only [List.nil_append, List.cons_append, List.getD_cons_zero, List.getD_cons_succ, Prod.mk.injEq, true_and, Except.ok.injEq]
  module

end

/-! ### Without mass matrix -/
section Plain
variable {K Y : Type} [Field K] [CharZero K] [AddCommGroup Y] [Module K Y]

/-- The observable outcome of a step that started with state `y0` and ended with `y1`, stopping or not: the observer calls, then either the new state, or the exception with the state unchanged. -/
def Outcome (y0 : Y) (stop : Option Stop) (y1 : Y) (calls : List (RhsEv K Y)) (spec : List (RhsEv K Y) × Except Exc Y) : Prop :=
  calls = spec.1 ∧ match spec.2 with
    | .ok y' => stop = none ∧ y1 = y'
    | .error e => stop = some (.exc e) ∧ y1 = y0

/-- the same, for results of programs on the stepper's memory -/
def Out (y0 : Y) (l0 : List (RhsEv K Y)) (r : Res (ESt K Y) Unit) (spec : List (RhsEv K Y) × Except Exc Y) : Prop :=
  ∃ calls, r.state.log = l0 ++ calls ∧ Outcome y0 r.stop? r.state.y calls spec

theorem plain_stage (sys : System K Y) (f : Y → K → Except Exc Y) (hf : Tries sys f) (obs : RhsEv K Y → Except Exc Unit) (n : Int) (i k : Nat) (z : Y) (τ : K) (q : Prog (ESt K Y) Unit)
    (next : Y → List (RhsEv K Y) → List (RhsEv K Y) × Except Exc Y) (s : ESt K Y) (hi : i < s.rhs.length) (l0 l : List (RhsEv K Y)) (hl : s.log = l0 ++ l)
    (hq : ∀ v, Out s.y l0 (q { s with rhs := s.rhs.set i v, log := l0 ++ (l ++ [⟨n, k, τ, v⟩]) }) (next v (l ++ [⟨n, k, τ, v⟩]))) :
    Out s.y l0 ((evalInto sys i z τ >>= fun _ => observe obs n k τ i >>= fun _ => q) s) (stageThen f id .ok obs n k z τ l next) := by
  obtain ⟨junk, hf⟩ := hf
  simp only [Prog.bind_run, evalInto, List.getElem?_eq_getElem hi, hf, stageThen]
  rcases f z τ with e | v
  · exact ⟨l, hl, rfl, rfl, rfl⟩
  · simp only [observe, Prog.bind_run, rhsAt, List.getElem?_set_self hi, Prog.modify_run, hl, List.append_assoc, id_eq, Prog.ofExcept]
    rcases obs ⟨n, k, τ, v⟩ with e | u
    · exact ⟨_, rfl, rfl, rfl, rfl⟩
    · exact hq v

theorem out_setY (y0 v v' : Y) (s : ESt K Y) (l0 l : List (RhsEv K Y)) (hl : s.log = l0 ++ l) (hv : v = v') : Out y0 l0 (setY v s) (l, .ok v') := by
  subst hv
  exact ⟨l, hl, rfl, rfl, rfl⟩

/-- **C77, one-step schemes.** For every user system that computes `f(y, t)` or throws (having written anything into its output), every right-hand-side observer, every storage of the right size: one step of ForwardEuler, SSPRungeKutta3 and
    RungeKutta4 reports to the observer exactly the stages of the textbook method up to the first failure, throws exactly the exception of that failure and leaves the state unchanged, and without
    failure leaves the textbook value. -/
theorem C77_one_step_schemes (sys : System K Y) (f : Y → K → Except Exc Y) (hf : Tries sys f) (obs : RhsEv K Y → Except Exc Unit) (scheme : Scheme) (tab : Tableau K) (ht : tableauOf scheme = some tab)
    (t h : K) (n : Int) (s : ESt K Y) (hlen : s.rhs.length = numRhs scheme) :
    ∃ calls, (doStep sys scheme obs t h n s).state.log = s.log ++ calls ∧
      Outcome s.y (doStep sys scheme obs t h n s).stop? (doStep sys scheme obs t h n s).state.y calls (tryStep tab f id .ok obs n s.y t h) := by
  have key : Out s.y s.log (doStep sys scheme obs t h n s) (tryStep tab f id .ok obs n s.y t h) := by
    cases scheme <;> simp only [tableauOf, Option.some.injEq, reduceCtorEq] at ht <;> subst ht <;> simp only [numRhs] at hlen
    · rw [try_euler]
      refine plain_stage sys f hf obs n 0 0 s.y t _ _ s (by omega) s.log [] (by simp) fun k1 => ?_
      simp only [Prog.bind_run, rhsAt, List.getElem?_set_self (by omega : 0 < s.rhs.length), one_smul]
      exact out_setY _ _ _ _ _ _ rfl rfl
    · rw [try_rk4]
      obtain ⟨y, r, a, l⟩ := s
      obtain ⟨r0, r1, r2, r3, rfl⟩ : ∃ r0 r1 r2 r3, r = [r0, r1, r2, r3] := by
        match r, hlen with
        | [r0, r1, r2, r3], _ => exact ⟨r0, r1, r2, r3, rfl⟩
      refine plain_stage sys f hf obs n 0 0 y t _ _ ⟨y, [r0, r1, r2, r3], a, l⟩ (by simp) l [] (by simp) fun k1 => ?_
      simp only [rk4Stage, Prog.bind_run, rhsAt, setAux, Prog.modify_run, Prog.get_run, List.set_cons_zero, List.set_cons_succ, List.getElem?_cons_zero, List.getElem?_cons_succ, one_smul, zero_smul, zero_add]
      refine plain_stage sys f hf obs n 1 1 _ (t + h / 2) _ _ ⟨y, [k1, r1, r2, r3], _, _⟩ (by simp) l _ rfl fun k2 => ?_
      simp only [rk4Stage, Prog.bind_run, rhsAt, setAux, Prog.modify_run, Prog.get_run, List.set_cons_zero, List.set_cons_succ, List.getElem?_cons_zero, List.getElem?_cons_succ, one_smul, zero_smul, zero_add]
      refine plain_stage sys f hf obs n 2 2 _ (t + h / 2) _ _ ⟨y, [k1, k2, r2, r3], _, _⟩ (by simp) l _ rfl fun k3 => ?_
      simp only [rk4Stage, Prog.bind_run, rhsAt, setAux, Prog.modify_run, Prog.get_run, List.set_cons_zero, List.set_cons_succ, List.getElem?_cons_zero, List.getElem?_cons_succ, one_smul, zero_smul, zero_add]
      refine plain_stage sys f hf obs n 3 3 _ (t + h) _ _ ⟨y, [k1, k2, k3, r3], _, _⟩ (by simp) l _ rfl fun k4 => ?_
      simp only [Prog.bind_run, rhsAt, List.set_cons_zero, List.set_cons_succ, List.getElem?_cons_zero, List.getElem?_cons_succ]
      exact out_setY _ _ _ _ _ _ rfl rfl
    · rw [try_ssprk3]
      obtain ⟨y, r, a, l⟩ := s
      obtain ⟨r0, rfl⟩ := List.length_eq_one_iff.1 hlen
      refine plain_stage sys f hf obs n 0 0 y t _ _ ⟨y, [r0], a, l⟩ (by simp) l [] (by simp) fun k1 => ?_
      simp only [Prog.bind_run, rhsAt, setAux, Prog.modify_run, Prog.get_run, List.set_cons_zero, List.getElem?_cons_zero, one_smul, zero_smul, zero_add]
      refine plain_stage sys f hf obs n 0 1 _ (t + h) _ _ ⟨y, [k1], _, _⟩ (by simp) l _ rfl fun k2 => ?_
      simp only [Prog.bind_run, rhsAt, setAux, Prog.modify_run, Prog.get_run, List.set_cons_zero, List.getElem?_cons_zero]
      refine plain_stage sys f hf obs n 0 2 _ (t + h / 2) _ _ ⟨y, [k2], _, _⟩ (by simp) l _ rfl fun k3 => ?_
      simp only [Prog.bind_run, rhsAt, List.set_cons_zero, List.getElem?_cons_zero]
      exact out_setY _ _ _ _ _ _ rfl rfl
  exact key

/-- **C77, AdamsBashforth2.** The same for AdamsBashforth2, where the derivative of the previous step is what the first vector of the storage contains; a step that returns leaves the new derivative there. -/
theorem C77_adams_bashforth (sys : System K Y) (f : Y → K → Except Exc Y) (hf : Tries sys f) (obs : RhsEv K Y → Except Exc Unit) (t h : K) (n : Int) (y r0 r1 a : Y) (l : List (RhsEv K Y)) :
    ∃ calls, (doStep sys .AdamsBashforth2 obs t h n ⟨y, [r0, r1], a, l⟩).state.log = l ++ calls ∧
      Outcome y (doStep sys .AdamsBashforth2 obs t h n ⟨y, [r0, r1], a, l⟩).stop? (doStep sys .AdamsBashforth2 obs t h n ⟨y, [r0, r1], a, l⟩).state.y calls (tryAB2 f id .ok obs n y t h r0) ∧
      ((doStep sys .AdamsBashforth2 obs t h n ⟨y, [r0, r1], a, l⟩).stop? = none → ∃ v, f y t = .ok v ∧ (doStep sys .AdamsBashforth2 obs t h n ⟨y, [r0, r1], a, l⟩).state.rhs[0]? = some v) := by
  obtain ⟨junk, hf⟩ := hf
  by_cases hn : n = 1
  · simp only [doStep, stepAB2, Prog.bind_run, Prog.get_run, hn, if_true, evalInto, List.getElem?_cons_zero, hf, tryAB2]
    rcases f y t with e | v
    · exact ⟨[], by simp, ⟨rfl, rfl, rfl⟩, by simp⟩
    · simp only [observe, Prog.bind_run, rhsAt, List.set_cons_zero, List.getElem?_cons_zero, Prog.modify_run, Prog.ofExcept, id_eq]
      rcases obs ⟨1, 0, t, v⟩ with e | u
      · exact ⟨_, rfl, ⟨rfl, rfl, rfl⟩, by simp⟩
      · exact ⟨_, rfl, ⟨rfl, rfl, by simp [setY]⟩, fun _ => ⟨v, rfl, rfl⟩⟩
  · simp only [doStep, stepAB2, Prog.bind_run, Prog.get_run, hn, if_false, copyRhs, evalInto, List.getElem?_cons_zero, List.getElem?_cons_succ, List.set_cons_succ, List.set_cons_zero, hf, tryAB2]
    rcases f y t with e | v
    · exact ⟨[], by simp, ⟨rfl, rfl, rfl⟩, by simp⟩
    · simp only [observe, Prog.bind_run, rhsAt, List.set_cons_zero, List.getElem?_cons_zero, List.getElem?_cons_succ, Prog.modify_run, Prog.ofExcept, id_eq]
      rcases obs ⟨n, 0, t, v⟩ with e | u
      · exact ⟨_, rfl, ⟨rfl, rfl, rfl⟩, by simp⟩
      · refine ⟨_, rfl, ⟨rfl, rfl, ?_⟩, fun _ => ⟨v, rfl, rfl⟩⟩
        simp only [List.getElem?_cons_zero, List.getElem?_cons_succ, setY, Prog.modify_run, Res.state_ok, one_smul]
        module

/-- **C77, repeating an AdamsBashforth2 step when the right-hand-side observer threw** does not give the step that would have been taken: the evaluation had succeeded, so its result is in the place of the previous
    derivative when the step is repeated, and the repeated step is a ForwardEuler step, for every right-hand side. -/
theorem C77_observer_retry_refuted (sys : System K Y) (f : Y → K → Y) (hf : Computes sys f) (obs : RhsEv K Y → Except Exc Unit) (t h : K) (n : Int) (hn : n ≠ 1) (y r0 r1 a : Y) (l : List (RhsEv K Y)) (e : Exc)
    (hobs : obs ⟨n, 0, t, f y t⟩ = .error e) :
    (doStep sys .AdamsBashforth2 obs t h n ⟨y, [r0, r1], a, l⟩).stop? = some (.exc e) ∧
    (doStep sys .AdamsBashforth2 dummyObserver t h n (doStep sys .AdamsBashforth2 obs t h n ⟨y, [r0, r1], a, l⟩).state).stop? = none ∧
    (doStep sys .AdamsBashforth2 dummyObserver t h n (doStep sys .AdamsBashforth2 obs t h n ⟨y, [r0, r1], a, l⟩).state).state.y = y + h • f y t ∧
    (doStep sys .AdamsBashforth2 dummyObserver t h n ⟨y, [r0, r1], a, l⟩).state.y = y + h • (((3:K)/2) • f y t - ((1:K)/2) • r0) := by
  have hf' := hf
  simp only [Computes] at hf'
  have e1 : doStep sys .AdamsBashforth2 obs t h n ⟨y, [r0, r1], a, l⟩ = .stop (.exc e) ⟨y, [f y t, r0], a, l ++ [⟨n, 0, t, f y t⟩]⟩ := by
    simp [doStep, stepAB2, Prog.bind_run, hn, copyRhs, evalInto, observe, rhsAt, hf', hobs, Prog.ofExcept]
  have e2 : ∀ r0 r1 l, doStep sys .AdamsBashforth2 dummyObserver t h n ⟨y, [r0, r1], a, l⟩ = .ok () ⟨y + h • (((3:K)/2) • f y t - ((1:K)/2) • r0), [f y t, r0], a, l ++ [⟨n, 0, t, f y t⟩]⟩ := by
    intro r0 r1 l
    have : (1:K) • y + ((3:K) / 2 * h) • f y t + ((-1:K) / 2 * h) • r0 = y + h • (((3:K)/2) • f y t - ((1:K)/2) • r0) := by module
    rw [← this]
    simp [doStep, stepAB2, Prog.bind_run, hn, copyRhs, evalInto, observe, rhsAt, hf', Prog.ofExcept, dummyObserver, setY]
  rw [e1]
  refine ⟨rfl, ?_, ?_, ?_⟩
  · rw [Res.state_stop, e2]; rfl
  · rw [Res.state_stop, e2, Res.state_ok]; module
  · rw [e2]; rfl

/-- C77, repeating an AdamsBashforth2 step when the right-hand side threw without having written: the repeated step is the step that would have been taken. -/
theorem C77_clean_failure_retry (bad good : System K Y) (f : Y → K → Y) (hf : Computes good f) (obs : RhsEv K Y → Except Exc Unit) (t h t' h' : K) (n : Int) (hn : n ≠ 1) (y r0 r1 a : Y) (l : List (RhsEv K Y)) (e : Exc)
    (hbad : bad.rhs y t r0 = .stop (.exc e) r0) :
    (doStep bad .AdamsBashforth2 obs t h n ⟨y, [r0, r1], a, l⟩).stop? = some (.exc e) ∧
    doStep good .AdamsBashforth2 dummyObserver t' h' n (doStep bad .AdamsBashforth2 obs t h n ⟨y, [r0, r1], a, l⟩).state = doStep good .AdamsBashforth2 dummyObserver t' h' n ⟨y, [r0, r1], a, l⟩ := by
  have hf' := hf
  simp only [Computes] at hf'
  have e1 : doStep bad .AdamsBashforth2 obs t h n ⟨y, [r0, r1], a, l⟩ = .stop (.exc e) ⟨y, [r0, r0], a, l⟩ := by
    simp [doStep, stepAB2, Prog.bind_run, hn, copyRhs, evalInto, hbad]
  rw [e1]
  refine ⟨rfl, ?_⟩
  simp [doStep, stepAB2, Prog.bind_run, hn, copyRhs, evalInto, observe, rhsAt, hf', Prog.ofExcept, dummyObserver, setY]

end Plain

/-! ### With mass matrix -/
section MM
open Pressio.Model.ExplicitMM
variable {K Y Mt : Type} [Field K] [CharZero K] [AddCommGroup Y] [Module K Y]

/-- the outcome for results of programs on the memory of the stepper with mass matrix -/
def OutMM (y0 : Y) (l0 : List (RhsEv K Y)) (r : Res (MSt K Y Mt) Unit) (spec : List (RhsEv K Y) × Except Exc Y) : Prop :=
  ∃ calls, r.state.log = l0 ++ calls ∧ Outcome y0 r.stop? r.state.y calls spec

theorem mm_stage (sys : MMSystem K Y Mt) (f : Y → K → Except Exc (Mt × Y)) (hf : TriesMM sys f) (ls : LinSolve Y Mt) (g : Mt → Y → Except Exc Y) (hg : TriesSolve ls g) (obs : RhsEv K Y → Except Exc Unit) (n : Int)
    (i k : Nat) (z : Y) (τ : K) (q : Prog (MSt K Y Mt) Unit) (next : Y → List (RhsEv K Y) → List (RhsEv K Y) × Except Exc Y) (s : MSt K Y Mt) (hi : i < s.x.length) (l0 l : List (RhsEv K Y)) (hl : s.log = l0 ++ l)
    (hq : ∀ M b v, OutMM s.y l0 (q { s with M := M, f := b, x := s.x.set i v, log := l0 ++ (l ++ [⟨n, k, τ, b⟩]) }) (next v (l ++ [⟨n, k, τ, b⟩]))) :
    OutMM s.y l0 ((evalMM sys z τ >>= fun _ => observeMM obs n k τ >>= fun _ => solveInto ls i >>= fun _ => q) s) (stageThen f Prod.snd (fun r => g r.1 r.2) obs n k z τ l next) := by
  obtain ⟨junk, hf⟩ := hf
  obtain ⟨junk', hg⟩ := hg
  simp only [Prog.bind_run, evalMM, hf, stageThen]
  rcases f z τ with e | ⟨M, b⟩
  · exact ⟨l, hl, rfl, rfl, rfl⟩
  · simp only [observeMM, Prog.bind_run, Prog.get_run, Prog.modify_run, hl, List.append_assoc, Prog.ofExcept]
    rcases obs ⟨n, k, τ, b⟩ with e | u
    · exact ⟨_, rfl, rfl, rfl, rfl⟩
    · simp only [solveInto, List.getElem?_eq_getElem hi, hg]
      rcases g M b with e | v
      · exact ⟨_, rfl, rfl, rfl, rfl⟩
      · exact hq M b v

theorem outMM_setY (y0 v v' : Y) (s : MSt K Y Mt) (l0 l : List (RhsEv K Y)) (hl : s.log = l0 ++ l) (hv : v = v') : OutMM y0 l0 (Model.ExplicitMM.setY v s) (l, .ok v') := by
  subst hv
  exact ⟨l, hl, rfl, rfl, rfl⟩

/-- **C77, one-step schemes with mass matrix.** For every user system that computes `M(y, t)` and `f(y, t)` or throws, every linear solver that computes `x = g(M, f)` or throws, every right-hand-side observer and every storage of the right
    size: one step reports to the observer exactly the values of `f` at the stages of the textbook method for `g(M, f)` up to the first failure, throws exactly the exception of that failure and leaves the
    state unchanged, and without failure leaves the textbook value. -/
theorem C77_mass_matrix_one_step_schemes (sys : MMSystem K Y Mt) (f : Y → K → Except Exc (Mt × Y)) (hf : TriesMM sys f) (ls : LinSolve Y Mt) (g : Mt → Y → Except Exc Y) (hg : TriesSolve ls g)
    (obs : RhsEv K Y → Except Exc Unit) (scheme : Scheme) (tab : Tableau K) (ht : tableauOf scheme = some tab) (t h : K) (n : Int) (s : MSt K Y Mt) (hlen : s.x.length = numX scheme) :
    ∃ calls, (Model.ExplicitMM.doStep sys ls scheme obs t h n s).state.log = s.log ++ calls ∧
      Outcome s.y (Model.ExplicitMM.doStep sys ls scheme obs t h n s).stop? (Model.ExplicitMM.doStep sys ls scheme obs t h n s).state.y calls (tryStep tab f Prod.snd (fun r => g r.1 r.2) obs n s.y t h) := by
  have key : OutMM s.y s.log (Model.ExplicitMM.doStep sys ls scheme obs t h n s) (tryStep tab f Prod.snd (fun r => g r.1 r.2) obs n s.y t h) := by
    cases scheme <;> simp only [tableauOf, Option.some.injEq, reduceCtorEq] at ht <;> subst ht <;> simp only [numX] at hlen
    · rw [try_euler]
      refine mm_stage sys f hf ls g hg obs n 0 0 s.y t _ _ s (by omega) s.log [] (by simp) fun M b k1 => ?_
      simp only [Prog.bind_run, xAt, List.getElem?_set_self (by omega : 0 < s.x.length), one_smul]
      exact outMM_setY _ _ _ _ _ _ rfl rfl
    · rw [try_rk4]
      obtain ⟨y, f0, r, m, l⟩ := s
      obtain ⟨r0, r1, r2, r3, r4, rfl⟩ : ∃ r0 r1 r2 r3 r4, r = [r0, r1, r2, r3, r4] := by
        match r, hlen with
        | [r0, r1, r2, r3, r4], _ => exact ⟨r0, r1, r2, r3, r4, rfl⟩
      refine mm_stage sys f hf ls g hg obs n 0 0 y t _ _ ⟨y, f0, [r0, r1, r2, r3, r4], m, l⟩ (by simp) l [] (by simp) fun M1 b1 k1 => ?_
      simp [Model.ExplicitMM.rk4Stage, Prog.bind_run, xAt, setX]
      refine mm_stage sys f hf ls g hg obs n 1 1 _ (t + h / 2) _ _ ⟨y, b1, [k1, r1, r2, r3, _], M1, _⟩ (by simp) l _ rfl fun M2 b2 k2 => ?_
      simp [Model.ExplicitMM.rk4Stage, Prog.bind_run, xAt, setX]
      refine mm_stage sys f hf ls g hg obs n 2 2 _ (t + h / 2) _ _ ⟨y, b2, [k1, k2, r2, r3, _], M2, _⟩ (by simp) l _ rfl fun M3 b3 k3 => ?_
      simp [Model.ExplicitMM.rk4Stage, Prog.bind_run, xAt, setX]
      refine mm_stage sys f hf ls g hg obs n 3 3 _ (t + h) _ _ ⟨y, b3, [k1, k2, k3, r3, _], M3, _⟩ (by simp) l _ rfl fun M4 b4 k4 => ?_
      simp [Prog.bind_run, xAt]
      exact outMM_setY _ _ _ _ _ _ rfl rfl
    · rw [try_ssprk3]
      obtain ⟨y, f0, r, m, l⟩ := s
      obtain ⟨r0, r1, rfl⟩ := List.length_eq_two.1 hlen
      refine mm_stage sys f hf ls g hg obs n 0 0 y t _ _ ⟨y, f0, [r0, r1], m, l⟩ (by simp) l [] (by simp) fun M1 b1 k1 => ?_
      simp [Prog.bind_run, xAt, setX]
      refine mm_stage sys f hf ls g hg obs n 0 1 _ (t + h) _ _ ⟨y, b1, [k1, _], M1, _⟩ (by simp) l _ rfl fun M2 b2 k2 => ?_
      simp [Prog.bind_run, xAt, setX]
      refine mm_stage sys f hf ls g hg obs n 0 2 _ (t + h / 2) _ _ ⟨y, b2, [k2, _], M2, _⟩ (by simp) l _ rfl fun M3 b3 k3 => ?_
      simp [Prog.bind_run, xAt, setX]
      exact outMM_setY _ _ _ _ _ _ rfl rfl
  exact key

/-- **C77, AdamsBashforth2 with mass matrix.** The derivative of the previous step is what the first solution vector of the storage contains.  A step that fails in the user's functions or in the observer leaves it there (the
    mass matrix and the right-hand side have their own buffers), so that repeating the step, with any functions, observer and step size, gives exactly what it would have given without the failure. -/
theorem C77_mass_matrix_adams_bashforth (sys : MMSystem K Y Mt) (f : Y → K → Except Exc (Mt × Y)) (hf : TriesMM sys f) (ls : LinSolve Y Mt) (g : Mt → Y → Except Exc Y) (hg : TriesSolve ls g)
    (obs : RhsEv K Y → Except Exc Unit) (t h : K) (n : Int) (y f0 r0 r1 : Y) (m : Mt) (l : List (RhsEv K Y))
    (r : Res (MSt K Y Mt) Unit) (hr : Model.ExplicitMM.doStep sys ls .AdamsBashforth2 obs t h n ⟨y, f0, [r0, r1], m, l⟩ = r) :
    ∃ calls, r.state.log = l ++ calls ∧ Outcome y r.stop? r.state.y calls (tryAB2 f Prod.snd (fun r => g r.1 r.2) obs n y t h r0) ∧
      (r.stop? = none → ∃ p v, f y t = .ok p ∧ g p.1 p.2 = .ok v ∧ r.state.x[0]? = some v) ∧
      ((∀ p, f y t = .ok p → obs ⟨n, 0, t, p.2⟩ = .ok () → ∃ k, g p.1 p.2 = .ok k) → r.stop? ≠ none → r.state.x[0]? = some r0) := by
  obtain ⟨junk, hf⟩ := hf
  obtain ⟨junk', hg⟩ := hg
  subst hr
  by_cases hn : n = 1
  · simp only [Model.ExplicitMM.doStep, Model.ExplicitMM.stepAB2, Prog.bind_run, Prog.get_run, hn, if_true, evalMM, hf, tryAB2]
    rcases f y t with e | ⟨M, b⟩
    · exact ⟨[], by simp, ⟨rfl, rfl, rfl⟩, by simp, by simp⟩
    · simp only [observeMM, Prog.bind_run, Prog.get_run, Prog.modify_run, Prog.ofExcept]
      rcases ho : obs ⟨1, 0, t, b⟩ with e | u
      · exact ⟨_, rfl, ⟨rfl, rfl, rfl⟩, by simp, by simp⟩
      · simp only [solveInto, List.getElem?_cons_zero, hg]
        rcases hk : g M b with e | v
        · exact ⟨_, rfl, ⟨rfl, rfl, rfl⟩, by simp, by simp [hk, ho]⟩
        · exact ⟨_, rfl, ⟨rfl, rfl, by simp [Model.ExplicitMM.setY, Prog.bind_run, xAt]⟩, fun _ => ⟨(M, b), v, rfl, hk, rfl⟩, by simp [Prog.bind_run, xAt, Model.ExplicitMM.setY]⟩
  · simp only [Model.ExplicitMM.doStep, Model.ExplicitMM.stepAB2, Prog.bind_run, Prog.get_run, hn, if_false, xAt, setX, evalMM, hf, tryAB2, List.getElem?_cons_zero, List.length_cons, List.length_nil,
      show 1 < 0 + 1 + 1 from by omega, if_true, List.set_cons_succ, List.set_cons_zero]
    rcases f y t with e | ⟨M, b⟩
    · exact ⟨[], by simp, ⟨rfl, rfl, rfl⟩, by simp, by simp⟩
    · simp only [observeMM, Prog.bind_run, Prog.get_run, Prog.modify_run, Prog.ofExcept]
      rcases ho : obs ⟨n, 0, t, b⟩ with e | u
      · exact ⟨_, rfl, ⟨rfl, rfl, rfl⟩, by simp, by simp⟩
      · simp only [solveInto, List.getElem?_cons_zero, hg]
        rcases hk : g M b with e | v
        · exact ⟨_, rfl, ⟨rfl, rfl, rfl⟩, by simp, by simp [hk, ho]⟩
        · refine ⟨_, rfl, ⟨rfl, rfl, ?_⟩, fun _ => ⟨(M, b), v, rfl, hk, rfl⟩, by simp [Prog.bind_run, xAt, Model.ExplicitMM.setY]⟩
          simp only [List.set_cons_zero, List.getElem?_cons_zero, List.getElem?_cons_succ, Model.ExplicitMM.setY, Prog.modify_run, Res.state_ok, one_smul]
          module

end MM

/-! ### Concrete cases -/

/-- `y' = y`, evaluated only for `y ≤ 4`; beyond that an exception after having written 99 into the output -/
def guarded : System Rat Rat := ⟨fun y _ _ => if y ≤ 4 then .ok () y else .stop (.exc (.other 7)) 99⟩

theorem guarded_tries : Tries guarded (fun y _ => if y ≤ 4 then .ok y else .error (.other 7)) := by
  refine ⟨fun _ _ _ => 99, fun y t b => ?_⟩
  by_cases h : y ≤ 4 <;> simp [guarded, h]

/-- RungeKutta4 from 2 with step 2: the stages see 2, 4, 6, so the third evaluation throws -/
example : doStep guarded .RungeKutta4 dummyObserver 0 2 1 ⟨2, [0, 0, 0, 0], 0, []⟩ = .stop (.exc (.other 7)) ⟨2, [2, 4, 99, 0], 6, [⟨1, 0, 0, 2⟩, ⟨1, 1, 1, 4⟩]⟩ := by decide +kernel

/-- the same with mass matrix 1 and a solver that refuses right-hand sides above 3, after having written 5 into the solution -/
def guardedMM : Model.ExplicitMM.MMSystem Rat Rat Rat := ⟨fun y _ _ => if y ≤ 4 then .ok () (1, y) else .stop (.exc (.other 7)) (0, 99)⟩
def guardedSolve : Model.ExplicitMM.LinSolve Rat Rat := fun _ p => if p.2 ≤ 3 then .ok () (p.2, p.2) else .stop (.exc (.other 8)) (5, p.2)

theorem guardedMM_tries : TriesMM guardedMM (fun y _ => if y ≤ 4 then .ok (1, y) else .error (.other 7)) ∧ TriesSolve guardedSolve (fun _ b => if b ≤ 3 then .ok b else .error (.other 8)) := by
  refine ⟨⟨fun _ _ _ => (0, 99), fun y t b => ?_⟩, ⟨fun _ p => (5, p.2), fun M x b => ?_⟩⟩
  · by_cases h : y ≤ 4 <;> simp [guardedMM, h]
  · by_cases h : b ≤ 3 <;> simp [guardedSolve, h]

/-- the second stage of a RungeKutta4 step fails in the solver: both evaluations have been observed -/
example : Model.ExplicitMM.doStep guardedMM guardedSolve .RungeKutta4 dummyObserver 0 2 1 ⟨2, 0, [0, 0, 0, 0, 0], 0, []⟩ =
    .stop (.exc (.other 8)) ⟨2, 4, [2, 5, 0, 0, 4], 1, [⟨1, 0, 0, 2⟩, ⟨1, 1, 1, 4⟩]⟩ := by decide +kernel

/-- **C77, a linear solver that throws** after having written into the solution changes what a repeated AdamsBashforth2 step with mass matrix gives: `2 + 3/2*2 - 1/2*1 = 9/2` without the failure, `2 + 3/2*2 - 1/2*5 = 5/2` after it. -/
theorem C77_solver_retry_refuted :
    (Model.ExplicitMM.doStep guardedMM guardedSolve .AdamsBashforth2 dummyObserver 1 1 2 ⟨2, 0, [1, 0], 0, []⟩).state.y = 9/2 ∧
    (Model.ExplicitMM.doStep guardedMM (fun _ p => .stop (.exc (.other 8)) (5, p.2)) .AdamsBashforth2 dummyObserver 1 1 2 ⟨2, 0, [1, 0], 0, []⟩).stop? = some (.exc (.other 8)) ∧
    (Model.ExplicitMM.doStep guardedMM guardedSolve .AdamsBashforth2 dummyObserver 1 1 2
      (Model.ExplicitMM.doStep guardedMM (fun _ p => .stop (.exc (.other 8)) (5, p.2)) .AdamsBashforth2 dummyObserver 1 1 2 ⟨2, 0, [1, 0], 0, []⟩).state).state.y = 5/2 := by decide +kernel
/-- C77 for the failing steps shown above -/
example := C77_one_step_schemes guarded _ guarded_tries dummyObserver .RungeKutta4 _ rfl 0 2 1 ⟨2, [0, 0, 0, 0], 0, []⟩ rfl
example := C77_adams_bashforth guarded _ guarded_tries dummyObserver 0 2 2 3 1 0 0 []
example := C77_observer_retry_refuted growth _ (fun _ _ _ => rfl) (fun e => if e.step = 2 then .error (.other 3) else .ok ()) 1 (1/2) 2 (by decide) 3 1 0 0 []
  (.other 3) rfl
example := C77_clean_failure_retry (K := ℚ) ⟨fun _ _ b => .stop (.exc (.other 4)) b⟩ growth _ (fun _ _ _ => rfl) dummyObserver 1 (1/2) 1 (1/4) 2 (by decide) 3 1 0 0 []
  (.other 4) rfl
example := C77_mass_matrix_one_step_schemes guardedMM _ guardedMM_tries.1 guardedSolve _ guardedMM_tries.2 dummyObserver .RungeKutta4 _ rfl 0 2 1
  ⟨2, 0, [0, 0, 0, 0, 0], 0, []⟩ rfl

end Pressio.Props
