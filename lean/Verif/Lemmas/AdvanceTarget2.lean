import Verif.Lemmas.AdvanceTarget
import Mathlib.Algebra.Order.Archimedean.Basic
import Mathlib.Algebra.Order.AbsoluteValue.Basic
import Mathlib.Tactic.Positivity

namespace Pressio.Lemmas.AdvanceTarget
set_option autoImplicit false
open Pressio Pressio.Model.Advance Pressio.Spec.AdvanceTarget

variable {W T Y : Type} [Field T] [LinearOrder T]

/-! ### the minimum step size is respected, whatever the outcome -/

theorem minRespected_steps {cur : Option T} {mn : T} (hc : cur = some mn) (step : Int) (time : T) :
    ∀ (l : List (T × Y)) (rest : List (Ev T Y)), (∀ p ∈ l, mn ≤ p.1) → MinRespected cur rest →
    MinRespected cur (l.map (fun p => Ev.step step time p.1 p.2) ++ rest)
  | [], rest, _, h => h
  | p :: l, rest, hl, h => by
    refine ⟨⟨mn, hc, hl p (by simp)⟩, ?_⟩
    exact minRespected_steps hc step time l rest (fun q hq => hl q (by simp [hq])) h

theorem recoverLoop_log (c : Calls W T Y) (time : T) (step : Int) (minDt factor : T) (fuel : Nat) :
    ∀ (dt : T) (s : St W T Y), minDt ≤ dt →
    ∃ l : List (T × Y), (∀ p ∈ l, minDt ≤ p.1) ∧
      (recoverLoop c time step minDt factor fuel dt s).state.log
        = s.log ++ l.map (fun p => Ev.step step time p.1 p.2) := by
  induction fuel with
  | zero => intro dt s _; exact ⟨[], by simp, by simp [recoverLoop]⟩
  | succ fuel ih =>
    intro dt s hdt
    rw [recoverLoop]
    simp only [Prog.bind_run, Prog.catchE, callStep, emit, onYW]
    rcases hs : c.stepper time step dt (s.y, s.w) with ⟨⟨⟩, y1, w1⟩ | ⟨hstop, y1, w1⟩
    · exact ⟨[(dt, s.y)], by simpa using hdt, by simp⟩
    · rcases hstop with e | u | _
      · by_cases he : e = Exc.timeStepFailure
        · simp only [he, if_true, Prog.pure_run, Bool.false_eq_true, if_false]
          by_cases hm : dt / factor < minDt
          · simp only [hm, if_true, Prog.throwE_run]
            exact ⟨[(dt, s.y)], by simpa using hdt, by simp⟩
          · simp only [hm, if_false]
            obtain ⟨l, h1, h2⟩ := ih (dt / factor) ⟨w1, y1, s.log ++ [.step step time dt s.y]⟩ (not_lt.1 hm)
            refine ⟨(dt, s.y) :: l, ?_, ?_⟩
            · intro p hp
              rcases List.mem_cons.1 hp with rfl | hp
              · exact hdt
              · exact h1 p hp
            · rw [h2]; simp
        · simp only [he, if_false]
          exact ⟨[(dt, s.y)], by simpa using hdt, by simp⟩
      · exact ⟨[(dt, s.y)], by simpa using hdt, by simp⟩
      · exact ⟨[(dt, s.y)], by simpa using hdt, by simp⟩

theorem attempt_log (recovery : Bool) (c : Calls W T Y) (time : T) (step : Int) (v : DtVars T) (fuel : Nat)
    (s : St W T Y) (hdt : v.minDt ≤ v.dt) :
    ∃ l : List (T × Y), (∀ p ∈ l, v.minDt ≤ p.1) ∧
      (attempt recovery c time step v fuel s).state.log = s.log ++ l.map (fun p => Ev.step step time p.1 p.2) := by
  cases recovery with
  | true => exact recoverLoop_log c time step _ _ _ _ s hdt
  | false =>
    simp only [attempt, Bool.false_eq_true, if_false, Prog.bind_run, callStep, emit, onYW]
    rcases hs : c.stepper time step v.dt (s.y, s.w) with ⟨⟨⟩, y1, w1⟩ | ⟨hstop, y1, w1⟩
    · exact ⟨[(v.dt, s.y)], by simpa using hdt, by simp⟩
    · exact ⟨[(v.dt, s.y)], by simpa using hdt, by simp⟩

theorem callDtPolicy_log (recovery : Bool) (c : Calls W T Y) (step : Int) (time : T) (v : DtVars T) (s : St W T Y) :
    (callDtPolicy recovery c step time v s).state.log = s.log ∧ (callDtPolicy recovery c step time v s).state.y = s.y := by
  cases recovery with
  | true =>
    simp only [callDtPolicy, if_true, onW]
    rcases c.dtPolicy5 step time v s.w with ⟨d, w1⟩ | ⟨hh, w1⟩ <;> simp
  | false =>
    simp only [callDtPolicy, Bool.false_eq_true, if_false, Prog.bind_run, onW]
    rcases c.dtPolicy3 step time v.dt s.w with ⟨d, w1⟩ | ⟨hh, w1⟩ <;> simp

theorem tLoop_minRespected (recovery : Bool) (eps final : T) (c : Calls W T Y) (fuel : Nat) :
    ∀ (first : Int) (time : T) (v : DtVars T) (s : St W T Y),
    ∃ evs, (tLoop recovery eps final c fuel first time v s).state.log = s.log ++ evs ∧
      ∀ cur, MinRespected cur evs := by
  induction fuel with
  | zero => intro first time v s; exact ⟨[], by simp [tLoop], fun _ => trivial⟩
  | succ fuel ih =>
    intro first time v s
    rw [tLoop]
    simp only [Prog.bind_run]
    have hpl := callDtPolicy_log recovery c first time v s
    rcases hpol : callDtPolicy recovery c first time v s with ⟨v1, s1⟩ | ⟨hh, s1⟩
    swap
    · rw [hpol] at hpl
      exact ⟨[], by simpa using hpl.1, fun _ => trivial⟩
    rw [hpol] at hpl
    simp only [Res.state_ok] at hpl
    simp only [emit]
    by_cases hmin : v1.dt < v1.minDt
    · rw [if_pos hmin]
      exact ⟨[.setVars first time v1], by simp [hpl.1], fun _ => trivial⟩
    rw [if_neg hmin]
    by_cases hfac : recovery = true ∧ v1.factor ≤ 1
    · rw [if_pos hfac]
      exact ⟨[.setVars first time v1], by simp [hpl.1], fun _ => trivial⟩
    rw [if_neg hfac]
    simp only [Prog.bind_run]
    obtain ⟨l, hl1, hl2⟩ := attempt_log recovery c time first v1 (fuel+1)
      ⟨s1.w, s1.y, s1.log ++ [.setVars first time v1]⟩ (not_lt.1 hmin)
    rcases hat : attempt recovery c time first v1 (fuel+1) ⟨s1.w, s1.y, s1.log ++ [.setVars first time v1]⟩ with
      ⟨d, s2⟩ | ⟨hh, s2⟩
    all_goals simp only [hat]
    swap
    · rw [hat] at hl2
      refine ⟨.setVars first time v1 :: (l.map (fun p => Ev.step first time p.1 p.2) ++ []), ?_, ?_⟩
      · simp only [Res.state_stop] at hl2 ⊢
        rw [hl2, hpl.1]; simp
      · intro cur
        exact minRespected_steps rfl first time l [] hl1 trivial
    rw [hat] at hl2
    simp only [Res.state_ok] at hl2
    simp only [callObs, Prog.bind_run, emit, onW]
    have key : ∀ rest, (∀ cur, MinRespected cur rest) → ∀ cur, MinRespected cur
        (.setVars first time v1 :: (l.map (fun p => Ev.step first time p.1 p.2) ++
          (Ev.obs first (time + d) s2.y :: rest))) := by
      intro rest hrest cur
      exact minRespected_steps rfl first time l _ hl1 (hrest _)
    rcases ho : c.observer first (time + d) s2.y s2.w with ⟨⟨⟩, w3⟩ | ⟨hh, w3⟩
    swap
    · exact ⟨_, by simp [hl2, hpl.1], key [] (fun _ => trivial)⟩
    simp only
    by_cases hmax : first = int32Max
    · rw [if_pos hmax]
      exact ⟨_, by simp [hl2, hpl.1], key [] (fun _ => trivial)⟩
    rw [if_neg hmax]
    split
    · exact ⟨_, by simp [hl2, hpl.1], key [] (fun _ => trivial)⟩
    · obtain ⟨evs, h1, h2⟩ := ih (first+1) (time + d) { v1 with dt := d } ⟨w3, s2.y, s2.log ++ [.obs first (time + d) s2.y]⟩
      exact ⟨_, by rw [h1]; simp [hl2, hpl.1], key evs h2⟩

/-! ### termination -/

/-- number of stepper calls in a log -/
def countSteps (l : List (Ev T Y)) : Nat := (l.filter (fun e => match e with | .step .. => true | _ => false)).length

variable [IsStrictOrderedRing T]

theorem tLoop_terminates (eps final δ : T) (c : Calls W T Y) (hδ : 0 < δ) (heps : 0 ≤ eps)
    (hp : ∀ n t d w, ∃ d' w', c.dtPolicy3 n t d w = .ok d' w' ∧ δ ≤ d')
    (hs : ∀ t n d x, (c.stepper t n d x).isOk = true) (ho : ∀ n t y w, (c.observer n t y w).isOk = true) (K : Nat) :
    ∀ (fuel : Nat) (first : Int) (time : T) (v : DtVars T) (s : St W T Y),
      v.minDt = 0 → K + 1 ≤ fuel → first + (K + 1 : Nat) ≤ int32Max → final - time ≤ (K + 1 : Nat) * δ →
      (tLoop false eps final c fuel first time v s).isOk = true ∧
      countSteps (tLoop false eps final c fuel first time v s).state.log ≤ countSteps s.log + (K + 1) := by
  induction K with
  | zero =>
    intro fuel first time v s hv hf hover hrem
    obtain ⟨fuel, rfl⟩ : ∃ f, fuel = f + 1 := ⟨fuel - 1, by omega⟩
    rw [tLoop]
    simp only [Prog.bind_run, callDtPolicy, Bool.false_eq_true, if_false, onW]
    obtain ⟨d', w', h1, h2⟩ := hp first time v.dt s.w
    rw [h1]
    simp only [emit, Prog.pure_run]
    rw [if_neg (by rw [hv]; exact not_lt.2 (le_trans hδ.le h2))]
    simp only [false_and, if_false, attempt, Bool.false_eq_true, Prog.bind_run, callStep, emit, onYW]
    rcases es : c.stepper time first d' (s.y, w') with ⟨⟨⟩, y1, w1⟩ | ⟨h, y1, w1⟩
    swap
    · have := hs time first d' (s.y, w'); rw [es] at this; simp at this
    simp only [callObs, Prog.bind_run, emit, onW, Prog.pure_run]
    rcases eo : c.observer first (time + d') y1 w1 with ⟨⟨⟩, w2⟩ | ⟨h, w2⟩
    swap
    · have := ho first (time + d') y1 w1; rw [eo] at this; simp at this
    simp only
    rw [if_neg (by omega)]
    have hreach : (decide (|time + d' - final| ≤ eps) || decide (time + d' > final)) = true := by
      simp only [Bool.or_eq_true, decide_eq_true_eq]
      have hge : final ≤ time + d' := by
        have : final - time ≤ δ := by simpa using hrem
        linarith
      rcases eq_or_lt_of_le hge with he | hl
      · left; rw [he]; simpa using heps
      · right; exact hl
    rw [if_pos hreach]
    simp [countSteps]
  | succ K ih =>
    intro fuel first time v s hv hf hover hrem
    obtain ⟨fuel, rfl⟩ : ∃ f, fuel = f + 1 := ⟨fuel - 1, by omega⟩
    rw [tLoop]
    simp only [Prog.bind_run, callDtPolicy, Bool.false_eq_true, if_false, onW]
    obtain ⟨d', w', h1, h2⟩ := hp first time v.dt s.w
    rw [h1]
    simp only [emit, Prog.pure_run]
    rw [if_neg (by rw [hv]; exact not_lt.2 (le_trans hδ.le h2))]
    simp only [false_and, if_false, attempt, Bool.false_eq_true, Prog.bind_run, callStep, emit, onYW]
    rcases es : c.stepper time first d' (s.y, w') with ⟨⟨⟩, y1, w1⟩ | ⟨h, y1, w1⟩
    swap
    · have := hs time first d' (s.y, w'); rw [es] at this; simp at this
    simp only [callObs, Prog.bind_run, emit, onW, Prog.pure_run]
    rcases eo : c.observer first (time + d') y1 w1 with ⟨⟨⟩, w2⟩ | ⟨h, w2⟩
    swap
    · have := ho first (time + d') y1 w1; rw [eo] at this; simp at this
    simp only
    rw [if_neg (by push_cast at hover; omega)]
    split
    · simp [countSteps]
    · have := ih fuel (first+1) (time + d') { v with dt := d' }
        ⟨w2, y1, s.log ++ [Ev.setVars first time { v with dt := d' }] ++ [Ev.step first time d' s.y] ++ [Ev.obs first (time + d') y1]⟩
        hv (by omega) (by push_cast at hover ⊢; omega) (by push_cast at hrem ⊢; linarith)
      refine ⟨this.1, le_trans this.2 ?_⟩
      simp [countSteps]
      omega

theorem tLoop_zero_dt (eps final : T) (c : Calls W T Y)
    (hp : ∀ n t d w, ∃ w', c.dtPolicy3 n t d w = .ok 0 w')
    (hs : ∀ t n d x, (c.stepper t n d x).isOk = true) (ho : ∀ n t y w, (c.observer n t y w).isOk = true) (fuel : Nat) :
    ∀ (first : Int) (time : T) (v : DtVars T) (s : St W T Y), v.minDt = 0 → time + eps < final → time ≤ final →
      first + fuel ≤ int32Max →
      (tLoop false eps final c fuel first time v s).stop? = some .fuel := by
  induction fuel with
  | zero => intro first time v s _ _ _ _; simp [tLoop]
  | succ fuel ih =>
    intro first time v s hv hlt hle hover
    rw [tLoop]
    simp only [Prog.bind_run, callDtPolicy, Bool.false_eq_true, if_false, onW]
    obtain ⟨w', h1⟩ := hp first time v.dt s.w
    rw [h1]
    simp only [emit, Prog.pure_run]
    rw [if_neg (by simp [hv])]
    simp only [false_and, if_false, attempt, Bool.false_eq_true, Prog.bind_run, callStep, emit, onYW]
    rcases es : c.stepper time first 0 (s.y, w') with ⟨⟨⟩, y1, w1⟩ | ⟨h, y1, w1⟩
    swap
    · have := hs time first 0 (s.y, w'); rw [es] at this; simp at this
    simp only [callObs, Prog.bind_run, emit, onW, Prog.pure_run, add_zero]
    rcases eo : c.observer first time y1 w1 with ⟨⟨⟩, w2⟩ | ⟨h, w2⟩
    swap
    · have := ho first time y1 w1; rw [eo] at this; simp at this
    simp only
    rw [if_neg (by push_cast at hover; omega)]
    have hnr : ¬ ((decide (|time - final| ≤ eps) || decide (time > final)) = true) := by
      simp only [Bool.or_eq_true, decide_eq_true_eq, not_or, not_le, not_lt]
      refine ⟨?_, hle⟩
      rw [abs_sub_comm, abs_of_nonneg (by linarith)]
      linarith
    rw [if_neg hnr]
    exact ih (first+1) time { v with dt := 0 } _ hv hlt hle (by push_cast at hover ⊢; omega)

/-- at the overflow: the counter runs out of its range before a stalled run ends -/
theorem tLoop_zero_dt_overflow (eps final : T) (c : Calls W T Y)
    (hp : ∀ n t d w, ∃ w', c.dtPolicy3 n t d w = .ok 0 w')
    (hs : ∀ t n d x, (c.stepper t n d x).isOk = true) (ho : ∀ n t y w, (c.observer n t y w).isOk = true) (k : Nat) :
    ∀ (fuel : Nat) (first : Int) (time : T) (v : DtVars T) (s : St W T Y), v.minDt = 0 → time + eps < final → time ≤ final →
      first + k = int32Max → k + 1 ≤ fuel →
      (tLoop false eps final c fuel first time v s).stop? = some (.ub "signed overflow of step counter") := by
  induction k with
  | zero =>
    intro fuel first time v s hv hlt hle hover hf
    obtain ⟨fuel, rfl⟩ : ∃ f, fuel = f + 1 := ⟨fuel - 1, by omega⟩
    rw [tLoop]
    simp only [Prog.bind_run, callDtPolicy, Bool.false_eq_true, if_false, onW]
    obtain ⟨w', h1⟩ := hp first time v.dt s.w
    rw [h1]
    simp only [emit, Prog.pure_run]
    rw [if_neg (by simp [hv])]
    simp only [false_and, if_false, attempt, Bool.false_eq_true, Prog.bind_run, callStep, emit, onYW]
    rcases es : c.stepper time first 0 (s.y, w') with ⟨⟨⟩, y1, w1⟩ | ⟨h, y1, w1⟩
    swap
    · have := hs time first 0 (s.y, w'); rw [es] at this; simp at this
    simp only [callObs, Prog.bind_run, emit, onW, Prog.pure_run, add_zero]
    rcases eo : c.observer first time y1 w1 with ⟨⟨⟩, w2⟩ | ⟨h, w2⟩
    swap
    · have := ho first time y1 w1; rw [eo] at this; simp at this
    simp only
    rw [if_pos (by simpa using hover)]
    simp
  | succ k ih =>
    intro fuel first time v s hv hlt hle hover hf
    obtain ⟨fuel, rfl⟩ : ∃ f, fuel = f + 1 := ⟨fuel - 1, by omega⟩
    rw [tLoop]
    simp only [Prog.bind_run, callDtPolicy, Bool.false_eq_true, if_false, onW]
    obtain ⟨w', h1⟩ := hp first time v.dt s.w
    rw [h1]
    simp only [emit, Prog.pure_run]
    rw [if_neg (by simp [hv])]
    simp only [false_and, if_false, attempt, Bool.false_eq_true, Prog.bind_run, callStep, emit, onYW]
    rcases es : c.stepper time first 0 (s.y, w') with ⟨⟨⟩, y1, w1⟩ | ⟨h, y1, w1⟩
    swap
    · have := hs time first 0 (s.y, w'); rw [es] at this; simp at this
    simp only [callObs, Prog.bind_run, emit, onW, Prog.pure_run, add_zero]
    rcases eo : c.observer first time y1 w1 with ⟨⟨⟩, w2⟩ | ⟨h, w2⟩
    swap
    · have := ho first time y1 w1; rw [eo] at this; simp at this
    simp only
    rw [if_neg (by push_cast at hover; omega)]
    have hnr : ¬ ((decide (|time - final| ≤ eps) || decide (time > final)) = true) := by
      simp only [Bool.or_eq_true, decide_eq_true_eq, not_or, not_le, not_lt]
      refine ⟨?_, hle⟩
      rw [abs_sub_comm, abs_of_nonneg (by linarith)]
      linarith
    rw [if_neg hnr]
    exact ih fuel (first+1) time { v with dt := 0 } _ hv hlt hle (by push_cast at hover ⊢; omega) (by omega)

/-! ### the recovery loop -/

omit [IsStrictOrderedRing T] in
/-- with a positive minimum the recovery loop stops after finitely many attempts, and more fuel changes nothing -/
theorem recoverLoop_terminates (c : Calls W T Y) (time : T) (step : Int) (minDt factor : T)
    (hs : ∀ t n d x, (c.stepper t n d x).stop? ≠ some .fuel) (K : Nat) :
    ∀ (dt : T) (s : St W T Y), dt / factor ^ (K+1) < minDt →
    ∃ r : Res (St W T Y) T, r.stop? ≠ some .fuel ∧ countSteps r.state.log ≤ countSteps s.log + (K + 1) ∧
      ∀ fuel, K + 1 ≤ fuel → recoverLoop c time step minDt factor fuel dt s = r := by
  have step1 : ∀ (dt : T) (s : St W T Y) (fuel : Nat),
      (∃ r : Res (St W T Y) T, r.stop? ≠ some .fuel ∧ countSteps r.state.log ≤ countSteps s.log + 1 ∧
        ∀ fuel, recoverLoop c time step minDt factor (fuel+1) dt s = r) ∨
      (∃ s1 : St W T Y, countSteps s1.log = countSteps s.log + 1 ∧ ¬ dt / factor < minDt ∧
        ∀ fuel, recoverLoop c time step minDt factor (fuel+1) dt s
          = recoverLoop c time step minDt factor fuel (dt / factor) s1) := by
    intro dt s fuel
    have hne := hs time step dt (s.y, s.w)
    rcases hst : c.stepper time step dt (s.y, s.w) with ⟨⟨⟩, y1, w1⟩ | ⟨hstop, y1, w1⟩
    · left
      refine ⟨.ok dt ⟨w1, y1, s.log ++ [.step step time dt s.y]⟩, by simp, by simp [countSteps], ?_⟩
      intro fuel
      rw [recoverLoop]
      simp [Prog.bind_run, Prog.catchE, callStep, emit, onYW, hst]
    · rw [hst] at hne
      by_cases he : hstop = .exc .timeStepFailure
      · subst he
        by_cases hm : dt / factor < minDt
        · left
          refine ⟨.stop (.exc (.runtimeError "violation of minimum time step while recovering"))
            ⟨w1, y1, s.log ++ [.step step time dt s.y]⟩, by simp, by simp [countSteps], ?_⟩
          intro fuel
          rw [recoverLoop]
          simp [Prog.bind_run, Prog.catchE, callStep, emit, onYW, hst, hm]
        · right
          refine ⟨⟨w1, y1, s.log ++ [.step step time dt s.y]⟩, by simp [countSteps], hm, ?_⟩
          intro fuel
          rw [recoverLoop]
          simp [Prog.bind_run, Prog.catchE, callStep, emit, onYW, hst, hm]
      · left
        refine ⟨.stop hstop ⟨w1, y1, s.log ++ [.step step time dt s.y]⟩, hne, by simp [countSteps], ?_⟩
        intro fuel
        rw [recoverLoop]
        simp only [Prog.bind_run, Prog.catchE, callStep, emit, onYW, hst]
        rcases hstop with e | u | _
        · have : e ≠ .timeStepFailure := fun h => he (by rw [h])
          simp [this]
        · simp
        · simp
  induction K with
  | zero =>
    intro dt s hK
    rcases step1 dt s 0 with ⟨r, h1, h2, h3⟩ | ⟨s1, h1, h2, h3⟩
    · refine ⟨r, h1, h2, ?_⟩
      intro fuel hf
      obtain ⟨fuel, rfl⟩ : ∃ f, fuel = f + 1 := ⟨fuel - 1, by omega⟩
      exact h3 fuel
    · exact absurd (by simpa using hK) h2
  | succ K ih =>
    intro dt s hK
    rcases step1 dt s 0 with ⟨r, h1, h2, h3⟩ | ⟨s1, h1, h2, h3⟩
    · refine ⟨r, h1, by omega, ?_⟩
      intro fuel hf
      obtain ⟨fuel, rfl⟩ : ∃ f, fuel = f + 1 := ⟨fuel - 1, by omega⟩
      exact h3 fuel
    · obtain ⟨r, g1, g2, g3⟩ := ih (dt / factor) s1 (by rw [div_div, ← pow_succ']; exact hK)
      refine ⟨r, g1, by omega, ?_⟩
      intro fuel hf
      obtain ⟨fuel, rfl⟩ : ∃ f, fuel = f + 1 := ⟨fuel - 1, by omega⟩
      rw [h3, g3 fuel (by omega)]

/-- a step that always fails is retried for ever when the minimum is 0 -/
theorem recoverLoop_diverges (c : Calls W T Y) (time : T) (step : Int) (factor : T) (hf : 0 < factor)
    (hs : ∀ t n d x, ∃ x', c.stepper t n d x = .stop (.exc .timeStepFailure) x') (fuel : Nat) :
    ∀ (dt : T) (s : St W T Y), 0 ≤ dt → (recoverLoop c time step 0 factor fuel dt s).stop? = some .fuel := by
  induction fuel with
  | zero => intro dt s _; simp [recoverLoop]
  | succ fuel ih =>
    intro dt s hdt
    obtain ⟨⟨y1, w1⟩, hst⟩ := hs time step dt (s.y, s.w)
    rw [recoverLoop]
    have hnn : ¬ dt / factor < 0 := not_lt.2 (div_nonneg hdt hf.le)
    simp only [Prog.bind_run, Prog.catchE, callStep, emit, onYW, hst]
    simp only [if_true, Prog.pure_run, Bool.false_eq_true, if_false, hnn]
    exact ih _ _ (div_nonneg hdt hf.le)

theorem exists_small [Archimedean T] {dt factor minDt : T} (hf : 1 < factor) (hm : 0 < minDt) :
    ∃ K : Nat, dt / factor ^ (K+1) < minDt := by
  obtain ⟨n, hn⟩ := pow_unbounded_of_one_lt (dt / minDt) hf
  refine ⟨n, ?_⟩
  have hpos : (0:T) < factor ^ (n+1) := by positivity
  rw [div_lt_iff₀ hpos]
  rw [div_lt_iff₀ hm] at hn
  have : factor ^ n ≤ factor ^ (n+1) := pow_le_pow_right₀ hf.le (by omega)
  nlinarith

/-- the recovering advancer terminates when the policy keeps the minimum size above a positive bound -/
theorem tLoop_recovery_terminates [Archimedean T] (eps final μ : T) (c : Calls W T Y) (hμ : 0 < μ) (heps : 0 ≤ eps)
    (hp : ∀ n t v w, (c.dtPolicy5 n t v w).stop? ≠ some .fuel)
    (hpm : ∀ n t v w v' w', c.dtPolicy5 n t v w = .ok v' w' → μ ≤ v'.minDt)
    (hs : ∀ t n d x, (c.stepper t n d x).stop? ≠ some .fuel)
    (ho : ∀ n t y w, (c.observer n t y w).stop? ≠ some .fuel) (K : Nat) :
    ∀ (first : Int) (time : T) (v : DtVars T) (s : St W T Y), final - time ≤ (K + 1 : Nat) * μ →
    ∃ (r : Res (St W T Y) T) (F : Nat), r.stop? ≠ some .fuel ∧
      ∀ fuel, F ≤ fuel → tLoop true eps final c fuel first time v s = r := by
  -- one iteration, for large fuel
  have iter : ∀ (first : Int) (time : T) (v : DtVars T) (s : St W T Y),
      (∃ (r : Res (St W T Y) T) (F : Nat), r.stop? ≠ some .fuel ∧
        ∀ fuel, F ≤ fuel → tLoop true eps final c (fuel+1) first time v s = r) ∨
      (∃ (d : T) (v' : DtVars T) (s' : St W T Y) (F : Nat), μ ≤ d ∧ ¬ Reached eps final (time + d) ∧
        ∀ fuel, F ≤ fuel → tLoop true eps final c (fuel+1) first time v s
          = tLoop true eps final c fuel (first+1) (time + d) v' s') := by
    intro first time v s
    have hne := hp first time v s.w
    rcases hpol : c.dtPolicy5 first time v s.w with ⟨v1, w1⟩ | ⟨hh, w1⟩
    swap
    · left
      refine ⟨.stop hh ⟨w1, s.y, s.log⟩, 0, by rw [hpol] at hne; simpa using hne, ?_⟩
      intro fuel _
      rw [tLoop]
      simp [Prog.bind_run, callDtPolicy, onW, hpol]
    have hmn := hpm _ _ _ _ _ _ hpol
    by_cases hmin : v1.dt < v1.minDt
    · left
      refine ⟨.stop (.exc (.runtimeError "time step size smaller than the minimum value"))
        ⟨w1, s.y, s.log ++ [.setVars first time v1]⟩, 0, by simp, ?_⟩
      intro fuel _
      rw [tLoop]
      simp [Prog.bind_run, callDtPolicy, onW, hpol, emit, hmin]
    by_cases hfac : v1.factor ≤ 1
    · left
      refine ⟨.stop (.exc (.runtimeError "time step size reduction factor must be > 1"))
        ⟨w1, s.y, s.log ++ [.setVars first time v1]⟩, 0, by simp, ?_⟩
      intro fuel _
      rw [tLoop]
      simp [Prog.bind_run, callDtPolicy, onW, hpol, emit, hmin, hfac]
    obtain ⟨K0, hK0⟩ := exists_small (dt := v1.dt) (factor := v1.factor) (minDt := v1.minDt) (not_le.1 hfac)
      (lt_of_lt_of_le hμ hmn)
    obtain ⟨r0, hr0, -, hr0'⟩ := recoverLoop_terminates c time first v1.minDt v1.factor hs K0 v1.dt
      ⟨w1, s.y, s.log ++ [.setVars first time v1]⟩ hK0
    have unfoldT : ∀ fuel, K0 ≤ fuel → tLoop true eps final c (fuel+1) first time v s =
        (match (generalizing := false) r0 with
        | .ok d s2 =>
          match callObs c first (time + d) s2 with
          | .ok _ s3 =>
            if first = int32Max then .stop (.ub "signed overflow of step counter") s3
            else if (decide (|time + d - final| ≤ eps) || decide (time + d > final)) = true then .ok (time + d) s3
            else tLoop true eps final c fuel (first+1) (time + d) { v1 with dt := d } s3
          | .stop h s3 => .stop h s3
        | .stop h s2 => .stop h s2) := by
      intro fuel hf
      rw [tLoop]
      simp only [Prog.bind_run, callDtPolicy, if_true, onW, hpol, emit]
      rw [if_neg hmin, if_neg (by simpa using hfac)]
      simp only [Prog.bind_run, attempt, if_true, hr0' (fuel+1) (by omega)]
      rcases r0 with ⟨d, s2⟩ | ⟨h, s2⟩
      · simp only
        rcases callObs c first (time + d) s2 with ⟨⟨⟩, s3⟩ | ⟨h, s3⟩
        · simp only
          by_cases hmax : first = int32Max
          · simp [hmax]
          · simp only [hmax, if_false]
            split <;> simp
        · rfl
      · rfl
    rcases hr : r0 with ⟨d, s2⟩ | ⟨h, s2⟩
    swap
    · left
      refine ⟨.stop h s2, K0, by rw [hr] at hr0; simpa using hr0, ?_⟩
      intro fuel hf
      rw [unfoldT fuel hf, hr]
    rcases hob : callObs c first (time + d) s2 with ⟨⟨⟩, s3⟩ | ⟨h, s3⟩
    swap
    · left
      have hhne : h ≠ .fuel := by
        intro hfu
        subst hfu
        have hn := ho first (time + d) s2.y s2.w
        simp only [callObs, Prog.bind_run, emit, onW] at hob
        rcases hc : c.observer first (time + d) s2.y s2.w with ⟨⟨⟩, w3⟩ | ⟨h', w3⟩
        · rw [hc] at hob; simp at hob
        · rw [hc] at hob hn
          simp at hob hn
          exact hn hob.1
      refine ⟨.stop h s3, K0, by simpa using hhne, ?_⟩
      intro fuel hf
      rw [unfoldT fuel hf, hr]
      simp only [hob]
    by_cases hmax : first = int32Max
    · left
      refine ⟨.stop (.ub "signed overflow of step counter") s3, K0, by simp, ?_⟩
      intro fuel hf
      rw [unfoldT fuel hf, hr]
      simp only [hob]
      rw [if_pos hmax]
    by_cases hst : Reached eps final (time + d)
    · left
      refine ⟨.ok (time + d) s3, K0, by simp, ?_⟩
      intro fuel hf
      rw [unfoldT fuel hf, hr]
      have : (decide (|time + d - final| ≤ eps) || decide (time + d > final)) = true := by
        simpa [Reached] using hst
      simp only [hob]
      rw [if_neg hmax, if_pos this]
    · right
      have hd : μ ≤ d := by
        have h1 := hr0' (K0+1) (le_refl _)
        rw [hr] at h1
        obtain ⟨m, -, -, -, -, -, hb, h5, -⟩ := recoverLoop_ok _ _ _ _ _ _ _ _ _ _ h1
        rw [h5]
        cases m with
        | zero => simpa using le_trans hmn (not_lt.1 hmin)
        | succ m => exact le_trans hmn (hb m (by omega))
      refine ⟨d, { v1 with dt := d }, s3, K0, hd, hst, ?_⟩
      intro fuel hf
      rw [unfoldT fuel hf, hr]
      have : ¬ ((decide (|time + d - final| ≤ eps) || decide (time + d > final)) = true) := by
        simpa [Reached] using hst
      simp only [hob]
      rw [if_neg hmax, if_neg this]
  induction K with
  | zero =>
    intro first time v s hrem
    rcases iter first time v s with ⟨r, F, h1, h2⟩ | ⟨d, v', s', F, h1, h2, h3⟩
    · refine ⟨r, F+1, h1, ?_⟩
      intro fuel hf
      obtain ⟨fuel, rfl⟩ : ∃ f, fuel = f + 1 := ⟨fuel - 1, by omega⟩
      exact h2 fuel (by omega)
    · exfalso
      apply h2
      have hge : final ≤ time + d := by
        have : final - time ≤ μ := by simpa using hrem
        linarith
      rcases eq_or_lt_of_le hge with he | hl
      · left; rw [he]; simpa using heps
      · right; exact hl
  | succ K ih =>
    intro first time v s hrem
    rcases iter first time v s with ⟨r, F, h1, h2⟩ | ⟨d, v', s', F, h1, h2, h3⟩
    · refine ⟨r, F+1, h1, ?_⟩
      intro fuel hf
      obtain ⟨fuel, rfl⟩ : ∃ f, fuel = f + 1 := ⟨fuel - 1, by omega⟩
      exact h2 fuel (by omega)
    · obtain ⟨r, F', g1, g2⟩ := ih (first+1) (time+d) v' s' (by push_cast at hrem ⊢; linarith)
      refine ⟨r, max F F' + 1, g1, ?_⟩
      intro fuel hf
      obtain ⟨fuel, rfl⟩ : ∃ f, fuel = f + 1 := ⟨fuel - 1, by omega⟩
      rw [h3 fuel (by omega), g2 fuel (by omega)]

end Pressio.Lemmas.AdvanceTarget
