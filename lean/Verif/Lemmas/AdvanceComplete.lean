import Verif.Lemmas.AdvanceDrive
import Verif.Lemmas.ImplicitRun
import Mathlib.Algebra.BigOperators.Group.List.Basic
import Mathlib.Tactic.Linarith
import Mathlib.Tactic.Ring

/-
  Advancers return when all attempts succeed; runs of stepper objects as attempts.
-/
namespace Pressio.Lemmas.AdvanceDrive
set_option autoImplicit false
open Pressio Pressio.Model.Advance Pressio.Spec.AdvanceTarget Pressio.Spec.AdvanceDrive

variable {K Y M U : Type}

section
variable [Field K] [LinearOrder K] [IsStrictOrderedRing K] (st : K → Int → K → Prog (Y × M) Unit) (pol3 : Int → K → K → Prog U K) (pol5 : Int → K → DtVars K → Prog U (DtVars K)) (obs : Int → K → Y → Prog U Unit)

theorem attempt_good (rec : Bool) (t : K) (i : Int) (v : DtVars K) (fuel : Nat) (y y' : Y) (m m' : M) (u : U) (log : List (Ev K Y)) (es : st t i v.dt (y, m) = .ok () (y', m')) :
    attempt rec (userObjects st pol3 pol5 obs) t i v (fuel + 1) ⟨(m, u), y, log⟩ = .ok v.dt ⟨(m', u), y', log ++ [.step i t v.dt y]⟩ := by
  cases rec with
  | true => simp only [attempt, if_true, recoverLoop, Prog.catchE, Prog.bind_run, callStep, emit, onYW, userObjects, es, Prog.pure_run]
  | false => simp only [attempt, Bool.false_eq_true, if_false, Prog.bind_run, callStep, emit, onYW, userObjects, es, Prog.pure_run]

theorem policy_good (rec : Bool) (ok : K → Prop) (hob : Obliging pol3 pol5 rec ok) (hok : ∀ d, ok d → 0 ≤ d) (i : Int) (t : K) (v : DtVars K) (hv : rec = false → v.minDt ≤ 0) (y : Y) (m : M) (u : U) (log : List (Ev K Y)) :
    ∃ v' u1, callDtPolicy rec (userObjects st pol3 pol5 obs) i t v ⟨(m, u), y, log⟩ = .ok v' ⟨(m, u1), y, log⟩ ∧ ok v'.dt ∧ ¬ v'.dt < v'.minDt ∧ ¬ (rec = true ∧ v'.factor ≤ 1) ∧ (rec = false → v'.minDt ≤ 0) := by
  cases rec with
  | true =>
    simp only [Obliging, if_true] at hob
    obtain ⟨v', u1, ep, h1, h2, h3⟩ := hob i t v u
    exact ⟨v', u1, by simp only [callDtPolicy, if_true, onW, userObjects, ep], h1, not_lt.2 h2, fun h => absurd h3 (not_lt.2 h.2), fun h => by cases h⟩
  | false =>
    simp only [Obliging, Bool.false_eq_true, if_false] at hob
    obtain ⟨d', u1, ep, h1⟩ := hob i t v.dt u
    exact ⟨{ v with dt := d' }, u1, by simp only [callDtPolicy, Bool.false_eq_true, if_false, Prog.bind_run, onW, userObjects, ep, Prog.pure_run], h1, not_lt.2 ((hv rfl).trans (hok _ h1)), fun h => Bool.false_ne_true h.1, hv⟩

/-- the loop of the advancers to a target time, when every attempt succeeds -/
theorem tLoop_good (rec : Bool) (eps final δ H : K) (heps : 0 ≤ eps) (hδ : 0 < δ) (hob : Obliging pol3 pol5 rec (fun d => δ ≤ d ∧ d ≤ H)) (hpat : Patient obs) :
    ∀ (k fuel : Nat) (i : Int) (t : K) (v : DtVars K) (y : Y) (m : M) (u : U) (log : List (Ev K Y)), k ≤ fuel → t < final → final - t ≤ k * δ → i + k ≤ int32Max → (rec = false → v.minDt ≤ 0) →
      (∀ dts, dts.length ≤ k → (∀ d ∈ dts, δ ≤ d ∧ d ≤ H) → t + dts.sum ≤ final + H → ∀ a ∈ attempts st dts ⟨t, i, y, m⟩, a.stop = none) →
      ∃ dts l s, tLoop rec eps final (userObjects st pol3 pol5 obs) fuel i t v ⟨(m, u), y, log⟩ = .ok (t + dts.sum) s ∧ s.log = log ++ l ∧ Part (attempts st dts ⟨t, i, y, m⟩) y rec l s.y none ∧
        (attempts st dts ⟨t, i, y, m⟩).length = dts.length ∧ dts.length ≤ k ∧ (∀ d ∈ dts, δ ≤ d ∧ d ≤ H) ∧ final - eps ≤ t + dts.sum ∧ t + dts.sum ≤ final + H := by
  intro k
  induction k with
  | zero =>
    intro fuel i t v y m u log _ ht hk
    simp at hk
    exact absurd ht (not_lt.2 hk)
  | succ k ih =>
    intro fuel i t v y m u log hf ht hk hi hv hgood
    obtain ⟨fuel, rfl⟩ : ∃ f, fuel = f + 1 := ⟨fuel - 1, by omega⟩
    obtain ⟨v', u1, hp, hd, hmn, hfac, hv'⟩ := policy_good st pol3 pol5 obs rec _ hob (fun d h => hδ.le.trans h.1) i t v hv y m u log
    have hsum : t + v'.dt ≤ final + H := add_le_add ht.le hd.2
    rcases es : st t i v'.dt (y, m) with ⟨_, y', m'⟩ | ⟨h, y', m'⟩
    swap
    · exfalso
      have := hgood [v'.dt] (by simp) (by simpa using hd) (by simpa using hsum) ⟨i, t, v'.dt, some h, y'⟩ (by simp only [attempts, attemptAt, es]; simp)
      simp at this
    have ha := attempt_good st pol3 pol5 obs rec t i v' fuel y y' m m' u1 (log ++ [.setVars i t v']) es
    have hone : attempts st [v'.dt] ⟨t, i, y, m⟩ = [⟨i, t, v'.dt, none, y'⟩] := by simp only [attempts, attemptAt, es]
    have hpos : posAfter st [v'.dt] ⟨t, i, y, m⟩ = some ⟨t + v'.dt, i + 1, y', m'⟩ := by simp only [posAfter, attemptAt, es, Option.bind_some]
    rcases eo : obs i (t + v'.dt) y' u1 with ⟨_, u2⟩ | ⟨h, u2⟩
    swap
    · have := hpat i (t + v'.dt) y' u1
      rw [eo] at this
      simp at this
    have hoc : callObs (userObjects st pol3 pol5 obs) i (t + v'.dt) ⟨(m', u1), y', log ++ [.setVars i t v'] ++ [.step i t v'.dt y]⟩ =
        .ok () ⟨(m', u2), y', log ++ [.setVars i t v'] ++ [.step i t v'.dt y] ++ [.obs i (t + v'.dt) y']⟩ := by
      simp only [callObs, Prog.bind_run, emit, onW, userObjects, eo]
    have hmax : i ≠ int32Max := by omega
    have hq : Part [⟨i, t, v'.dt, none, y'⟩] y rec ([.setVars i t v'] ++ ([.step i t v'.dt y] ++ [.obs i (t + v'.dt) y'])) y' none := (part_ok rec i t v'.dt y y' none).quiet _ rfl rfl
    by_cases hstop : (decide (|t + v'.dt - final| ≤ eps) || decide (t + v'.dt > final)) = true
    · have hr : tLoop rec eps final (userObjects st pol3 pol5 obs) (fuel + 1) i t v ⟨(m, u), y, log⟩ =
          .ok (t + v'.dt) ⟨(m', u2), y', log ++ [.setVars i t v'] ++ [.step i t v'.dt y] ++ [.obs i (t + v'.dt) y']⟩ := by
        simp only [tLoop, Prog.bind_run, hp, emit, if_neg hmn, if_neg hfac, ha, hoc, if_neg hmax, if_pos hstop, Prog.pure_run]
      refine ⟨[v'.dt], [.setVars i t v'] ++ ([.step i t v'.dt y] ++ [.obs i (t + v'.dt) y']), ⟨(m', u2), y', log ++ [.setVars i t v'] ++ [.step i t v'.dt y] ++ [.obs i (t + v'.dt) y']⟩, by rw [hr]; simp, by simp only [List.append_assoc], by rw [hone]; exact hq, by rw [hone]; rfl, by simp, by simpa using hd, ?_, by simpa using hsum⟩
      simp only [Bool.or_eq_true, decide_eq_true_eq] at hstop
      simp only [List.sum_cons, List.sum_nil, add_zero]
      rcases hstop with h | h
      · have := (abs_le.1 h).1
        linarith
      · linarith
    · have hr : tLoop rec eps final (userObjects st pol3 pol5 obs) (fuel + 1) i t v ⟨(m, u), y, log⟩ =
          tLoop rec eps final (userObjects st pol3 pol5 obs) fuel (i + 1) (t + v'.dt) { v' with dt := v'.dt } ⟨(m', u2), y', log ++ [.setVars i t v'] ++ [.step i t v'.dt y] ++ [.obs i (t + v'.dt) y']⟩ := by
        conv_lhs => simp only [tLoop, Prog.bind_run, hp, emit, if_neg hmn, if_neg hfac, ha, hoc, if_neg hmax, if_neg hstop]
      simp only [Bool.or_eq_true, decide_eq_true_eq, not_or, not_le, not_lt] at hstop
      have ht' : t + v'.dt < final := by
        rcases lt_or_eq_of_le hstop.2 with h | h
        · exact h
        · rw [h, sub_self, abs_zero] at hstop
          exact absurd hstop.1 (not_lt.2 heps)
      obtain ⟨dts, l, s, g1, g2, g3, g4, g5, g6, g7, g8⟩ := ih fuel (i + 1) (t + v'.dt) { v' with dt := v'.dt } y' m' u2 (log ++ [.setVars i t v'] ++ [.step i t v'.dt y] ++ [.obs i (t + v'.dt) y']) (by omega) ht'
        (by push_cast at hk; linarith [hd.1]) (by push_cast at hi; omega) hv' (by
          intro dts h0 h1 h2 a ha'
          refine hgood (v'.dt :: dts) (by simpa using h0) ?_ (by simpa [add_assoc] using h2) a ?_
          · intro d hd'
            rcases List.mem_cons.1 hd' with rfl | hd'
            · exact hd
            · exact h1 d hd'
          · have happ := attempts_append st [v'.dt] dts _ _ hpos
            simp only [List.singleton_append] at happ
            rw [happ]
            exact List.mem_append_right _ ha')
      have happ := attempts_append st [v'.dt] dts _ _ hpos
      simp only [List.singleton_append, hone] at happ
      refine ⟨v'.dt :: dts, ([.setVars i t v'] ++ ([.step i t v'.dt y] ++ [.obs i (t + v'.dt) y'])) ++ l, s, ?_, ?_, ?_, ?_, by simpa using g5, ?_, ?_, ?_⟩
      · rw [hr, g1]
        simp [add_assoc]
      · rw [g2]; simp only [List.append_assoc]
      · rw [happ]
        exact hq.append g3
      · rw [happ]
        simp [g4]
      · intro d hd'
        rcases List.mem_cons.1 hd' with rfl | hd'
        · exact hd
        · exact g6 d hd'
      · simpa [add_assoc] using g7
      · simpa [add_assoc] using g8

end

section
open Pressio.Model.Nonlinear (Env Cfg Reg Ans SP Tag)
open Pressio.Spec.Implicit Pressio.Spec.SolverRun
variable {m n p L S : Type}

/-- runs of a stepper object with one solver object are runs of attempts -/
theorem driveObj_attempts [Add K] (step : ((n → K) → SolveTree (n → K) (Ans K m n)) → K → K → Int → Prog (SolveSt (n → K) S (Ans K m n)) Unit) (solve : SP K m n p L Unit) (dts : List K) :
    ∀ (t : K) (hist : List (n → K)) (y : n → K) (mem : S) (reg : Reg K m n p L),
      (driveObj step solve dts t hist y mem reg).map toAtt = attempts (objStepper step solve) dts ⟨t, hist.length, y, (mem, reg)⟩ := by
  induction dts with
  | nil => intros; rfl
  | cons d rest ih =>
    intro t hist y mem reg
    rcases es : step (solverOf solve reg) t d hist.length ⟨y, mem, []⟩ with ⟨_, s⟩ | ⟨h, s⟩
    · simp only [driveObj, attempts, attemptAt, objStepper, es, List.map_cons, ih, toAtt, List.length_cons]
      rfl
    · by_cases hst : h = .exc .timeStepFailure
      · subst hst
        simp only [driveObj, attempts, attemptAt, objStepper, es, List.map_cons, ih, toAtt, if_true]
      · have h1 : driveObj step solve (d :: rest) t hist y mem reg = [⟨hist, t, d, s.log, some h, s.y⟩] := by
          match h, hst with
          | .exc e, hst => cases e <;> first | exact absurd rfl hst | simp only [driveObj, es]
          | .ub w, _ => simp only [driveObj, es]
          | .fuel, _ => simp only [driveObj, es]
        rw [h1]
        simp only [attempts, attemptAt, objStepper, es, List.map_cons, List.map_nil, toAtt, if_neg hst]

theorem driveObj_split [Add K] (step : ((n → K) → SolveTree (n → K) (Ans K m n)) → K → K → Int → Prog (SolveSt (n → K) S (Ans K m n)) Unit) (solve : SP K m n p L Unit) (dts : List K) :
    ∀ (t : K) (hist : List (n → K)) (y : n → K) (mem : S) (reg : Reg K m n p L) (pre post : List (Record K (n → K) (Ans K m n))) (r : Record K (n → K) (Ans K m n)),
      driveObj step solve dts t hist y mem reg = pre ++ r :: post → r.hist = ((pre.filter (fun r => r.stop.isNone)).map (·.y)).reverse ++ hist ∧ r.t = timeAfter t pre := by
  induction dts with
  | nil => intro t hist y mem reg pre post r h; simp [driveObj] at h
  | cons d rest ih =>
    intro t hist y mem reg pre post r h
    have hnil : ∀ (x : Record K (n → K) (Ans K m n)) l, x.hist = hist → x.t = t → x :: l = [] ++ r :: post →
        r.hist = ((([] : List (Record K (n → K) (Ans K m n))).filter (fun r => r.stop.isNone)).map (·.y)).reverse ++ hist ∧ r.t = timeAfter t ([] : List (Record K (n → K) (Ans K m n))) := by
      intro x l h1 h2 h3
      simp only [List.nil_append, List.cons.injEq] at h3
      rw [← h3.1, h1, h2]
      simp [timeAfter]
    rcases es : step (solverOf solve reg) t d hist.length ⟨y, mem, []⟩ with ⟨_, s⟩ | ⟨st, s⟩
    · simp only [driveObj, es] at h
      cases pre with
      | nil => exact hnil _ _ rfl rfl h
      | cons q pre =>
        simp only [List.cons_append, List.cons.injEq] at h
        obtain ⟨rfl, h⟩ := h
        obtain ⟨h1, h2⟩ := ih _ _ _ _ _ _ _ _ h
        exact ⟨by simp [h1], by simp [h2, timeAfter]⟩
    · by_cases hst : st = .exc .timeStepFailure
      · subst hst
        simp only [driveObj, es] at h
        cases pre with
        | nil => exact hnil _ _ rfl rfl h
        | cons q pre =>
          simp only [List.cons_append, List.cons.injEq] at h
          obtain ⟨rfl, h⟩ := h
          obtain ⟨h1, h2⟩ := ih _ _ _ _ _ _ _ _ h
          exact ⟨by simp [h1], by simp [h2, timeAfter]⟩
      · have h' : [(⟨hist, t, d, s.log, some st, s.y⟩ : Record K (n → K) (Ans K m n))] = pre ++ r :: post := by
          rw [← h]
          match st, hst with
          | .exc e, hst => cases e <;> first | exact absurd rfl hst | simp only [driveObj, es]
          | .ub w, _ => simp only [driveObj, es]
          | .fuel, _ => simp only [driveObj, es]
        cases pre with
        | nil => exact hnil _ _ rfl rfl h'
        | cons q pre => simp at h'

/-- what is observed of a run: the newest accepted state, at its time -/
theorem seen_run [Add K] (step : ((n → K) → SolveTree (n → K) (Ans K m n)) → K → K → Int → Prog (SolveSt (n → K) S (Ans K m n)) Unit) (solve : SP K m n p L Unit) (dts : List K)
    (t0 : K) (y0 : n → K) (mem : S) (reg : Reg K m n p L) (e : Int × K × (n → K))
    (he : e ∈ (0, t0, y0) :: seen ((driveObj step solve dts t0 [y0] y0 mem reg).map toAtt)) :
    ∃ pre post l, driveObj step solve dts t0 [y0] y0 mem reg = pre ++ post ∧ accepted y0 pre = e.2.2 :: l ∧ timeAfter t0 pre = e.2.1 ∧ (l.length : Int) = e.1 := by
  rcases List.mem_cons.1 he with rfl | he
  · exact ⟨[], _, [], rfl, rfl, rfl, rfl⟩
  · simp only [seen, List.mem_map, List.mem_filter] at he
    obtain ⟨a, ⟨⟨r, hr, rfl⟩, hs⟩, rfl⟩ := he
    obtain ⟨pre, post, e⟩ := List.append_of_mem hr
    obtain ⟨h1, h2⟩ := driveObj_split step solve dts t0 [y0] y0 mem reg pre post r e
    simp only [toAtt] at hs
    refine ⟨pre ++ [r], post, accepted y0 pre, by rw [e]; simp, by simp [accepted, hs, toAtt], by simp [timeAfter, hs, h2, toAtt], ?_⟩
    simp only [toAtt]
    rw [h1]
    rfl

end
end Pressio.Lemmas.AdvanceDrive
