import Verif.Spec.Units
import Verif.Lemmas.AdvanceBisim
import Verif.Lemmas.Coordinates
import Verif.Lemmas.AdvanceComplete

/-
  Two stepper objects whose attempts agree in different units of time and state cannot be told apart by the callers of advancers, up to the units.
-/
namespace Pressio.Lemmas.Units
set_option autoImplicit false
set_option linter.unusedSectionVars false
open Pressio Pressio.Model.Advance Pressio.Spec.AdvanceTarget Pressio.Spec.AdvanceDrive Pressio.Spec.CustomSchemes Pressio.Spec.Units
open Pressio.Lemmas.AdvanceBisim (callObs_user callStep_user callGuess_user)

variable {K Y Y' M N U : Type} [Field K]

theorem time_add (c : Clock K) (t d : K) : c.time t + c.size d = c.time (t + d) := by unfold Clock.time Clock.size; ring
theorem size_zero (c : Clock K) : c.size 0 = 0 := mul_zero _
theorem size_div (c : Clock K) (d q : K) : c.size d / q = c.size (d / q) := by unfold Clock.size; ring

section Order
variable [LinearOrder K] [IsStrictOrderedRing K] (c : Clock K) (hc : 0 < c.rate)
include hc
theorem size_lt (a b : K) : (c.size a < c.size b) = (a < b) := propext (mul_lt_mul_iff_right₀ hc)
theorem time_lt (a b : K) : (c.time a < c.time b) = (a < b) := by unfold Clock.time; rw [add_lt_add_iff_right]; exact size_lt c hc a b
theorem time_eq (a b : K) : (c.time a = c.time b) = (a = b) := by
  unfold Clock.time; rw [add_left_inj]; exact propext (mul_right_inj' hc.ne')
theorem near (a b e : K) : (|c.time a - c.time b| ≤ c.size e) = (|a - b| ≤ e) := by
  have h : c.time a - c.time b = c.rate * (a - b) := by unfold Clock.time; ring
  rw [h, abs_mul, abs_of_pos hc]
  exact propext (mul_le_mul_iff_right₀ hc)
end Order

/-- an attempt, in the reference units -/
def att (c : Clock K) (φ : Y' → Y) (a : Att K Y') : Att K Y := ⟨a.num, c.time a.t, c.size a.dt, a.stop, φ a.y⟩

/-- the attempts of two objects agree, from now on, in different units, as long as step sizes are in `D` -/
def Moved (c : Clock K) (φ : Y' → Y) (D : K → Prop) (s1 : K → Int → K → Prog (Y × M) Unit) (s2 : K → Int → K → Prog (Y' × N) Unit) (t : K) (i : Int) (y : Y') (a : M) (b : N) : Prop :=
  ∀ dts, (∀ d ∈ dts, D d) → attempts s1 (dts.map c.size) ⟨c.time t, i, φ y, a⟩ = (attempts s2 dts ⟨t, i, y, b⟩).map (att c φ)

section
variable (c : Clock K) (φ : Y' → Y) (D : K → Prop) (s1 : K → Int → K → Prog (Y × M) Unit) (s2 : K → Int → K → Prog (Y' × N) Unit)

theorem moved_step {c : Clock K} {φ : Y' → Y} {D : K → Prop} {s1 : K → Int → K → Prog (Y × M) Unit} {s2 : K → Int → K → Prog (Y' × N) Unit} {t : K} {i : Int} {y : Y'} {a : M} {b : N} (h : Moved c φ D s1 s2 t i y a b) (d : K) (hd : D d) :
    (∃ y' a' b', s1 (c.time t) i (c.size d) (φ y, a) = .ok () (φ y', a') ∧ s2 t i d (y, b) = .ok () (y', b') ∧ Moved c φ D s1 s2 (t + d) (i + 1) y' a' b') ∨
    (∃ y' a' b', s1 (c.time t) i (c.size d) (φ y, a) = .stop (.exc .timeStepFailure) (φ y', a') ∧ s2 t i d (y, b) = .stop (.exc .timeStepFailure) (y', b') ∧ Moved c φ D s1 s2 t i y' a' b') ∨
    (∃ z y' a' b', z ≠ .exc .timeStepFailure ∧ s1 (c.time t) i (c.size d) (φ y, a) = .stop z (φ y', a') ∧ s2 t i d (y, b) = .stop z (y', b')) := by
  have h1 := h [d] (by simpa using hd)
  rcases e1 : s1 (c.time t) i (c.size d) (φ y, a) with ⟨_, y1, a1⟩ | ⟨z1, y1, a1⟩ <;> rcases e2 : s2 t i d (y, b) with ⟨_, y2, b2⟩ | ⟨z2, y2, b2⟩ <;>
    simp only [attempts, attemptAt, e1, e2, List.map_cons, att, List.cons.injEq, Att.mk.injEq, true_and, reduceCtorEq, false_and, Option.some.injEq] at h1
  · obtain ⟨rfl, -⟩ := h1
    refine .inl ⟨y2, a1, b2, rfl, rfl, fun dts hl => ?_⟩
    have h2 := h (d :: dts) (List.forall_mem_cons.2 ⟨hd, hl⟩)
    simpa [attempts, attemptAt, e1, e2, time_add, att] using h2
  · obtain ⟨⟨rfl, rfl⟩, -⟩ := h1
    by_cases hz : z1 = .exc .timeStepFailure
    · subst hz
      refine .inr (.inl ⟨y2, a1, b2, rfl, rfl, fun dts hl => ?_⟩)
      have h2 := h (d :: dts) (List.forall_mem_cons.2 ⟨hd, hl⟩)
      simpa [attempts, attemptAt, e1, e2, att] using h2
    · exact .inr (.inr ⟨z1, y2, a1, b2, hz, rfl, rfl⟩)

/-- a relation between two objects that every attempt preserves shows that they agree -/
theorem moved_of (R : K → Int → Y' → M → N → Prop)
    (hR : ∀ t i y a b d, D d → R t i y a b →
      (∃ y' a' b', s1 (c.time t) i (c.size d) (φ y, a) = .ok () (φ y', a') ∧ s2 t i d (y, b) = .ok () (y', b') ∧ R (t + d) (i + 1) y' a' b') ∨
      (∃ z y' a' b', s1 (c.time t) i (c.size d) (φ y, a) = .stop z (φ y', a') ∧ s2 t i d (y, b) = .stop z (y', b') ∧ (z = .exc .timeStepFailure → R t i y' a' b')))
    (t : K) (i : Int) (y : Y') (a : M) (b : N) (h : R t i y a b) : Moved c φ D s1 s2 t i y a b := by
  intro dts
  induction dts generalizing t i y a b with
  | nil => intro _; rfl
  | cons d rest ih =>
    intro hd
    have hrest : ∀ d ∈ rest, D d := fun d h => hd d (List.mem_cons_of_mem _ h)
    rcases hR t i y a b d (hd d List.mem_cons_self) h with ⟨y', a', b', e1, e2, h'⟩ | ⟨z, y', a', b', e1, e2, h'⟩
    · simp only [List.map_cons, attempts, attemptAt, e1, e2, time_add, att]
      exact congrArg _ (ih _ _ _ _ _ h' hrest)
    · simp only [List.map_cons, attempts, attemptAt, e1, e2, att]
      by_cases hz : z = .exc .timeStepFailure
      · simp only [if_pos hz]
        exact congrArg _ (ih _ _ _ _ _ (h' hz) hrest)
      · simp only [if_neg hz, List.map_nil]

variable (pol pol' : Int → K → K → Prog U K) (pol5 pol5' : Int → K → DtVars K → Prog U (DtVars K)) (obs : Int → K → Y → Prog U Unit) (obs' : Int → K → Y' → Prog U Unit)

theorem nLoop_moved (hpol : SamePolicy c pol pol') (hobs : SameObserver c φ obs obs') (hD : ∀ i t d u d' u', pol' i t d u = .ok d' u' → D d') :
    ∀ (k : Nat) (i : Int) (t d : K) (y : Y') (a : M) (b : N) (u : U) (log : List (Ev K Y')), Moved c φ D s1 s2 t i y a b →
    visible (nLoop (userObjects s1 pol pol5 obs) k i (c.time t) (c.size d) ⟨(a, u), φ y, log.map (event c φ)⟩) = seenIn c id φ (visible (nLoop (userObjects s2 pol' pol5' obs') k i t d ⟨(b, u), y, log⟩)) := by
  intro k
  induction k with
  | zero => intros; rfl
  | succ k ih =>
    intro i t d y a b u log h
    simp only [nLoop, Prog.bind_run, onW]
    have hp1 : (userObjects s1 pol pol5 obs).dtPolicy3 i (c.time t) (c.size d) (a, u) = match pol i (c.time t) (c.size d) u with | .ok d' u' => .ok d' (a, u') | .stop z u' => .stop z (a, u') := rfl
    have hp2 : (userObjects s2 pol' pol5' obs').dtPolicy3 i t d (b, u) = match pol' i t d u with | .ok d' u' => .ok d' (b, u') | .stop z u' => .stop z (b, u') := rfl
    rw [hpol] at hp1
    rcases ep : pol' i t d u with ⟨d', u1⟩ | ⟨z, u1⟩ <;> simp only [ep] at hp1 hp2 <;> simp only [hp1, hp2]
    swap
    · rfl
    simp only [emit, callGuess_user, callStep_user]
    rcases moved_step h d' (hD _ _ _ _ _ _ ep) with ⟨y', a', b', e1, e2, h'⟩ | ⟨y', a', b', e1, e2, h'⟩ | ⟨z, y', a', b', -, e1, e2⟩
    · simp only [e1, e2, callObs_user, time_add, hobs i _ y' u1]
      rcases eo : obs' i (t + d') y' u1 with ⟨_, u2⟩ | ⟨z, u2⟩
      · simp only
        split
        · simp [visible, seenIn, event, Prog.undef, Res.state, Except.map]
        · have e := ih (i + 1) (t + d') d' y' a' b' u2 (log ++ [.setDt i t d'] ++ [.guess i t y] ++ [.step i t d' y] ++ [.obs i (t + d') y']) h'
          simpa only [List.map_append, List.map_cons, List.map_nil, event] using e
      · simp [visible, seenIn, event, Res.state, Except.map]
    · simp [e1, e2, visible, seenIn, event, Res.state, Except.map]
    · simp [e1, e2, visible, seenIn, event, Res.state, Except.map]

variable [LinearOrder K] [IsStrictOrderedRing K] (hc : 0 < c.rate)
include hc

/-- the results of an attempt with or without recovery, of two objects that are alike up to units -/
theorem recoverLoop_moved (hq : ∀ d q, D d → 1 < q → D (d / q)) (t : K) (i : Int) (mn fac : K) (hfac : 1 < fac) : ∀ (k : Nat) (d : K) (y : Y') (a : M) (b : N) (u : U) (log : List (Ev K Y')), D d → Moved c φ D s1 s2 t i y a b →
    (∃ d' y' a' b' log', recoverLoop (userObjects s1 pol pol5 obs) (c.time t) i (c.size mn) fac k (c.size d) ⟨(a, u), φ y, log.map (event c φ)⟩ = .ok (c.size d') ⟨(a', u), φ y', log'.map (event c φ)⟩ ∧
      recoverLoop (userObjects s2 pol' pol5' obs') t i mn fac k d ⟨(b, u), y, log⟩ = .ok d' ⟨(b', u), y', log'⟩ ∧ Moved c φ D s1 s2 (t + d') (i + 1) y' a' b') ∨
    (∃ z y' a' b' log', recoverLoop (userObjects s1 pol pol5 obs) (c.time t) i (c.size mn) fac k (c.size d) ⟨(a, u), φ y, log.map (event c φ)⟩ = .stop z ⟨(a', u), φ y', log'.map (event c φ)⟩ ∧
      recoverLoop (userObjects s2 pol' pol5' obs') t i mn fac k d ⟨(b, u), y, log⟩ = .stop z ⟨(b', u), y', log'⟩) := by
  intro k
  induction k with
  | zero => intro d y a b u log _ _; exact .inr ⟨_, _, _, _, _, rfl, rfl⟩
  | succ k ih =>
    intro d y a b u log hd h
    have hl : log.map (event c φ) ++ [Ev.step i (c.time t) (c.size d) (φ y)] = (log ++ [Ev.step i t d y]).map (event c φ) := by simp [event]
    simp only [recoverLoop, Prog.bind_run, Prog.catchE, callStep_user, hl]
    rcases moved_step h d hd with ⟨y', a', b', e1, e2, h'⟩ | ⟨y', a', b', e1, e2, h'⟩ | ⟨z, y', a', b', hz, e1, e2⟩
    · simp only [e1, e2, Prog.pure_run, if_true]
      exact .inl ⟨_, _, _, _, _, rfl, rfl, h'⟩
    · simp only [e1, e2, if_true, Prog.pure_run, Bool.false_eq_true, if_false, size_div, size_lt c hc]
      split
      · exact .inr ⟨_, _, _, _, _, rfl, rfl⟩
      · exact ih _ _ _ _ _ _ (hq _ _ hd hfac) h'
    · refine .inr ⟨z, y', a', b', log ++ [.step i t d y], ?_, ?_⟩
      · simp only [e1]
        rcases z with e | _ | _
        · simp only [if_neg (fun h : e = .timeStepFailure => hz (congrArg _ h))]
        · rfl
        · rfl
      · simp only [e2]
        rcases z with e | _ | _
        · simp only [if_neg (fun h : e = .timeStepFailure => hz (congrArg _ h))]
        · rfl
        · rfl

theorem attempt_moved (hq : ∀ d q, D d → 1 < q → D (d / q)) (rec : Bool) (t : K) (i : Int) (v : DtVars K) (hv : D v.dt) (hfac : rec = true → 1 < v.factor) (k : Nat) (y : Y') (a : M) (b : N) (u : U) (log : List (Ev K Y')) (h : Moved c φ D s1 s2 t i y a b) :
    (∃ d' y' a' b' log', attempt rec (userObjects s1 pol pol5 obs) (c.time t) i (c.vars v) k ⟨(a, u), φ y, log.map (event c φ)⟩ = .ok (c.size d') ⟨(a', u), φ y', log'.map (event c φ)⟩ ∧
      attempt rec (userObjects s2 pol' pol5' obs') t i v k ⟨(b, u), y, log⟩ = .ok d' ⟨(b', u), y', log'⟩ ∧ Moved c φ D s1 s2 (t + d') (i + 1) y' a' b') ∨
    (∃ z y' a' b' log', attempt rec (userObjects s1 pol pol5 obs) (c.time t) i (c.vars v) k ⟨(a, u), φ y, log.map (event c φ)⟩ = .stop z ⟨(a', u), φ y', log'.map (event c φ)⟩ ∧
      attempt rec (userObjects s2 pol' pol5' obs') t i v k ⟨(b, u), y, log⟩ = .stop z ⟨(b', u), y', log'⟩) := by
  cases rec with
  | true =>
    simp only [attempt, if_true]
    exact recoverLoop_moved c φ D s1 s2 pol pol' pol5 pol5' obs obs' hc hq t i v.minDt v.factor (hfac rfl) k v.dt y a b u log hv h
  | false =>
    have hl : log.map (event c φ) ++ [Ev.step i (c.time t) (c.size v.dt) (φ y)] = (log ++ [Ev.step i t v.dt y]).map (event c φ) := by simp [event]
    simp only [attempt, Bool.false_eq_true, if_false, Prog.bind_run, callStep_user, Clock.vars, hl]
    rcases moved_step h v.dt hv with ⟨y', a', b', e1, e2, h'⟩ | ⟨y', a', b', e1, e2, h'⟩ | ⟨z, y', a', b', hz, e1, e2⟩
    · simp only [e1, e2, Prog.pure_run]
      exact .inl ⟨_, _, _, _, _, rfl, rfl, h'⟩
    · simp only [e1, e2]
      exact .inr ⟨_, _, _, _, _, rfl, rfl⟩
    · simp only [e1, e2]
      exact .inr ⟨_, _, _, _, _, rfl, rfl⟩

omit [IsStrictOrderedRing K] hc in
theorem policy_moved (hpol : SamePolicy c pol pol') (hpol5 : SamePolicy5 c pol5 pol5') (hD : ∀ i t d u d' u', pol' i t d u = .ok d' u' → D d') (hD5 : ∀ i t v u v' u', pol5' i t v u = .ok v' u' → D v'.dt)
    (rec : Bool) (i : Int) (t : K) (v : DtVars K) (y : Y') (a : M) (b : N) (u : U) (log : List (Ev K Y')) (lg : List (Ev K Y)) :
    (∃ v' u', callDtPolicy rec (userObjects s1 pol pol5 obs) i (c.time t) (c.vars v) ⟨(a, u), φ y, lg⟩ = .ok (c.vars v') ⟨(a, u'), φ y, lg⟩ ∧ callDtPolicy rec (userObjects s2 pol' pol5' obs') i t v ⟨(b, u), y, log⟩ = .ok v' ⟨(b, u'), y, log⟩ ∧ D v'.dt) ∨
    (∃ z u', callDtPolicy rec (userObjects s1 pol pol5 obs) i (c.time t) (c.vars v) ⟨(a, u), φ y, lg⟩ = .stop z ⟨(a, u'), φ y, lg⟩ ∧ callDtPolicy rec (userObjects s2 pol' pol5' obs') i t v ⟨(b, u), y, log⟩ = .stop z ⟨(b, u'), y, log⟩) := by
  cases rec with
  | true =>
    simp only [callDtPolicy, if_true, onW, userObjects, hpol5 i t v u]
    rcases ep : pol5' i t v u with ⟨v', u'⟩ | ⟨z, u'⟩
    · exact .inl ⟨v', u', rfl, rfl, hD5 _ _ _ _ _ _ ep⟩
    · exact .inr ⟨z, u', rfl, rfl⟩
  | false =>
    simp only [callDtPolicy, Bool.false_eq_true, if_false, onW, userObjects, Prog.bind_run, Clock.vars, hpol i t v.dt u]
    rcases ep : pol' i t v.dt u with ⟨d', u'⟩ | ⟨z, u'⟩
    · exact .inl ⟨{ v with dt := d' }, u', rfl, rfl, hD _ _ _ _ _ _ ep⟩
    · exact .inr ⟨z, u', rfl, rfl⟩

theorem tLoop_moved (hpol : SamePolicy c pol pol') (hpol5 : SamePolicy5 c pol5 pol5') (hobs : SameObserver c φ obs obs') (hD : ∀ i t d u d' u', pol' i t d u = .ok d' u' → D d') (hD5 : ∀ i t v u v' u', pol5' i t v u = .ok v' u' → D v'.dt)
    (hq : ∀ d q, D d → 1 < q → D (d / q)) (rec : Bool) (eps final : K) : ∀ (k : Nat) (i : Int) (t : K) (v : DtVars K) (y : Y') (a : M) (b : N) (u : U) (log : List (Ev K Y')), Moved c φ D s1 s2 t i y a b →
    visible (tLoop rec (c.size eps) (c.time final) (userObjects s1 pol pol5 obs) k i (c.time t) (c.vars v) ⟨(a, u), φ y, log.map (event c φ)⟩) =
      seenIn c c.time φ (visible (tLoop rec eps final (userObjects s2 pol' pol5' obs') k i t v ⟨(b, u), y, log⟩)) := by
  intro k
  induction k with
  | zero => intros; rfl
  | succ k ih =>
    intro i t v y a b u log h
    simp only [tLoop, Prog.bind_run]
    rcases policy_moved c φ D s1 s2 pol pol' pol5 pol5' obs obs' hpol hpol5 hD hD5 rec i t v y a b u log (log.map (event c φ)) with ⟨v', u', p1, p2, hv⟩ | ⟨z, u', p1, p2⟩
    swap
    · simp only [p1, p2]; rfl
    have hl : log.map (event c φ) ++ [Ev.setVars i (c.time t) (c.vars v')] = (log ++ [Ev.setVars i t v']).map (event c φ) := by simp [event]
    have hm : ((c.vars v').dt < (c.vars v').minDt) = (v'.dt < v'.minDt) := size_lt c hc _ _
    have hf : (c.vars v').factor = v'.factor := rfl
    simp only [p1, p2, emit, hl, hm, hf]
    split
    · rfl
    split
    · rfl
    rename_i hfac
    simp only [Prog.bind_run]
    rcases attempt_moved c φ D s1 s2 pol pol' pol5 pol5' obs obs' hc hq rec t i v' hv (fun hr => lt_of_not_ge fun hle => hfac ⟨hr, hle⟩) (k + 1) y a b u' (log ++ [.setVars i t v']) h with ⟨d', y', a', b', log', e1, e2, h'⟩ | ⟨z, y', a', b', log', e1, e2⟩
    swap
    · simp only [e1, e2]; rfl
    simp only [e1, e2, callObs_user, time_add, hobs i _ y' u', near c hc, gt_iff_lt, time_lt c hc]
    have hl' : log'.map (event c φ) ++ [Ev.obs i (c.time (t + d')) (φ y')] = (log' ++ [Ev.obs i (t + d') y']).map (event c φ) := by simp [event]
    rw [hl']
    rcases obs' i (t + d') y' u' with ⟨_, u2⟩ | ⟨z, u2⟩
    swap
    · rfl
    simp only
    split
    · rfl
    split
    · rfl
    · exact ih _ _ { v' with dt := d' } _ _ _ _ _ h'
end

end Pressio.Lemmas.Units

namespace Pressio.Lemmas.Units
set_option linter.unusedSectionVars false
open Pressio Matrix
open Pressio.Model.Nonlinear Pressio.Spec.Nonlinear Pressio.Spec.SolverRun Pressio.Spec.Implicit Pressio.Lemmas.Implicit Pressio.Lemmas.SolverTree Pressio.Lemmas.SolverRun Pressio.Spec.Coordinates Pressio.Spec.Units
open Pressio.Lemmas.AdvanceDrive (driveObj_attempts)

variable {K m n p m' p' L L' S S' : Type}

/-- Runs of two steppers with their solver objects, in different units -/
theorem driveObj_units [Field K] [Fintype n] (c : Clock K) (D : K → Prop) (φ : (n → K) → n → K) (Q : SolveTree (n → K) (Ans K m n) → Prop) (Q' : SolveTree (n → K) (Ans K m' n) → Prop)
    (step : ((n → K) → SolveTree (n → K) (Ans K m n)) → K → K → Int → Prog (SolveSt (n → K) S (Ans K m n)) Unit) (step' : ((n → K) → SolveTree (n → K) (Ans K m' n)) → K → K → Int → Prog (SolveSt (n → K) S' (Ans K m' n)) Unit)
    (F : List (n → K) → K → K → (n → K) → Bool → Except Exc (Ans K m n)) (F' : List (n → K) → K → K → (n → K) → Bool → Except Exc (Ans K m' n)) (Inv : K → List (n → K) → S → Prop) (Inv' : K → List (n → K) → S' → Prop)
    (h : RefinesOn Q step F Inv) (h' : RefinesOn Q' step' F' Inv')
    (hF : ∀ hist t dt x w, F hist t dt x w ≠ .error .timeStepFailure) (solve : SP K m n p L Unit) (solve' : SP K m' n p' L' Unit) (hs : Fine solve) (hs' : Fine solve') (hQ : ∀ reg y, Q (solverOf solve reg y)) (hQ' : ∀ reg y, Q' (solverOf solve' reg y))
    (R : Reg K m n p L → Reg K m' n p' L' → Prop)
    (hR : ∀ reg reg' y prev t dt, D dt → R reg reg' → let r := SM.run (F ((y :: prev).map φ) (c.time t) (c.size dt)) solve { reg with x := φ y }; let r' := SM.run (F' (y :: prev) t dt) solve' { reg' with x := y }
      SamePoints φ { reg with x := φ y } { reg' with x := y } r r' ∧ R r.state r'.state)
    (dts : List K) (hD : ∀ d ∈ dts, D d) (t : K) (y : n → K) (prev : List (n → K)) (mem : S) (mem' : S') (reg : Reg K m n p L) (reg' : Reg K m' n p' L') (hI : Inv (c.time t) ((y :: prev).map φ) mem) (hI' : Inv' t (y :: prev) mem') (hreg : R reg reg') :
    (driveObj step solve (dts.map c.size) (c.time t) ((y :: prev).map φ) (φ y) mem reg).map (shown id) = (driveObj step' solve' dts t (y :: prev) y mem' reg').map (shownIn c φ) := by
  induction dts generalizing t y prev mem mem' reg reg' with
  | nil => rfl
  | cons dt rest ih =>
    obtain ⟨m1, hm1, e1⟩ := h (solverOf solve reg) (c.time t) (c.size dt) (φ y) (prev.map φ) mem hI (hQ reg _)
    obtain ⟨m2, hm2, e2⟩ := h' (solverOf solve' reg') t dt y prev mem' hI' (hQ' reg' y)
    obtain ⟨⟨r1, r2, Qs, Qs', r3, r4, r6⟩, r5⟩ := hR reg reg' y prev t dt (hD _ List.mem_cons_self) hreg
    have hh := honest_outcome (F ((y :: prev).map φ) (c.time t) (c.size dt)) (hF _ _ _) (solverOf solve reg (φ y)) (honest_solverOf solve hs reg (φ y))
    have hrep : (solve { reg with x := φ y }).replay reg ((outcome (F ((y :: prev).map φ) (c.time t) (c.size dt)) (solverOf solve reg (φ y))).queries.map (·.ans)) = (SM.run (F ((y :: prev).map φ) (c.time t) (c.size dt)) solve { reg with x := φ y }).state := by
      rw [outcome_solverOf]; exact replay_asked _ _ _
    have hrep' : (solve' { reg' with x := y }).replay reg' ((outcome (F' (y :: prev) t dt) (solverOf solve' reg' y)).queries.map (·.ans)) = (SM.run (F' (y :: prev) t dt) solve' { reg' with x := y }).state := by
      rw [outcome_solverOf]; exact replay_asked _ _ _
    have l1 := log_run solve hs (F ((y :: prev).map φ) (c.time t) (c.size dt)) { reg with x := φ y }
    have l2 := log_run solve' hs' (F' (y :: prev) t dt) { reg' with x := y }
    rw [r3] at l1
    rw [r4] at l2
    have hstop : (outcome (F ((y :: prev).map φ) (c.time t) (c.size dt)) (solverOf solve reg (φ y))).stop = (outcome (F' (y :: prev) t dt) (solverOf solve' reg' y)).stop := by
      rw [outcome_solverOf, outcome_solverOf]; exact r1
    have hy : (outcome (F ((y :: prev).map φ) (c.time t) (c.size dt)) (solverOf solve reg (φ y))).y = φ (outcome (F' (y :: prev) t dt) (solverOf solve' reg' y)).y := by
      rw [outcome_solverOf, outcome_solverOf]; exact r2
    have hq : (outcome (F ((y :: prev).map φ) (c.time t) (c.size dt)) (solverOf solve reg (φ y))).queries.map (fun a => (a.x, a.wantJ)) = (outcome (F' (y :: prev) t dt) (solverOf solve' reg' y)).queries.map (fun a => (φ a.x, a.wantJ)) := by
      rw [outcome_solverOf, outcome_solverOf]
      simp only
      rw [← List.append_cancel_left l1, ← List.append_cancel_left l2]
      exact r6
    simp only [List.map_cons] at e1 hm1 hh hrep hstop hy hq r5 ⊢
    generalize outcome (F (φ y :: prev.map φ) (c.time t) (c.size dt)) (solverOf solve reg (φ y)) = O at *
    generalize outcome (F' (y :: prev) t dt) (solverOf solve' reg' y) = O' at *
    simp only [driveObj]
    obtain ⟨st, oy, oq⟩ := O
    obtain ⟨st', oy', oq'⟩ := O'
    simp only at hstop hy hq e1 e2 hm1 hm2 hrep hrep' hh
    subst hstop
    subst hy
    rw [e1, e2]
    have hrest : ∀ d ∈ rest, D d := fun d hd => hD d (List.mem_cons_of_mem _ hd)
    have hsh : ∀ (h : Option Stop) (z : n → K), shown id (⟨φ y :: prev.map φ, c.time t, c.size dt, oq, h, φ z⟩ : Record K (n → K) (Ans K m n)) = shownIn c φ ⟨y :: prev, t, dt, oq', h, z⟩ := fun h z => by
      simp only [shown, shownIn, id_eq, List.map_id, List.map_cons, hq]
    match st with
    | none =>
      simp only [time_add] at hm1 hm2 ⊢
      rw [hrep, hrep', List.map_cons, List.map_cons, hsh]
      exact congrArg _ (ih hrest _ oy' (y :: prev) _ _ _ _ hm1 hm2 r5)
    | some (.exc ex) =>
      cases ex with
      | nonlinearSolveFailure =>
        simp only at hm1 hm2 ⊢
        rw [hrep, hrep', List.map_cons, List.map_cons, hsh]
        exact congrArg _ (ih hrest _ y prev _ _ _ _ hm1 hm2 r5)
      | timeStepFailure => exact absurd rfl hh
      | _ => simp only [List.map_cons, List.map_nil, hsh]
    | some (.ub w) => simp only [List.map_cons, List.map_nil, hsh]
    | some .fuel => simp only [List.map_cons, List.map_nil, hsh]


open Pressio.Spec.AdvanceDrive in
/-- … and so the attempts of the two objects agree -/
theorem moved_of_runs [Field K] {n' : Type} [Fintype n] [Fintype n'] (c : Clock K) (D : K → Prop) (φ : (n' → K) → n → K) (step : ((n → K) → SolveTree (n → K) (Ans K m n)) → K → K → Int → Prog (SolveSt (n → K) S (Ans K m n)) Unit)
    (step' : ((n' → K) → SolveTree (n' → K) (Ans K m' n')) → K → K → Int → Prog (SolveSt (n' → K) S' (Ans K m' n')) Unit) (solve : SP K m n p L Unit) (solve' : SP K m' n' p' L' Unit) (t : K) (y : n' → K) (mem : S) (mem' : S') (reg : Reg K m n p L) (reg' : Reg K m' n' p' L')
    (h : ∀ dts, (∀ d ∈ dts, D d) → (driveObj step solve (dts.map c.size) (c.time t) [φ y] (φ y) mem reg).map (shown id) = (driveObj step' solve' dts t [y] y mem' reg').map (shownIn c φ)) :
    Moved c φ D (objStepper step solve) (objStepper step' solve') t 1 y (mem, reg) (mem', reg') := by
  intro dts hd
  have e := h dts hd
  have a1 := driveObj_attempts step solve (dts.map c.size) (c.time t) [φ y] (φ y) mem reg
  have a2 := driveObj_attempts step' solve' dts t [y] y mem' reg'
  simp only [List.length_cons, List.length_nil, zero_add, Nat.cast_one] at a1 a2
  rw [← a1, ← a2, List.map_map]
  have k1 : (toAtt : Record K (n → K) (Ans K m n) → Att K (n → K)) = (fun q => ⟨q.2.2.2.1.length, q.1, q.2.1, q.2.2.1, q.2.2.2.2.1⟩) ∘ shown id := by
    funext r; simp [toAtt, shown]
  have k2 : att c φ ∘ (toAtt : Record K (n' → K) (Ans K m' n') → Att K (n' → K)) = (fun q => ⟨q.2.2.2.1.length, q.1, q.2.1, q.2.2.1, q.2.2.2.2.1⟩) ∘ shownIn c φ := by
    funext r; simp [toAtt, att, shownIn]
  rw [k1, k2, ← List.map_map, ← List.map_map, e]

end Pressio.Lemmas.Units
