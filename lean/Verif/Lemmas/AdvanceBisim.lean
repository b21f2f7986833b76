import Verif.Spec.CustomSchemes
import Verif.Lemmas.AdvanceDrive

/-
  Stepper objects whose attempts agree (for step sizes in a given set, in which the policies stay) cannot be told apart by the callers of advancers.
-/
namespace Pressio.Lemmas.AdvanceBisim
set_option autoImplicit false
open Pressio Pressio.Model.Advance Pressio.Spec.AdvanceTarget Pressio.Spec.AdvanceDrive Pressio.Spec.CustomSchemes

variable {K Y M N U : Type}

/-- the attempts of two objects agree, from now on, as long as step sizes are in `D` -/
def Alike [Add K] (D : K → Prop) (s1 : K → Int → K → Prog (Y × M) Unit) (s2 : K → Int → K → Prog (Y × N) Unit) (t : K) (i : Int) (y : Y) (a : M) (b : N) : Prop :=
  ∀ dts, (∀ d ∈ dts, D d) → attempts s1 dts ⟨t, i, y, a⟩ = attempts s2 dts ⟨t, i, y, b⟩

theorem alike_step [Add K] {D : K → Prop} {s1 : K → Int → K → Prog (Y × M) Unit} {s2 : K → Int → K → Prog (Y × N) Unit} {t : K} {i : Int} {y : Y} {a : M} {b : N} (h : Alike D s1 s2 t i y a b) (d : K) (hd : D d) :
    (∃ y' a' b', s1 t i d (y, a) = .ok () (y', a') ∧ s2 t i d (y, b) = .ok () (y', b') ∧ Alike D s1 s2 (t + d) (i + 1) y' a' b') ∨
    (∃ y' a' b', s1 t i d (y, a) = .stop (.exc .timeStepFailure) (y', a') ∧ s2 t i d (y, b) = .stop (.exc .timeStepFailure) (y', b') ∧ Alike D s1 s2 t i y' a' b') ∨
    (∃ z y' a' b', z ≠ .exc .timeStepFailure ∧ s1 t i d (y, a) = .stop z (y', a') ∧ s2 t i d (y, b) = .stop z (y', b')) := by
  have h1 := h [d] (by simpa using hd)
  rcases e1 : s1 t i d (y, a) with ⟨_, y1, a1⟩ | ⟨z1, y1, a1⟩ <;> rcases e2 : s2 t i d (y, b) with ⟨_, y2, b2⟩ | ⟨z2, y2, b2⟩ <;>
    simp only [attempts, attemptAt, e1, e2, List.cons.injEq, Att.mk.injEq, true_and, reduceCtorEq, false_and, Option.some.injEq] at h1
  · obtain ⟨rfl, -⟩ := h1
    refine .inl ⟨y1, a1, b2, rfl, rfl, fun dts hl => ?_⟩
    have h2 := h (d :: dts) (List.forall_mem_cons.2 ⟨hd, hl⟩)
    simpa [attempts, attemptAt, e1, e2] using h2
  · obtain ⟨⟨rfl, rfl⟩, -⟩ := h1
    by_cases hz : z1 = .exc .timeStepFailure
    · subst hz
      refine .inr (.inl ⟨y1, a1, b2, rfl, rfl, fun dts hl => ?_⟩)
      have h2 := h (d :: dts) (List.forall_mem_cons.2 ⟨hd, hl⟩)
      simpa [attempts, attemptAt, e1, e2] using h2
    · exact .inr (.inr ⟨z1, y1, a1, b2, hz, rfl, rfl⟩)

section
variable (D : K → Prop) (s1 : K → Int → K → Prog (Y × M) Unit) (s2 : K → Int → K → Prog (Y × N) Unit) (pol3 : Int → K → K → Prog U K) (pol5 : Int → K → DtVars K → Prog U (DtVars K)) (obs : Int → K → Y → Prog U Unit)

theorem callObs_user (s : K → Int → K → Prog (Y × M) Unit) (i : Int) (t : K) (a : M) (u : U) (y : Y) (log : List (Ev K Y)) :
    callObs (userObjects s pol3 pol5 obs) i t ⟨(a, u), y, log⟩ =
      match obs i t y u with
      | .ok _ u' => .ok () ⟨(a, u'), y, log ++ [.obs i t y]⟩
      | .stop h u' => .stop h ⟨(a, u'), y, log ++ [.obs i t y]⟩ := by
  simp only [callObs, Prog.bind_run, emit, onW, userObjects]
  rcases obs i t y u with ⟨_, u'⟩ | ⟨h, u'⟩ <;> rfl

theorem callStep_user (s : K → Int → K → Prog (Y × M) Unit) (t : K) (i : Int) (d : K) (a : M) (u : U) (y : Y) (log : List (Ev K Y)) :
    callStep (userObjects s pol3 pol5 obs) t i d ⟨(a, u), y, log⟩ =
      match s t i d (y, a) with
      | .ok _ r => .ok () ⟨(r.2, u), r.1, log ++ [.step i t d y]⟩
      | .stop h r => .stop h ⟨(r.2, u), r.1, log ++ [.step i t d y]⟩ := by
  simp only [callStep, Prog.bind_run, emit, onYW, userObjects]
  rcases s t i d (y, a) with ⟨_, r⟩ | ⟨h, r⟩ <;> rfl

theorem callGuess_user (s : K → Int → K → Prog (Y × M) Unit) (i : Int) (t : K) (a : M) (u : U) (y : Y) (log : List (Ev K Y)) :
    callGuess (userObjects s pol3 pol5 obs) i t ⟨(a, u), y, log⟩ = .ok () ⟨(a, u), y, log ++ [.guess i t y]⟩ := by
  simp only [callGuess, Prog.bind_run, emit, onYW, userObjects]
  rfl

theorem nLoop_alike [Add K] (hpol : ∀ i t d u d' u', pol3 i t d u = .ok d' u' → D d') : ∀ (k : Nat) (i : Int) (t d : K) (y : Y) (a : M) (b : N) (u : U) (log : List (Ev K Y)), Alike D s1 s2 t i y a b →
    visible (nLoop (userObjects s1 pol3 pol5 obs) k i t d ⟨(a, u), y, log⟩) = visible (nLoop (userObjects s2 pol3 pol5 obs) k i t d ⟨(b, u), y, log⟩) := by
  intro k
  induction k with
  | zero => intros; rfl
  | succ k ih =>
    intro i t d y a b u log h
    simp only [nLoop, Prog.bind_run, onW]
    have hp1 : (userObjects s1 pol3 pol5 obs).dtPolicy3 i t d (a, u) = match pol3 i t d u with | .ok d' u' => .ok d' (a, u') | .stop z u' => .stop z (a, u') := rfl
    have hp2 : (userObjects s2 pol3 pol5 obs).dtPolicy3 i t d (b, u) = match pol3 i t d u with | .ok d' u' => .ok d' (b, u') | .stop z u' => .stop z (b, u') := rfl
    rcases ep : pol3 i t d u with ⟨d', u1⟩ | ⟨z, u1⟩ <;> simp only [ep] at hp1 hp2 <;> simp only [hp1, hp2]
    swap
    · rfl
    simp only [emit, callGuess_user, callStep_user]
    rcases alike_step h d' (hpol _ _ _ _ _ _ ep) with ⟨y', a', b', e1, e2, h'⟩ | ⟨y', a', b', e1, e2, h'⟩ | ⟨z, y', a', b', -, e1, e2⟩
    · simp only [e1, e2, callObs_user]
      rcases eo : obs i (t + d') y' u1 with ⟨_, u2⟩ | ⟨z, u2⟩
      · simp only
        split
        · rfl
        · exact ih _ _ _ _ _ _ _ _ h'
      · rfl
    · simp only [e1, e2]; rfl
    · simp only [e1, e2]; rfl

/-- The results of an attempt with or without recovery, of two objects that are alike: they end alike, and if they return, the objects are alike afterwards -/
theorem recoverLoop_alike [Field K] [LinearOrder K] (hD : ∀ d q, D d → 1 < q → D (d / q)) (t : K) (i : Int) (mn fac : K) (hfac : 1 < fac) : ∀ (k : Nat) (d : K) (y : Y) (a : M) (b : N) (u : U) (log : List (Ev K Y)), D d → Alike D s1 s2 t i y a b →
    (∃ d' y' a' b' log', recoverLoop (userObjects s1 pol3 pol5 obs) t i mn fac k d ⟨(a, u), y, log⟩ = .ok d' ⟨(a', u), y', log'⟩ ∧
      recoverLoop (userObjects s2 pol3 pol5 obs) t i mn fac k d ⟨(b, u), y, log⟩ = .ok d' ⟨(b', u), y', log'⟩ ∧ Alike D s1 s2 (t + d') (i + 1) y' a' b') ∨
    (∃ z y' a' b' log', recoverLoop (userObjects s1 pol3 pol5 obs) t i mn fac k d ⟨(a, u), y, log⟩ = .stop z ⟨(a', u), y', log'⟩ ∧
      recoverLoop (userObjects s2 pol3 pol5 obs) t i mn fac k d ⟨(b, u), y, log⟩ = .stop z ⟨(b', u), y', log'⟩) := by
  intro k
  induction k with
  | zero => intro d y a b u log _ _; exact .inr ⟨_, _, _, _, _, rfl, rfl⟩
  | succ k ih =>
    intro d y a b u log hd h
    simp only [recoverLoop, Prog.bind_run, Prog.catchE, callStep_user]
    rcases alike_step h d hd with ⟨y', a', b', e1, e2, h'⟩ | ⟨y', a', b', e1, e2, h'⟩ | ⟨z, y', a', b', hz, e1, e2⟩
    · simp only [e1, e2, Prog.pure_run, if_true]
      exact .inl ⟨_, _, _, _, _, rfl, rfl, h'⟩
    · simp only [e1, e2, if_true, Prog.pure_run, Bool.false_eq_true, if_false]
      split
      · exact .inr ⟨_, _, _, _, _, rfl, rfl⟩
      · exact ih _ _ _ _ _ _ (hD _ _ hd hfac) h'
    · refine .inr ⟨z, y', a', b', log ++ [.step i t d y], ?_, ?_⟩
      · simp only [e1]
        rcases z with e | _ | _ <;> simp_all
      · simp only [e2]
        rcases z with e | _ | _ <;> simp_all

theorem attempt_alike [Field K] [LinearOrder K] (hD : ∀ d q, D d → 1 < q → D (d / q)) (rec : Bool) (t : K) (i : Int) (v : DtVars K) (hv : D v.dt) (hfac : rec = true → 1 < v.factor) (k : Nat) (y : Y) (a : M) (b : N) (u : U) (log : List (Ev K Y)) (h : Alike D s1 s2 t i y a b) :
    (∃ d' y' a' b' log', attempt rec (userObjects s1 pol3 pol5 obs) t i v k ⟨(a, u), y, log⟩ = .ok d' ⟨(a', u), y', log'⟩ ∧
      attempt rec (userObjects s2 pol3 pol5 obs) t i v k ⟨(b, u), y, log⟩ = .ok d' ⟨(b', u), y', log'⟩ ∧ Alike D s1 s2 (t + d') (i + 1) y' a' b') ∨
    (∃ z y' a' b' log', attempt rec (userObjects s1 pol3 pol5 obs) t i v k ⟨(a, u), y, log⟩ = .stop z ⟨(a', u), y', log'⟩ ∧
      attempt rec (userObjects s2 pol3 pol5 obs) t i v k ⟨(b, u), y, log⟩ = .stop z ⟨(b', u), y', log'⟩) := by
  cases rec with
  | true =>
    simp only [attempt, if_true]
    exact recoverLoop_alike D s1 s2 pol3 pol5 obs hD t i v.minDt v.factor (hfac rfl) k v.dt y a b u log hv h
  | false =>
    simp only [attempt, Bool.false_eq_true, if_false, Prog.bind_run, callStep_user]
    rcases alike_step h v.dt hv with ⟨y', a', b', e1, e2, h'⟩ | ⟨y', a', b', e1, e2, h'⟩ | ⟨z, y', a', b', hz, e1, e2⟩
    · simp only [e1, e2, Prog.pure_run]
      exact .inl ⟨_, _, _, _, _, rfl, rfl, h'⟩
    · simp only [e1, e2]
      exact .inr ⟨_, _, _, _, _, rfl, rfl⟩
    · simp only [e1, e2]
      exact .inr ⟨_, _, _, _, _, rfl, rfl⟩

theorem policy_alike [Field K] [LinearOrder K] (hpol : ∀ i t d u d' u', pol3 i t d u = .ok d' u' → D d') (hpol5 : ∀ i t v u v' u', pol5 i t v u = .ok v' u' → D v'.dt) (rec : Bool) (i : Int) (t : K) (v : DtVars K) (y : Y) (a : M) (b : N) (u : U) (log : List (Ev K Y)) :
    (∃ v' u', callDtPolicy rec (userObjects s1 pol3 pol5 obs) i t v ⟨(a, u), y, log⟩ = .ok v' ⟨(a, u'), y, log⟩ ∧ callDtPolicy rec (userObjects s2 pol3 pol5 obs) i t v ⟨(b, u), y, log⟩ = .ok v' ⟨(b, u'), y, log⟩ ∧ D v'.dt) ∨
    (∃ z u', callDtPolicy rec (userObjects s1 pol3 pol5 obs) i t v ⟨(a, u), y, log⟩ = .stop z ⟨(a, u'), y, log⟩ ∧ callDtPolicy rec (userObjects s2 pol3 pol5 obs) i t v ⟨(b, u), y, log⟩ = .stop z ⟨(b, u'), y, log⟩) := by
  cases rec with
  | true =>
    simp only [callDtPolicy, if_true, onW, userObjects]
    rcases ep : pol5 i t v u with ⟨v', u'⟩ | ⟨z, u'⟩
    · exact .inl ⟨v', u', rfl, rfl, hpol5 _ _ _ _ _ _ ep⟩
    · exact .inr ⟨z, u', rfl, rfl⟩
  | false =>
    simp only [callDtPolicy, Bool.false_eq_true, if_false, onW, userObjects, Prog.bind_run]
    rcases ep : pol3 i t v.dt u with ⟨d', u'⟩ | ⟨z, u'⟩
    · exact .inl ⟨{ v with dt := d' }, u', rfl, rfl, hpol _ _ _ _ _ _ ep⟩
    · exact .inr ⟨z, u', rfl, rfl⟩

theorem tLoop_alike [Field K] [LinearOrder K] (hpol : ∀ i t d u d' u', pol3 i t d u = .ok d' u' → D d') (hpol5 : ∀ i t v u v' u', pol5 i t v u = .ok v' u' → D v'.dt) (hD : ∀ d q, D d → 1 < q → D (d / q)) (rec : Bool) (eps final : K) : ∀ (k : Nat) (i : Int) (t : K) (v : DtVars K) (y : Y) (a : M) (b : N) (u : U) (log : List (Ev K Y)), Alike D s1 s2 t i y a b →
    visible (tLoop rec eps final (userObjects s1 pol3 pol5 obs) k i t v ⟨(a, u), y, log⟩) = visible (tLoop rec eps final (userObjects s2 pol3 pol5 obs) k i t v ⟨(b, u), y, log⟩) := by
  intro k
  induction k with
  | zero => intros; rfl
  | succ k ih =>
    intro i t v y a b u log h
    simp only [tLoop, Prog.bind_run]
    rcases policy_alike D s1 s2 pol3 pol5 obs hpol hpol5 rec i t v y a b u log with ⟨v', u', p1, p2, hv⟩ | ⟨z, u', p1, p2⟩
    swap
    · simp only [p1, p2]; rfl
    simp only [p1, p2, emit]
    split
    · rfl
    split
    · rfl
    rename_i hfac
    simp only [Prog.bind_run]
    rcases attempt_alike D s1 s2 pol3 pol5 obs hD rec t i v' hv (fun hr => lt_of_not_ge fun hle => hfac ⟨hr, hle⟩) (k + 1) y a b u' (log ++ [.setVars i t v']) h with ⟨d', y', a', b', log', e1, e2, h'⟩ | ⟨z, y', a', b', log', e1, e2⟩
    swap
    · simp only [e1, e2]; rfl
    simp only [e1, e2, callObs_user]
    rcases obs i (t + d') y' u' with ⟨_, u2⟩ | ⟨z, u2⟩
    swap
    · rfl
    simp only
    split
    · rfl
    split
    · rfl
    · exact ih _ _ _ _ _ _ _ _ h'
end

end Pressio.Lemmas.AdvanceBisim
