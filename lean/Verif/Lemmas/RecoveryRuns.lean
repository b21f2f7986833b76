import Verif.Lemmas.AdvanceComplete
import Verif.Spec.RecoveryRuns
import Mathlib.Algebra.Order.Field.Basic
import Mathlib.Tactic.FieldSimp

/-
  The loops of the advancer with recovery, when small attempts succeed.
-/
namespace Pressio.Lemmas.AdvanceDrive
set_option autoImplicit false
open Pressio Pressio.Model.Advance Pressio.Spec.AdvanceTarget Pressio.Spec.AdvanceDrive Pressio.Spec.RecoveryRuns

variable {K Y M U : Type}

theorem posAfter_append [Add K] (st : K → Int → K → Prog (Y × M) Unit) (a b : List K) : ∀ (c c' : Pos K Y M), posAfter st a c = some c' → posAfter st (a ++ b) c = posAfter st b c' := by
  induction a with
  | nil => intro c c' h; simp only [posAfter, Option.some.injEq] at h; subst h; rfl
  | cons d l ih =>
    intro c c' h
    simp only [posAfter, List.cons_append] at h ⊢
    rcases e : (attemptAt st c d).2 with _ | c1
    · rw [e] at h; simp at h
    · rw [e] at h
      simp only [Option.bind_some] at h ⊢
      exact ih c1 c' h

variable [Field K] [LinearOrder K] [IsStrictOrderedRing K] (st : K → Int → K → Prog (Y × M) Unit) (pol3 : Int → K → K → Prog U K) (pol5 : Int → K → DtVars K → Prog U (DtVars K)) (obs : Int → K → Y → Prog U Unit)

/-- what an attempt of size `d` at `c` must do: succeed, or fail with `TimeStepFailure` if it is larger than `h0` -/
def Ok1 (I : Pos K Y M → Prop) (h0 : K) (c : Pos K Y M) (d : K) : Prop :=
  match st c.t c.num d (c.y, c.m) with
  | .ok _ s => I ⟨c.t + d, c.num + 1, s.1, s.2⟩
  | .stop h s => h = .exc .timeStepFailure ∧ h0 < d ∧ I ⟨c.t, c.num, s.1, s.2⟩

theorem recoverLoop_good (I : Pos K Y M → Prop) (lo H ρ Φ h0 t mn f : K) (i : Int) (hρ : 1 < ρ) (hfρ : ρ ≤ f) (hfΦ : f ≤ Φ) (h00 : 0 < h0) (hlo : lo * Φ ≤ h0) (hmn : mn * Φ ≤ h0)
    (hI : ∀ y m, I ⟨t, i, y, m⟩ → ∀ d, lo ≤ d → d ≤ H → Ok1 st I h0 ⟨t, i, y, m⟩ d) (u : U) :
    ∀ (J fuel : Nat) (dt : K) (y : Y) (m : M) (log : List (Ev K Y)), J + 1 ≤ fuel → lo ≤ dt → dt ≤ H → dt ≤ h0 * ρ ^ J → I ⟨t, i, y, m⟩ →
      ∃ d dts l y' m', recoverLoop (userObjects st pol3 pol5 obs) t i mn f fuel dt ⟨(m, u), y, log⟩ = .ok d ⟨(m', u), y', log ++ l⟩ ∧ lo ≤ d ∧ d ≤ H ∧ I ⟨t + d, i + 1, y', m'⟩ ∧
        posAfter st dts ⟨t, i, y, m⟩ = some ⟨t + d, i + 1, y', m'⟩ ∧ dts.length ≤ J + 1 ∧ (∀ x ∈ dts, lo ≤ x ∧ x ≤ H) ∧ (∀ stop, Part (attempts st dts ⟨t, i, y, m⟩) y true (l ++ [.obs i (t + d) y']) y' stop) ∧
        (∀ a ∈ attempts st dts ⟨t, i, y, m⟩, a.t = t) ∧ (attempts st dts ⟨t, i, y, m⟩).length = dts.length ∧ ((attempts st dts ⟨t, i, y, m⟩).filter (fun a => a.stop.isNone)).length = 1 := by
  have hΦ : 0 < Φ := (zero_lt_one.trans hρ).trans_le (hfρ.trans hfΦ)
  have hf : 0 < f := (zero_lt_one.trans hρ).trans_le hfρ
  intro J
  induction J with
  | zero =>
    intro fuel dt y m log hfu h1 h2 h3 hc
    obtain ⟨fuel, rfl⟩ : ∃ k, fuel = k + 1 := ⟨fuel - 1, by omega⟩
    have h := hI y m hc dt h1 h2
    simp only [Ok1] at h
    rcases es : st t i dt (y, m) with ⟨_, y', m'⟩ | ⟨e, y', m'⟩
    · rw [es] at h
      have ha : attempts st [dt] ⟨t, i, y, m⟩ = [⟨i, t, dt, none, y'⟩] := by simp only [attempts, attemptAt, es]
      exact ⟨dt, [dt], [.step i t dt y], y', m', by simp only [recoverLoop, Prog.catchE, Prog.bind_run, callStep, emit, onYW, userObjects, es, Prog.pure_run, if_true], h1, h2, h,
        by simp only [posAfter, attemptAt, es, Option.bind_some], by simp, by simpa using ⟨h1, h2⟩, fun stop => ha ▸ part_ok true i t dt y y' stop, by rw [ha]; simp, by rw [ha]; rfl, by rw [ha]; rfl⟩
    · rw [es] at h
      rw [pow_zero, mul_one] at h3
      exact absurd h.2.1 (not_lt.2 h3)
  | succ J ih =>
    intro fuel dt y m log hfu h1 h2 h3 hc
    obtain ⟨fuel, rfl⟩ : ∃ k, fuel = k + 1 := ⟨fuel - 1, by omega⟩
    have h := hI y m hc dt h1 h2
    simp only [Ok1] at h
    rcases es : st t i dt (y, m) with ⟨_, y', m'⟩ | ⟨e, y', m'⟩
    · rw [es] at h
      have ha : attempts st [dt] ⟨t, i, y, m⟩ = [⟨i, t, dt, none, y'⟩] := by simp only [attempts, attemptAt, es]
      exact ⟨dt, [dt], [.step i t dt y], y', m', by simp only [recoverLoop, Prog.catchE, Prog.bind_run, callStep, emit, onYW, userObjects, es, Prog.pure_run, if_true], h1, h2, h,
        by simp only [posAfter, attemptAt, es, Option.bind_some], by simp, by simpa using ⟨h1, h2⟩, fun stop => ha ▸ part_ok true i t dt y y' stop, by rw [ha]; simp, by rw [ha]; rfl, by rw [ha]; rfl⟩
    · rw [es] at h
      obtain ⟨rfl, hbig, hI'⟩ := h
      have hdt0 : 0 < dt := h00.trans hbig
      have hdiv : h0 / Φ ≤ dt / f := by
        rw [div_le_div_iff₀ hΦ hf]
        exact mul_le_mul hbig.le hfΦ hf.le hdt0.le
      have hlo' : lo ≤ dt / f := ((le_div_iff₀ hΦ).2 hlo).trans hdiv
      have hmn' : ¬ dt / f < mn := not_lt.2 (((le_div_iff₀ hΦ).2 hmn).trans hdiv)
      have hle : dt / f ≤ dt := div_le_self hdt0.le (hρ.le.trans hfρ)
      have hpow : dt / f ≤ h0 * ρ ^ J := by
        rw [div_le_iff₀ hf]
        refine h3.trans ?_
        rw [pow_succ, ← mul_assoc]
        exact mul_le_mul_of_nonneg_left hfρ (mul_nonneg h00.le (pow_nonneg (zero_le_one.trans hρ.le) _))
      have ha : attempts st [dt] ⟨t, i, y, m⟩ = [⟨i, t, dt, some (.exc .timeStepFailure), y'⟩] := by simp only [attempts, attemptAt, es, if_true]
      have hp : posAfter st [dt] ⟨t, i, y, m⟩ = some ⟨t, i, y', m'⟩ := by simp only [posAfter, attemptAt, es, if_true, Option.bind_some]
      have hr : recoverLoop (userObjects st pol3 pol5 obs) t i mn f (fuel + 1) dt ⟨(m, u), y, log⟩ =
          recoverLoop (userObjects st pol3 pol5 obs) t i mn f fuel (dt / f) ⟨(m', u), y', log ++ [.step i t dt y]⟩ := by
        conv_lhs => simp only [recoverLoop, Prog.catchE, Prog.bind_run, callStep, emit, onYW, userObjects, es, Prog.pure_run, if_true, Bool.false_eq_true, if_false, if_neg hmn']
        rfl
      have happ : ∀ dts, attempts st (dt :: dts) ⟨t, i, y, m⟩ = [⟨i, t, dt, some (.exc .timeStepFailure), y'⟩] ++ attempts st dts ⟨t, i, y', m'⟩ := fun dts => by
        rw [← ha, ← attempts_append st [dt] dts _ _ hp]; rfl
      obtain ⟨d, dts, l, y'', m'', g1, g2, g3, g4, g5, g6, g7, g8, g9, g10, g11⟩ := ih fuel (dt / f) y' m' (log ++ [.step i t dt y]) (by omega) hlo' (hle.trans h2) hpow hI'
      refine ⟨d, dt :: dts, [.step i t dt y] ++ l, y'', m'', ?_, g2, g3, g4, ?_, by simpa using g6, ?_, fun stop => ?_, ?_, ?_, ?_⟩
      · rw [hr, g1, List.append_assoc]
      · have := posAfter_append st [dt] dts _ _ hp
        rw [List.singleton_append] at this
        rw [this, g5]
      · intro x hx
        rcases List.mem_cons.1 hx with rfl | hx
        · exact ⟨h1, h2⟩
        · exact g7 x hx
      · rw [happ, List.append_assoc]
        exact (part_tsf i t dt y y' none).append (g8 stop)
      · intro a haa
        rw [happ, List.mem_append] at haa
        rcases haa with haa | haa
        · simp only [List.mem_singleton] at haa
          rw [haa]
        · exact g9 a haa
      · rw [happ]; simp [g10]
      · rw [happ]; simpa using g11

/-- the loop of the advancer with recovery -/
theorem tLoop_recovers (I : Pos K Y M → Prop) (eps final δ H ρ Φ h0 lo : K) (heps : 0 ≤ eps) (hlo0 : 0 < lo) (hρ : 1 < ρ) (h00 : 0 < h0) (hlo : lo * Φ ≤ h0) (hlδ : lo ≤ δ) (J : Nat) (hJ : H ≤ h0 * ρ ^ J)
    (hpol : Recovering pol5 δ H ρ Φ h0) (hpat : Patient obs) (hI : ∀ c, I c → c.t < final → ∀ d, lo ≤ d → d ≤ H → Ok1 st I h0 c d) :
    ∀ (k fuel : Nat) (i : Int) (t : K) (v : DtVars K) (y : Y) (m : M) (u : U) (log : List (Ev K Y)), k + J ≤ fuel → t < final → final - t ≤ k * lo → i + k ≤ int32Max → I ⟨t, i, y, m⟩ →
      ∃ dts l s T, tLoop true eps final (userObjects st pol3 pol5 obs) fuel i t v ⟨(m, u), y, log⟩ = .ok T s ∧ s.log = log ++ l ∧ Part (attempts st dts ⟨t, i, y, m⟩) y true l s.y none ∧
        (attempts st dts ⟨t, i, y, m⟩).length = dts.length ∧ dts.length ≤ k * (J + 1) ∧ (∀ d ∈ dts, lo ≤ d ∧ d ≤ H) ∧ (∀ a ∈ attempts st dts ⟨t, i, y, m⟩, a.t < final) ∧
        ((attempts st dts ⟨t, i, y, m⟩).filter (fun a => a.stop.isNone)).length ≤ k ∧ final - eps ≤ T ∧ T ≤ final + H := by
  intro k
  induction k with
  | zero =>
    intro fuel i t v y m u log _ ht hk
    simp at hk
    exact absurd ht (not_lt.2 hk)
  | succ k ih =>
    intro fuel i t v y m u log hf ht hk hi hc
    obtain ⟨fuel, rfl⟩ : ∃ f, fuel = f + 1 := ⟨fuel - 1, by omega⟩
    obtain ⟨v', u1, ep, p1, p2, p3, p4, p5, p6⟩ := hpol i t v u
    have hp : callDtPolicy true (userObjects st pol3 pol5 obs) i t v ⟨(m, u), y, log⟩ = .ok v' ⟨(m, u1), y, log⟩ := by simp only [callDtPolicy, if_true, onW, userObjects, ep]
    have hmn : ¬ v'.dt < v'.minDt := not_lt.2 p3
    have hfac : ¬ (True ∧ v'.factor ≤ 1) := fun h => absurd h.2 (not_le.2 (hρ.trans_le p4))
    obtain ⟨d, dts1, l1, y', m', g1, g2, g3, g4, g5, g6, g7, g8, g9, g10, g11⟩ := recoverLoop_good st pol3 pol5 obs I lo H ρ Φ h0 t v'.minDt v'.factor i hρ p4 p5 h00 hlo p6 (fun y m hc => hI _ hc ht) u1 J (fuel + 1) v'.dt y m
      (log ++ [.setVars i t v']) (by omega) (hlδ.trans p1) p2 (p2.trans hJ) hc
    have ha : attempt true (userObjects st pol3 pol5 obs) t i v' (fuel + 1) ⟨(m, u1), y, log ++ [.setVars i t v']⟩ = .ok d ⟨(m', u1), y', log ++ [.setVars i t v'] ++ l1⟩ := by
      simp only [attempt, if_true]; exact g1
    rcases eo : obs i (t + d) y' u1 with ⟨_, u2⟩ | ⟨h, u2⟩
    swap
    · have := hpat i (t + d) y' u1
      rw [eo] at this
      simp at this
    have hoc : callObs (userObjects st pol3 pol5 obs) i (t + d) ⟨(m', u1), y', log ++ [.setVars i t v'] ++ l1⟩ =
        .ok () ⟨(m', u2), y', log ++ [.setVars i t v'] ++ l1 ++ [.obs i (t + d) y']⟩ := by
      simp only [callObs, Prog.bind_run, emit, onW, userObjects, eo]
    have hmax : i ≠ int32Max := by omega
    have hq : Part (attempts st dts1 ⟨t, i, y, m⟩) y true ([.setVars i t v'] ++ (l1 ++ [.obs i (t + d) y'])) y' none := (g8 none).quiet _ rfl rfl
    have hat : ∀ a ∈ attempts st dts1 ⟨t, i, y, m⟩, a.t < final := fun a haa => by rw [g9 a haa]; exact ht
    by_cases hstop : (decide (|t + d - final| ≤ eps) || decide (t + d > final)) = true
    · have hr : tLoop true eps final (userObjects st pol3 pol5 obs) (fuel + 1) i t v ⟨(m, u), y, log⟩ = .ok (t + d) ⟨(m', u2), y', log ++ [.setVars i t v'] ++ l1 ++ [.obs i (t + d) y']⟩ := by
        simp only [tLoop, Prog.bind_run, hp, emit, if_neg hmn, if_neg hfac, ha, hoc, if_neg hmax, if_pos hstop, Prog.pure_run]
      refine ⟨dts1, _, _, _, hr, by simp only [List.append_assoc], hq, g10, ?_, g7, hat, by rw [g11]; omega, ?_, add_le_add ht.le g3⟩
      · calc dts1.length ≤ J + 1 := g6
          _ ≤ (k + 1) * (J + 1) := Nat.le_mul_of_pos_left _ (by omega)
      · simp only [Bool.or_eq_true, decide_eq_true_eq] at hstop
        rcases hstop with h | h
        · have := (abs_le.1 h).1
          linarith
        · linarith
    · have hr : tLoop true eps final (userObjects st pol3 pol5 obs) (fuel + 1) i t v ⟨(m, u), y, log⟩ =
          tLoop true eps final (userObjects st pol3 pol5 obs) fuel (i + 1) (t + d) { v' with dt := d } ⟨(m', u2), y', log ++ [.setVars i t v'] ++ l1 ++ [.obs i (t + d) y']⟩ := by
        conv_lhs => simp only [tLoop, Prog.bind_run, hp, emit, if_neg hmn, if_neg hfac, ha, hoc, if_neg hmax, if_neg hstop]
      simp only [Bool.or_eq_true, decide_eq_true_eq, not_or, not_le, not_lt] at hstop
      have ht' : t + d < final := by
        rcases lt_or_eq_of_le hstop.2 with h | h
        · exact h
        · rw [h, sub_self, abs_zero] at hstop
          exact absurd hstop.1 (not_lt.2 heps)
      obtain ⟨dts, l, s, T, e1, e2, e3, e4, e5, e6, e7, e8, e9, e10⟩ := ih fuel (i + 1) (t + d) { v' with dt := d } y' m' u2 (log ++ [.setVars i t v'] ++ l1 ++ [.obs i (t + d) y']) (by omega) ht'
        (by push_cast at hk; linarith [g2]) (by push_cast at hi; omega) g4
      have happ := attempts_append st dts1 dts _ _ g5
      refine ⟨dts1 ++ dts, ([.setVars i t v'] ++ (l1 ++ [.obs i (t + d) y'])) ++ l, s, T, by rw [hr, e1], ?_, ?_, ?_, ?_, ?_, ?_, ?_, e9, e10⟩
      · rw [e2]; simp only [List.append_assoc]
      · rw [happ]
        exact hq.append e3
      · rw [happ]; simp [e4, g10]
      · rw [List.length_append, Nat.add_mul, Nat.one_mul]; omega
      · intro x hx
        rcases List.mem_append.1 hx with hx | hx
        · exact g7 x hx
        · exact e6 x hx
      · rw [happ]
        intro a haa
        rcases List.mem_append.1 haa with haa | haa
        · exact hat a haa
        · exact e7 a haa
      · rw [happ, List.filter_append, List.length_append, g11]; omega

end Pressio.Lemmas.AdvanceDrive
