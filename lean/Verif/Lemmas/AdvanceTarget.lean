import Verif.Spec.AdvanceTarget
import Mathlib.Tactic.Ring
import Mathlib.Tactic.Linarith

namespace Pressio.Lemmas.AdvanceTarget
set_option autoImplicit false
open Pressio Pressio.Model.Advance Pressio.Spec.AdvanceTarget

variable {W T Y : Type} [Field T] [LinearOrder T]

/-- what the recovery loop does, in the case of success -/
theorem recoverLoop_ok (c : Calls W T Y) (time : T) (step : Int) (minDt factor : T) (fuel : Nat) :
    ∀ (dt d : T) (s s' : St W T Y), recoverLoop c time step minDt factor fuel dt s = .ok d s' →
    ∃ (m : Nat) (ya : Nat → Y) (wa : Nat → W), ya 0 = s.y ∧ wa 0 = s.w ∧
      (∀ j < m, c.stepper time step (dt / factor ^ j) (ya j, wa j) = .stop (.exc .timeStepFailure) (ya (j+1), wa (j+1))) ∧
      (∀ j < m, minDt ≤ dt / factor ^ (j+1)) ∧ d = dt / factor ^ m ∧
      c.stepper time step d (ya m, wa m) = .ok () (s'.y, s'.w) ∧
      s'.log = s.log ++ (List.range (m+1)).map (fun j => .step step time (dt / factor ^ j) (ya j)) := by
  induction fuel with
  | zero => intro dt d s s' h; simp [recoverLoop] at h
  | succ fuel ih =>
    intro dt d s s' h
    rw [recoverLoop] at h
    simp only [Prog.bind_run, Prog.catchE, callStep, emit, onYW] at h
    rcases hs : c.stepper time step dt (s.y, s.w) with ⟨⟨⟩, y1, w1⟩ | ⟨hstop, y1, w1⟩
    · rw [hs] at h
      simp at h
      obtain ⟨rfl, rfl⟩ := h
      exact ⟨0, fun _ => s.y, fun _ => s.w, rfl, rfl, by simp, by simp, by simp, by simpa using hs, by simp⟩
    · rw [hs] at h
      rcases hstop with e | u | _
      · by_cases he : e = Exc.timeStepFailure
        · simp only [he, if_true, Prog.pure_run, Bool.false_eq_true, if_false] at h
          by_cases hm : dt / factor < minDt
          · simp [hm] at h
          · simp only [hm, if_false] at h
            obtain ⟨m, ya, wa, h1, h2, h3, h4, h5, h6, h7⟩ := ih _ _ _ _ h
            have pw : ∀ j, dt / factor / factor ^ j = dt / factor ^ (j+1) := by
              intro j; rw [pow_succ', div_div]
            refine ⟨m+1, fun n => Nat.casesOn n s.y ya, fun n => Nat.casesOn n s.w wa, rfl, rfl, ?_, ?_, ?_, ?_, ?_⟩
            · intro j hj
              cases j with
              | zero =>
                simp only [pow_zero, div_one]
                have e1 : ya 0 = y1 := h1
                have e2 : wa 0 = w1 := h2
                have : c.stepper time step dt (s.y, s.w) = .stop (.exc .timeStepFailure) (ya 0, wa 0) := by
                  rw [hs, he, e1, e2]
                exact this
              | succ j =>
                have := h3 j (by omega)
                rw [pw] at this
                exact this
            · intro j hj
              cases j with
              | zero => simpa using not_lt.1 hm
              | succ j => have := h4 j (by omega); rwa [pw] at this
            · rw [h5, pw]
            · exact h6
            · rw [h7, List.range_succ_eq_map (n := m+1)]
              simp [pw, Function.comp_def]
        · simp [he] at h
      · simp at h
      · simp at h

/-- prepend a step to a trace -/
def TTrace.cons (t0 : T) (v0 : DtVars T) (m0 : Nat) (y0 : Y) (w0 : W) (ya0 : Nat → Y) (wa0 : Nat → W)
    (tr : TTrace W T Y) : TTrace W T Y where
  t := fun n => Nat.casesOn n t0 tr.t
  v := fun n => Nat.casesOn n v0 tr.v
  m := fun n => Nat.casesOn n m0 tr.m
  y := fun n => Nat.casesOn n y0 tr.y
  w := fun n => Nat.casesOn n w0 tr.w
  ya := fun n => Nat.casesOn n ya0 tr.ya
  wa := fun n => Nat.casesOn n wa0 tr.wa

omit [LinearOrder T] in
theorem tblocks_cons (first : Int) (t0 : T) (v0 : DtVars T) (m0 : Nat) (y0 : Y) (w0 : W) (ya0 : Nat → Y)
    (wa0 : Nat → W) (tr : TTrace W T Y) (n : Nat) :
    tblocks first (TTrace.cons t0 v0 m0 y0 w0 ya0 wa0 tr) (n+1)
      = (.setVars first t0 v0 ::
          (List.range (m0+1)).map (fun j => .step first t0 (v0.dt / v0.factor ^ j) (ya0 j))
          ++ [.obs first (t0 + v0.dt / v0.factor ^ m0) (tr.y 0)])
        ++ tblocks (first+1) tr n := by
  unfold tblocks
  rw [List.range_succ_eq_map, List.flatMap_cons, List.flatMap_map]
  congr 1
  · simp [tblock, TTrace.cons, TTrace.size, TTrace.used]
  · congr 1
    funext k
    have e : first + ((k : Int) + 1) = first + 1 + (k : Int) := by ring
    simp [tblock, TTrace.cons, TTrace.size, TTrace.used, e]

theorem tstepOk_cons_succ {recovery : Bool} {c : Calls W T Y} {first : Int} {vb v0 : DtVars T} {t0 : T} {m0 : Nat} {y0 : Y}
    {w0 : W} {ya0 : Nat → Y} {wa0 : Nat → W} {tr : TTrace W T Y} {k : Nat}
    (h : TStepOk recovery c (first+1) ⟨v0.dt / v0.factor ^ m0, v0.minDt, v0.factor⟩ tr k) :
    TStepOk recovery c first vb (TTrace.cons t0 v0 m0 y0 w0 ya0 wa0 tr) (k+1) := by
  have e : first + ((k+1 : Nat) : Int) = first + 1 + (k : Int) := by push_cast; ring
  have hb : (TTrace.cons t0 v0 m0 y0 w0 ya0 wa0 tr).before vb (k+1)
      = tr.before ⟨v0.dt / v0.factor ^ m0, v0.minDt, v0.factor⟩ k := by
    cases k <;> rfl
  constructor
  · rw [e, hb]; exact h.policy
  · exact h.start
  · rw [e]; exact h.failed
  · exact h.bounded
  · exact h.factor
  · exact h.single
  · exact h.time
  · rw [e]; exact h.success

/-- what the target-time loop does, when it returns -/
theorem tLoop_ok (recovery : Bool) (eps final : T) (c : Calls W T Y) (fuel : Nat) :
    ∀ (first : Int) (time tEnd : T) (v : DtVars T) (s s' : St W T Y),
    tLoop recovery eps final c fuel first time v s = .ok tEnd s' →
    ∃ (n : Nat) (tr : TTrace W T Y), tr.t 0 = time ∧ tr.y 0 = s.y ∧ tr.w 0 = s.w ∧
      (∀ k ≤ n, TStepOk recovery c first v tr k) ∧
      (∀ k < n, ¬ Reached eps final (tr.t (k+1))) ∧ Reached eps final (tr.t (n+1)) ∧
      tEnd = tr.t (n+1) ∧ s'.y = tr.y (n+1) ∧ s'.w = tr.w (n+1) ∧
      s'.log = s.log ++ tblocks first tr (n+1) ∧ (∀ k ≤ n, first + (k : Int) ≠ int32Max) := by
  induction fuel with
  | zero => intro first time tEnd v s s' h; simp [tLoop] at h
  | succ fuel ih =>
    intro first time tEnd v s s' h
    rw [tLoop] at h
    simp only [Prog.bind_run] at h
    -- the policy call
    obtain ⟨v1, w1, hpol, hpolspec⟩ : ∃ v1 w1, callDtPolicy recovery c first time v s = .ok v1 { s with w := w1 } ∧
        (if recovery then c.dtPolicy5 first time v s.w = .ok v1 w1
         else c.dtPolicy3 first time v.dt s.w = .ok v1.dt w1 ∧ v1.minDt = v.minDt ∧ v1.factor = v.factor) := by
      unfold callDtPolicy at h ⊢
      cases recovery with
      | true =>
        simp only [if_true, onW] at h ⊢
        rcases hp : c.dtPolicy5 first time v s.w with ⟨v1, w1⟩ | ⟨hh, w1⟩
        · exact ⟨v1, w1, rfl, rfl⟩
        · rw [hp] at h; simp at h
      | false =>
        simp only [Bool.false_eq_true, if_false, Prog.bind_run, onW] at h ⊢
        rcases hp : c.dtPolicy3 first time v.dt s.w with ⟨d1, w1⟩ | ⟨hh, w1⟩
        · exact ⟨{ v with dt := d1 }, w1, rfl, rfl, rfl, rfl⟩
        · rw [hp] at h; simp at h
    rw [hpol] at h
    simp only [emit] at h
    by_cases hmin : v1.dt < v1.minDt
    · simp [hmin] at h
    rw [if_neg hmin] at h
    by_cases hfac : recovery = true ∧ v1.factor ≤ 1
    · rw [if_pos hfac] at h; simp at h
    rw [if_neg hfac] at h
    -- the attempts
    obtain ⟨m, ya, wa, s2, hya, hwa, hfail, hbnd, hsucc, hlog, hatt⟩ :
        ∃ (m : Nat) (ya : Nat → Y) (wa : Nat → W) (s2 : St W T Y), ya 0 = s.y ∧ wa 0 = w1 ∧
        (∀ j < m, c.stepper time first (v1.dt / v1.factor ^ j) (ya j, wa j)
            = .stop (.exc .timeStepFailure) (ya (j+1), wa (j+1))) ∧
        (∀ j < m, v1.minDt ≤ v1.dt / v1.factor ^ (j+1)) ∧
        c.stepper time first (v1.dt / v1.factor ^ m) (ya m, wa m) = .ok () (s2.y, s2.w) ∧
        s2.log = s.log ++ [.setVars first time v1] ++
          (List.range (m+1)).map (fun j => .step first time (v1.dt / v1.factor ^ j) (ya j)) ∧
        (recovery = false → m = 0) ∧
        attempt recovery c time first v1 (fuel+1) ⟨w1, s.y, s.log ++ [.setVars first time v1]⟩
            = .ok (v1.dt / v1.factor ^ m) s2 := by
      unfold attempt at h ⊢
      simp only [Prog.bind_run] at h
      cases recovery with
      | true =>
        simp only [if_true] at h ⊢
        rcases hr : recoverLoop c time first v1.minDt v1.factor (fuel+1) v1.dt
            ⟨w1, s.y, s.log ++ [.setVars first time v1]⟩ with ⟨d, s2⟩ | ⟨hh, s2⟩
        · obtain ⟨m, ya, wa, h1, h2, h3, h4, h5, h6, h7⟩ := recoverLoop_ok _ _ _ _ _ _ _ _ _ _ hr
          subst h5
          exact ⟨m, ya, wa, s2, h1, h2, h3, h4, h6, h7, by simp, hr⟩
        · rw [hr] at h; simp at h
      | false =>
        simp only [Bool.false_eq_true, if_false, Prog.bind_run, callStep, emit, onYW] at h ⊢
        rcases hs : c.stepper time first v1.dt (s.y, w1) with ⟨⟨⟩, y2, w2⟩ | ⟨hh, y2, w2⟩
        · refine ⟨0, fun _ => s.y, fun _ => w1, ⟨w2, y2, s.log ++ [.setVars first time v1] ++ [.step first time v1.dt s.y]⟩,
            rfl, rfl, by simp, by simp, ?_, ?_, by simp, ?_⟩
          · simpa using hs
          · simp
          · simp
        · rw [hs] at h; simp at h
    simp only [Prog.bind_run, hatt.2] at h
    simp only [callObs, Prog.bind_run, emit, onW] at h
    set d := v1.dt / v1.factor ^ m with hd
    rcases ho : c.observer first (time + d) s2.y s2.w with ⟨⟨⟩, w3⟩ | ⟨hh, w3⟩
    swap
    · rw [ho] at h; simp at h
    rw [ho] at h
    simp only at h
    by_cases hmax : first = int32Max
    · simp [hmax] at h
    rw [if_neg hmax] at h
    have hbnd' : ∀ j ≤ m, v1.minDt ≤ v1.dt / v1.factor ^ j := by
      intro j hj
      cases j with
      | zero => simpa using not_lt.1 hmin
      | succ j => exact hbnd j (by omega)
    have hfac' : recovery = true → 1 < v1.factor := by
      intro hr
      by_contra hcon
      exact hfac ⟨hr, not_lt.1 hcon⟩
    by_cases hstop : |time + d - final| ≤ eps ∨ time + d > final
    · have hstop' : (decide (|time + d - final| ≤ eps) || decide (time + d > final)) = true := by simpa using hstop
      rw [if_pos hstop'] at h
      simp only [Prog.pure_run, Res.ok.injEq] at h
      obtain ⟨rfl, rfl⟩ := h
      refine ⟨0, TTrace.cons time v1 m s.y s.w ya wa
        ⟨fun _ => time + d, fun _ => v1, fun _ => 0, fun _ => s2.y, fun _ => w3, fun _ _ => s2.y, fun _ _ => w3⟩,
        rfl, rfl, rfl, ?_, by simp, ?_, rfl, rfl, rfl, ?_, by simpa using hmax⟩
      · intro k hk
        obtain rfl : k = 0 := by omega
        constructor
        · exact ⟨w1, by simpa [TTrace.cons, TTrace.before] using hpolspec, hwa⟩
        · exact hya
        · simpa [TTrace.cons, TTrace.size] using hfail
        · simpa [TTrace.cons, TTrace.size] using hbnd'
        · exact hfac'
        · exact hatt.1
        · rfl
        · exact ⟨s2.w, by simpa [TTrace.cons, TTrace.size, TTrace.used] using hsucc, by simpa [TTrace.cons] using ho⟩
      · exact hstop
      · rw [tblocks_cons, hlog]
        simp [tblocks, hd]
    · have hstop' : ¬ ((decide (|time + d - final| ≤ eps) || decide (time + d > final)) = true) := by simpa using hstop
      rw [if_neg hstop'] at h
      obtain ⟨n, tr, h1, h2, h3, h4, h5, h6, h7, h8, h9, h10, h11⟩ := ih _ _ _ _ _ _ h
      simp only at h2 h3
      refine ⟨n+1, TTrace.cons time v1 m s.y s.w ya wa tr, rfl, rfl, rfl, ?_, ?_, h6, h7, h8, h9, ?_, ?_⟩
      · intro k hk
        cases k with
        | zero =>
          constructor
          · exact ⟨w1, by simpa [TTrace.cons, TTrace.before] using hpolspec, hwa⟩
          · exact hya
          · simpa [TTrace.cons, TTrace.size] using hfail
          · simpa [TTrace.cons, TTrace.size] using hbnd'
          · exact hfac'
          · exact hatt.1
          · exact h1
          · exact ⟨s2.w, by simpa [TTrace.cons, TTrace.size, TTrace.used, h2] using hsucc,
              by simpa [TTrace.cons, h1, h2, h3] using ho⟩
        | succ k => exact tstepOk_cons_succ (h4 k (by omega))
      · intro k hk
        cases k with
        | zero =>
          have : (TTrace.cons time v1 m s.y s.w ya wa tr).t 1 = time + d := h1
          rw [this]
          exact hstop
        | succ k => exact h5 k (by omega)
      · rw [h10, tblocks_cons, hlog]
        simp [hd, h2]
      · intro k hk
        cases k with
        | zero => simpa using hmax
        | succ k =>
          have := h11 k (by omega)
          intro hcon
          apply this
          rw [← hcon]
          push_cast
          ring

end Pressio.Lemmas.AdvanceTarget
