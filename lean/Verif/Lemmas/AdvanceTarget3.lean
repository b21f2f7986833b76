import Verif.Lemmas.AdvanceTarget2
import Verif.Spec.AdvanceTargetFail

namespace Pressio.Lemmas.AdvanceTarget
set_option autoImplicit false
open Pressio Pressio.Model.Advance Pressio.Spec.AdvanceTarget

variable {W T Y : Type} [Field T] [LinearOrder T]

/-- how the recovery loop can stop -/
theorem recoverLoop_stop (c : Calls W T Y) (time : T) (step : Int) (minDt factor : T) (fuel : Nat) :
    ∀ (dt : T) (h : Stop) (s s' : St W T Y), h ≠ .fuel → recoverLoop c time step minDt factor fuel dt s = .stop h s' →
    ∃ (m : Nat) (ya : Nat → Y) (wa : Nat → W), ya 0 = s.y ∧ wa 0 = s.w ∧
      (∀ j < m, c.stepper time step (dt / factor ^ j) (ya j, wa j) = .stop (.exc .timeStepFailure) (ya (j+1), wa (j+1))) ∧
      (∀ j < m, minDt ≤ dt / factor ^ (j+1)) ∧
      s'.log = s.log ++ (List.range (m+1)).map (fun j => .step step time (dt / factor ^ j) (ya j)) ∧
      ((c.stepper time step (dt / factor ^ m) (ya m, wa m) = .stop h (s'.y, s'.w) ∧ h ≠ .exc .timeStepFailure) ∨
       (c.stepper time step (dt / factor ^ m) (ya m, wa m) = .stop (.exc .timeStepFailure) (s'.y, s'.w) ∧
         dt / factor ^ (m+1) < minDt ∧
         h = .exc (.runtimeError "violation of minimum time step while recovering"))) := by
  induction fuel with
  | zero =>
    intro dt h s s' hne hr
    simp [recoverLoop] at hr
    exact absurd hr.1.symm hne
  | succ fuel ih =>
    intro dt h s s' hne hr
    rw [recoverLoop] at hr
    simp only [Prog.bind_run, Prog.catchE, callStep, emit, onYW] at hr
    rcases hs : c.stepper time step dt (s.y, s.w) with ⟨⟨⟩, y1, w1⟩ | ⟨hstop, y1, w1⟩
    · rw [hs] at hr
      simp at hr
    · rw [hs] at hr
      by_cases he : hstop = .exc .timeStepFailure
      · subst he
        simp only [if_true, Prog.pure_run, Bool.false_eq_true, if_false] at hr
        by_cases hm : dt / factor < minDt
        · simp only [hm, if_true, Prog.throwE_run, Res.stop.injEq] at hr
          obtain ⟨rfl, rfl⟩ := hr
          exact ⟨0, fun _ => s.y, fun _ => s.w, rfl, rfl, by simp, by simp, by simp,
            Or.inr ⟨by simpa using hs, by simpa using hm, rfl⟩⟩
        · simp only [hm, if_false] at hr
          obtain ⟨m, ya, wa, h1, h2, h3, h4, h5, h6⟩ := ih _ _ _ _ hne hr
          have pw : ∀ j, dt / factor / factor ^ j = dt / factor ^ (j+1) := by
            intro j; rw [pow_succ', div_div]
          refine ⟨m+1, fun n => Nat.casesOn n s.y ya, fun n => Nat.casesOn n s.w wa, rfl, rfl, ?_, ?_, ?_, ?_⟩
          · intro j hj
            cases j with
            | zero =>
              simp only [pow_zero, div_one]
              have e1 : ya 0 = y1 := h1
              have e2 : wa 0 = w1 := h2
              have : c.stepper time step dt (s.y, s.w) = .stop (.exc .timeStepFailure) (ya 0, wa 0) := by
                rw [hs, e1, e2]
              exact this
            | succ j =>
              have := h3 j (by omega)
              rw [pw] at this
              exact this
          · intro j hj
            cases j with
            | zero => simpa using not_lt.1 hm
            | succ j => have := h4 j (by omega); rwa [pw] at this
          · rw [h5, List.range_succ_eq_map (n := m+1)]
            simp [pw, Function.comp_def]
          · rw [pw, pw] at h6
            exact h6
      · have hr' : Res.stop hstop ({ w := w1, y := y1, log := s.log ++ [.step step time dt s.y] } : St W T Y)
            = (.stop h s' : Res (St W T Y) T) := by
          rcases hstop with e | u | _
          · have : e ≠ .timeStepFailure := fun h => he (by rw [h])
            simpa [this] using hr
          · simpa using hr
          · simpa using hr
        simp only [Res.stop.injEq] at hr'
        obtain ⟨rfl, rfl⟩ := hr'
        exact ⟨0, fun _ => s.y, fun _ => s.w, rfl, rfl, by simp, by simp, by simp, Or.inl ⟨by simpa using hs, he⟩⟩

omit [LinearOrder T] in
theorem before_cons (t0 : T) (vb v0 : DtVars T) (m0 : Nat) (y0 : Y) (w0 : W) (ya0 : Nat → Y) (wa0 : Nat → W)
    (tr : TTrace W T Y) (k : Nat) : (TTrace.cons t0 v0 m0 y0 w0 ya0 wa0 tr).before vb (k+1)
      = tr.before ⟨v0.dt / v0.factor ^ m0, v0.minDt, v0.factor⟩ k := by
  cases k <;> rfl

theorem tfails_cons_succ {recovery : Bool} {c : Calls W T Y} {first : Int} {vb v0 : DtVars T} {t0 : T} {m0 : Nat} {y0 : Y}
    {w0 : W} {ya0 : Nat → Y} {wa0 : Nat → W} {tr : TTrace W T Y} {k : Nat} {h : Stop} {evs : List (Ev T Y)} {y' : Y} {w' : W}
    (hf : TFails recovery c (first+1) ⟨v0.dt / v0.factor ^ m0, v0.minDt, v0.factor⟩ tr k h evs y' w') :
    TFails recovery c first vb (TTrace.cons t0 v0 m0 y0 w0 ya0 wa0 tr) (k+1) h evs y' w' := by
  have e : first + 1 + (k : Int) = first + ((k+1 : Nat) : Int) := by push_cast; ring
  have hb := before_cons t0 vb v0 m0 y0 w0 ya0 wa0 tr k
  have hpr : PolicyReturned recovery c (first+1) ⟨v0.dt / v0.factor ^ m0, v0.minDt, v0.factor⟩ tr k →
      PolicyReturned recovery c first vb (TTrace.cons t0 v0 m0 y0 w0 ya0 wa0 tr) (k+1) := by
    rintro ⟨a, b⟩
    refine ⟨a, ?_⟩
    rw [e] at b
    rw [hb]
    exact b
  have hfb : ∀ j, FailedBefore recovery c (first+1) tr k j →
      FailedBefore recovery c first (TTrace.cons t0 v0 m0 y0 w0 ya0 wa0 tr) (k+1) j := by
    rintro j ⟨a, b, d, f⟩
    refine ⟨a, b, d, ?_⟩
    rw [e] at f
    exact f
  have hat : ∀ j, attemptsUpTo (first+1) tr k j = attemptsUpTo first (TTrace.cons t0 v0 m0 y0 w0 ya0 wa0 tr) (k+1) j := by
    intro j
    unfold attemptsUpTo
    rw [e]
    rfl
  cases hf with
  | policy h1 =>
    refine TFails.policy ?_
    rw [hb]
    rw [e] at h1
    exact h1
  | tooSmall h1 h2 =>
    have := TFails.tooSmall (hpr h1) h2
    rw [← e] at this
    exact this
  | badFactor h1 h2 h3 =>
    have := TFails.badFactor (hpr h1) h2 h3
    rw [← e] at this
    exact this
  | stepper j h1 h2 h3 h4 =>
    rw [hat j, e]
    exact TFails.stepper j (hpr h1) (hfb j h2) (by rw [e] at h3; exact h3) h4
  | exhausted j h1 h2 h3 h4 h5 =>
    rw [hat j, e]
    exact TFails.exhausted j (hpr h1) (hfb j h2) h3 (by rw [e] at h4; exact h4) h5
  | observer j h1 h2 h3 h4 =>
    rw [hat j, e]
    exact TFails.observer j (hpr h1) (hfb j h2) (by rw [e] at h3; exact h3) (by rw [e] at h4; exact h4)
  | overflow h1 h2 =>
    have := TFails.overflow (tstepOk_cons_succ (vb := vb) (t0 := t0) (y0 := y0) (w0 := w0) (ya0 := ya0) (wa0 := wa0) h1)
      (by rw [← e]; exact h2)
    have e2 : tblock (first+1) tr k = tblock first (TTrace.cons t0 v0 m0 y0 w0 ya0 wa0 tr) (k+1) := by
      unfold tblock
      rw [e]
      rfl
    rw [e2]
    exact this

/-- how the target-time loop can stop -/
theorem tLoop_stop (recovery : Bool) (eps final : T) (c : Calls W T Y) (fuel : Nat) :
    ∀ (first : Int) (time : T) (v : DtVars T) (h : Stop) (s s' : St W T Y), h ≠ .fuel →
    tLoop recovery eps final c fuel first time v s = .stop h s' →
    ∃ (n : Nat) (tr : TTrace W T Y) (evs : List (Ev T Y)), tr.t 0 = time ∧ tr.y 0 = s.y ∧ tr.w 0 = s.w ∧
      (∀ k < n, TStepOk recovery c first v tr k) ∧
      (∀ k < n, ¬ Reached eps final (tr.t (k+1))) ∧
      TFails recovery c first v tr n h evs s'.y s'.w ∧
      s'.log = s.log ++ tblocks first tr n ++ evs := by
  induction fuel with
  | zero => intro first time v h s s' hne hr; simp [tLoop] at hr; exact absurd hr.1.symm hne
  | succ fuel ih =>
    intro first time v h s s' hne hr
    rw [tLoop] at hr
    simp only [Prog.bind_run] at hr
    -- a trace that only has its first entries set
    let mk : DtVars T → (Nat → Y) → (Nat → W) → TTrace W T Y := fun v1 ya wa =>
      ⟨fun _ => time, fun _ => v1, fun _ => 0, fun _ => s.y, fun _ => s.w, fun _ => ya, fun _ => wa⟩
    -- the policy call
    have hpolicy : (∃ w1, s' = ⟨w1, s.y, s.log⟩ ∧
          (if recovery then c.dtPolicy5 first time v s.w = .stop h w1 else c.dtPolicy3 first time v.dt s.w = .stop h w1)) ∨
        ∃ v1 w1, callDtPolicy recovery c first time v s = .ok v1 { s with w := w1 } ∧
        (if recovery then c.dtPolicy5 first time v s.w = .ok v1 w1
         else c.dtPolicy3 first time v.dt s.w = .ok v1.dt w1 ∧ v1.minDt = v.minDt ∧ v1.factor = v.factor) := by
      unfold callDtPolicy at hr ⊢
      cases recovery with
      | true =>
        simp only [if_true, onW] at hr ⊢
        rcases hp : c.dtPolicy5 first time v s.w with ⟨v1, w1⟩ | ⟨hh, w1⟩
        · exact Or.inr ⟨v1, w1, rfl, rfl⟩
        · left; rw [hp] at hr; simp at hr; obtain ⟨rfl, rfl⟩ := hr; exact ⟨w1, rfl, rfl⟩
      | false =>
        simp only [Bool.false_eq_true, if_false, Prog.bind_run, onW] at hr ⊢
        rcases hp : c.dtPolicy3 first time v.dt s.w with ⟨d1, w1⟩ | ⟨hh, w1⟩
        · exact Or.inr ⟨{ v with dt := d1 }, w1, rfl, rfl, rfl, rfl⟩
        · left; rw [hp] at hr; simp at hr; obtain ⟨rfl, rfl⟩ := hr; exact ⟨w1, rfl, rfl⟩
    rcases hpolicy with ⟨w1, rfl, hpol⟩ | ⟨v1, w1, hpol, hpolspec⟩
    · refine ⟨0, mk v (fun _ => s.y) (fun _ => s.w), [], rfl, rfl, rfl, by simp, by simp, ?_, by simp [tblocks]⟩
      refine TFails.policy ?_
      simpa [mk, TTrace.before] using hpol
    rw [hpol] at hr
    simp only [emit] at hr
    have hPR : ∀ (ya : Nat → Y) (wa : Nat → W), ya 0 = s.y → wa 0 = w1 →
        PolicyReturned recovery c first v (mk v1 ya wa) 0 := by
      intro ya wa h1 h2
      refine ⟨h1, ?_⟩
      simpa [mk, TTrace.before, h2] using hpolspec
    by_cases hmin : v1.dt < v1.minDt
    · simp only [hmin, if_true, Prog.throwE_run, Res.stop.injEq] at hr
      obtain ⟨rfl, rfl⟩ := hr
      refine ⟨0, mk v1 (fun _ => s.y) (fun _ => w1), [.setVars first time v1], rfl, rfl, rfl, by simp, by simp, ?_,
        by simp [tblocks]⟩
      have := TFails.tooSmall (hPR (fun _ => s.y) (fun _ => w1) rfl rfl) hmin
      simpa [mk] using this
    rw [if_neg hmin] at hr
    by_cases hfac : recovery = true ∧ v1.factor ≤ 1
    · rw [if_pos hfac] at hr
      simp only [Prog.throwE_run, Res.stop.injEq] at hr
      obtain ⟨rfl, rfl⟩ := hr
      refine ⟨0, mk v1 (fun _ => s.y) (fun _ => w1), [.setVars first time v1], rfl, rfl, rfl, by simp, by simp, ?_,
        by simp [tblocks]⟩
      have := TFails.badFactor (hPR (fun _ => s.y) (fun _ => w1) rfl rfl) hfac.1 hfac.2
      simpa [mk] using this
    rw [if_neg hfac] at hr
    have hfac' : recovery = true → 1 < v1.factor := by
      intro hrr
      by_contra hcon
      exact hfac ⟨hrr, not_lt.1 hcon⟩
    have hFB : ∀ (m : Nat) (ya : Nat → Y) (wa : Nat → W), (recovery = false → m = 0) →
        (∀ j < m, c.stepper time first (v1.dt / v1.factor ^ j) (ya j, wa j)
            = .stop (.exc .timeStepFailure) (ya (j+1), wa (j+1))) →
        (∀ j < m, v1.minDt ≤ v1.dt / v1.factor ^ (j+1)) → FailedBefore recovery c first (mk v1 ya wa) 0 m := by
      intro m ya wa h1 h2 h3
      refine ⟨hfac', h1, ?_, by simpa [mk, TTrace.size] using h2⟩
      intro i hi
      cases i with
      | zero => simpa [mk, TTrace.size] using not_lt.1 hmin
      | succ i => simpa [mk, TTrace.size] using h3 i (by omega)
    simp only [Prog.bind_run] at hr
    rcases hat : attempt recovery c time first v1 (fuel+1) ⟨w1, s.y, s.log ++ [.setVars first time v1]⟩ with
      ⟨d, s2⟩ | ⟨hh, s2⟩
    swap
    · -- the attempts did not succeed
      simp only [hat, Res.stop.injEq] at hr
      obtain ⟨rfl, rfl⟩ := hr
      cases recovery with
      | true =>
        simp only [attempt, if_true] at hat
        obtain ⟨m, ya, wa, h1, h2, h3, h4, h5, h6⟩ := recoverLoop_stop _ _ _ _ _ _ _ _ _ _ hne hat
        refine ⟨0, mk v1 ya wa, .setVars first time v1 :: attemptsUpTo first (mk v1 ya wa) 0 m, rfl, rfl, rfl, by simp, by simp,
          ?_, ?_⟩
        · have h0 : (first : Int) = first + ((0:Nat):Int) := by simp
          rcases h6 with ⟨h6, h7⟩ | ⟨h6, h7, rfl⟩
          · have := TFails.stepper (v0 := v) m (hPR ya wa h1 h2) (hFB m ya wa (by simp) h3 h4)
              (by simpa [mk, TTrace.size] using h6) (fun _ => h7)
            simpa [mk] using this
          · have := TFails.exhausted (v0 := v) m (hPR ya wa h1 h2) (hFB m ya wa (by simp) h3 h4) rfl
              (by simpa [mk, TTrace.size] using h6) (by simpa [mk, TTrace.size] using h7)
            simpa [mk] using this
        · rw [h5]
          simp [tblocks, attemptsUpTo, mk, TTrace.size]
      | false =>
        simp only [attempt, Bool.false_eq_true, if_false, Prog.bind_run, callStep, emit, onYW] at hat
        rcases hs : c.stepper time first v1.dt (s.y, w1) with ⟨⟨⟩, y2, w2⟩ | ⟨hh', y2, w2⟩
        · rw [hs] at hat; simp at hat
        rw [hs] at hat
        simp only [Res.stop.injEq] at hat
        obtain ⟨rfl, rfl⟩ := hat
        refine ⟨0, mk v1 (fun _ => s.y) (fun _ => w1), .setVars first time v1 ::
          attemptsUpTo first (mk v1 (fun _ => s.y) (fun _ => w1)) 0 0, rfl, rfl, rfl, by simp, by simp, ?_, ?_⟩
        · have := TFails.stepper (v0 := v) 0 (hPR (fun _ => s.y) (fun _ => w1) rfl rfl)
            (hFB 0 (fun _ => s.y) (fun _ => w1) (by simp) (by simp) (by simp))
            (h := hh') (y' := y2) (w' := w2) (by simpa [mk, TTrace.size] using hs) (by simp)
          simpa [mk] using this
        · simp [tblocks, attemptsUpTo, mk, TTrace.size]
    simp only [hat] at hr
    -- the attempts succeeded
    obtain ⟨m, ya, wa, hya, hwa, hfail, hbnd, hsucc, hlog, hm0, hd⟩ :
        ∃ (m : Nat) (ya : Nat → Y) (wa : Nat → W), ya 0 = s.y ∧ wa 0 = w1 ∧
        (∀ j < m, c.stepper time first (v1.dt / v1.factor ^ j) (ya j, wa j)
            = .stop (.exc .timeStepFailure) (ya (j+1), wa (j+1))) ∧
        (∀ j < m, v1.minDt ≤ v1.dt / v1.factor ^ (j+1)) ∧
        c.stepper time first (v1.dt / v1.factor ^ m) (ya m, wa m) = .ok () (s2.y, s2.w) ∧
        s2.log = s.log ++ [.setVars first time v1] ++
          (List.range (m+1)).map (fun j => .step first time (v1.dt / v1.factor ^ j) (ya j)) ∧
        (recovery = false → m = 0) ∧ d = v1.dt / v1.factor ^ m := by
      cases recovery with
      | true =>
        simp only [attempt, if_true] at hat
        obtain ⟨m, ya, wa, h1, h2, h3, h4, h5, h6, h7⟩ := recoverLoop_ok _ _ _ _ _ _ _ _ _ _ hat
        subst h5
        exact ⟨m, ya, wa, h1, h2, h3, h4, h6, h7, by simp, rfl⟩
      | false =>
        simp only [attempt, Bool.false_eq_true, if_false, Prog.bind_run, callStep, emit, onYW] at hat
        rcases hs : c.stepper time first v1.dt (s.y, w1) with ⟨⟨⟩, y2, w2⟩ | ⟨hh, y2, w2⟩
        · rw [hs] at hat
          simp only [Prog.pure_run, Res.ok.injEq] at hat
          obtain ⟨rfl, rfl⟩ := hat
          refine ⟨0, fun _ => s.y, fun _ => w1, rfl, rfl, by simp, by simp, ?_, ?_, by simp, by simp⟩
          · simpa using hs
          · simp
        · rw [hs] at hat; simp at hat
    subst hd
    simp only [callObs, Prog.bind_run, emit, onW] at hr
    set d := v1.dt / v1.factor ^ m with hd
    rcases ho : c.observer first (time + d) s2.y s2.w with ⟨⟨⟩, w3⟩ | ⟨hh, w3⟩
    swap
    · rw [ho] at hr
      simp only [Res.stop.injEq] at hr
      obtain ⟨rfl, rfl⟩ := hr
      refine ⟨0, mk v1 ya wa, .setVars first time v1 :: attemptsUpTo first (mk v1 ya wa) 0 m ++ [.obs first (time + d) s2.y],
        rfl, rfl, rfl, by simp, by simp, ?_, ?_⟩
      · have := TFails.observer (v0 := v) m (hPR ya wa hya hwa) (hFB m ya wa hm0 hfail hbnd)
          (y' := s2.y) (w1 := s2.w) (w' := w3) (h := hh) (by simpa [mk, TTrace.size] using hsucc)
          (by simpa [mk, TTrace.size] using ho)
        simpa [mk, TTrace.size] using this
      · rw [hlog]
        simp [tblocks, attemptsUpTo, mk, TTrace.size]
    rw [ho] at hr
    simp only at hr
    have hok : ∀ tr : TTrace W T Y, tr.t 0 = time + d → tr.y 0 = s2.y → tr.w 0 = w3 →
        TStepOk recovery c first v (TTrace.cons time v1 m s.y s.w ya wa tr) 0 := by
      intro tr h1 h2 h3
      have hfb := hFB m ya wa hm0 hfail hbnd
      constructor
      · exact ⟨w1, by simpa [TTrace.cons, TTrace.before] using hpolspec, hwa⟩
      · exact hya
      · simpa [TTrace.cons, TTrace.size] using hfail
      · exact hfb.bounded
      · exact hfac'
      · exact hm0
      · exact h1
      · exact ⟨s2.w, by simpa [TTrace.cons, TTrace.size, TTrace.used, h2] using hsucc,
              by simpa [TTrace.cons, h1, h2, h3] using ho⟩
    by_cases hmax : first = int32Max
    · rw [if_pos hmax] at hr
      simp only [Prog.undef_run, Res.stop.injEq] at hr
      obtain ⟨rfl, rfl⟩ := hr
      let tr0 : TTrace W T Y :=
        ⟨fun _ => time + d, fun _ => v1, fun _ => 0, fun _ => s2.y, fun _ => w3, fun _ _ => s2.y, fun _ _ => w3⟩
      refine ⟨0, TTrace.cons time v1 m s.y s.w ya wa tr0, tblock first (TTrace.cons time v1 m s.y s.w ya wa tr0) 0,
        rfl, rfl, rfl, by simp, by simp, ?_, ?_⟩
      · exact TFails.overflow (hok tr0 rfl rfl rfl) (by simpa using hmax)
      · have hb : tblock first (TTrace.cons time v1 m s.y s.w ya wa tr0) 0
            = tblocks first (TTrace.cons time v1 m s.y s.w ya wa tr0) 1 := by simp [tblocks]
        rw [hb, tblocks_cons, hlog]
        simp [tblocks, tr0, hd]
    rw [if_neg hmax] at hr
    by_cases hstop : |time + d - final| ≤ eps ∨ time + d > final
    · have hstop' : (decide (|time + d - final| ≤ eps) || decide (time + d > final)) = true := by simpa using hstop
      rw [if_pos hstop'] at hr
      simp at hr
    · have hstop' : ¬ ((decide (|time + d - final| ≤ eps) || decide (time + d > final)) = true) := by simpa using hstop
      rw [if_neg hstop'] at hr
      obtain ⟨n, tr, evs, h1, h2, h3, h4, h5, h6, h7⟩ := ih _ _ _ _ _ _ hne hr
      simp only at h2 h3
      refine ⟨n+1, TTrace.cons time v1 m s.y s.w ya wa tr, evs, rfl, rfl, rfl, ?_, ?_, tfails_cons_succ h6, ?_⟩
      · intro k hk
        cases k with
        | zero => exact hok tr h1 h2 h3
        | succ k => exact tstepOk_cons_succ (h4 k (by omega))
      · intro k hk
        cases k with
        | zero =>
          have : (TTrace.cons time v1 m s.y s.w ya wa tr).t 1 = time + d := h1
          rw [this]
          exact hstop
        | succ k => exact h5 k (by omega)
      · rw [h7, tblocks_cons, hlog]
        simp [hd, h2]

end Pressio.Lemmas.AdvanceTarget
