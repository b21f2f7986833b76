import Verif.Lemmas.AdvanceTarget3
import Mathlib.Algebra.Order.Ring.Rat
import Mathlib.Tactic.NormNum

/-
  C05 - C12 (target-time advancers).
-/
namespace Pressio.Props
set_option autoImplicit false
open Pressio Pressio.Model.Advance Pressio.Spec.AdvanceTarget Pressio.Lemmas.AdvanceTarget

variable {W T Y : Type} [Field T] [LinearOrder T]

/-- **C05.** Whenever a target-time advance returns, the run is a sequence of `n` steps numbered 1..n starting at
    `start`; every time observed before the last lies below `final - eps`, the last one is `final` up to `eps` or beyond, and
    the overshoot is less than the last step size used; the list of calls is exactly the initial observation followed by those of the steps. -/
theorem C05_target_reached [IsStrictOrderedRing T] (recovery : Bool) (eps : T) (heps : 0 ≤ eps) (c : Calls W T Y) (fuel : Nat)
    (start final tEnd : T) (s s' : St W T Y) (hlt : start < final)
    (h : advanceT recovery eps c fuel start final s = .ok tEnd s') :
    ∃ (w0 : W) (n : Nat) (tr : TTrace W T Y),
      c.observer 0 start s.y s.w = .ok () w0 ∧ tr.t 0 = start ∧ tr.y 0 = s.y ∧ tr.w 0 = w0 ∧
      (∀ k < n + 1, TStepOk recovery c 1 ⟨0, 0, 1⟩ tr k) ∧
      (∀ k < n, tr.t (k+1) < final - eps) ∧
      (|tr.t (n+1) - final| ≤ eps ∨ final < tr.t (n+1)) ∧
      tr.t (n+1) - final < tr.used n ∧
      tEnd = tr.t (n+1) ∧ s'.y = tr.y (n+1) ∧ s'.w = tr.w (n+1) ∧
      (n : Int) + 1 < int32Max ∧
      s'.log = s.log ++ (.obs 0 start s.y :: tblocks 1 tr (n+1)) ∧
      observations s'.log = observations s.log ++ (0, start, s.y) ::
        (List.range (n+1)).map (fun k : Nat => ((k : Int) + 1, tr.t (k+1), tr.y (k+1))) := by
  unfold advanceT at h
  rw [if_neg (not_lt.2 hlt.le), if_neg hlt.ne'] at h
  simp only [Prog.bind_run, callObs, emit, onW] at h
  rcases ho : c.observer 0 start s.y s.w with ⟨⟨⟩, w0⟩ | ⟨hh, w0⟩
  swap
  · rw [ho] at h; simp at h
  rw [ho] at h
  obtain ⟨n, tr, h1, h2, h3, h4, h5, h6, h7, h8, h9, h10, h11⟩ := tLoop_ok _ _ _ _ _ _ _ _ _ _ _ h
  have hbelow : ∀ k < n, tr.t (k+1) < final - eps := by
    intro k hk
    have := h5 k hk
    simp only [Reached, not_or, not_le, not_lt] at this
    rw [abs_sub_comm, abs_of_nonneg (by linarith [this.2])] at this
    linarith [this.1]
  refine ⟨w0, n, tr, rfl, h1, h2, h3, fun k hk => h4 k (by omega), hbelow, h6, ?_, h7, h8, h9, ?_, ?_, ?_⟩
  · have ht := (h4 n (le_refl n)).time
    have : tr.t n < final := by
      cases n with
      | zero => rw [h1]; exact hlt
      | succ n => have := hbelow n (by omega); linarith
    linarith
  · have hrange : ∀ m : Nat, m ≤ n → (m : Int) + 1 < int32Max := by
      intro m
      induction m with
      | zero => intro _; unfold int32Max; omega
      | succ m ih => intro hm; have := h11 (m+1) hm; have := ih (by omega); push_cast at *; omega
    exact hrange n (le_refl n)
  · simpa using h10
  · rw [h10]
    have key : ∀ m : Nat, m ≤ n + 1 → observations (tblocks 1 tr m) =
        (List.range m).map (fun k : Nat => ((k : Int) + 1, tr.t (k+1), tr.y (k+1))) := by
      intro m
      induction m with
      | zero => intro _; simp [tblocks, observations]
      | succ m ih =>
        intro hm
        have hb : tblocks 1 tr (m+1) = tblocks 1 tr m ++ tblock 1 tr m := by
          simp [tblocks, List.range_succ]
        have hmap : ∀ (g : Nat → Ev T Y) (l : List Nat), (∀ j, ∃ a b d e, g j = .step a b d e) →
            observations (l.map g) = [] := by
          intro g l hg
          induction l with
          | nil => rfl
          | cons x l ihl =>
            obtain ⟨a, b, d, e, hx⟩ := hg x
            simpa [observations, hx] using ihl
        have happ : ∀ a b : List (Ev T Y), observations (a ++ b) = observations a ++ observations b := by
          intro a b; simp [observations]
        have ht := (h4 m (by omega)).time
        rw [hb, happ, ih (by omega), List.range_succ, List.map_append]
        congr 1
        unfold tblock
        rw [List.cons_append, show ∀ (x : Ev T Y) l, observations (x :: l) = observations [x] ++ observations l from
          fun x l => happ [x] l, happ, hmap _ _ (fun j => ⟨_, _, _, _, rfl⟩)]
        simp [observations, ht, add_comm]
    have happ : ∀ a b : List (Ev T Y), observations (a ++ b) = observations a ++ observations b := by
      intro a b; simp [observations]
    rw [happ, happ, key (n+1) (le_refl _)]
    simp [observations]

/-- C05: `final == start` returns at once without calling anything; `final < start` throws without calling anything. -/
theorem C05_trivial_targets (recovery : Bool) (eps : T) (c : Calls W T Y) (fuel : Nat) (start final : T) (s : St W T Y) :
    (final = start → advanceT recovery eps c fuel start final s = .ok start s) ∧
    (final < start → ∃ e, advanceT recovery eps c fuel start final s = .stop (.exc (.runtimeError e)) s) := by
  constructor
  · rintro rfl
    simp [advanceT]
  · intro h
    exact ⟨_, by simp only [advanceT, if_pos h]; rfl⟩

/-- **C06.** If the policy always sets a size of at least `δ > 0` and no user object throws, then, as soon as `final - start ≤ K δ`
    (and `K` is in the range of the counter) the advance returns, having called the stepper at most `K` times. -/
theorem C06_terminates [IsStrictOrderedRing T] (eps δ : T) (c : Calls W T Y) (hδ : 0 < δ) (heps : 0 ≤ eps)
    (hp : ∀ n t d w, ∃ d' w', c.dtPolicy3 n t d w = .ok d' w' ∧ δ ≤ d')
    (hs : ∀ t n d x, (c.stepper t n d x).isOk = true) (ho : ∀ n t y w, (c.observer n t y w).isOk = true)
    (K : Nat) (start final : T) (hlt : start < final) (hK : final - start ≤ K * δ) (hmax : (K : Int) < int32Max)
    (fuel : Nat) (hf : K ≤ fuel) (s : St W T Y) :
    (advanceT false eps c fuel start final s).isOk = true ∧
    stepperCalls (advanceT false eps c fuel start final s).state.log ≤ stepperCalls s.log + K := by
  obtain ⟨K, rfl⟩ : ∃ k, K = k + 1 := by
    cases K with
    | zero => simp at hK; exact absurd hlt (not_lt.2 hK)
    | succ k => exact ⟨k, rfl⟩
  unfold advanceT
  rw [if_neg (not_lt.2 hlt.le), if_neg hlt.ne']
  simp only [Prog.bind_run, callObs, emit, onW]
  rcases eo : c.observer 0 start s.y s.w with ⟨⟨⟩, w0⟩ | ⟨hh, w0⟩
  swap
  · have := ho 0 start s.y s.w; rw [eo] at this; simp at this
  have := tLoop_terminates eps final δ c hδ heps hp hs ho K fuel 1 start ⟨0, 0, 1⟩ ⟨w0, s.y, s.log ++ [.obs 0 start s.y]⟩ rfl
    hf (by push_cast at hmax ⊢; omega) hK
  refine ⟨this.1, ?_⟩
  have h2 := this.2
  have e : countSteps (s.log ++ [Ev.obs 0 start s.y]) = countSteps s.log := by simp [countSteps]
  rw [e] at h2
  exact h2

/-- C06, negative part: a policy that keeps setting the size 0 never lets the call return: it runs on until the step counter
    leaves its range (undefined behaviour), whatever the number of iterations allowed. -/
theorem C06_zero_step_never_returns [IsStrictOrderedRing T] (eps : T) (c : Calls W T Y)
    (hp : ∀ n t d w, ∃ w', c.dtPolicy3 n t d w = .ok 0 w')
    (hs : ∀ t n d x, (c.stepper t n d x).isOk = true) (ho : ∀ n t y w, (c.observer n t y w).isOk = true)
    (start final : T) (hlt : start < final) (heps : start + eps < final) (fuel : Nat) (s : St W T Y) :
    (advanceT false eps c fuel start final s).stop? =
      if (fuel : Int) < int32Max then some .fuel else some (.ub "signed overflow of step counter") := by
  unfold advanceT
  rw [if_neg (not_lt.2 hlt.le), if_neg hlt.ne']
  simp only [Prog.bind_run, callObs, emit, onW]
  rcases eo : c.observer 0 start s.y s.w with ⟨⟨⟩, w0⟩ | ⟨hh, w0⟩
  swap
  · have := ho 0 start s.y s.w; rw [eo] at this; simp at this
  simp only
  by_cases hf : (fuel : Int) < int32Max
  · rw [if_pos hf]
    exact tLoop_zero_dt eps final c hp hs ho fuel 1 start ⟨0, 0, 1⟩ _ rfl heps hlt.le (by omega)
  · rw [if_neg hf]
    obtain ⟨k, hk⟩ : ∃ k : Nat, (1 : Int) + k = int32Max := ⟨2147483646, by unfold int32Max; omega⟩
    exact tLoop_zero_dt_overflow eps final c hp hs ho k fuel 1 start ⟨0, 0, 1⟩ _ rfl heps hlt.le hk (by omega)

/-- **C07.** Whatever happens in a target-time advance (return, exception, unbounded run), every stepper call was
    made with a size that is at least the minimum size most recently set by the policy. -/
theorem C07_minimum_step_size_respected (recovery : Bool) (eps : T) (c : Calls W T Y) (fuel : Nat)
    (start final : T) (s : St W T Y) :
    ∃ evs, (advanceT recovery eps c fuel start final s).state.log = s.log ++ evs ∧ MinRespected none evs := by
  unfold advanceT
  split
  · exact ⟨[], by simp, trivial⟩
  split
  · exact ⟨[], by simp, trivial⟩
  simp only [Prog.bind_run, callObs, emit, onW]
  rcases c.observer 0 start s.y s.w with ⟨⟨⟩, w0⟩ | ⟨hh, w0⟩
  swap
  · exact ⟨[.obs 0 start s.y], by simp, trivial⟩
  · obtain ⟨evs, h1, h2⟩ := tLoop_minRespected recovery eps final c fuel 1 start ⟨0, 0, 1⟩
      ⟨w0, s.y, s.log ++ [.obs 0 start s.y]⟩
    exact ⟨.obs 0 start s.y :: evs, by rw [h1]; simp, h2 none⟩

/-- **C08.** Complete description of the runs that do not return normally (those that do are described by
    `C05_target_reached`, whose `TStepOk` fixes the sizes `dt, dt/f, dt/f^2, ...` of the attempts): some number `n` of complete
    steps, and then one of the seven ways of `TFails` at step `n+1`.  In particular an exception of the stepper other than
    `TimeStepFailure` is never retried, a `TimeStepFailure` is retried with the next size unless that is
    below the minimum, and a factor `≤ 1` or a size below the minimum is rejected before the stepper is called. -/
theorem C08_recovery_protocol (recovery : Bool) (eps : T) (c : Calls W T Y) (fuel : Nat)
    (start final : T) (s s' : St W T Y) (h : Stop) (hne : h ≠ .fuel) (hlt : start < final)
    (hrun : advanceT recovery eps c fuel start final s = .stop h s') :
    (∃ w', c.observer 0 start s.y s.w = .stop h w' ∧ s' = ⟨w', s.y, s.log ++ [.obs 0 start s.y]⟩) ∨
    ∃ (w0 : W) (n : Nat) (tr : TTrace W T Y) (evs : List (Ev T Y)),
      c.observer 0 start s.y s.w = .ok () w0 ∧ tr.t 0 = start ∧ tr.y 0 = s.y ∧ tr.w 0 = w0 ∧
      (∀ k < n, TStepOk recovery c 1 ⟨0, 0, 1⟩ tr k) ∧
      (∀ k < n, ¬ Reached eps final (tr.t (k+1))) ∧
      TFails recovery c 1 ⟨0, 0, 1⟩ tr n h evs s'.y s'.w ∧
      s'.log = s.log ++ (.obs 0 start s.y :: tblocks 1 tr n) ++ evs := by
  unfold advanceT at hrun
  rw [if_neg (not_lt.2 hlt.le), if_neg hlt.ne'] at hrun
  simp only [Prog.bind_run, callObs, emit, onW] at hrun
  rcases ho : c.observer 0 start s.y s.w with ⟨⟨⟩, w0⟩ | ⟨hh, w0⟩
  swap
  · rw [ho] at hrun
    simp only [Res.stop.injEq] at hrun
    obtain ⟨rfl, rfl⟩ := hrun
    exact Or.inl ⟨w0, rfl, rfl⟩
  · rw [ho] at hrun
    obtain ⟨n, tr, evs, h1, h2, h3, h4, h5, h6, h7⟩ := tLoop_stop _ _ _ _ _ _ _ _ _ _ _ hne hrun
    exact Or.inr ⟨w0, n, tr, evs, rfl, h1, h2, h3, h4, h5, h6, by simpa using h7⟩

/-- C08 in the form used by callers: the recovering advancer never lets a `TimeStepFailure` of the stepper escape. -/
theorem C08_no_time_step_failure_escapes (eps : T) (c : Calls W T Y) (fuel : Nat)
    (start final : T) (s : St W T Y)
    (hp : ∀ n t v w, (c.dtPolicy5 n t v w).stop? ≠ some (.exc .timeStepFailure))
    (ho : ∀ n t y w, (c.observer n t y w).stop? ≠ some (.exc .timeStepFailure)) :
    (advanceT true eps c fuel start final s).stop? ≠ some (.exc .timeStepFailure) := by
  intro hcon
  rcases hr : advanceT true eps c fuel start final s with ⟨t, s'⟩ | ⟨h, s'⟩
  · rw [hr] at hcon; simp at hcon
  rw [hr] at hcon
  simp only [Res.stop?_stop, Option.some.injEq] at hcon
  subst hcon
  by_cases hlt : start < final
  · rcases C08_recovery_protocol true eps c fuel start final s s' _ (by simp) hlt hr with ⟨w', h1, -⟩ |
      ⟨w0, n, tr, evs, -, -, -, -, -, -, hf, -⟩
    · exact ho 0 start s.y s.w (by rw [h1]; rfl)
    · obtain ⟨w', y', l'⟩ := s'
      simp only at hf
      cases hf with
      | policy h1 => simp only [if_true] at h1; exact hp _ _ _ _ (by rw [h1]; rfl)
      | stepper j h1 h2 h3 h4 => exact h4 rfl rfl
      | observer j h1 h2 h3 h4 => exact ho _ _ _ _ (by rw [h4]; rfl)
  · have := C05_trivial_targets true eps c fuel start final s
    rcases lt_or_eq_of_le (not_lt.1 hlt) with hl | he
    · obtain ⟨e, h1⟩ := this.2 hl
      rw [hr] at h1; simp at h1
    · rw [this.1 he] at hr; simp at hr

/-- **C09.** The attempts made for one step: if `dt / f^K < minDt` for some `K ≥ 1` (which exists as soon as `f > 1` and
    `minDt > 0`) at most `K` attempts are made, whatever the stepper does, and the outcome no longer depends on the
    number of iterations allowed. -/
theorem C09_attempts_bounded [IsStrictOrderedRing T] (c : Calls W T Y) (time : T) (step : Int) (dt minDt factor : T)
    (hs : ∀ t n d x, (c.stepper t n d x).stop? ≠ some .fuel) (s : St W T Y) (K : Nat) (hK1 : 1 ≤ K)
    (hK : dt / factor ^ K < minDt) :
    ∃ r : Res (St W T Y) T, r.stop? ≠ some .fuel ∧
      stepperCalls r.state.log ≤ stepperCalls s.log + K ∧
      ∀ fuel, K ≤ fuel → recoverLoop c time step minDt factor fuel dt s = r := by
  obtain ⟨K, rfl⟩ : ∃ k, K = k + 1 := ⟨K - 1, by omega⟩
  exact recoverLoop_terminates c time step minDt factor hs K dt s hK

/-- C09: such a `K` exists. -/
theorem C09_bound_exists [IsStrictOrderedRing T] [Archimedean T] (dt minDt factor : T) (hf : 1 < factor) (hm : 0 < minDt) :
    ∃ K : Nat, 1 ≤ K ∧ dt / factor ^ K < minDt := by
  obtain ⟨K, hK⟩ := exists_small (dt := dt) hf hm
  exact ⟨K+1, by omega, hK⟩

/-- C09: a step whose attempts all fail is abandoned with an exception. -/
theorem C09_always_failing_step_is_abandoned [IsStrictOrderedRing T] [Archimedean T] (eps : T) (c : Calls W T Y)
    (start final : T) (hlt : start < final) (s : St W T Y) (v : DtVars T) (w0 w1 : W)
    (ho : c.observer 0 start s.y s.w = .ok () w0) (hp : c.dtPolicy5 1 start ⟨0, 0, 1⟩ w0 = .ok v w1)
    (hv : v.minDt ≤ v.dt) (hf : 1 < v.factor) (hm : 0 < v.minDt)
    (hs : ∀ t n d x, ∃ x', c.stepper t n d x = .stop (.exc .timeStepFailure) x') :
    ∃ F, ∀ fuel, F ≤ fuel → (advanceT true eps c fuel start final s).stop? =
      some (.exc (.runtimeError "violation of minimum time step while recovering")) := by
  obtain ⟨K, hK⟩ := exists_small (dt := v.dt) hf hm
  obtain ⟨r, h1, -, h3⟩ := recoverLoop_terminates c start 1 v.minDt v.factor
    (by intro t n d x; obtain ⟨x', hx⟩ := hs t n d x; rw [hx]; simp) K v.dt
    ⟨w1, s.y, s.log ++ [.obs 0 start s.y] ++ [.setVars 1 start v]⟩ hK
  refine ⟨K+1, ?_⟩
  intro fuel hfuel
  obtain ⟨fuel, rfl⟩ : ∃ f, fuel = f + 1 := ⟨fuel - 1, by omega⟩
  have hr := h3 (fuel+1) hfuel
  unfold advanceT
  rw [if_neg (not_lt.2 hlt.le), if_neg hlt.ne']
  simp only [Prog.bind_run, callObs, emit, onW, ho]
  rw [tLoop]
  simp only [Prog.bind_run, callDtPolicy, if_true, onW, hp, emit]
  rw [if_neg (not_lt.2 hv), if_neg (by simpa using hf)]
  simp only [Prog.bind_run, attempt, if_true, hr]
  rcases hr' : r with ⟨d, s2⟩ | ⟨h, s2⟩
  · exfalso
    rw [hr'] at hr
    obtain ⟨m, ya, wa, -, -, -, -, -, h6, -⟩ := recoverLoop_ok _ _ _ _ _ _ _ _ _ _ hr
    obtain ⟨x', hx⟩ := hs start 1 d (ya m, wa m)
    rw [hx] at h6
    cases h6
  · rw [hr'] at h1 hr
    simp only [Res.stop?_stop, ne_eq, Option.some.injEq] at h1
    obtain ⟨m, ya, wa, -, -, -, -, -, h6⟩ := recoverLoop_stop _ _ _ _ _ _ _ _ _ _ h1 hr
    rcases h6 with ⟨h6, h7⟩ | ⟨-, -, rfl⟩
    · obtain ⟨x', hx⟩ := hs start 1 (v.dt / v.factor ^ m) (ya m, wa m)
      rw [hx] at h6
      simp only [Res.stop.injEq] at h6
      exact absurd h6.1.symm h7
    · rfl

/-- C09: a whole recovering run terminates (whatever the stepper, the observer and the policy do, as long as
    they return) when the policy keeps the minimum size above some `μ > 0`. -/
theorem C09_recovering_run_terminates [IsStrictOrderedRing T] [Archimedean T] (eps μ : T) (c : Calls W T Y) (hμ : 0 < μ)
    (heps : 0 ≤ eps)
    (hp : ∀ n t v w, (c.dtPolicy5 n t v w).stop? ≠ some .fuel)
    (hpm : ∀ n t v w v' w', c.dtPolicy5 n t v w = .ok v' w' → μ ≤ v'.minDt)
    (hs : ∀ t n d x, (c.stepper t n d x).stop? ≠ some .fuel)
    (ho : ∀ n t y w, (c.observer n t y w).stop? ≠ some .fuel) (start final : T) (s : St W T Y) :
    ∃ (r : Res (St W T Y) T) (F : Nat), r.stop? ≠ some .fuel ∧
      ∀ fuel, F ≤ fuel → advanceT true eps c fuel start final s = r := by
  by_cases h1 : final < start
  · exact ⟨.stop (.exc (.runtimeError "final time < start time")) s, 0, by simp,
      fun fuel _ => by unfold advanceT; rw [if_pos h1]; rfl⟩
  by_cases h2 : final = start
  · exact ⟨.ok start s, 0, by simp, fun fuel _ => by unfold advanceT; rw [if_neg h1, if_pos h2]; rfl⟩
  have hne := ho 0 start s.y s.w
  rcases eo : c.observer 0 start s.y s.w with ⟨⟨⟩, w0⟩ | ⟨hh, w0⟩
  swap
  · rw [eo] at hne
    refine ⟨.stop hh ⟨w0, s.y, s.log ++ [.obs 0 start s.y]⟩, 0, by simpa using hne, ?_⟩
    intro fuel _
    unfold advanceT
    rw [if_neg h1, if_neg h2]
    simp only [Prog.bind_run, callObs, emit, onW, eo]
  · obtain ⟨K, hK⟩ := Archimedean.arch (final - start) hμ
    obtain ⟨r, F, g1, g2⟩ := tLoop_recovery_terminates eps final μ c hμ heps hp hpm hs ho K 1 start ⟨0, 0, 1⟩
      ⟨w0, s.y, s.log ++ [.obs 0 start s.y]⟩ (by rw [nsmul_eq_mul] at hK; push_cast; linarith)
    refine ⟨r, F, g1, ?_⟩
    intro fuel hf
    unfold advanceT
    rw [if_neg h1, if_neg h2]
    simp only [Prog.bind_run, callObs, emit, onW, eo]
    exact g2 fuel hf

/-- C09, negative part: with the minimum left at 0 (its initial value) and a stepper that always fails the call never returns. -/
theorem C09_zero_minimum_never_returns [IsStrictOrderedRing T] (eps : T) (c : Calls W T Y)
    (start final : T) (hlt : start < final) (s : St W T Y) (v : DtVars T) (w0 w1 : W)
    (ho : c.observer 0 start s.y s.w = .ok () w0) (hp : c.dtPolicy5 1 start ⟨0, 0, 1⟩ w0 = .ok v w1)
    (hv : 0 ≤ v.dt) (hf : 1 < v.factor) (hm : v.minDt = 0)
    (hs : ∀ t n d x, ∃ x', c.stepper t n d x = .stop (.exc .timeStepFailure) x') (fuel : Nat) :
    (advanceT true eps c fuel start final s).stop? = some .fuel := by
  unfold advanceT
  rw [if_neg (not_lt.2 hlt.le), if_neg hlt.ne']
  simp only [Prog.bind_run, callObs, emit, onW, ho]
  cases fuel with
  | zero => simp [tLoop]
  | succ fuel =>
    rw [tLoop]
    simp only [Prog.bind_run, callDtPolicy, if_true, onW, hp, emit]
    rw [if_neg (not_lt.2 (by rw [hm]; exact hv)), if_neg (by simpa using hf)]
    simp only [Prog.bind_run, attempt, if_true]
    have := recoverLoop_diverges c start 1 v.factor (by linarith) hs (fuel+1) v.dt
      ⟨w1, s.y, s.log ++ [.obs 0 start s.y] ++ [.setVars 1 start v]⟩ hv
    rw [hm]
    rcases hr : recoverLoop c start 1 0 v.factor (fuel+1) v.dt
        ⟨w1, s.y, s.log ++ [.obs 0 start s.y] ++ [.setVars 1 start v]⟩ with ⟨d, s2⟩ | ⟨h, s2⟩
    · rw [hr] at this; simp at this
    · simp only [hr]
      rw [hr] at this; simpa using this

/-! ### C10 -/

/-- Callbacks for which recovery matters: steps larger than 1/4 fail; the policy asks for 1/2, minimum 1/16, factor 2. -/
def recCalls : Calls Nat Rat Rat where
  dtPolicy3 := fun _ _ _ w => .ok (1/2) w
  dtPolicy5 := fun _ _ _ w => .ok ⟨1/2, 1/16, 2⟩ w
  guesser := fun _ _ x => .ok () x
  stepper := fun _ _ d x => if 1/4 < d then .stop (.exc .timeStepFailure) (x.1, x.2 + 1) else .ok () (x.1 + d, x.2 + 1)
  observer := fun _ _ _ w => .ok () w

/-- **C10 is false**: there are user objects for which the overload with extra arguments recovers and reaches the target while
    the overload without extra arguments lets the first `TimeStepFailure` escape (for every number of iterations). -/
theorem C10_overload_without_arguments_does_not_recover_refuted :
    (advanceToTargetPointWithStepRecoveryVariadic 0 recCalls 5 0 1 ⟨0, 0, []⟩).isOk = true ∧
    ∀ fuel, (advanceToTargetPointWithStepRecovery 0 recCalls (fuel+1) 0 1 ⟨0, 0, []⟩).stop? =
      some (.exc .timeStepFailure) := by
  refine ⟨by decide +kernel, ?_⟩
  intro fuel
  unfold advanceToTargetPointWithStepRecovery advanceT
  rw [if_neg (by norm_num), if_neg (by norm_num)]
  simp only [Prog.bind_run, callObs, emit, onW, recCalls, tLoop, callDtPolicy, Bool.false_eq_true, if_false, Prog.pure_run]
  rw [if_neg (by norm_num)]
  simp only [false_and, if_false, Prog.bind_run, attempt, Bool.false_eq_true, callStep, emit, onYW]
  rw [if_pos (by norm_num)]
  rfl

/-- C10: in the overload without extra arguments a failed first attempt is final, for all user objects: the step
    is never tried again (`m = 0` attempts failed at every completed step), and a `TimeStepFailure` escapes. -/
theorem C10_overload_without_arguments_single_attempt (eps : T) (c : Calls W T Y) (fuel : Nat)
    (start final : T) (hlt : start < final) (s : St W T Y) (w0 w1 : W) (d : T) (x' : Y × W)
    (ho : c.observer 0 start s.y s.w = .ok () w0) (hp : c.dtPolicy3 1 start 0 w0 = .ok d w1) (hd : 0 ≤ d)
    (hs : c.stepper start 1 d (s.y, w1) = .stop (.exc .timeStepFailure) x') :
    (advanceToTargetPointWithStepRecovery eps c (fuel+1) start final s).stop? = some (.exc .timeStepFailure) := by
  unfold advanceToTargetPointWithStepRecovery advanceT
  rw [if_neg (not_lt.2 hlt.le), if_neg hlt.ne']
  simp only [Prog.bind_run, callObs, emit, onW, ho, tLoop, callDtPolicy, Bool.false_eq_true, if_false, Prog.pure_run, hp]
  rw [if_neg (not_lt.2 hd)]
  simp only [false_and, if_false, Prog.bind_run, attempt, Bool.false_eq_true, callStep, emit, onYW, hs]
  rfl

/-- **C10, the part that holds**: the overload with extra arguments retries: if the first attempt fails, the next size is
    not below the minimum, and the retry succeeds, the step is completed with the reduced size.
    What is missing: the same for the overload without extra arguments (refuted above). -/
theorem C10_variadic_recovers_partial (eps : T) (c : Calls W T Y) (fuel : Nat)
    (start final : T) (hlt : start < final) (s : St W T Y) (w0 w1 : W) (v : DtVars T) (x1 x2 : Y × W)
    (ho : c.observer 0 start s.y s.w = .ok () w0) (hp : c.dtPolicy5 1 start ⟨0, 0, 1⟩ w0 = .ok v w1)
    (hv : v.minDt ≤ v.dt) (hf : 1 < v.factor)
    (hs1 : c.stepper start 1 v.dt (s.y, w1) = .stop (.exc .timeStepFailure) x1)
    (hm : v.minDt ≤ v.dt / v.factor)
    (hs2 : c.stepper start 1 (v.dt / v.factor) x1 = .ok () x2) :
    ∃ l, (advanceToTargetPointWithStepRecoveryVariadic eps c (fuel+2) start final s).state.log =
      s.log ++ [.obs 0 start s.y, .setVars 1 start v, .step 1 start v.dt s.y, .step 1 start (v.dt / v.factor) x1.1,
        .obs 1 (start + v.dt / v.factor) x2.1] ++ l := by
  unfold advanceToTargetPointWithStepRecoveryVariadic advanceT
  rw [if_neg (not_lt.2 hlt.le), if_neg hlt.ne']
  simp only [Prog.bind_run, callObs, emit, onW, ho]
  rw [tLoop]
  simp only [Prog.bind_run, callDtPolicy, if_true, onW, hp, emit]
  rw [if_neg (not_lt.2 hv), if_neg (by simpa using hf)]
  have hat : attempt true c start 1 v (fuel+1+1) ⟨w1, s.y, s.log ++ [Ev.obs 0 start s.y] ++ [Ev.setVars 1 start v]⟩ =
      .ok (v.dt / v.factor) ⟨x2.2, x2.1, s.log ++ [Ev.obs 0 start s.y] ++ [Ev.setVars 1 start v] ++ [.step 1 start v.dt s.y]
        ++ [.step 1 start (v.dt / v.factor) x1.1]⟩ := by
    simp only [attempt, if_true]
    rw [recoverLoop]
    simp only [Prog.bind_run, Prog.catchE, callStep, emit, onYW, hs1]
    simp only [if_true, Prog.pure_run, Bool.false_eq_true, if_false, not_lt.2 hm]
    rw [recoverLoop]
    simp only [Prog.bind_run, Prog.catchE, callStep, emit, onYW, hs2]
    simp
  simp only [Prog.bind_run, hat, callObs, emit, onW]
  rcases hob : c.observer 1 (start + v.dt / v.factor) x2.1 x2.2 with ⟨⟨⟩, w3⟩ | ⟨h, w3⟩
  swap
  · exact ⟨[], by simp⟩
  simp only
  rw [if_neg (by unfold int32Max; omega)]
  split
  · exact ⟨[], by simp⟩
  · obtain ⟨evs, h1, -⟩ := tLoop_minRespected true eps final c (fuel+1) (1+1) (start + v.dt / v.factor)
      { v with dt := v.dt / v.factor } ⟨w3, x2.1, s.log ++ [Ev.obs 0 start s.y] ++ [Ev.setVars 1 start v] ++ [.step 1 start v.dt s.y]
        ++ [.step 1 start (v.dt / v.factor) x1.1] ++ [.obs 1 (start + v.dt / v.factor) x2.1]⟩
    exact ⟨evs, by rw [h1]; simp⟩

/-! ### C11 -/

/-- a step-size policy that replays a list of sizes, and the stepper alone -/
def replay (c : Calls W T Y) (sizes : Nat → T) : Calls W T Y where
  dtPolicy3 := fun n _ _ w => .ok (sizes (n-1).toNat) w
  dtPolicy5 := c.dtPolicy5
  guesser := noopGuesser
  stepper := c.stepper
  observer := noopObserver

theorem replay_nLoop (c : Calls W T Y) (R : Int → T → Y → W → W → Prop) (hR : FailureTransparent c R) (tr : TTrace W T Y) (n : Nat)
    (hok : ∀ k < n, TStepOk true c 1 ⟨0, 0, 1⟩ tr k) (m : Nat) :
    ∀ (i : Nat) (dt0 : T) (w : W) (log : List (Ev T Y)), i + m ≤ n → R (1 + i) (tr.t i) (tr.y i) (tr.w i) w → (1:Int) + i + m ≤ int32Max →
    ∃ w' evs, nLoop (replay c tr.used) m (1 + i) (tr.t i) dt0 ⟨w, tr.y i, log⟩ = .ok () ⟨w', tr.y (i+m), log ++ evs⟩ ∧
      R (1 + ((i+m : Nat) : Int)) (tr.t (i+m)) (tr.y (i+m)) (tr.w (i+m)) w' ∧
      observations evs = (List.range m).map (fun k => (1 + ((i + k : Nat) : Int), tr.t (i+k+1), tr.y (i+k+1))) := by
  induction m with
  | zero =>
    intro i dt0 w log _ hw _
    exact ⟨w, [], by simp [nLoop], hw, by simp [observations]⟩
  | succ m ih =>
    intro i dt0 w log hin hw hover
    have hk := hok i (by omega)
    -- the attempts leave the state as it was and a related world
    have hchain : ∀ j ≤ tr.m i, tr.ya i j = tr.y i ∧ R (1 + i) (tr.t i) (tr.y i) (tr.wa i j) w := by
      intro j
      induction j with
      | zero =>
        intro _
        obtain ⟨w', h1, h2⟩ := hk.policy
        simp only [if_true] at h1
        exact ⟨hk.start, by rw [h2]; exact hR.policy _ _ _ _ _ _ _ _ hw h1⟩
      | succ j ihj =>
        intro hj
        obtain ⟨a, b⟩ := ihj (by omega)
        have hf := hk.failed j (by omega)
        rw [a] at hf
        obtain ⟨a', b'⟩ := hR.failure _ _ _ _ _ _ _ _ b hf
        exact ⟨a', b'⟩
    obtain ⟨hy, hw1⟩ := hchain (tr.m i) (le_refl _)
    obtain ⟨w2, hs, ho⟩ := hk.success
    rw [hy] at hs
    obtain ⟨w2', hs', hw2⟩ := hR.respects _ _ _ _ _ _ _ _ hw1 hs
    have hw3 : R (1 + ((i+1 : Nat) : Int)) (tr.t (i+1)) (tr.y (i+1)) (tr.w (i+1)) w2' := by
      have e : (1:Int) + ((i+1 : Nat) : Int) = 1 + i + 1 := by push_cast; ring
      rw [e]
      exact hR.observer _ _ _ _ _ _ (by rw [hk.time]; exact hw2) ho
    obtain ⟨w', evs, g1, g2, g3⟩ := ih (i+1) (tr.used i) w2'
      (log ++ [.setDt (1 + i) (tr.t i) (tr.used i)] ++ [.guess (1 + i) (tr.t i) (tr.y i)]
        ++ [.step (1 + i) (tr.t i) (tr.used i) (tr.y i)] ++ [.obs (1 + i) (tr.t i + tr.used i) (tr.y (i+1))])
      (by omega) hw3 (by push_cast at hover ⊢; omega)
    refine ⟨w', [.setDt (1 + i) (tr.t i) (tr.used i), .guess (1 + i) (tr.t i) (tr.y i),
      .step (1 + i) (tr.t i) (tr.used i) (tr.y i), .obs (1 + i) (tr.t i + tr.used i) (tr.y (i+1))] ++ evs, ?_, ?_, ?_⟩
    · rw [nLoop]
      have e : ((1:Int) + i - 1).toNat = i := by omega
      have e2 : (1:Int) + i + 1 = 1 + ((i+1 : Nat) : Int) := by push_cast; ring
      simp only [Prog.bind_run, replay, onW, e, emit, callGuess, onYW, noopGuesser, Prog.pure_run, callStep, hs', callObs,
        noopObserver]
      rw [if_neg (by push_cast at hover; omega), e2, ← hk.time]
      rw [hk.time] at *
      rw [show i + (m+1) = i + 1 + m by omega]
      rw [← hk.time] at *
      simpa [replay] using g1
    · rw [show i + (m+1) = i + 1 + m by omega]; exact g2
    · rw [List.range_succ_eq_map]
      have : observations ([Ev.setDt (1 + i) (tr.t i) (tr.used i), .guess (1 + i) (tr.t i) (tr.y i),
          .step (1 + i) (tr.t i) (tr.used i) (tr.y i), .obs (1 + i) (tr.t i + tr.used i) (tr.y (i+1))] ++ evs)
          = (1 + (i:Int), tr.t i + tr.used i, tr.y (i+1)) :: observations evs := by
        simp [observations]
      rw [this, g3, ← hk.time]
      simp only [List.map_cons, List.map_map, Nat.add_zero]
      congr 1
      apply List.map_congr_left
      intro k _
      simp only [Function.comp_apply, Nat.succ_eq_add_one]
      rw [show i + 1 + k = i + (k + 1) by omega]

/-- **C11.** For every stepper that meets the failure-transparency contract: if a recovering run returns, then running the stepper
    for the same number of steps with exactly the sizes that succeeded, no failures and no recovery (`advance_n_steps`), also
    returns, ends in the same state, and observes the same step numbers, times and states. -/
theorem C11_recovered_run_equals_failure_free_run [IsStrictOrderedRing T] (eps : T) (heps : 0 ≤ eps) (c : Calls W T Y)
    (R : Int → T → Y → W → W → Prop) (hR : FailureTransparent c R) (fuel : Nat) (start final tEnd : T) (s s' : St W T Y)
    (hw : R 1 start s.y s.w s.w) (hlt : start < final) (h : advanceT true eps c fuel start final s = .ok tEnd s') :
    ∃ (n : Nat) (sizes : Nat → T) (s'' : St W T Y),
      advanceN 0 (replay c sizes) n start { s with log := [] } = .ok () s'' ∧
      s''.y = s'.y ∧ R (1 + n) tEnd s'.y s'.w s''.w ∧ observations s'.log = observations s.log ++ observations s''.log := by
  obtain ⟨w0, n, tr, h0, h1, h2, h3, h4, -, -, -, hte, h9, h9', hn, -, h10⟩ :=
    C05_target_reached true eps heps c fuel start final tEnd s s' hlt h
  obtain ⟨w', evs, g1, g2, g3⟩ := replay_nLoop c R hR tr (n+1) h4 (n+1) 0 0 s.w [.obs 0 start s.y] (by omega)
    (by rw [h1, h2, h3]; exact hR.observer 0 _ _ _ _ _ hw h0) (by push_cast at hn ⊢; omega)
  refine ⟨n+1, tr.used, ⟨w', tr.y (n+1), [.obs 0 start s.y] ++ evs⟩, ?_, ?_, ?_, ?_⟩
  · unfold advanceN
    simp only [Prog.bind_run, callObs, emit, onW]
    have ho : (replay c tr.used).observer 0 start s.y s.w = .ok () s.w := rfl
    rw [ho]
    simp only [Nat.zero_add, Nat.cast_zero, add_zero] at g1
    rw [h1, h2] at g1
    simpa using g1
  · exact h9.symm
  · rw [h9', h9, hte]; simpa using g2
  · rw [h10]
    have : observations ([Ev.obs 0 start s.y] ++ evs) = (0, start, s.y) :: observations evs := by simp [observations]
    rw [this, g3]
    congr 2
    apply List.map_congr_left
    intro k _
    simp [add_comm]

/-! ### Concrete instances -/
section Examples
/-- a run with recovery: two halvings are not needed, one per step; four steps of 1/4 -/
example : (advanceT true 0 recCalls 6 0 1 ⟨0, 0, []⟩).state.log =
    [.obs 0 0 0, .setVars 1 0 ⟨1/2, 1/16, 2⟩, .step 1 0 (1/2) 0, .step 1 0 (1/4) 0, .obs 1 (1/4) (1/4),
     .setVars 2 (1/4) ⟨1/2, 1/16, 2⟩, .step 2 (1/4) (1/2) (1/4), .step 2 (1/4) (1/4) (1/4), .obs 2 (1/2) (1/2),
     .setVars 3 (1/2) ⟨1/2, 1/16, 2⟩, .step 3 (1/2) (1/2) (1/2), .step 3 (1/2) (1/4) (1/2), .obs 3 (3/4) (3/4),
     .setVars 4 (3/4) ⟨1/2, 1/16, 2⟩, .step 4 (3/4) (1/2) (3/4), .step 4 (3/4) (1/4) (3/4), .obs 4 1 1] := by
  decide +kernel

/-- the contract of C11 is met by `recCalls`, with "any two worlds are related" (the world only counts calls) -/
example : FailureTransparent recCalls (fun _ _ _ _ _ => True) where
  respects := by
    intro t n d y y' w w1 w' _ h
    simp only [recCalls] at h ⊢
    split at h
    · simp at h
    · rename_i hd
      simp only [Res.ok.injEq, Prod.mk.injEq] at h
      exact ⟨w1 + 1, by rw [if_neg hd, h.2.1], trivial⟩
  failure := by
    intro t n d y y' w w1 w' _ h
    simp only [recCalls] at h
    split at h
    · simp only [Res.stop.injEq, Prod.mk.injEq] at h
      exact ⟨h.2.1.symm, trivial⟩
    · simp at h
  policy := fun _ _ _ _ _ _ _ _ _ _ => trivial
  observer := fun _ _ _ _ _ _ _ _ => trivial

/-- a run that overshoots: sizes 2/3, target 1 -/
example : (advanceT false 0 { recCalls with dtPolicy3 := fun _ _ _ w => .ok (2/3) w, stepper := fun _ _ d x => .ok () (x.1 + d, x.2) }
    5 0 1 ⟨0, 0, []⟩).stop? = none := by decide +kernel

/-- a stepper that fails with another exception: not retried (C08) -/
example : (advanceT true 0 { recCalls with stepper := fun _ _ _ x => .stop (.exc .residualHasNans) x }
    5 0 1 ⟨0, 0, []⟩) = .stop (.exc .residualHasNans) ⟨0, 0, [.obs 0 0 0, .setVars 1 0 ⟨1/2, 1/16, 2⟩, .step 1 0 (1/2) 0]⟩ := by
  decide +kernel

/-- a step that always fails is abandoned at the minimum after sizes 1/2, 1/4, 1/8, 1/16 (C09) -/
example : stepperCalls (advanceT true 0 { recCalls with stepper := fun _ _ _ x => .stop (.exc .timeStepFailure) x }
    9 0 1 ⟨0, 0, []⟩).state.log = 4 := by decide +kernel

/-- C05 for the recovering run above -/
example := C05_target_reached true 0 (le_refl _) recCalls 6 0 1 1 ⟨0, 0, []⟩ (advanceT true 0 recCalls 6 0 1 ⟨0, 0, []⟩).state
  (by norm_num) (by decide +kernel)

/-- C05: a target equal to the start, and one before it -/
example := (C05_trivial_targets false (0 : Rat) recCalls 6 1 1 ⟨0, 0, []⟩).1 rfl
example := (C05_trivial_targets false (0 : Rat) recCalls 6 1 (1/2) ⟨0, 0, []⟩).2 (by norm_num)

/-- `recCalls` with a stepper that accepts every size -/
def okCalls : Calls Nat Rat Rat := { recCalls with stepper := fun _ _ d x => .ok () (x.1 + d, x.2 + 1) }
/-- `recCalls` with a stepper that accepts no size -/
def badCalls : Calls Nat Rat Rat := { recCalls with stepper := fun _ _ _ x => .stop (.exc .timeStepFailure) (x.1, x.2 + 1) }

/-- C06: sizes of one half, three steps to cover 5/4 -/
example := C06_terminates (0 : Rat) (1/2) okCalls (by norm_num) (le_refl _)
  (fun _ _ _ w => ⟨1/2, w, rfl, le_refl _⟩) (fun _ _ _ _ => rfl) (fun _ _ _ _ => rfl) 3 0 (5/4) (by norm_num) (by norm_num)
  (by decide) 3 (le_refl _) ⟨0, 0, []⟩

/-- C06: the size 0 -/
example := C06_zero_step_never_returns (1/100 : Rat) { okCalls with dtPolicy3 := fun _ _ _ w => .ok 0 w }
  (fun _ _ _ w => ⟨w, rfl⟩) (fun _ _ _ _ => rfl) (fun _ _ _ _ => rfl) 0 1 (by norm_num) (by norm_num) 1000 ⟨0, 0, []⟩

/-- C07 for the recovering run above: the list of calls shown there respects the minimum 1/16 -/
example := C07_minimum_step_size_respected true (0 : Rat) recCalls 6 0 1 ⟨0, 0, []⟩

/-- C08 for a step that is abandoned at the minimum -/
example := C08_recovery_protocol true (0 : Rat) badCalls 9 0 1 ⟨0, 0, []⟩ (advanceT true 0 badCalls 9 0 1 ⟨0, 0, []⟩).state
  (.exc (.runtimeError "violation of minimum time step while recovering")) (by simp) (by norm_num) (by decide +kernel)

/-- C08: the failures of `badCalls` do not escape -/
example := C08_no_time_step_failure_escapes (0 : Rat) badCalls 9 0 1 ⟨0, 0, []⟩
  (fun _ _ _ _ => by simp [badCalls, recCalls]) (fun _ _ _ _ => by simp [badCalls, recCalls])

/-- C09: four attempts of `badCalls` at the most -/
example := C09_attempts_bounded badCalls 0 1 (1/2) (1/16) 2 (fun _ _ _ _ => by simp [badCalls]) ⟨0, 0, []⟩ 4 (by norm_num)
  (by norm_num)
example := C09_bound_exists (1/2 : Rat) (1/16) 2 (by norm_num) (by norm_num)

/-- C09: `badCalls` is abandoned -/
example := C09_always_failing_step_is_abandoned (0 : Rat) badCalls 0 1 (by norm_num) ⟨0, 0, []⟩ ⟨1/2, 1/16, 2⟩ 0 0 rfl rfl
  (by norm_num) (by norm_num) (by norm_num) (fun _ _ _ x => ⟨(x.1, x.2 + 1), rfl⟩)

/-- C09: `recCalls` terminates -/
example := C09_recovering_run_terminates (0 : Rat) (1/16) recCalls (by norm_num) (le_refl _)
  (fun _ _ _ _ => by simp [recCalls]) (fun _ _ _ _ v' _ h => by simp only [recCalls, Res.ok.injEq] at h; rw [← h.1])
  (fun _ _ d _ => by simp only [recCalls]; split <;> simp) (fun _ _ _ _ => by simp [recCalls]) 0 1 ⟨0, 0, []⟩

/-- C09: `badCalls` with the minimum left at 0 -/
example := C09_zero_minimum_never_returns (0 : Rat) { badCalls with dtPolicy5 := fun _ _ _ w => .ok ⟨1/2, 0, 2⟩ w } 0 1
  (by norm_num) ⟨0, 0, []⟩ ⟨1/2, 0, 2⟩ 0 0 rfl rfl (by norm_num) (by norm_num) rfl (fun _ _ _ x => ⟨(x.1, x.2 + 1), rfl⟩) 1000

/-- C10: `badCalls` has a single attempt in the overload without extra arguments -/
example := C10_overload_without_arguments_single_attempt (0 : Rat) badCalls 7 0 1 (by norm_num) ⟨0, 0, []⟩ 0 0 (1/2) (0, 1)
  rfl rfl (by norm_num) rfl

/-- C10: `recCalls` succeeds at the second attempt in the overload with extra arguments -/
example := C10_variadic_recovers_partial (0 : Rat) recCalls 7 0 1 (by norm_num) ⟨0, 0, []⟩ 0 0 ⟨1/2, 1/16, 2⟩ (0, 1) (1/4, 2)
  rfl rfl (by norm_num) (by norm_num) (by decide +kernel) (by norm_num) (by decide +kernel)
end Examples

end Pressio.Props
