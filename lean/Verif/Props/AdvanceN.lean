import Verif.Lemmas.Advance

/-
  C01, C02, C03, C12 (advance_n_steps part).
-/
namespace Pressio.Props
set_option autoImplicit false
open Pressio Pressio.Model.Advance Pressio.Spec.Advance Pressio.Lemmas.Advance

variable {W T Y : Type}

/-- step numbers of the observer calls in a log -/
def obsSteps (l : List (Ev T Y)) : List Int :=
  l.filterMap (fun e => match e with | .obs n _ _ => some n | _ => none)
/-- step numbers of the stepper calls in a log -/
def stepSteps (l : List (Ev T Y)) : List Int :=
  l.filterMap (fun e => match e with | .step n _ _ _ => some n | _ => none)

/-- **C01.** `advance_n_steps` returns normally exactly when there is a sequence of `N` steps numbered 1..N in
    which every user object does its part (policy, guesser, stepper, observer, in this order, each time exactly once,
    with `t_{k+1} = t_k + dt_k`), and then the complete list of calls made is: observer at 0, then those of the steps;
    the final state is the one left by the last step.  No law of the scalar type is used. -/
theorem C01_advance_n_steps_protocol [Add T] (zero : T) (c : Calls W T Y) (N : Int) (start : T)
    (s s' : St W T Y) (hN : N < int32Max) :
    advanceN zero c N start s = .ok () s' ↔
    ∃ (w0 : W) (tr : Trace W T Y),
      c.observer 0 start s.y s.w = .ok () w0 ∧ tr.t 0 = start ∧ tr.y 0 = s.y ∧ tr.wA 0 = w0 ∧
      (∀ k < N.toNat, StepOk c 1 zero tr k) ∧
      s'.y = tr.y N.toNat ∧ s'.w = tr.wA N.toNat ∧
      s'.log = s.log ++ (.obs 0 start s.y :: blocks 1 tr N.toNat) := by
  have hover : (1:Int) + (N.toNat : Int) ≤ int32Max := by unfold int32Max at *; omega
  unfold advanceN
  simp only [Prog.bind_run, callObs, emit, onW]
  rcases ho : c.observer 0 start s.y s.w with ⟨⟨⟩, w0⟩ | ⟨h, w0⟩
  · simp only
    constructor
    · intro hrun
      rcases nLoop_spec c N.toNat 1 start zero ⟨w0, s.y, s.log ++ [.obs 0 start s.y]⟩ hover with
        ⟨tr, h1, h2, h3, h4, h5⟩ | ⟨tr, K, h, evs, y', w', h1, h2, h3, h4, h5, h6, h7⟩
      · rw [h5] at hrun
        cases hrun
        exact ⟨w0, tr, rfl, h1, h2, h3, h4, rfl, rfl, by simp⟩
      · rw [h7] at hrun; cases hrun
    · rintro ⟨w1, tr, e, h1, h2, h3, h4, h5, h6, h7⟩
      cases e
      have := nLoop_of_trace c N.toNat 1 zero tr (s.log ++ [.obs 0 start s.y]) hover h4
      rw [h1, h2, h3] at this
      rw [this]
      cases s'
      simp_all
  · simp

/-- C01, counting form: `N+1` observations numbered 0..N and `N` stepper calls numbered 1..N. -/
theorem C01_call_counts [Add T] (zero : T) (c : Calls W T Y) (N : Nat) (start : T)
    (s s' : St W T Y) (hN : (N : Int) < int32Max) (hlog : s.log = [])
    (h : advanceN zero c N start s = .ok () s') :
    obsSteps s'.log = (List.range (N+1)).map (fun k : Nat => (k : Int)) ∧
    stepSteps s'.log = (List.range N).map (fun k : Nat => (k : Int) + 1) := by
  obtain ⟨w0, tr, -, -, -, -, -, -, -, hl⟩ := (C01_advance_n_steps_protocol zero c N start s s' hN).1 h
  rw [hlog, Int.toNat_natCast, List.nil_append] at hl
  have key : ∀ n : Nat, obsSteps (blocks 1 tr n) = (List.range n).map (fun k : Nat => (k : Int) + 1) ∧
      stepSteps (blocks 1 tr n) = (List.range n).map (fun k : Nat => (k : Int) + 1) := by
    intro n
    induction n with
    | zero => simp [blocks, obsSteps, stepSteps]
    | succ n ih =>
      have hb : blocks 1 tr (n+1) = blocks 1 tr n ++ block 1 tr n := by
        simp [blocks, List.range_succ]
      rw [hb]
      unfold obsSteps stepSteps at *
      rw [List.filterMap_append, List.filterMap_append, ih.1, ih.2, List.range_succ, List.map_append]
      simp [block, add_comm]
  refine ⟨?_, ?_⟩
  · rw [hl, List.range_succ_eq_map]
    have := (key N).1
    simp only [obsSteps, List.filterMap_cons] at *
    rw [this]
    simp
  · rw [hl]
    have := (key N).2
    simp only [stepSteps, List.filterMap_cons] at *
    exact this

/-- C01 for `N <= 0`: only the initial observation, the state is untouched. -/
theorem C01_no_steps [Add T] (zero : T) (c : Calls W T Y) (N : Int) (start : T) (s : St W T Y) (hN : N ≤ 0) :
    (advanceN zero c N start s).state.y = s.y ∧
    (advanceN zero c N start s).state.log = s.log ++ [.obs 0 start s.y] := by
  have : N.toNat = 0 := Int.toNat_of_nonpos hN
  unfold advanceN
  rw [this]
  simp only [Prog.bind_run, callObs, emit, onW, nLoop]
  rcases c.observer 0 start s.y s.w with ⟨⟨⟩, w0⟩ | ⟨h, w0⟩ <;> simp

/-- **C02.** If `advance_n_steps` does not return normally, then either the initial observation failed, or
    some number `K < N` of steps was completed, the failure is that of one call of step `K+1`, the calls made are
    those of the `K` complete steps followed by those of step `K+1` up to and including the failing one,
    and nothing else; the outcome is the failure of that call, unchanged. -/
theorem C02_stops_at_first_failure [Add T] (zero : T) (c : Calls W T Y) (N : Int) (start : T)
    (s s' : St W T Y) (h : Stop) (hN : N < int32Max)
    (hrun : advanceN zero c N start s = .stop h s') :
    (∃ w', c.observer 0 start s.y s.w = .stop h w' ∧ s' = ⟨w', s.y, s.log ++ [.obs 0 start s.y]⟩) ∨
    ∃ (w0 : W) (tr : Trace W T Y) (K : Nat) (evs : List (Ev T Y)),
      c.observer 0 start s.y s.w = .ok () w0 ∧ tr.t 0 = start ∧ tr.y 0 = s.y ∧ tr.wA 0 = w0 ∧
      K < N.toNat ∧ (∀ k < K, StepOk c 1 zero tr k) ∧
      FailsAt c 1 zero tr K h evs s'.y s'.w ∧
      s'.log = s.log ++ (.obs 0 start s.y :: blocks 1 tr K) ++ evs := by
  have hover : (1:Int) + (N.toNat : Int) ≤ int32Max := by unfold int32Max at *; omega
  unfold advanceN at hrun
  simp only [Prog.bind_run, callObs, emit, onW] at hrun
  rcases ho : c.observer 0 start s.y s.w with ⟨⟨⟩, w0⟩ | ⟨h0, w0⟩
  · right
    rw [ho] at hrun
    simp only at hrun
    rcases nLoop_spec c N.toNat 1 start zero ⟨w0, s.y, s.log ++ [.obs 0 start s.y]⟩ hover with
        ⟨tr, h1, h2, h3, h4, h5⟩ | ⟨tr, K, h, evs, y', w', h1, h2, h3, h4, h5, h6, h7⟩
    · rw [h5] at hrun; cases hrun
    · rw [h7] at hrun
      cases hrun
      exact ⟨w0, tr, K, evs, rfl, h1, h2, h3, h4, h5, h6, by simp⟩
  · left
    rw [ho] at hrun
    simp only at hrun
    cases hrun
    exact ⟨w0, rfl, rfl⟩

/-- C02, the stepper case in numbers: when a stepper call is the last event, the failing step number is `K+1`, the
    observer has been called for 0..K and not for `K+1`. -/
theorem C02_failed_step_not_observed [Add T] (zero : T) (c : Calls W T Y) (N : Int) (start : T)
    (s s' : St W T Y) (h : Stop) (hN : N < int32Max) (hlog : s.log = [])
    (hrun : advanceN zero c N start s = .stop h s')
    (n : Int) (t d : T) (y : Y) (hlast : s'.log.getLast? = some (.step n t d y)) :
    ∃ K : Nat, n = K + 1 ∧ obsSteps s'.log = (List.range (K+1)).map (fun k : Nat => (k : Int)) := by
  rcases C02_stops_at_first_failure zero c N start s s' h hN hrun with ⟨w', -, rfl⟩ |
    ⟨w0, tr, K, evs, -, -, -, -, -, -, hf, hl⟩
  all_goals try (obtain ⟨w', y', l'⟩ := s'; simp only at hlast hl hf ⊢)
  · simp [hlog] at hlast
  · have key : ∀ n : Nat, obsSteps (blocks 1 tr n) = (List.range n).map (fun k : Nat => (k : Int) + 1) := by
      intro n
      induction n with
      | zero => simp [blocks, obsSteps]
      | succ n ih =>
        have hb : blocks 1 tr (n+1) = blocks 1 tr n ++ block 1 tr n := by
          simp [blocks, List.range_succ]
        rw [hb]
        unfold obsSteps at *
        rw [List.filterMap_append, ih, List.range_succ, List.map_append]
        simp [block, add_comm]
    have hobs : ∀ evs' : List (Ev T Y), obsSteps ([] ++ (.obs 0 start s.y :: blocks 1 tr K) ++ evs') =
        (List.range (K+1)).map (fun k : Nat => (k : Int)) ++ obsSteps evs' := by
      intro evs'
      have := key K
      rw [List.nil_append]
      unfold obsSteps at *
      rw [List.filterMap_append, List.filterMap_cons, this, List.range_succ_eq_map]
      simp
    rw [hlog] at hl
    cases hf with
    | policy h1 =>
      exfalso
      rw [hl] at hlast
      simp only [List.nil_append, List.append_nil] at hlast
      cases K with
      | zero => simp [blocks] at hlast
      | succ K =>
        have hb : blocks 1 tr (K+1) = blocks 1 tr K ++ block 1 tr K := by
          simp [blocks, List.range_succ]
        rw [hb, ← List.cons_append, List.getLast?_append] at hlast
        simp [block] at hlast
    | guesser h1 h2 =>
      exfalso
      rw [hl, List.getLast?_append] at hlast
      simp at hlast
    | stepper h1 h2 h3 =>
      refine ⟨K, ?_, ?_⟩
      · rw [hl, List.getLast?_append] at hlast
        simp at hlast
        omega
      · rw [hl, hobs]
        simp [obsSteps]
    | observer h1 h2 h3 h4 =>
      exfalso
      rw [hl, List.getLast?_append] at hlast
      simp at hlast

/-- The callbacks of a call made with user objects that live in separate memory: the policy and the stepper use
    world `W`, the guesser and observer use `O` and the guesser does not touch the ODE state. -/
def withSideEffects (c : Calls W T Y) {O : Type} (guesser : Int → T → Y → Prog O Unit)
    (observer : Int → T → Y → Prog O Unit) : Calls (W × O) T Y where
  dtPolicy3 := fun n t d s => match c.dtPolicy3 n t d s.1 with
    | .ok a w => .ok a (w, s.2)
    | .stop h w => .stop h (w, s.2)
  dtPolicy5 := fun n t d s => match c.dtPolicy5 n t d s.1 with
    | .ok a w => .ok a (w, s.2)
    | .stop h w => .stop h (w, s.2)
  guesser := fun n t s => match guesser n t s.1 s.2.2 with
    | .ok a o => .ok a (s.1, (s.2.1, o))
    | .stop h o => .stop h (s.1, (s.2.1, o))
  stepper := fun t n d s => match c.stepper t n d (s.1, s.2.1) with
    | .ok a (y, w) => .ok a (y, (w, s.2.2))
    | .stop h (y, w) => .stop h (y, (w, s.2.2))
  observer := fun n t y s => match observer n t y s.2 with
    | .ok a o => .ok a (s.1, o)
    | .stop h o => .stop h (s.1, o)

/-- the overload without observer and guesser -/
def withoutSideEffects (c : Calls W T Y) : Calls W T Y :=
  { c with guesser := noopGuesser, observer := noopObserver }

theorem nLoop_side_effects [Add T] (c : Calls W T Y) {O : Type} (g o : Int → T → Y → Prog O Unit)
    (hg : ∀ n t y w, (g n t y w).isOk = true) (ho : ∀ n t y w, (o n t y w).isOk = true) (k : Nat) :
    ∀ (first : Int) (time dt0 : T) (w : W) (ob : O) (y : Y) (l1 l2 : List (Ev T Y)),
    let r1 := nLoop (withSideEffects c g o) k first time dt0 ⟨(w, ob), y, l1⟩
    let r2 := nLoop (withoutSideEffects c) k first time dt0 ⟨w, y, l2⟩
    r1.stop? = r2.stop? ∧ r1.state.y = r2.state.y ∧ r1.state.w.1 = r2.state.w := by
  induction k with
  | zero => intro first time dt0 w ob y l1 l2; simp [nLoop]
  | succ k ih =>
    intro first time dt0 w ob y l1 l2
    simp only [nLoop, Prog.bind_run, onW, withSideEffects, withoutSideEffects]
    rcases c.dtPolicy3 first time dt0 w with ⟨d, w1⟩ | ⟨h, w1⟩
    · simp only [emit, callGuess, Prog.bind_run, onYW, noopGuesser, Prog.pure_run]
      rcases eg : g first time y ob with ⟨⟨⟩, o1⟩ | ⟨h, o1⟩
      · simp only [callStep, Prog.bind_run, emit, onYW]
        rcases c.stepper time first d (y, w1) with ⟨⟨⟩, y2, w2⟩ | ⟨h, y2, w2⟩
        · simp only [callObs, Prog.bind_run, emit, onW, noopObserver, Prog.pure_run]
          rcases eo : o first (time + d) y2 o1 with ⟨⟨⟩, o2⟩ | ⟨h, o2⟩
          · simp only
            split
            · simp
            · exact ih _ _ _ _ _ _ _ _
          · have := ho first (time + d) y2 o1; rw [eo] at this; simp at this
        · simp
      · have := hg first time y ob; rw [eg] at this; simp at this
    · simp

/-- **C03.** Observer and (state-preserving) guesser do not influence the run: same outcome, same final state, same
    stepper/policy memory as in the overload without them, for any observer and guesser that do not throw. -/
theorem C03_observer_and_guesser_transparent [Add T] (zero : T) (c : Calls W T Y) {O : Type}
    (g o : Int → T → Y → Prog O Unit)
    (hg : ∀ n t y w, (g n t y w).isOk = true) (ho : ∀ n t y w, (o n t y w).isOk = true)
    (N : Int) (start : T) (w : W) (ob : O) (y : Y) (l1 l2 : List (Ev T Y)) :
    let r1 := advanceN zero (withSideEffects c g o) N start ⟨(w, ob), y, l1⟩
    let r2 := advanceN zero (withoutSideEffects c) N start ⟨w, y, l2⟩
    r1.stop? = r2.stop? ∧ r1.state.y = r2.state.y ∧ r1.state.w.1 = r2.state.w := by
  intro r1 r2
  simp only [r1, r2, advanceN, Prog.bind_run, callObs, emit, onW, withSideEffects, withoutSideEffects, noopObserver,
    Prog.pure_run]
  rcases eo : o 0 start y ob with ⟨⟨⟩, o2⟩ | ⟨h, o2⟩
  · exact nLoop_side_effects c g o hg ho _ _ _ _ _ _ _ _ _
  · have := ho 0 start y ob; rw [eo] at this; simp at this

/-- C03, fixed step size: every step uses the given size, and over a field the time of observation `k` is
    `start + k*dt`; this is also what a step-size policy that always assigns `dt` gives. -/
theorem C03_fixed_dt_times [Field T] (zero : T) (c : Calls W T Y) (N : Int) (start d : T)
    (s s' : St W T Y) (hN : N < int32Max) (h : advanceNFixed zero c N start d s = .ok () s') :
    ∃ (tr : Trace W T Y), (∀ k ≤ N.toNat, tr.t k = start + k * d) ∧ (∀ k < N.toNat, tr.dt k = d) ∧
      s'.y = tr.y N.toNat ∧ s'.log = s.log ++ (.obs 0 start s.y :: blocks 1 tr N.toNat) := by
  obtain ⟨w0, tr, -, h1, -, -, h4, h5, -, h7⟩ :=
    (C01_advance_n_steps_protocol zero _ N start s s' hN).1 h
  have hd : ∀ k < N.toNat, tr.dt k = d := by
    intro k hk
    have := (h4 k hk).policy
    simp at this
    exact this.1.symm
  refine ⟨tr, ?_, hd, h5, h7⟩
  intro k
  induction k with
  | zero => intro _; simp [h1]
  | succ k ih =>
    intro hk
    rw [(h4 k (by omega)).time, ih (by omega), hd k (by omega)]
    push_cast
    ring

/-- C03: the fixed-size overload and any policy that always assigns the same size agree call by call. -/
theorem C03_fixed_is_constant_policy [Add T] (zero : T) (c : Calls W T Y) (N : Int) (start d : T) (s : St W T Y)
    (hc : ∀ n t d' w, c.dtPolicy3 n t d' w = .ok d w) :
    advanceNFixed zero c N start d s = advanceN zero c N start s := by
  have : ({ c with dtPolicy3 := fun _ _ _ => pure d } : Calls W T Y) = c := by
    cases c
    simp only [Calls.mk.injEq, and_true]
    funext n t d' w
    exact (hc n t d' w).symm
  unfold advanceNFixed
  rw [this]

/-- **C12.** With a step count below the largest 32-bit value the step counter never overflows: if the user
    objects never hit undefined behaviour, neither does the advancer. -/
theorem C12_no_overflow_below_max [Add T] (zero : T) (c : Calls W T Y) (N : Int) (start : T) (s : St W T Y)
    (hN : N < int32Max) (why : String)
    (hp : ∀ n t d w, (c.dtPolicy3 n t d w).stop? ≠ some (.ub why))
    (hg : ∀ n t x, (c.guesser n t x).stop? ≠ some (.ub why))
    (hs : ∀ t n d x, (c.stepper t n d x).stop? ≠ some (.ub why))
    (ho : ∀ n t y w, (c.observer n t y w).stop? ≠ some (.ub why)) :
    (advanceN zero c N start s).stop? ≠ some (.ub why) := by
  intro hcon
  rcases hr : advanceN zero c N start s with ⟨⟨⟩, s'⟩ | ⟨h, s'⟩
  · rw [hr] at hcon; simp at hcon
  · rw [hr] at hcon
    simp only [Res.stop?_stop, Option.some.injEq] at hcon
    subst hcon
    rcases C02_stops_at_first_failure zero c N start s s' _ hN hr with ⟨w', h1, -⟩ |
      ⟨w0, tr, K, evs, -, -, -, -, -, -, hf, -⟩
    · exact ho 0 start s.y s.w (by rw [h1]; rfl)
    · obtain ⟨w', y', l'⟩ := s'
      simp only at hf
      cases hf with
      | policy h1 => exact hp _ _ _ _ (by rw [h1]; rfl)
      | guesser h1 h2 => exact hg _ _ _ (by rw [h2]; rfl)
      | stepper h1 h2 h3 => exact hs _ _ _ _ (by rw [h3]; rfl)
      | observer h1 h2 h3 h4 => exact ho _ _ _ _ (by rw [h4]; rfl)

/-- C12: at the largest value the loop does overflow: whatever the (non-throwing) user objects are, all steps
    are made and then the counter is incremented past its range. -/
theorem C12_overflow_at_max [Add T] (zero : T) (c : Calls W T Y) (start : T) (s : St W T Y)
    (hp : ∀ n t d w, (c.dtPolicy3 n t d w).isOk = true) (hg : ∀ n t x, (c.guesser n t x).isOk = true)
    (hs : ∀ t n d x, (c.stepper t n d x).isOk = true) (ho : ∀ n t y w, (c.observer n t y w).isOk = true) :
    (advanceN zero c int32Max start s).stop? = some (.ub "signed overflow of step counter") := by
  unfold advanceN
  simp only [Prog.bind_run, callObs, emit, onW]
  rcases eo : c.observer 0 start s.y s.w with ⟨⟨⟩, w0⟩ | ⟨h, w0⟩
  · simp only
    obtain ⟨k, hn, hk⟩ : ∃ k : Nat, int32Max.toNat = k + 1 ∧ (1 : Int) + k = int32Max :=
      ⟨2147483646, by unfold int32Max; omega, by unfold int32Max; omega⟩
    obtain ⟨tr, h1, h2, h3, h4⟩ := trace_exists c hp hg hs ho (k+1) 1 zero start s.y w0
    have := nLoop_of_trace_overflow c k 1 zero tr (s.log ++ [.obs 0 start s.y]) hk h4
    rw [h1, h2, h3] at this
    rw [hn, this]
    rfl
  · have := ho 0 start s.y s.w; rw [eo] at this; simp at this

/-! Concrete instances: a stepper that adds `dt` times a counter kept in the world. -/
section Examples
/-- example callbacks over the integers; the world counts policy calls; step 3 fails for large states -/
def exCalls : Calls Nat Int Int where
  dtPolicy3 := fun _ _ _ w => .ok 2 (w+1)
  dtPolicy5 := fun _ _ v w => .ok v w
  guesser := fun _ _ s => .ok () s
  stepper := fun _ n d s =>
    if n = 3 ∧ s.1 > 6 then .stop (.exc .timeStepFailure) s else .ok () (s.1 + d * s.2, s.2)
  observer := fun _ _ _ w => .ok () w

/-- instance for C01: a run of two steps returns normally with the expected log -/
example : advanceN 0 exCalls 2 0 ⟨0, 0, []⟩ = .ok () ⟨2, 6,
    [.obs 0 0 0, .setDt 1 0 2, .guess 1 0 0, .step 1 0 2 0, .obs 1 2 2,
     .setDt 2 2 2, .guess 2 2 2, .step 2 2 2 2, .obs 2 4 6]⟩ := by decide +kernel

/-- instance for C02: a run whose third step fails -/
example : (advanceN 0 exCalls 4 0 ⟨0, 1, []⟩).stop? = some (.exc .timeStepFailure) := by decide +kernel
/-- C01 for that run: the theorem applies to it -/
example := C01_advance_n_steps_protocol 0 exCalls 2 0 ⟨0, 0, []⟩
  (advanceN 0 exCalls 2 0 ⟨0, 0, []⟩).state (by decide)

/-- C01, counting form, for the same run -/
example : obsSteps (advanceN 0 exCalls 2 0 ⟨0, 0, []⟩).state.log = [0, 1, 2] ∧
    stepSteps (advanceN 0 exCalls 2 0 ⟨0, 0, []⟩).state.log = [1, 2] :=
  C01_call_counts 0 exCalls 2 0 ⟨0, 0, []⟩ (advanceN 0 exCalls 2 0 ⟨0, 0, []⟩).state (by decide) rfl
    (by decide +kernel)

/-- C01 with a negative number of steps -/
example := C01_no_steps 0 exCalls (-3) 0 ⟨0, 5, []⟩ (by decide)

/-- C02 for the run whose third step fails -/
example := C02_stops_at_first_failure 0 exCalls 4 0 ⟨0, 1, []⟩ (advanceN 0 exCalls 4 0 ⟨0, 1, []⟩).state
  (.exc .timeStepFailure) (by decide) (by decide +kernel)

/-- C02 for the same run: its last call is the stepper's, with number 3 -/
example : ∃ K : Nat, (3 : Int) = K + 1 ∧ obsSteps (advanceN 0 exCalls 4 0 ⟨0, 1, []⟩).state.log =
    (List.range (K+1)).map (fun k : Nat => (k : Int)) :=
  C02_failed_step_not_observed 0 exCalls 4 0 ⟨0, 1, []⟩ (advanceN 0 exCalls 4 0 ⟨0, 1, []⟩).state
    (.exc .timeStepFailure) (by decide) rfl (by decide +kernel) 3 4 2 7 (by decide +kernel)

/-- C03 with a guesser and an observer that write to their own memory -/
example := C03_observer_and_guesser_transparent (0 : Int) exCalls
  (fun n _ y (o : List (Int × Int)) => .ok () (o ++ [(n, y)])) (fun n _ y o => .ok () (o ++ [(-n, y)]))
  (fun _ _ _ _ => rfl) (fun _ _ _ _ => rfl) 4 0 0 [] 1 [] []

/-- the same callbacks over the rationals -/
def exCallsQ : Calls Nat ℚ ℚ where
  dtPolicy3 := fun _ _ _ w => .ok (1/2) w
  dtPolicy5 := fun _ _ v w => .ok v w
  guesser := fun _ _ s => .ok () s
  stepper := fun _ _ d s => .ok () (s.1 + d * (s.2 + 1), s.2 + 1)
  observer := fun _ _ _ w => .ok () w

/-- C03, fixed step size, for a run of three steps -/
example := C03_fixed_dt_times 0 exCallsQ 3 1 (1/3) ⟨0, 1, []⟩ (advanceNFixed 0 exCallsQ 3 1 (1/3) ⟨0, 1, []⟩).state
  (by decide) (by decide +kernel)

/-- C03: a policy that always assigns one half -/
example := C03_fixed_is_constant_policy 0 exCallsQ 3 1 (1/2) ⟨0, 1, []⟩ (fun _ _ _ _ => rfl)

/-- C12: the largest admissible number of steps -/
example := C12_no_overflow_below_max 0 exCallsQ (int32Max - 1) 1 ⟨0, 1, []⟩ (by decide)
  "signed overflow of step counter" (fun _ _ _ _ => by simp [exCallsQ]) (fun _ _ _ => by simp [exCallsQ])
  (fun _ _ _ _ => by simp [exCallsQ]) (fun _ _ _ _ => by simp [exCallsQ])

/-- C12: one step more -/
example := C12_overflow_at_max 0 exCallsQ 1 ⟨0, 1, []⟩ (fun _ _ _ _ => rfl) (fun _ _ _ => rfl)
  (fun _ _ _ _ => rfl) (fun _ _ _ _ => rfl)
end Examples

end Pressio.Props
