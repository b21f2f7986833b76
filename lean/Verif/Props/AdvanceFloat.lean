import Verif.Model.AdvanceFloat
import Verif.Spec.AdvanceFloat
import Verif.Lemmas.Float
import Mathlib.Tactic.CongrExclamation

/-
  C83: advancing to a target in floating-point arithmetic.
-/
namespace Pressio.Props
set_option autoImplicit false
set_option linter.unusedSectionVars false
open Pressio Pressio.Model.Advance Pressio.Model.AdvanceFloat Pressio.Spec.AdvanceFloat
open Pressio.Model.Float (Fmt Fl rnd deliver binary64 binary32 epsilon)
open Pressio.Lemmas.Float

section
variable {W T Y : Type}

/-- In exact arithmetic this is the advancer of C05 - C11. -/
theorem C83_exact [Field T] [LinearOrder T] (recovery : Bool) (eps : T) (c : Calls W T Y) (fuel : Nat) (start final : T) :
    Model.AdvanceFloat.advanceT (exact T) recovery eps c fuel start final = Model.Advance.advanceT recovery eps c fuel start final := by
  have hr : ∀ fuel time step minDt factor dt, Model.AdvanceFloat.recoverLoop (exact T) c time step minDt factor fuel dt = Model.Advance.recoverLoop c time step minDt factor fuel dt := by
    intro fuel
    induction fuel with
    | zero => intros; rfl
    | succ fuel ih => intros; simp only [Model.AdvanceFloat.recoverLoop, Model.Advance.recoverLoop, ih]; simp only [exact, decide_eq_true_eq]
  have ha : ∀ time step v fuel, Model.AdvanceFloat.attempt (exact T) recovery c time step v fuel = Model.Advance.attempt recovery c time step v fuel := by
    intros; simp only [Model.AdvanceFloat.attempt, Model.Advance.attempt, hr]
  have hl : ∀ fuel step time v, Model.AdvanceFloat.tLoop (exact T) recovery eps final c fuel step time v = Model.Advance.tLoop recovery eps final c fuel step time v := by
    intro fuel
    induction fuel with
    | zero => intros; rfl
    | succ fuel ih => intros; simp only [Model.AdvanceFloat.tLoop, Model.Advance.tLoop, ha, ih, reached]; simp only [exact, decide_eq_true_eq, Bool.and_eq_true, gt_iff_lt]; congr!
  simp only [Model.AdvanceFloat.advanceT, Model.Advance.advanceT, hl]
  simp only [exact, decide_eq_true_eq]

theorem steps_append (l l' : List (Ev T Y)) : steps (l ++ l') = steps l ++ steps l' := by
  induction l with
  | nil => rfl
  | cons e l ih => cases e <;> simp [steps, ih]

theorem observed_append (l l' : List (Ev T Y)) : observed (l ++ l') = observed l ++ observed l' := by
  induction l with
  | nil => rfl
  | cons e l ih => cases e <;> simp [observed, ih]

/-- one iteration -/
theorem tLoop_plain (A : Arith T) (eps final : T) (c : Calls W T Y) (d : Int → T → T) (hc : Plain c d) (fuel : Nat) (step : Int) (time : T) (v : DtVars T) (hv : A.lt (d step time) v.minDt = false) (s : St W T Y) :
    ∃ s' : St W T Y, steps s'.log = steps s.log ++ [(step, time, d step time)] ∧ observed s'.log = observed s.log ++ [(step, A.add time (d step time))] ∧
      Model.AdvanceFloat.tLoop A false eps final c (fuel+1) step time v s =
        (if step = int32Max then .stop (.ub "signed overflow of step counter") s'
        else if reached A eps final (A.add time (d step time)) then .ok (A.add time (d step time)) s'
        else Model.AdvanceFloat.tLoop A false eps final c fuel (step+1) (A.add time (d step time)) { v with dt := d step time } s') := by
  obtain ⟨w1, h1⟩ := hc.policy step time v.dt s.w
  have h2 := hc.stepper time step (d step time) (s.y, w1)
  rcases e2 : c.stepper time step (d step time) (s.y, w1) with ⟨⟨⟩, y2, w2⟩ | ⟨hh, x⟩
  swap
  · rw [e2] at h2; simp at h2
  have h3 := hc.observer step (A.add time (d step time)) y2 w2
  rcases e3 : c.observer step (A.add time (d step time)) y2 w2 with ⟨⟨⟩, w3⟩ | ⟨hh, x⟩
  swap
  · rw [e3] at h3; simp at h3
  refine ⟨⟨w3, y2, s.log ++ [.setVars step time { v with dt := d step time }] ++ [.step step time (d step time) s.y] ++ [.obs step (A.add time (d step time)) y2]⟩, ?_, ?_, ?_⟩
  · simp [steps_append, steps]
  · simp [observed_append, observed]
  · simp only [Model.AdvanceFloat.tLoop, Prog.bind_run, callDtPolicy, Bool.false_eq_true, if_false, onW, h1, Prog.pure_run, emit, hv, Bool.false_and, Model.AdvanceFloat.attempt, callStep, onYW, e2, callObs, e3]
    split_ifs <;> rfl

/-- the start of the run -/
theorem advanceT_plain (A : Arith T) (eps : T) (c : Calls W T Y) (d : Int → T → T) (hc : Plain c d) (fuel : Nat) (start final : T) (h1 : A.lt final start = false) (h2 : A.eq final start = false) (s : St W T Y) :
    ∃ s' : St W T Y, steps s'.log = steps s.log ∧ observed s'.log = observed s.log ++ [(0, start)] ∧
      Model.AdvanceFloat.advanceT A false eps c fuel start final s = Model.AdvanceFloat.tLoop A false eps final c fuel 1 start ⟨A.zero, A.zero, A.one⟩ s' := by
  have h3 := hc.observer 0 start s.y s.w
  rcases e3 : c.observer 0 start s.y s.w with ⟨⟨⟩, w3⟩ | ⟨hh, x⟩
  swap
  · rw [e3] at h3; simp at h3
  refine ⟨⟨w3, s.y, s.log ++ [.obs 0 start s.y]⟩, by simp [steps_append, steps], by simp [observed_append, observed], ?_⟩
  simp only [Model.AdvanceFloat.advanceT, h1, h2, Bool.false_eq_true, if_false, Prog.bind_run, callObs, emit, onW, e3]

/-- **C83, any arithmetic.** A run without failures whose step sizes `d(step, time)` are not smaller than zero stops after the first step that ends within `eps` of the target or beyond it, the times being sums in the arithmetic of the machine; the stepper has
    been called once for each of them and the observer has seen each of them. -/
theorem C83_stops_at_first_reached (A : Arith T) (eps : T) (c : Calls W T Y) (d : Int → T → T) (hc : Plain c d) (start final : T) (h1 : A.lt final start = false) (h2 : A.eq final start = false)
    (n : Nat) (hpos : ∀ k ≤ n, A.lt (d (1 + k) (times A.add d start k)) A.zero = false) (hbefore : ∀ k < n, reached A eps final (times A.add d start (k+1)) = false)
    (hat : reached A eps final (times A.add d start (n+1)) = true) (hmax : (n:Int) + 1 < int32Max) (fuel : Nat) (hf : n < fuel) (s : St W T Y) :
    ∃ s', Model.AdvanceFloat.advanceT A false eps c fuel start final s = .ok (times A.add d start (n+1)) s' ∧
      steps s'.log = steps s.log ++ (List.range (n+1)).map (fun k : Nat => (1 + (k : Int), times A.add d start k, d (1 + k) (times A.add d start k))) ∧
      observed s'.log = observed s.log ++ (0, start) :: (List.range (n+1)).map (fun k : Nat => (1 + (k : Int), times A.add d start (k+1))) := by
  obtain ⟨s0, g1, g2, g3⟩ := advanceT_plain A eps c d hc fuel start final h1 h2 s
  rw [g3]
  -- `j` steps done, `i` steps to go
  have key : ∀ (i j : Nat), j + i = n → ∀ fuel, i < fuel → ∀ (v : DtVars T), v.minDt = A.zero → ∀ s1 : St W T Y,
      steps s1.log = steps s.log ++ (List.range j).map (fun k : Nat => (1 + (k : Int), times A.add d start k, d (1 + k) (times A.add d start k))) →
      observed s1.log = observed s.log ++ (0, start) :: (List.range j).map (fun k : Nat => (1 + (k : Int), times A.add d start (k+1))) →
      ∃ s', Model.AdvanceFloat.tLoop A false eps final c fuel (1 + j) (times A.add d start j) v s1 = .ok (times A.add d start (n+1)) s' ∧
      steps s'.log = steps s.log ++ (List.range (n+1)).map (fun k : Nat => (1 + (k : Int), times A.add d start k, d (1 + k) (times A.add d start k))) ∧
      observed s'.log = observed s.log ++ (0, start) :: (List.range (n+1)).map (fun k : Nat => (1 + (k : Int), times A.add d start (k+1))) := by
    intro i
    induction i with
    | zero =>
      intro j hj fuel hf v hv s1 k1 k2
      obtain ⟨fuel, rfl⟩ : ∃ f, fuel = f + 1 := ⟨fuel - 1, by omega⟩
      obtain rfl : j = n := by omega
      obtain ⟨s', l1, l2, l3⟩ := tLoop_plain A eps final c d hc fuel (1 + j) (times A.add d start j) v (by rw [hv]; exact hpos j le_rfl) s1
      refine ⟨s', ?_, by rw [l1, k1, List.range_succ]; simp, by rw [l2, k2, List.range_succ]; simp [times]⟩
      rw [l3, if_neg (by omega)]
      rw [show A.add (times A.add d start j) (d (1 + j) (times A.add d start j)) = times A.add d start (j+1) from rfl, if_pos hat]
    | succ i ih =>
      intro j hj fuel hf v hv s1 k1 k2
      obtain ⟨fuel, rfl⟩ : ∃ f, fuel = f + 1 := ⟨fuel - 1, by omega⟩
      obtain ⟨s', l1, l2, l3⟩ := tLoop_plain A eps final c d hc fuel (1 + j) (times A.add d start j) v (by rw [hv]; exact hpos j (by omega)) s1
      rw [l3, if_neg (by omega)]
      rw [show A.add (times A.add d start j) (d (1 + j) (times A.add d start j)) = times A.add d start (j+1) from rfl, if_neg (by rw [hbefore j (by omega)]; simp)]
      have := ih (j+1) (by omega) fuel (by omega) { v with dt := d (1 + j) (times A.add d start j) } hv s' (by rw [l1, k1, List.range_succ]; simp) (by rw [l2, k2, List.range_succ]; simp [times])
      push_cast at this
      rw [add_assoc]
      exact this
  have := key n 0 (by omega) fuel hf ⟨A.zero, A.zero, A.one⟩ rfl s0 (by simp [g1]) (by simp [g2])
  simp only [Nat.cast_zero, add_zero] at this
  exact this

/-- **C83, any arithmetic.** If no time of the run is within `eps` of the target or beyond it, the call never returns: it runs until the step counter leaves its range. -/
theorem C83_never_returns (A : Arith T) (eps : T) (c : Calls W T Y) (d : Int → T → T) (hc : Plain c d) (start final : T) (h1 : A.lt final start = false) (h2 : A.eq final start = false)
    (hpos : ∀ k : Nat, A.lt (d (1 + k) (times A.add d start k)) A.zero = false) (hnever : ∀ k, reached A eps final (times A.add d start (k+1)) = false) (fuel : Nat) (s : St W T Y) :
    (Model.AdvanceFloat.advanceT A false eps c fuel start final s).stop? = if (fuel : Int) < int32Max then some .fuel else some (.ub "signed overflow of step counter") := by
  obtain ⟨s0, g1, g2, g3⟩ := advanceT_plain A eps c d hc fuel start final h1 h2 s
  rw [g3]
  have key : ∀ (fuel j : Nat), ∀ (v : DtVars T), v.minDt = A.zero → ∀ s1 : St W T Y, (1 + j : Int) ≤ int32Max →
      (Model.AdvanceFloat.tLoop A false eps final c fuel (1 + j) (times A.add d start j) v s1).stop? = if (fuel + j : Int) < int32Max then some .fuel else some (.ub "signed overflow of step counter") := by
    intro fuel
    induction fuel with
    | zero => intro j v hv s1 hj; rw [if_pos (by push_cast; omega)]; rfl
    | succ fuel ih =>
      intro j v hv s1 hj
      obtain ⟨s', l1, l2, l3⟩ := tLoop_plain A eps final c d hc fuel (1 + j) (times A.add d start j) v (by rw [hv]; exact hpos j) s1
      rw [l3]
      by_cases hm : (1 + j : Int) = int32Max
      · rw [if_pos hm, if_neg (by push_cast; omega)]; rfl
      · rw [if_neg hm]
        rw [show A.add (times A.add d start j) (d (1 + j) (times A.add d start j)) = times A.add d start (j+1) from rfl, if_neg (by rw [hnever j]; simp)]
        have := ih (j+1) { v with dt := d (1 + j) (times A.add d start j) } hv s' (by push_cast; omega)
        push_cast at this ⊢
        rw [show (1 : Int) + j + 1 = 1 + (j + 1) by ring, this]
        congr 2
        ring
  have := key fuel 0 ⟨A.zero, A.zero, A.one⟩ rfl s0 (by unfold int32Max; norm_num)
  simp only [Nat.cast_zero, add_zero] at this
  exact this

end

/-! ### Floating point: calls that never return -/
section
variable {W Y : Type} (F : Fmt)

/-- A target that is not a number: the call never returns, whatever the policy, the start and the stepper. -/
theorem C83_nan_target_never_returns (eps : Fl) (c : Calls W Fl Y) (d : Int → Fl → Fl) (hc : Plain c d) (start : Fl) (hpos : ∀ k : Nat, Model.Float.lt (d (1 + k) (times (Model.Float.add F) d start k)) (.fin 0) = false) (fuel : Nat) (s : St W Fl Y) :
    (Model.AdvanceFloat.advanceT (float F) false eps c fuel start .nan s).stop? = if (fuel : Int) < int32Max then some .fuel else some (.ub "signed overflow of step counter") := by
  refine C83_never_returns (float F) eps c d hc start .nan rfl rfl hpos (fun k => ?_) fuel s
  generalize times (float F).add d start (k+1) = t
  cases t <;> rfl

theorem add_nan (a : Fl) : Model.Float.add F a .nan = .nan := by cases a <;> rfl
theorem nan_add (a : Fl) : Model.Float.add F .nan a = .nan := by cases a <;> rfl

/-- A step size that is not a number passes the test against the minimum; from then on the time is not a number and the call never returns. -/
theorem C83_nan_step_never_returns (eps : Fl) (c : Calls W Fl Y) (d : Int → Fl → Fl) (hc : Plain c d) (start final : Fl) (h1 : Model.Float.lt final start = false) (h2 : Model.Float.eq final start = false) (k0 : Nat)
    (hnan : d (1 + k0) (times (Model.Float.add F) d start k0) = .nan) (hbefore : ∀ k < k0, reached (float F) eps final (times (Model.Float.add F) d start (k+1)) = false)
    (hpos : ∀ k : Nat, Model.Float.lt (d (1 + k) (times (Model.Float.add F) d start k)) (.fin 0) = false) (fuel : Nat) (s : St W Fl Y) :
    (Model.AdvanceFloat.advanceT (float F) false eps c fuel start final s).stop? = if (fuel : Int) < int32Max then some .fuel else some (.ub "signed overflow of step counter") := by
  have hn : ∀ j, times (Model.Float.add F) d start (k0 + 1 + j) = .nan := by
    intro j
    induction j with
    | zero => simp only [Nat.add_zero, times]; rw [hnan, add_nan]
    | succ j ih => rw [← Nat.add_assoc, times, ih, nan_add]
  refine C83_never_returns (float F) eps c d hc start final h1 h2 hpos (fun k => ?_) fuel s
  rcases Nat.lt_or_ge k k0 with h | h
  · exact hbefore k h
  · have := hn (k - k0)
    rw [show k0 + 1 + (k - k0) = k + 1 by omega] at this
    show reached (float F) eps final (times (Model.Float.add F) d start (k+1)) = false
    rw [this]
    cases final <;> rfl

/-- adding less than half a unit in the last place changes nothing -/
theorem rnd_absorb (hp : 1 ≤ F.prec) (t h : ℚ) (ht : 0 < t) (hrep : Rep F t) (h0 : 0 ≤ h) (hh : h < 2 ^ (Model.Float.ulpExp F t - 1)) : rnd F (t + h) = t := by
  set e := Model.Float.ulpExp F t with he
  have hpw := two_pos e
  have hhalf : (2:ℚ) ^ (e - 1) = 2 ^ e / 2 := by rw [zpow_sub_one₀ (by norm_num)]; ring
  set k := Model.Float.nearest (t / 2 ^ e) with hk
  have htk : t = k * 2 ^ e := by
    have : rnd F t = k * 2 ^ e := rfl
    rw [hrep] at this
    exact this
  have hle : e ≤ Int.log 2 t + 1 := by
    by_contra hc
    have h1 : t < (1:ℚ) * 2 ^ e := by
      have := lt_pow_log t
      have h2 : (2:ℚ) ^ (Int.log 2 t + 1) ≤ 2 ^ e := zpow_le_zpow_right₀ (by norm_num) (by omega)
      linarith
    have h3 : (k:ℚ) < 1 := by
      rw [htk] at h1
      exact lt_of_mul_lt_mul_right h1 hpw.le
    have h4 : (0:ℚ) < k := by
      by_contra hc
      have : (k:ℚ) * 2 ^ e ≤ 0 := mul_nonpos_of_nonpos_of_nonneg (not_lt.1 hc) hpw.le
      linarith
    have h3' : k < 1 := by exact_mod_cast h3
    have h4' : 0 < k := by exact_mod_cast h4
    omega
  -- same binade
  have hlog : Int.log 2 (t + h) = Int.log 2 t := by
    refine le_antisymm ?_ (Int.log_mono_right ht (by linarith))
    by_contra hc
    have h1 : (2:ℚ) ^ (Int.log 2 t + 1) ≤ t + h := (zpow_le_zpow_right₀ (by norm_num) (by omega)).trans (pow_log_le (by linarith))
    have h2 := lt_pow_log t
    rw [pow_on_grid e _ hle] at h1 h2
    have h3 : (k:ℚ) < ((2 ^ (Int.log 2 t + 1 - e).toNat : Int) : ℚ) := lt_of_mul_lt_mul_right (lt_of_eq_of_lt htk.symm h2) hpw.le
    have h4 : k + 1 ≤ (2 ^ (Int.log 2 t + 1 - e).toNat : Int) := by exact_mod_cast h3
    have h5 : (k:ℚ) + 1 ≤ ((2 ^ (Int.log 2 t + 1 - e).toNat : Int) : ℚ) := by exact_mod_cast h4
    nlinarith
  have hexp : Model.Float.ulpExp F (t + h) = e := by
    rw [he]
    unfold Model.Float.ulpExp
    rw [abs_of_pos ht, abs_of_pos (by linarith : 0 < t + h), hlog]
  unfold rnd
  rw [hexp]
  have : Model.Float.nearest ((t + h) / 2 ^ e) = k := by
    have e1 : (t + h) / 2 ^ e = k + h / 2 ^ e := by rw [htk]; field_simp
    have h1 : 0 ≤ h / 2 ^ e := by positivity
    have h2 : h / 2 ^ e < 1/2 := by rw [div_lt_iff₀ hpw]; linarith
    have hf : ⌊(k:ℚ) + h / 2 ^ e⌋ = k := by rw [Int.floor_eq_iff]; constructor <;> linarith
    unfold Model.Float.nearest
    rw [e1, hf, if_pos (by linarith)]
  rw [this, ← htk]

/-- Steps smaller than half a unit in the last place of the start time: the time never changes and the call never returns, for every target beyond `eps`. -/
theorem C83_absorbed_step_never_returns (hp : 1 ≤ F.prec) (eps : ℚ) (c : Calls W Fl Y) (t h final : ℚ) (hc : Plain c (fun _ _ => .fin h)) (ht : 0 < t) (hrep : Rep F t) (hfin : t < 2 ^ F.emax) (h0 : 0 ≤ h)
    (hh : h < 2 ^ (Model.Float.ulpExp F t - 1)) (htf : t < final) (hnot : eps < |rnd F (t - final)|) (fuel : Nat) (s : St W Fl Y) :
    (Model.AdvanceFloat.advanceT (float F) false (.fin eps) c fuel (.fin t) (.fin final) s).stop? = if (fuel : Int) < int32Max then some .fuel else some (.ub "signed overflow of step counter") := by
  have hadd : Model.Float.add F (.fin t) (.fin h) = .fin t := by
    simp only [Model.Float.add, deliver, rnd_absorb F hp t h ht hrep h0 hh, abs_of_pos ht, if_pos hfin]
  have hall : ∀ k, times (Model.Float.add F) (fun _ _ => .fin h) (.fin t) k = .fin t := by
    intro k
    induction k with
    | zero => rfl
    | succ k ih => rw [times, ih, hadd]
  refine C83_never_returns (float F) (.fin eps) c _ hc (.fin t) (.fin final) (by simp [float, Model.Float.lt, htf.le]) (by simp [float, Model.Float.eq, htf.ne']) (fun k => by simp [float, Model.Float.lt, h0]) (fun k => ?_) fuel s
  show reached (float F) (.fin eps) (.fin final) (times (Model.Float.add F) (fun _ _ => .fin h) (.fin t) (k+1)) = false
  rw [hall]
  simp only [reached, float, Model.Float.sub, Model.Float.neg, Model.Float.add, deliver, ← sub_eq_add_neg]
  split_ifs
  · simp [Model.Float.abs, Model.Float.le, Model.Float.lt, Model.Float.eq, htf.le, hnot.le, hnot.ne']
  · simp [Model.Float.abs, Model.Float.le, Model.Float.lt, Model.Float.eq, htf.le]

end

/-! ### Floating point: calls that return -/
section
variable {W Y : Type} (F : Fmt)

/-- a finite number of the format -/
def IsNum (q : ℚ) : Prop := Rep F q ∧ |q| < 2 ^ F.emax

theorem deliver_fin {q r : ℚ} (h : deliver F q = .fin r) : r = rnd F q := by
  unfold deliver at h
  split_ifs at h
  simpa using h.symm

theorem deliver_zero : deliver F 0 = .fin 0 := by
  unfold deliver
  rw [round_zero, abs_zero, if_pos (two_pos _)]

/-- a sum that overflows upwards is beyond every finite target -/
theorem deliver_up (hp : 1 ≤ F.prec) {t0 q : ℚ} (ht0 : IsNum F t0) (h : t0 ≤ q) : deliver F q = .fin (rnd F q) ∨ deliver F q = .inf false := by
  unfold deliver
  split_ifs with hb
  · exact .inl rfl
  · right
    have : ¬ q < 0 := by
      intro hq
      apply hb
      have h1 := round_mono F hp h
      rw [ht0.1] at h1
      have h2 := round_mono F hp hq.le
      rw [round_zero] at h2
      have h3 := ht0.2
      rw [abs_lt] at h3 ⊢
      constructor <;> linarith
    simp [this]

theorem reached_fin (eps tf q : ℚ) (heps : 0 ≤ eps) (h : reached (float F) (.fin eps) (.fin tf) (.fin q) = false) : q < tf := by
  by_contra hc
  rcases eq_or_lt_of_le (not_lt.1 hc) with rfl | hlt
  · simp only [reached, float, Model.Float.sub, Model.Float.neg, Model.Float.add, add_neg_cancel, deliver_zero] at h
    simp [Model.Float.abs, Model.Float.le, Model.Float.lt, Model.Float.eq] at h
    rcases eq_or_lt_of_le heps with h' | h'
    · exact h.2 h'
    · linarith [h.1]
  · simp [reached, float, Model.Float.lt, hlt] at h

/-- **C83.** Steps that are not too small for the format reach the target: if every step size is a finite number `≥ δ` and `δ` is at least twice the rounding error of a sum of that size, a call with a target `K δ / 2` away returns after at most `K` steps.
    An overflow of the time ends the run too. -/
theorem C83_terminates (hp : 1 ≤ F.prec) (eps : ℚ) (heps : 0 ≤ eps) (c : Calls W Fl Y) (d : Int → Fl → ℚ) (hc : Plain c (fun n t => .fin (d n t))) (t0 tf δ : ℚ) (ht0 : IsNum F t0) (hlt : t0 < tf)
    (hδ : 0 < δ) (hd : ∀ n t, δ ≤ d n t) (hround : 2 ^ (-F.prec : Int) * (max |t0| |tf| + δ) + 2 ^ (F.emin - 1) ≤ δ / 2)
    (K : Nat) (hK : tf - t0 ≤ K * (δ / 2)) (hmax : (K:Int) < int32Max) (fuel : Nat) (hf : K ≤ fuel) (s : St W Fl Y) :
    ∃ t s' n, Model.AdvanceFloat.advanceT (float F) false (.fin eps) c fuel (.fin t0) (.fin tf) s = .ok t s' ∧ reached (float F) (.fin eps) (.fin tf) t = true ∧
      (steps s'.log).length = (steps s.log).length + n ∧ 1 ≤ n ∧ n ≤ K := by
  let D : Int → Fl → Fl := fun n t => .fin (d n t)
  -- before the target is reached, every step gains at least δ/2
  have prog : ∀ k : Nat, (∀ j < k, reached (float F) (.fin eps) (.fin tf) (times (Model.Float.add F) D (.fin t0) (j+1)) = false) →
      ∃ q, times (Model.Float.add F) D (.fin t0) k = .fin q ∧ t0 + k * (δ/2) ≤ q ∧ q < tf := by
    intro k
    induction k with
    | zero => intro _; exact ⟨t0, rfl, by simp, hlt⟩
    | succ k ih =>
      intro hn
      obtain ⟨q, h1, h2, h3⟩ := ih (fun j hj => hn j (by omega))
      have hnk := hn k (by omega)
      have e : times (Model.Float.add F) D (.fin t0) (k+1) = deliver F (q + d (1 + k) (.fin q)) := by
        rw [times, h1]; rfl
      rw [e] at hnk ⊢
      have hk0 : (0:ℚ) ≤ k * (δ/2) := by positivity
      have hdd := hd (1 + k) (.fin q)
      rcases deliver_up F hp (q := q + d (1 + k) (.fin q)) ht0 (by linarith) with h | h
      · rw [h] at hnk ⊢
        refine ⟨_, rfl, ?_, reached_fin F eps tf _ heps hnk⟩
        have g1 := round_mono F hp (show q + δ ≤ q + d (1 + k) (.fin q) by linarith)
        have g2 := round_error_le F (q + δ)
        have g3 : |q + δ| ≤ max |t0| |tf| + δ := by
          have := le_max_left |t0| |tf|
          have := le_max_right |t0| |tf|
          have := neg_abs_le t0
          have := le_abs_self tf
          rw [abs_le]; constructor <;> linarith
        have g4 : (2:ℚ) ^ (-F.prec : Int) * |q + δ| ≤ 2 ^ (-F.prec : Int) * (max |t0| |tf| + δ) := mul_le_mul_of_nonneg_left g3 (two_pos _).le
        have g5 := (abs_le.1 g2).1
        push_cast
        linarith
      · rw [h] at hnk
        simp [reached, float, Model.Float.lt] at hnk
  have ex : ∃ n, reached (float F) (.fin eps) (.fin tf) (times (Model.Float.add F) D (.fin t0) (n+1)) = true := by
    by_contra hc
    obtain ⟨q, -, h2, h3⟩ := prog K (fun j _ => by simpa using fun h => hc ⟨j, h⟩)
    linarith
  classical
  let n := Nat.find ex
  have hn1 := Nat.find_spec ex
  have hn2 : ∀ k < n, reached (float F) (.fin eps) (.fin tf) (times (Model.Float.add F) D (.fin t0) (k+1)) = false := fun k hk => by simpa using Nat.find_min ex hk
  have hnK : n < K := by
    by_contra hge
    obtain ⟨q, -, h2, h3⟩ := prog K (fun j hj => hn2 j (by omega))
    linarith
  obtain ⟨s', g1, g2, -⟩ := C83_stops_at_first_reached (float F) (.fin eps) c D hc (.fin t0) (.fin tf) (by simp [float, Model.Float.lt, hlt.le]) (by simp [float, Model.Float.eq, hlt.ne'])
    n (fun k _ => by simp only [float, Model.Float.lt, D, decide_eq_false_iff_not, not_lt]; exact hδ.le.trans (hd _ _)) hn2 hn1 (by omega) fuel (by omega) s
  refine ⟨_, s', n+1, g1, hn1, ?_, by omega, by omega⟩
  rw [g2]; simp

/-- **C83.** The computed times of `k` equal steps differ from `t0 + k h` by at most `k` rounding errors, as long as the sums stay below `B`. -/
theorem C83_time_error (t0 h B : ℚ) (k : Nat) (q : Nat → ℚ) (hq : ∀ j ≤ k, times (Model.Float.add F) (fun _ _ => .fin h) (.fin t0) j = .fin (q j)) (hB : ∀ j < k, |q j + h| ≤ B) :
    |q k - (t0 + k * h)| ≤ k * (2 ^ (-F.prec : Int) * B + 2 ^ (F.emin - 1)) := by
  induction k with
  | zero => have := hq 0 le_rfl; simp [times] at this; simp [this]
  | succ k ih =>
    have h1 := ih (fun j hj => hq j (by omega)) (fun j hj => hB j (by omega))
    have h2 : q (k+1) = rnd F (q k + h) := by
      have := hq (k+1) le_rfl
      rw [times, hq k (by omega)] at this
      exact deliver_fin F this
    have h3 := round_error_le F (q k + h)
    rw [← h2] at h3
    have h4 : (2:ℚ) ^ (-F.prec : Int) * |q k + h| ≤ 2 ^ (-F.prec : Int) * B := mul_le_mul_of_nonneg_left (hB k (by omega)) (two_pos _).le
    have e : q (k+1) - (t0 + (k+1 : Nat) * h) = (q (k+1) - (q k + h)) + (q k - (t0 + k * h)) := by push_cast; ring
    rw [e]
    refine (abs_add_le _ _).trans ?_
    push_cast
    linarith

/-- the format is one of a machine -/
def Fmt.Ok : Prop := 2 ≤ F.prec ∧ F.emin ≤ 1 - F.prec ∧ 1 ≤ F.emax

/-- **C83.** With `N` equal steps that end, up to `σ`, at the target, and rounding errors that together with `σ` do not exceed the machine epsilon, the call makes exactly `N` steps and the last time is within the machine epsilon of the target. -/
theorem C83_number_of_steps_partial (hF : Fmt.Ok F) (c : Calls W Fl Y) (t0 tf h σ : ℚ) (hc : Plain c (fun _ _ => .fin h)) (ht0 : IsNum F t0) (hlt : t0 < tf) (N : Nat) (hN : 1 ≤ N) (hmax : (N:Int) < int32Max)
    (hσ : |t0 + N * h - tf| ≤ σ) (hsmall : N * (2 ^ (-F.prec : Int) * (max |t0| |tf| + h) + 2 ^ (F.emin - 1)) + σ ≤ 2 ^ (1 - F.prec : Int)) (hh : 3 * (2:ℚ) ^ (1 - F.prec : Int) ≤ h)
    (hbig : max |t0| |tf| + h ≤ 2 ^ (F.emax - 1)) (fuel : Nat) (hf : N ≤ fuel) (s : St W Fl Y) :
    ∃ q s', Model.AdvanceFloat.advanceT (float F) false (epsilon F) c fuel (.fin t0) (.fin tf) s = .ok (.fin q) s' ∧ |q - tf| ≤ 2 ^ (1 - F.prec : Int) ∧ (steps s'.log).length = (steps s.log).length + N := by
  obtain ⟨hp, hemin, hemax⟩ := hF
  have hp1 : 1 ≤ F.prec := by omega
  set E : ℚ := 2 ^ (1 - F.prec : Int) with hE
  have hEpos : 0 < E := two_pos _
  set B := max |t0| |tf| + h with hB
  set ε1 := (2:ℚ) ^ (-F.prec : Int) * B + 2 ^ (F.emin - 1) with hε1
  have hhpos : 0 < h := by linarith
  have hB0 : 0 ≤ B := by have := le_max_left |t0| |tf|; have := abs_nonneg t0; linarith
  have hε0 : 0 ≤ ε1 := by rw [hε1]; positivity
  have hσ0 : 0 ≤ σ := (abs_nonneg _).trans hσ
  have hrepE : Rep F E := rep_pow F hp1 _ hemin
  have hrep2E : Rep F (2 * E) := by
    have : 2 * E = (2:ℚ) ^ (2 - F.prec : Int) := by
      rw [hE, show (2 - F.prec : Int) = (1 - F.prec) + 1 by ring, zpow_add_one₀ (by norm_num)]; ring
    rw [this]; exact rep_pow F hp1 _ (by omega)
  let D : Int → Fl → Fl := fun _ _ => .fin h
  have inv : ∀ k ≤ N, ∃ q : Nat → ℚ, (∀ j ≤ k, times (Model.Float.add F) D (.fin t0) j = .fin (q j)) ∧ (∀ j < k, |q j + h| ≤ B) ∧ (∀ j < k, q j ≤ tf - 2 * E) ∧ t0 ≤ q k ∧ Rep F (q k) := by
    intro k
    induction k with
    | zero => intro _; exact ⟨fun _ => t0, fun j hj => by simp [show j = 0 by omega, times], by simp, by simp, le_rfl, ht0.1⟩
    | succ k ih =>
      intro hk
      obtain ⟨q, h1, h2, h3, h4, h5⟩ := ih (by omega)
      have err := C83_time_error F t0 h B k q h1 h2
      rw [← hε1] at err
      have hkN : (k:ℚ) + 1 ≤ N := by exact_mod_cast hk
      have hup : q k ≤ tf - 2 * E := by
        have g1 := (abs_le.1 err).2
        have g2 := (abs_le.1 hσ).2
        have g3 : (k:ℚ) * ε1 ≤ N * ε1 := mul_le_mul_of_nonneg_right (by linarith) hε0
        have g4 : ((k:ℚ) + 1) * h ≤ N * h := mul_le_mul_of_nonneg_right hkN hhpos.le
        nlinarith
      have hqB : |q k + h| ≤ B := by
        have := le_max_left |t0| |tf|
        have := le_max_right |t0| |tf|
        have := neg_abs_le t0
        have := le_abs_self tf
        rw [abs_le]; constructor <;> linarith
      have hrb : |rnd F (q k + h)| < 2 ^ F.emax := by
        have hr : Rep F ((2:ℚ) ^ (F.emax - 1)) := rep_pow F hp1 _ (by omega)
        have hb := hqB.trans hbig
        have a1 := round_mono F hp1 (abs_le.1 hb).2
        have a2 := round_mono F hp1 (abs_le.1 hb).1
        rw [round_neg] at a2
        rw [hr] at a1 a2
        exact (abs_le.2 ⟨a2, a1⟩).trans_lt (zpow_lt_zpow_right₀ (by norm_num) (by omega))
      refine ⟨fun j => if j ≤ k then q j else rnd F (q k + h), ?_, ?_, ?_, ?_, ?_⟩ <;> beta_reduce
      · intro j hj
        rcases Nat.lt_or_ge k j with hjk | hjk
        · obtain rfl : j = k + 1 := by omega
          rw [if_neg (by omega), times, h1 k le_rfl]
          show deliver F (q k + h) = _
          unfold deliver
          rw [if_pos hrb]
        · rw [if_pos hjk]; exact h1 j hjk
      · intro j hj
        rw [if_pos (by omega)]
        rcases Nat.lt_or_ge j k with hjk | hjk
        · exact h2 j hjk
        · obtain rfl : j = k := by omega
          exact hqB
      · intro j hj
        rw [if_pos (by omega)]
        rcases Nat.lt_or_ge j k with hjk | hjk
        · exact h3 j hjk
        · obtain rfl : j = k := by omega
          exact hup
      · rw [if_neg (by omega)]
        have := round_mono F hp1 (show q k ≤ q k + h by linarith)
        rw [h5] at this
        linarith
      · rw [if_neg (by omega)]
        exact rep_round F hp1 _
  obtain ⟨q, h1, h2, h3, -, -⟩ := inv N le_rfl
  have err := C83_time_error F t0 h B N q h1 h2
  rw [← hε1] at err
  have hend : |q N - tf| ≤ E := by
    rw [show q N - tf = (q N - (t0 + N * h)) + (t0 + N * h - tf) by ring]
    refine (abs_add_le _ _).trans ?_
    linarith
  have hre : ∀ x : ℚ, |x| ≤ E → |rnd F x| ≤ E := by
    intro x hx
    have a1 := round_mono F hp1 (abs_le.1 hx).2
    have a2 := round_mono F hp1 (abs_le.1 hx).1
    rw [round_neg] at a2
    rw [hrepE] at a1 a2
    exact abs_le.2 ⟨a2, a1⟩
  have hat : reached (float F) (epsilon F) (.fin tf) (times (Model.Float.add F) D (.fin t0) N) = true := by
    rw [h1 N le_rfl]
    have hr := hre _ hend
    have hr' : |rnd F (q N - tf)| < 2 ^ F.emax := hr.trans_lt (zpow_lt_zpow_right₀ (by norm_num) (by omega))
    simp only [reached, float, Model.Float.sub, Model.Float.neg, Model.Float.add, ← sub_eq_add_neg, deliver, if_pos hr', Model.Float.abs, epsilon, ← hE, Model.Float.le, Model.Float.lt, Model.Float.eq]
    rcases hr.lt_or_eq with h | h
    · simp [h]
    · simp [h]
  have hbefore : ∀ j < N, reached (float F) (epsilon F) (.fin tf) (times (Model.Float.add F) D (.fin t0) j) = false := by
    intro j hj
    rw [h1 j hj.le]
    have hgap := h3 j hj
    have a1 : rnd F (q j - tf) ≤ -(2 * E) := by
      have := round_mono F hp1 (show q j - tf ≤ -(2 * E) by linarith)
      rwa [round_neg, hrep2E] at this
    have a2 : E < |rnd F (q j - tf)| := by
      rw [abs_of_nonpos (by linarith)]; linarith
    have a3 : q j ≤ tf := by linarith
    simp only [reached, float, Model.Float.sub, Model.Float.neg, Model.Float.add, ← sub_eq_add_neg, deliver]
    split_ifs
    · simp [Model.Float.abs, epsilon, ← hE, Model.Float.le, Model.Float.lt, Model.Float.eq, a2.le, a2.ne', a3]
    · simp [Model.Float.abs, epsilon, ← hE, Model.Float.le, Model.Float.lt, Model.Float.eq, a3]
  obtain ⟨n, rfl⟩ : ∃ n, N = n + 1 := ⟨N - 1, by omega⟩
  obtain ⟨s', g1, g2, -⟩ := C83_stops_at_first_reached (float F) (epsilon F) c D hc (.fin t0) (.fin tf) (by simp [float, Model.Float.lt, hlt.le]) (by simp [float, Model.Float.eq, hlt.ne'])
    n (fun k _ => by simp [float, Model.Float.lt, D, hhpos.le]) (fun k hk => hbefore (k+1) (by omega)) hat (by omega) fuel (by omega) s
  refine ⟨q (n+1), s', ?_, hend, ?_⟩
  · rw [g1]
    show Res.ok (times (Model.Float.add F) D (.fin t0) (n+1)) s' = _
    rw [h1 (n+1) le_rfl]
  · rw [g2]; simp

end

/-! ### Witnesses in `double` -/
section
variable {W Y : Type}

/-- the `double` written `0.1` -/
def tenth : ℚ := 3602879701896397 / 2 ^ 55

example : tenth = rnd binary64 (1/10) := by decide +kernel

/-- **C83, why partial.** Advancing a `double` from 0 to 10 with step size `0.1` takes 101 steps, not 100, and ends one step beyond the target: the accumulated rounding errors after 100 steps exceed the machine epsilon. -/
theorem C83_number_of_steps_refuted (c : Calls W Fl Y) (hc : Plain c (fun _ _ => .fin tenth)) (fuel : Nat) (hf : 101 ≤ fuel) (s : St W Fl Y) :
    |100 * tenth - 10| < 1 / 10 ^ 15 ∧
    ∃ q s', Model.AdvanceFloat.advanceT (float binary64) false (epsilon binary64) c fuel (.fin 0) (.fin 10) s = .ok (.fin q) s' ∧ (steps s'.log).length = (steps s.log).length + 101 ∧ 10 + 99 / 1000 < q := by
  refine ⟨by unfold tenth; rw [abs_lt]; constructor <;> norm_num, 710724316194405 / 2 ^ 46, ?_⟩
  have key : ∀ k < 101, reached (float binary64) (epsilon binary64) (.fin 10) (times (Model.Float.add binary64) (fun _ _ => .fin tenth) (.fin 0) (k+1)) = decide (k = 100) := by decide +kernel
  have hend : times (Model.Float.add binary64) (fun _ _ => .fin tenth) (.fin 0) 101 = .fin (710724316194405 / 2 ^ 46) := by decide +kernel
  obtain ⟨s', g1, g2, -⟩ := C83_stops_at_first_reached (float binary64) (epsilon binary64) c _ hc (.fin 0) (.fin 10) (by decide +kernel) (by decide +kernel) 100
    (fun k _ => by simp only [float, Model.Float.lt, tenth, decide_eq_false_iff_not, not_lt]; norm_num) (fun k hk => by rw [show (float binary64).add = Model.Float.add binary64 from rfl, key k (by omega)]; simp; omega)
    (by rw [show (float binary64).add = Model.Float.add binary64 from rfl, key 100 (by omega)]; rfl) (by simp [int32Max]) fuel (by omega) s
  refine ⟨s', ?_, by rw [g2]; simp, by norm_num⟩
  rw [g1, show (float binary64).add = Model.Float.add binary64 from rfl, hend]

/-- objects that do nothing and never throw, with step size `d` -/
def idleCalls (d : Int → Fl → Fl) : Calls Unit Fl Unit where
  stepper _ _ _ := pure ()
  observer _ _ _ := pure ()
  guesser _ _ := pure ()
  dtPolicy3 n t _ := pure (d n t)
  dtPolicy5 n t v := pure { v with dt := d n t }

theorem idle_plain (d : Int → Fl → Fl) : Plain (idleCalls d) d where
  policy _ _ _ w := ⟨w, rfl⟩
  stepper _ _ _ _ := rfl
  observer _ _ _ _ := rfl

/-- the first 3 steps of the same run are exact enough: 0 to `0.3` takes 3 steps although `0.1 + 0.1 + 0.1` is not `0.3` -/
example (s : St Unit Fl Unit) (fuel : Nat) (hf : 3 ≤ fuel) :
    ∃ q s', Model.AdvanceFloat.advanceT (float binary64) false (epsilon binary64) (idleCalls fun _ _ => .fin tenth) fuel (.fin 0) (.fin (rnd binary64 (3/10))) s = .ok (.fin q) s' ∧
      |q - rnd binary64 (3/10)| ≤ 2 ^ (1 - binary64.prec : Int) ∧ (steps s'.log).length = (steps s.log).length + 3 := by
  have e : max |(0:ℚ)| |rnd binary64 (3/10)| = rnd binary64 (3/10) := by rw [abs_zero, max_eq_right (abs_nonneg _), abs_of_nonneg (round_nonneg _ (by norm_num))]
  exact C83_number_of_steps_partial binary64 (by unfold Fmt.Ok binary64; decide) _ 0 (rnd binary64 (3/10)) tenth (1 / 2 ^ 55) (idle_plain _) ⟨by unfold Rep; decide +kernel, by simp [two_pos]⟩ (by decide +kernel) 3 (by norm_num) (by simp [int32Max])
    (by decide +kernel) (by rw [e]; decide +kernel) (by decide +kernel) (by rw [e]; decide +kernel) fuel hf s

/-- start `1`, step `2^-54`, target `2`: the call never returns -/
example (s : St Unit Fl Unit) (fuel : Nat) (hf : (fuel : Int) < int32Max) :
    (Model.AdvanceFloat.advanceT (float binary64) false (epsilon binary64) (idleCalls fun _ _ => .fin (1 / 2 ^ 54)) fuel (.fin 1) (.fin 2) s).stop? = some .fuel := by
  have := C83_absorbed_step_never_returns binary64 (by decide) (2 ^ (1 - binary64.prec : Int)) (idleCalls fun _ _ => .fin (1 / 2 ^ 54)) 1 (1 / 2 ^ 54) 2 (idle_plain _) (by norm_num) (by unfold Rep; decide +kernel) (by decide +kernel)
    (by norm_num) (by decide +kernel) (by norm_num) (by decide +kernel) fuel s
  rwa [if_pos hf] at this

/-- start `0`, steps at least `1/4`, target `100`: at most 800 steps -/
example (d : Int → Fl → ℚ) (hd : ∀ n t, 1/4 ≤ d n t) (s : St Unit Fl Unit) :
    ∃ t s' n, Model.AdvanceFloat.advanceT (float binary64) false (.fin (2 ^ (1 - binary64.prec : Int))) (idleCalls fun n t => .fin (d n t)) 800 (.fin 0) (.fin 100) s = .ok t s' ∧
      reached (float binary64) (.fin (2 ^ (1 - binary64.prec : Int))) (.fin 100) t = true ∧ (steps s'.log).length = (steps s.log).length + n ∧ 1 ≤ n ∧ n ≤ 800 :=
  C83_terminates binary64 (by decide) _ (two_pos _).le _ d (idle_plain _) 0 100 (1/4) ⟨round_zero _, by simp [two_pos]⟩ (by norm_num) (by norm_num) hd (by decide +kernel) 800 (by norm_num) (by simp [int32Max]) 800 le_rfl s

/-- a step size that becomes NaN at the third step -/
example (s : St Unit Fl Unit) (fuel : Nat) (hf : (fuel : Int) < int32Max) :
    (Model.AdvanceFloat.advanceT (float binary64) false (epsilon binary64) (idleCalls fun n _ => if n = 3 then .nan else .fin 1) fuel (.fin 0) (.fin 100) s).stop? = some .fuel := by
  have := C83_nan_step_never_returns binary64 (epsilon binary64) (idleCalls fun n _ => if n = 3 then .nan else .fin 1) _ (idle_plain _) (.fin 0) (.fin 100) (by decide +kernel) (by decide +kernel) 2 (by decide +kernel)
    (by decide +kernel) (fun k => by split_ifs <;> rfl) fuel s
  rwa [if_pos hf] at this

/-- a target that is not a number -/
example (s : St Unit Fl Unit) (fuel : Nat) (hf : (fuel : Int) < int32Max) :
    (Model.AdvanceFloat.advanceT (float binary64) false (epsilon binary64) (idleCalls fun _ _ => .fin 1) fuel (.fin 0) .nan s).stop? = some .fuel := by
  have := C83_nan_target_never_returns binary64 (epsilon binary64) (idleCalls fun _ _ => .fin 1) _ (idle_plain _) (.fin 0) (fun k => by decide +kernel) fuel s
  rwa [if_pos hf] at this

end

/-! ### Recovery: a reduction factor that is not a number -/
section
variable {W Y : Type} (F : Fmt)

/-- every attempt fails -/
theorem recover_nan (c : Calls W Fl Y) (time : Fl) (step : Int) (minDt factor : Fl) (hfail : ∀ t n x s, ∃ s', c.stepper t n x s = .stop (.exc Exc.timeStepFailure) s') (hfac : factor = .nan) (fuel : Nat) (dt : Fl) (s : St W Fl Y) :
    (Model.AdvanceFloat.recoverLoop (float F) c time step minDt factor fuel dt s).stop? = some .fuel := by
  subst hfac
  induction fuel generalizing dt s with
  | zero => rfl
  | succ fuel ih =>
    obtain ⟨s1, h1⟩ := hfail time step dt (s.y, s.w)
    have hdiv : (float F).div dt .nan = .nan := by cases dt <;> rfl
    have hlt : (float F).lt .nan minDt = false := by cases minDt <;> rfl
    simp only [Model.AdvanceFloat.recoverLoop, Prog.bind_run, Prog.catchE, callStep, emit, onYW, h1, if_pos, Prog.pure_run, Bool.false_eq_true, if_false, hdiv, hlt]
    exact ih _ _

/-- **C83.** A reduction factor that is not a number passes the test `factor <= 1`; if the stepper then reports that the step failed, the step size becomes NaN, which is not below the minimum either: the step is retried forever when it keeps failing. -/
theorem C83_nan_factor_retries_forever (eps : Fl) (c : Calls W Fl Y) (start final : Fl) (h1 : Model.Float.lt final start = false) (h2 : Model.Float.eq final start = false)
    (hobs : ∀ n t y w, (c.observer n t y w).isOk = true) (hpol : ∀ n t v w, ∃ v' w', c.dtPolicy5 n t v w = .ok v' w' ∧ v'.factor = .nan ∧ Model.Float.lt v'.dt v'.minDt = false)
    (hfail : ∀ t n x s, ∃ s', c.stepper t n x s = .stop (.exc Exc.timeStepFailure) s') (fuel : Nat) (s : St W Fl Y) :
    (Model.AdvanceFloat.advanceT (float F) true eps c fuel start final s).stop? = some .fuel := by
  have h3 := hobs 0 start s.y s.w
  rcases e3 : c.observer 0 start s.y s.w with ⟨⟨⟩, w3⟩ | ⟨hh, x⟩
  swap
  · rw [e3] at h3; simp at h3
  have e1 : (float F).lt final start = false := h1
  have e2 : (float F).eq final start = false := h2
  simp only [Model.AdvanceFloat.advanceT, e1, e2, Bool.false_eq_true, if_false, Prog.bind_run, callObs, emit, onW, e3]
  cases fuel with
  | zero => rfl
  | succ fuel =>
    obtain ⟨v', w', g1, g2, g3⟩ := hpol 1 start ⟨(float F).zero, (float F).zero, (float F).one⟩ w3
    have g3' : (float F).lt v'.dt v'.minDt = false := g3
    have g4 : (float F).le v'.factor (float F).one = false := by rw [g2]; rfl
    simp only [Model.AdvanceFloat.tLoop, Prog.bind_run, callDtPolicy, if_true, onW, g1, emit, g3', g4, Bool.and_false, Bool.false_eq_true, if_false, Model.AdvanceFloat.attempt]
    have := recover_nan F c start 1 v'.minDt v'.factor hfail g2 (fuel+1) v'.dt
    split
    · rename_i heq; have h := congrArg Res.stop? heq; rw [this] at h; simp at h
    · rename_i heq; have h := congrArg Res.stop? heq; rw [this] at h; simpa using h.symm

/-- a policy that sets an invalid factor, a stepper that always fails -/
example (s : St Unit Fl Unit) (fuel : Nat) :
    (Model.AdvanceFloat.advanceT (float binary64) true (epsilon binary64) { idleCalls (fun _ _ => .fin 1) with dtPolicy5 := fun _ _ _ => pure ⟨.fin 1, .fin 0, .nan⟩, stepper := fun _ _ _ s => .stop (.exc Exc.timeStepFailure) s } fuel (.fin 0) (.fin 1) s).stop? = some .fuel :=
  C83_nan_factor_retries_forever binary64 _ _ _ _ (by decide +kernel) (by decide +kernel) (fun _ _ _ _ => rfl) (fun _ _ _ w => ⟨_, w, rfl, rfl, by decide +kernel⟩) (fun _ _ _ s => ⟨s, rfl⟩) fuel s

end
/-! ### Cases of the statements for any arithmetic -/
section

/-- from 0 to 1 with two steps of 1/2, in `double` -/
example (s : St Unit Fl Unit) := C83_stops_at_first_reached (float binary64) (epsilon binary64) (idleCalls fun _ _ => .fin (1/2)) (fun _ _ => .fin (1/2)) (idle_plain _) (.fin 0) (.fin 1) (by decide +kernel) (by decide +kernel)
  1 (by decide +kernel) (by decide +kernel) (by decide +kernel) (by decide) 2 (by decide) s

/-- steps of size 0 -/
example (s : St Unit Fl Unit) := C83_never_returns (float binary64) (epsilon binary64) (idleCalls fun _ _ => .fin 0) (fun _ _ => .fin 0) (idle_plain _) (.fin 0) (.fin 1) (by decide +kernel) (by decide +kernel)
  (fun _ => by decide +kernel) (fun k => by
    have h : ∀ k, times (float binary64).add (fun _ _ => .fin 0) (.fin 0) k = .fin 0 := by
      intro k
      induction k with
      | zero => rfl
      | succ k ih => rw [times, ih]; decide +kernel
    rw [h]; decide +kernel) 1000 s

/-- the times 0, 1, 2, 3 are exact in `float` -/
example := C83_time_error binary32 0 1 3 3 (fun j => j) (by decide +kernel) (by decide +kernel)

/-- the callbacks with size 1/2 over the rationals: both advancers are the same -/
example (c : Calls Unit ℚ ℚ) := C83_exact true (1/100 : ℚ) c 10 0 1
end

end Pressio.Props
