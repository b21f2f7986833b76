import Verif.Props.AdvanceFloat
import Verif.Spec.AdvanceFloatRecovery
import Verif.Lemmas.FloatNearest

/-
  C85: rounding, and step-size recovery in floating-point arithmetic.
-/
namespace Pressio.Props
set_option autoImplicit false
set_option linter.unusedSectionVars false
open Pressio Pressio.Model.Advance Pressio.Model.AdvanceFloat Pressio.Spec.AdvanceFloat Pressio.Spec.Float
open Pressio.Model.Float (Fmt Fl rnd deliver binary64 binary32 epsilon)
open Pressio.Lemmas.Float

/-! ### The arithmetic -/
section Arithmetic
variable (F : Fmt)

/-- **C85, rounding.** The result of an operation is the one of IEEE 754, and there is only one. -/
theorem C85_rounding (hp : 2 ≤ F.prec) (q : ℚ) (x : Fl) : ResultOf F q x ↔ x = deliver F q := by
  constructor
  · rintro ⟨r, hr, h⟩
    rw [rounds_unique F hp hr] at h
    rcases h with ⟨h1, rfl⟩ | ⟨h1, ⟨h2, rfl⟩ | ⟨h2, rfl⟩⟩
    · rw [deliver, if_pos h1]
    · rw [deliver, if_neg (not_lt.2 h1)]; simp [h2.le]
    · rw [deliver, if_neg (not_lt.2 h1)]; simp [h2]
  · rintro rfl
    refine ⟨rnd F q, rounds F hp q, ?_⟩
    unfold deliver
    split_ifs with h
    · exact .inl ⟨h, rfl⟩
    · right
      refine ⟨not_lt.1 h, ?_⟩
      rcases lt_trichotomy q 0 with hq | rfl | hq
      · right; simp [hq]
      · rw [round_zero, abs_zero] at h; exact absurd (two_pos _) h
      · left; simp [hq, hq.le]

/-- the operators on finite numbers -/
theorem C85_operators (hp : 2 ≤ F.prec) (a b : ℚ) :
    ResultOf F (a + b) ((float F).add (.fin a) (.fin b)) ∧ ResultOf F (a - b) ((float F).sub (.fin a) (.fin b)) ∧ (b ≠ 0 → ResultOf F (a / b) ((float F).div (.fin a) (.fin b))) ∧
      (float F).abs (.fin a) = .fin |a| ∧ (float F).lt (.fin a) (.fin b) = decide (a < b) ∧ (float F).le (.fin a) (.fin b) = decide (a ≤ b) ∧ (float F).eq (.fin a) (.fin b) = decide (a = b) ∧
      (float F).zero = .fin 0 ∧ (float F).one = .fin 1 := by
  refine ⟨(C85_rounding F hp _ _).2 rfl, ?_, fun hb => (C85_rounding F hp _ _).2 ?_, rfl, rfl, ?_, rfl, rfl, rfl⟩
  · rw [C85_rounding F hp, sub_eq_add_neg]; rfl
  · simp [float, Model.Float.div, hb]
  · simp only [float, Model.Float.le, Model.Float.lt, Model.Float.eq, ← Bool.decide_or]
    exact decide_eq_decide.2 le_iff_lt_or_eq.symm

/-- Operators on infinities and NaN: NaN is contagious and compares false; a positive infinity is above, a negative one below every finite number; infinities of different signs add up to NaN, and so do infinity over infinity and zero over zero. -/
theorem C85_special_operators (a b : ℚ) (x : Fl) (s s' : Bool) :
    (float F).add .nan x = .nan ∧ (float F).add x .nan = .nan ∧ (float F).sub .nan x = .nan ∧ (float F).sub x .nan = .nan ∧ (float F).div .nan x = .nan ∧ (float F).div x .nan = .nan ∧ (float F).abs .nan = .nan ∧
      (float F).lt .nan x = false ∧ (float F).lt x .nan = false ∧ (float F).le .nan x = false ∧ (float F).le x .nan = false ∧ (float F).eq .nan x = false ∧ (float F).eq x .nan = false ∧
      (float F).add (.fin a) (.inf s) = .inf s ∧ (float F).add (.inf s) (.fin a) = .inf s ∧ (float F).add (.inf s) (.inf s') = (if s = s' then .inf s else .nan) ∧
      (float F).sub (.fin a) (.inf s) = .inf (!s) ∧ (float F).sub (.inf s) (.fin a) = .inf s ∧ (float F).sub (.inf s) (.inf s') = (if s = s' then .nan else .inf s) ∧
      (float F).div (.fin a) (.inf s) = .fin 0 ∧ (0 < b → (float F).div (.inf s) (.fin b) = .inf s) ∧ (b < 0 → (float F).div (.inf s) (.fin b) = .inf (!s)) ∧ (float F).div (.inf s) (.inf s') = .nan ∧
      (0 < a → (float F).div (.fin a) (.fin 0) = .inf false) ∧ (a < 0 → (float F).div (.fin a) (.fin 0) = .inf true) ∧ (float F).div (.fin 0) (.fin 0) = .nan ∧ (float F).abs (.inf s) = .inf false ∧
      (float F).lt (.fin a) (.inf s) = !s ∧ (float F).lt (.inf s) (.fin a) = s ∧ (float F).lt (.inf s) (.inf s') = (s && !s') ∧
      (float F).le (.fin a) (.inf s) = !s ∧ (float F).le (.inf s) (.fin a) = s ∧ (float F).le (.inf s) (.inf s') = (s || !s') ∧
      (float F).eq (.fin a) (.inf s) = false ∧ (float F).eq (.inf s) (.fin a) = false ∧ (float F).eq (.inf s) (.inf s') = (s == s') := by
  refine ⟨?_, ?_, ?_, ?_, ?_, ?_, ?_, ?_, ?_, ?_, ?_, ?_, ?_, ?_, ?_, ?_, ?_, ?_, ?_, ?_, ?_, ?_, ?_, ?_, ?_, ?_, ?_, ?_, ?_, ?_, ?_, ?_, ?_, ?_, ?_, ?_⟩
  all_goals first
    | rfl
    | (cases x <;> rfl)
    | (cases s <;> rfl)
    | (cases s <;> cases s' <;> rfl)
    | (intro h; simp [float, Model.Float.div, h, h.le, h.ne, h.ne', not_lt.2 h.le]; try (cases s <;> rfl))
    | simp [float, Model.Float.div]

/-- `epsilon()` is the distance from 1 to the next number -/
theorem C85_epsilon (hp : 1 ≤ F.prec) (he : F.emin ≤ 1 - F.prec) (hx : 2 ≤ F.emax) : ∃ ε, epsilon F = .fin ε ∧ 0 < ε ∧ Finite F (1 + ε) ∧ ∀ r, InFormat F r → 1 < r → 1 + ε ≤ r := by
  refine ⟨_, rfl, two_pos _, ⟨?_, ?_⟩, fun r hr h1 => above_one F hr h1⟩
  · rcases Nat.lt_or_ge 1 F.prec with h | h
    · refine ⟨2 ^ (F.prec - 1) + 1, 1 - F.prec, ?_, he, ?_⟩
      · have : (2:Int) ^ F.prec = 2 * 2 ^ (F.prec - 1) := by rw [← pow_succ']; congr 1; omega
        have h2 : (1:Int) < 2 ^ (F.prec - 1) := one_lt_pow₀ (by norm_num) (by omega)
        rw [abs_of_pos (by positivity)]; omega
      · push_cast
        rw [add_mul, one_mul, ← zpow_natCast, ← zpow_add₀ (by norm_num)]
        have : ((F.prec - 1 : Nat) : Int) + (1 - F.prec) = 0 := by omega
        rw [this, zpow_zero]
    · have : F.prec = 1 := by omega
      refine ⟨1, 1, by simp [this], by omega, by rw [this]; norm_num⟩
  · have h1 : (2:ℚ) ^ (1 - F.prec : Int) ≤ 1 := zpow_le_one_of_nonpos₀ (by norm_num) (by omega)
    have h2 : (2:ℚ) ^ (2:Int) ≤ 2 ^ F.emax := zpow_le_zpow_right₀ (by norm_num) hx
    rw [abs_of_pos (by have := two_pos (1 - F.prec : Int); linarith)]
    norm_num at h2; linarith

/-- the largest finite number, with the exponents of a machine -/
theorem C85_largest (hp : 1 ≤ F.prec) (he : F.emin ≤ F.emax - F.prec) :
    Finite F ((2 ^ F.prec - 1) * 2 ^ (F.emax - F.prec)) ∧ ∀ r, Finite F r → r ≤ (2 ^ F.prec - 1) * 2 ^ (F.emax - F.prec) := by
  have hpow : (2:ℚ) ^ F.emax = 2 ^ F.prec * 2 ^ (F.emax - F.prec) := by
    rw [← zpow_natCast, ← zpow_add₀ (by norm_num)]; congr 1; omega
  have h1 : (1:ℚ) ≤ 2 ^ F.prec := one_le_pow₀ (by norm_num)
  constructor
  · refine ⟨⟨2 ^ F.prec - 1, F.emax - F.prec, ?_, he, by push_cast; rfl⟩, ?_⟩
    · have : (1:Int) ≤ 2 ^ F.prec := one_le_pow₀ (by norm_num)
      rw [abs_of_nonneg (by omega)]; omega
    · rw [abs_of_nonneg (mul_nonneg (by linarith) (two_pos _).le), hpow, mul_lt_mul_iff_left₀ (two_pos _)]
      linarith
  · rintro r ⟨⟨m, e, hm, hle, rfl⟩, hr⟩
    have hr' := (le_abs_self _).trans_lt hr
    rcases le_or_gt m 0 with h0 | h0
    · have : (m:ℚ) * 2 ^ e ≤ 0 := mul_nonpos_of_nonpos_of_nonneg (by exact_mod_cast h0) (two_pos _).le
      exact this.trans (mul_nonneg (by linarith) (two_pos _).le)
    rcases le_or_gt e (F.emax - F.prec) with hE | hE
    · have a : (m:ℚ) ≤ 2 ^ F.prec - 1 := by
        have := (abs_lt.1 hm).2
        have : m ≤ 2 ^ F.prec - 1 := by omega
        exact_mod_cast this
      have b : (2:ℚ) ^ e ≤ 2 ^ (F.emax - F.prec) := zpow_le_zpow_right₀ (by norm_num) hE
      exact mul_le_mul a b (two_pos _).le (by linarith)
    · -- a multiple of 2^(emax-prec) below 2^emax
      obtain ⟨k, hk⟩ : ∃ k : Nat, e = F.emax - F.prec + k := ⟨(e - (F.emax - F.prec)).toNat, by omega⟩
      have e1 : (m:ℚ) * 2 ^ e = ((m * 2 ^ k : Int) : ℚ) * 2 ^ (F.emax - F.prec) := by
        rw [hk, zpow_add₀ (by norm_num), zpow_natCast]; push_cast; ring
      rw [e1] at hr' ⊢
      rw [hpow, mul_lt_mul_iff_left₀ (two_pos _)] at hr'
      have : m * 2 ^ k < 2 ^ F.prec := by exact_mod_cast hr'
      refine mul_le_mul_of_nonneg_right ?_ (two_pos _).le
      have : m * 2 ^ k ≤ 2 ^ F.prec - 1 := by omega
      exact_mod_cast this

/-- `DBL_MAX`, `DBL_MIN`, `DBL_EPSILON`, `DBL_TRUE_MIN` and the same for `float` -/
example : ((2:ℚ) ^ binary64.prec - 1) * 2 ^ (binary64.emax - binary64.prec) = (2 - 1 / 2 ^ 52) * 2 ^ 1023 ∧ minNormal binary64 = 1 / 2 ^ 1022 ∧ epsilon binary64 = .fin (1 / 2 ^ 52) ∧ (2:ℚ) ^ binary64.emin = 1 / 2 ^ 1074 ∧
    ((2:ℚ) ^ binary32.prec - 1) * 2 ^ (binary32.emax - binary32.prec) = (2 - 1 / 2 ^ 23) * 2 ^ 127 ∧ minNormal binary32 = 1 / 2 ^ 126 ∧ epsilon binary32 = .fin (1 / 2 ^ 23) ∧ (2:ℚ) ^ binary32.emin = 1 / 2 ^ 149 := by
  unfold minNormal; decide +kernel

example : ResultOf binary64 (1 / 10) ((float binary64).div (.fin 1) (.fin 10)) := (C85_operators binary64 (by decide) 1 10).2.2.1 (by norm_num)
example : (float binary64).div (.fin 1) (.fin 10) = .fin tenth := by decide +kernel
end Arithmetic

/-! ### Runs with recovery, any arithmetic -/
section Runs
variable {W T Y : Type}

theorem shrunk_succ (A : Arith T) (dt f : T) (k : Nat) : shrunk A (A.div dt f) f k = shrunk A dt f (k+1) := by
  induction k with
  | zero => rfl
  | succ k ih => rw [shrunk, ih]; rfl

theorem range_attempts (A : Arith T) (n : Int) (t dt f : T) (m : Nat) :
    (n, t, dt) :: (List.range m).map (fun k => (n, t, shrunk A (A.div dt f) f k)) = (List.range (m+1)).map (fun k => (n, t, shrunk A dt f k)) := by
  rw [List.range_succ_eq_map, List.map_cons, List.map_map]
  simp [shrunk_succ, Function.comp_def, shrunk]

/-- the recovery loop: what it has done when it returns -/
theorem recover_ok (A : Arith T) (c : Calls W T Y) (time : T) (step : Int) (minDt factor : T) (fuel : Nat) (dt d : T) (s s' : St W T Y)
    (h : Model.AdvanceFloat.recoverLoop A c time step minDt factor fuel dt s = .ok d s') :
    ∃ m, d = shrunk A dt factor m ∧ steps s'.log = steps s.log ++ (List.range (m+1)).map (fun k => (step, time, shrunk A dt factor k)) ∧ observed s'.log = observed s.log ∧
      ∀ k < m, A.lt (shrunk A dt factor (k+1)) minDt = false := by
  induction fuel generalizing dt s with
  | zero => simp [Model.AdvanceFloat.recoverLoop] at h
  | succ fuel ih =>
    rw [Model.AdvanceFloat.recoverLoop] at h
    simp only [Prog.bind_run, Prog.catchE, callStep, emit, onYW] at h
    rcases hs : c.stepper time step dt (s.y, s.w) with ⟨⟨⟩, y1, w1⟩ | ⟨hstop, y1, w1⟩
    · rw [hs] at h
      simp only [Prog.pure_run, if_true, Res.ok.injEq] at h
      obtain ⟨rfl, rfl⟩ := h
      exact ⟨0, rfl, by simp [steps_append, steps, shrunk], by simp [observed_append, observed], by simp⟩
    · rw [hs] at h
      rcases hstop with e | u | _
      · by_cases he : e = .timeStepFailure
        · subst he
          simp only [if_true, Prog.pure_run, Bool.false_eq_true, if_false] at h
          by_cases hm : A.lt (A.div dt factor) minDt = true
          · simp [hm] at h
          · rw [if_neg hm] at h
            obtain ⟨m, h1, h2, h3, h4⟩ := ih _ _ h
            refine ⟨m+1, by rw [h1, shrunk_succ], ?_, ?_, ?_⟩
            · rw [h2, steps_append, ← range_attempts A step time dt factor (m+1)]
              simp [steps]
            · rw [h3]; simp [observed_append, observed]
            · intro k hk
              cases k with
              | zero => simpa [shrunk] using hm
              | succ k => have := h4 k (by omega); rwa [shrunk_succ] at this
        · simp [he] at h
      · simp at h
      · simp at h

/-- **C85, what a run does.** A recovering call that returns has made steps as follows: the policy has set sizes, minima and factors; the factor is not `<= 1`; the attempts of a step have the sizes `dt`, `dt/f`, `(dt/f)/f`, ... in machine arithmetic, none
    of them below the minimum; the next time is the machine sum of the time and the size of the last attempt; the run ends after the first step that ends within `eps` of the target or beyond; it returns the time of its end. All calls of stepper and
    observer are these. -/
theorem C85_run (A : Arith T) (eps : T) (c : Calls W T Y) (fuel : Nat) (start final tEnd : T) (h1 : A.lt final start = false) (h2 : A.eq final start = false) (s s' : St W T Y)
    (h : Model.AdvanceFloat.advanceT A true eps c fuel start final s = .ok tEnd s') :
    ∃ l : List (DtVars T × Nat), l ≠ [] ∧ (∀ x ∈ l, Admissible A x) ∧ tEnd = endOf A start l ∧
      (∀ l1 l2, l = l1 ++ l2 → l1 ≠ [] → reached A eps final (endOf A start l1) = l2.isEmpty) ∧
      steps s'.log = steps s.log ++ attempts A 1 start l ∧ observed s'.log = observed s.log ++ (0, start) :: seen A 1 start l := by
  have key : ∀ (fuel : Nat) (step : Int) (time : T) (v : DtVars T) (s s' : St W T Y), Model.AdvanceFloat.tLoop A true eps final c fuel step time v s = .ok tEnd s' →
      ∃ l : List (DtVars T × Nat), l ≠ [] ∧ (∀ x ∈ l, Admissible A x) ∧ tEnd = endOf A time l ∧
        (∀ l1 l2, l = l1 ++ l2 → l1 ≠ [] → reached A eps final (endOf A time l1) = l2.isEmpty) ∧
        steps s'.log = steps s.log ++ attempts A step time l ∧ observed s'.log = observed s.log ++ seen A step time l := by
    intro fuel
    induction fuel with
    | zero => intro step time v s s' h; simp [Model.AdvanceFloat.tLoop] at h
    | succ fuel ih =>
      intro step time v s s' h
      rw [Model.AdvanceFloat.tLoop] at h
      simp only [Prog.bind_run, callDtPolicy, if_true, onW] at h
      rcases hpol : c.dtPolicy5 step time v s.w with ⟨v1, w1⟩ | ⟨hh, w1⟩
      swap
      · rw [hpol] at h; simp at h
      rw [hpol] at h
      simp only [emit] at h
      by_cases hmin : A.lt v1.dt v1.minDt = true
      · simp [hmin] at h
      rw [if_neg hmin] at h
      by_cases hfac : A.le v1.factor A.one = true
      · simp [hfac] at h
      rw [if_neg (by simpa using hfac)] at h
      simp only [Prog.bind_run, Model.AdvanceFloat.attempt, if_true] at h
      rcases hr : Model.AdvanceFloat.recoverLoop A c time step v1.minDt v1.factor (fuel+1) v1.dt ⟨w1, s.y, s.log ++ [.setVars step time v1]⟩ with ⟨d, s2⟩ | ⟨hh, s2⟩
      swap
      · rw [hr] at h; simp at h
      rw [hr] at h
      obtain ⟨m, g1, g2, g3, g4⟩ := recover_ok A c _ _ _ _ _ _ _ _ _ hr
      simp only [callObs, Prog.bind_run, emit, onW] at h
      rcases ho : c.observer step (A.add time d) s2.y s2.w with ⟨⟨⟩, w3⟩ | ⟨hh, w3⟩
      swap
      · rw [ho] at h; simp at h
      rw [ho] at h
      simp only at h
      by_cases hmax : step = int32Max
      · rw [if_pos hmax] at h; simp at h
      rw [if_neg hmax] at h
      have hadm : Admissible A (v1, m) := by
        refine ⟨by simpa using hfac, ?_⟩
        intro k hk
        cases k with
        | zero => simpa [shrunk] using hmin
        | succ k => exact g4 k (by omega)
      have hs2 : steps s2.log = steps s.log ++ (List.range (m+1)).map (fun k => (step, time, shrunk A v1.dt v1.factor k)) := by rw [g2]; simp [steps_append, steps]
      have ho2 : observed s2.log = observed s.log := by rw [g3]; simp [observed_append, observed]
      by_cases hre : reached A eps final (A.add time d) = true
      · simp only [hre, if_true, Prog.pure_run, Res.ok.injEq] at h
        obtain ⟨rfl, rfl⟩ := h
        refine ⟨[(v1, m)], by simp, by simpa using hadm, by simp [endOf, g1], ?_, ?_, ?_⟩
        · intro l1 l2 e hne
          rcases l1 with _ | ⟨x, l1⟩
          · simp at hne
          · simp only [List.cons_append, List.cons.injEq] at e
            obtain ⟨rfl, e⟩ := e
            obtain ⟨rfl, rfl⟩ := List.append_eq_nil_iff.1 e.symm
            simpa [endOf, ← g1] using hre
        · simp [steps_append, steps, hs2, attempts]
        · simp [observed_append, observed, ho2, seen, g1]
      · rw [if_neg hre] at h
        obtain ⟨l, k1, k2, k3, k4, k5, k6⟩ := ih _ _ _ _ _ h
        refine ⟨(v1, m) :: l, by simp, by simpa using ⟨hadm, by simpa using k2⟩, by rw [k3, endOf, g1], ?_, ?_, ?_⟩
        · intro l1 l2 e hne
          rcases l1 with _ | ⟨x, l1⟩
          · simp at hne
          · simp only [List.cons_append, List.cons.injEq] at e
            obtain ⟨rfl, e⟩ := e
            rcases l1 with _ | ⟨x, l1⟩
            · simp only [List.nil_append] at e
              subst e
              simp only [endOf, ← g1]
              rw [show l.isEmpty = false by cases l <;> simp_all]
              simpa using hre
            · rw [endOf, ← g1]
              exact k4 _ _ e (by simp)
        · rw [k5, steps_append, hs2]
          simp [steps, attempts, g1]
        · rw [k6, observed_append, ho2]
          simp [observed, seen, g1]
  unfold Model.AdvanceFloat.advanceT at h
  simp only [h1, h2, Bool.false_eq_true, if_false, Prog.bind_run, callObs, emit, onW] at h
  rcases ho : c.observer 0 start s.y s.w with ⟨⟨⟩, w3⟩ | ⟨hh, w3⟩
  swap
  · rw [ho] at h; simp at h
  rw [ho] at h
  obtain ⟨l, k1, k2, k3, k4, k5, k6⟩ := key _ _ _ _ _ _ h
  refine ⟨l, k1, k2, k3, k4, ?_, ?_⟩
  · rw [k5]; simp [steps_append, steps]
  · rw [k6]; simp [observed_append, observed]

/-- **C85, the checks.** The first step of a run is refused before the stepper is called if the policy sets a size below the minimum, or a factor `<= 1`; the first check comes first. -/
theorem C85_checked (A : Arith T) (eps : T) (c : Calls W T Y) (fuel : Nat) (start final : T) (h1 : A.lt final start = false) (h2 : A.eq final start = false) (s : St W T Y) (w1 w2 : W) (v : DtVars T)
    (ho : c.observer 0 start s.y s.w = .ok () w1) (hpol : c.dtPolicy5 1 start ⟨A.zero, A.zero, A.one⟩ w1 = .ok v w2) (hbad : A.lt v.dt v.minDt = true ∨ A.le v.factor A.one = true) :
    ∃ s', Model.AdvanceFloat.advanceT A true eps c (fuel+1) start final s = .stop (.exc (.runtimeError (if A.lt v.dt v.minDt then "time step size smaller than the minimum value" else "time step size reduction factor must be > 1"))) s' ∧
      steps s'.log = steps s.log ∧ s'.y = s.y ∧ s'.w = w2 := by
  simp only [Model.AdvanceFloat.advanceT, h1, h2, Bool.false_eq_true, if_false, Prog.bind_run, callObs, emit, onW, ho, Model.AdvanceFloat.tLoop, callDtPolicy, if_true, hpol]
  by_cases hm : A.lt v.dt v.minDt = true
  · simp only [hm, if_true]
    exact ⟨_, rfl, by simp [steps_append, steps], rfl, rfl⟩
  · have hf : A.le v.factor A.one = true := hbad.resolve_left hm
    simp only [hm, hf, Bool.false_eq_true, if_false, Bool.and_self, if_true]
    exact ⟨_, rfl, by simp [steps_append, steps], rfl, rfl⟩

/-- the loop with a stepper that always fails, up to the first size below the minimum -/
theorem recover_abandons (A : Arith T) (c : Calls W T Y) (time : T) (step : Int) (minDt factor : T) (hfail : ∀ t n x s, ∃ s', c.stepper t n x s = .stop (.exc Exc.timeStepFailure) s')
    (m : Nat) (dt : T) (hge : ∀ k < m, A.lt (shrunk A dt factor (k+1)) minDt = false) (hlt : A.lt (shrunk A dt factor (m+1)) minDt = true) (fuel : Nat) (hf : m < fuel) (s : St W T Y) :
    ∃ s', Model.AdvanceFloat.recoverLoop A c time step minDt factor fuel dt s = .stop (.exc (.runtimeError "violation of minimum time step while recovering")) s' ∧
      steps s'.log = steps s.log ++ (List.range (m+1)).map (fun k => (step, time, shrunk A dt factor k)) := by
  obtain ⟨fuel, rfl⟩ : ∃ f, fuel = f + 1 := ⟨fuel - 1, by omega⟩
  induction m generalizing dt s fuel with
  | zero =>
    obtain ⟨s1, e1⟩ := hfail time step dt (s.y, s.w)
    have : A.lt (A.div dt factor) minDt = true := hlt
    simp only [Model.AdvanceFloat.recoverLoop, Prog.bind_run, Prog.catchE, callStep, emit, onYW, e1, if_pos, Prog.pure_run, Bool.false_eq_true, if_false, this]
    exact ⟨_, rfl, by simp [steps_append, steps, shrunk]⟩
  | succ m ih =>
    obtain ⟨s1, e1⟩ := hfail time step dt (s.y, s.w)
    have h0 : A.lt (A.div dt factor) minDt = false := hge 0 (by omega)
    obtain ⟨fuel, rfl⟩ : ∃ f, fuel = f + 1 := ⟨fuel - 1, by omega⟩
    rw [Model.AdvanceFloat.recoverLoop]
    simp only [Prog.bind_run, Prog.catchE, callStep, emit, onYW, e1, if_pos, Prog.pure_run, Bool.false_eq_true, if_false, h0]
    obtain ⟨s', g1, g2⟩ := ih (A.div dt factor) (fun k hk => by rw [shrunk_succ]; exact hge (k+1) (by omega)) (by rw [shrunk_succ]; exact hlt) ⟨s1.2, s1.1, s.log ++ [.step step time dt s.y]⟩ fuel (by omega)
    refine ⟨s', g1, ?_⟩
    rw [g2, steps_append, ← range_attempts A step time dt factor (m+1)]
    simp [steps]

/-- the loop with a stepper that always fails, when no size is below the minimum -/
theorem recover_forever (A : Arith T) (c : Calls W T Y) (time : T) (step : Int) (minDt factor : T) (hfail : ∀ t n x s, ∃ s', c.stepper t n x s = .stop (.exc Exc.timeStepFailure) s')
    (dt : T) (hge : ∀ k, A.lt (shrunk A dt factor (k+1)) minDt = false) (fuel : Nat) (s : St W T Y) :
    (Model.AdvanceFloat.recoverLoop A c time step minDt factor fuel dt s).stop? = some .fuel := by
  induction fuel generalizing dt s with
  | zero => rfl
  | succ fuel ih =>
    obtain ⟨s1, e1⟩ := hfail time step dt (s.y, s.w)
    have h0 : A.lt (A.div dt factor) minDt = false := hge 0
    simp only [Model.AdvanceFloat.recoverLoop, Prog.bind_run, Prog.catchE, callStep, emit, onYW, e1, if_pos, Prog.pure_run, Bool.false_eq_true, if_false, h0]
    exact ih _ (fun k => by rw [shrunk_succ]; exact hge (k+1)) _

/-- **C85, a step that always fails, any arithmetic.** If the policy's values pass the checks and every attempt fails, the call tries `dt`, `dt/f`, ... and throws after the attempt before the first size below the minimum; if there is no such size it never returns. -/
theorem C85_always_failing (A : Arith T) (eps : T) (c : Calls W T Y) (start final : T) (h1 : A.lt final start = false) (h2 : A.eq final start = false) (s : St W T Y) (w1 w2 : W) (v : DtVars T)
    (ho : c.observer 0 start s.y s.w = .ok () w1) (hpol : c.dtPolicy5 1 start ⟨A.zero, A.zero, A.one⟩ w1 = .ok v w2) (hdt : A.lt v.dt v.minDt = false) (hfac : A.le v.factor A.one = false)
    (hfail : ∀ t n x s, ∃ s', c.stepper t n x s = .stop (.exc Exc.timeStepFailure) s') :
    (∀ m, (∀ k < m, A.lt (shrunk A v.dt v.factor (k+1)) v.minDt = false) → A.lt (shrunk A v.dt v.factor (m+1)) v.minDt = true → ∀ fuel, m < fuel →
      ∃ s', Model.AdvanceFloat.advanceT A true eps c fuel start final s = .stop (.exc (.runtimeError "violation of minimum time step while recovering")) s' ∧
        steps s'.log = steps s.log ++ (List.range (m+1)).map (fun k => (1, start, shrunk A v.dt v.factor k))) ∧
    ((∀ k, A.lt (shrunk A v.dt v.factor (k+1)) v.minDt = false) → ∀ fuel, (Model.AdvanceFloat.advanceT A true eps c fuel start final s).stop? = some .fuel) := by
  constructor
  · intro m hge hlt fuel hf
    obtain ⟨fuel, rfl⟩ : ∃ f, fuel = f + 1 := ⟨fuel - 1, by omega⟩
    simp only [Model.AdvanceFloat.advanceT, h1, h2, Bool.false_eq_true, if_false, Prog.bind_run, callObs, emit, onW, ho, Model.AdvanceFloat.tLoop, callDtPolicy, if_true, hpol, hdt, hfac, Bool.and_false, Model.AdvanceFloat.attempt]
    obtain ⟨s', g1, g2⟩ := recover_abandons A c start 1 v.minDt v.factor hfail m v.dt hge hlt (fuel+1) hf ⟨w2, s.y, s.log ++ [.obs 0 start s.y] ++ [.setVars 1 start v]⟩
    rw [g1]
    exact ⟨s', rfl, by rw [g2]; simp [steps_append, steps]⟩
  · intro hge fuel
    cases fuel with
    | zero => simp only [Model.AdvanceFloat.advanceT, h1, h2, Bool.false_eq_true, if_false, Prog.bind_run, callObs, emit, onW, ho]; rfl
    | succ fuel =>
      simp only [Model.AdvanceFloat.advanceT, h1, h2, Bool.false_eq_true, if_false, Prog.bind_run, callObs, emit, onW, ho, Model.AdvanceFloat.tLoop, callDtPolicy, if_true, hpol, hdt, hfac, Bool.and_false, Model.AdvanceFloat.attempt]
      have := recover_forever A c start 1 v.minDt v.factor hfail v.dt hge (fuel+1)
      split
      · rename_i heq; have h := congrArg Res.stop? heq; rw [this] at h; simp at h
      · rename_i heq; have h := congrArg Res.stop? heq; rw [this] at h; simpa using h.symm

end Runs

/-! ### Floating point: retries come to an end -/
section FloatRuns
variable {W Y : Type} (F : Fmt)

theorem inFormat_multiple {r : ℚ} (h : InFormat F r) : ∃ k : Int, r = k * 2 ^ F.emin := by
  obtain ⟨m, e, -, he, rfl⟩ := h
  refine ⟨m * 2 ^ (e - F.emin).toNat, ?_⟩
  push_cast
  rw [mul_assoc, ← zpow_natCast, Int.toNat_of_nonneg (by omega), ← zpow_add₀ (by norm_num)]
  congr 2; omega

/-- one reduction: the quotient is finite, not negative, and at least one unit smaller -/
theorem div_shrinks (hp : 2 ≤ F.prec) {d f : ℚ} (hd : Finite F d) (hn : minNormal F ≤ d) (hf : InFormat F f) (hf1 : 1 < f) :
    ∃ r, (float F).div (.fin d) (.fin f) = .fin r ∧ Finite F r ∧ 0 ≤ r ∧ r + 2 ^ F.emin ≤ d := by
  have hlt := rnd_div_lt F hp hd.1 hn hf hf1
  have hd0 : 0 < d := (two_pos _).trans_le hn
  have h0 : 0 ≤ rnd F (d / f) := round_nonneg F (by positivity)
  have habs : |rnd F (d / f)| < 2 ^ F.emax := by
    rw [abs_of_nonneg h0]; have := hd.2; rw [abs_of_pos hd0] at this; linarith
  have hin : InFormat F (rnd F (d / f)) := rep_inFormat F (rep_round F (by omega) _)
  refine ⟨rnd F (d / f), ?_, ⟨hin, habs⟩, h0, ?_⟩
  · have : f ≠ 0 := by linarith
    simp [float, Model.Float.div, this, deliver, habs]
  · obtain ⟨a, ha⟩ := inFormat_multiple F hin
    obtain ⟨b, hb⟩ := inFormat_multiple F hd.1
    rw [ha, hb] at hlt ⊢
    have hab : a < b := by exact_mod_cast (mul_lt_mul_iff_left₀ (two_pos F.emin)).1 hlt
    have : (a:ℚ) + 1 ≤ b := by exact_mod_cast hab
    nlinarith [two_pos F.emin]

/-- a bound for the number of attempts: as many as there are multiples of the smallest number -/
def tries : Nat := 2 ^ (F.emax - F.emin).toNat

theorem below_tries (he : F.emin ≤ F.emax) {d : ℚ} (hd : Finite F d) : d ≤ tries F * 2 ^ F.emin := by
  have h := (le_abs_self d).trans hd.2.le
  rw [tries]
  push_cast
  rwa [← zpow_natCast, Int.toNat_of_nonneg (by omega), ← zpow_add₀ (by norm_num), sub_add_cancel]

/-- **C85, retries come to an end.** A step that always fails is abandoned with an exception if size, factor and minimum are finite, the factor is above 1 and the minimum has full precision. -/
theorem C85_abandoned (hp : 2 ≤ F.prec) (he : F.emin ≤ F.emax) (eps : Fl) (c : Calls W Fl Y) (start final : Fl) (h1 : Model.Float.lt final start = false) (h2 : Model.Float.eq final start = false) (s : St W Fl Y) (w1 w2 : W)
    (d μ f : ℚ) (ho : c.observer 0 start s.y s.w = .ok () w1) (hpol : c.dtPolicy5 1 start ⟨.fin 0, .fin 0, .fin 1⟩ w1 = .ok ⟨.fin d, .fin μ, .fin f⟩ w2)
    (hd : Finite F d) (hf : InFormat F f) (hf1 : 1 < f) (hμ : minNormal F ≤ μ) (hdμ : μ ≤ d) (hfail : ∀ t n x s, ∃ s', c.stepper t n x s = .stop (.exc Exc.timeStepFailure) s') :
    ∃ m < tries F, ∀ fuel, m < fuel → ∃ s', Model.AdvanceFloat.advanceT (float F) true eps c fuel start final s = .stop (.exc (.runtimeError "violation of minimum time step while recovering")) s' ∧
      steps s'.log = steps s.log ++ (List.range (m+1)).map (fun k => (1, start, shrunk (float F) (.fin d) (.fin f) k)) := by
  have inv : ∀ k, (∀ j < k, (float F).lt (shrunk (float F) (.fin d) (.fin f) (j+1)) (.fin μ) = false) →
      ∃ r, shrunk (float F) (.fin d) (.fin f) k = .fin r ∧ Finite F r ∧ μ ≤ r ∧ r + k * 2 ^ F.emin ≤ d := by
    intro k
    induction k with
    | zero => intro _; exact ⟨d, rfl, hd, hdμ, by simp⟩
    | succ k ih =>
      intro h
      obtain ⟨r, g1, g2, g3, g4⟩ := ih (fun j hj => h j (by omega))
      obtain ⟨r', k1, k2, k3, k4⟩ := div_shrinks F hp g2 (hμ.trans g3) hf hf1
      have hk := h k (by omega)
      rw [shrunk, g1, k1] at hk ⊢
      refine ⟨r', rfl, k2, by simpa [float, Model.Float.lt] using hk, ?_⟩
      push_cast; linarith
  have ex : ∃ k, (float F).lt (shrunk (float F) (.fin d) (.fin f) (k+1)) (.fin μ) = true := by
    by_contra hc
    obtain ⟨r, -, -, g3, g4⟩ := inv (tries F) (fun j _ => by simpa using fun h => hc ⟨j, h⟩)
    have := below_tries F he hd
    have : 0 < μ := (two_pos _).trans_le hμ
    linarith
  classical
  have hmin : ∀ k < Nat.find ex, (float F).lt (shrunk (float F) (.fin d) (.fin f) (k+1)) (.fin μ) = false := fun k hk => by simpa using Nat.find_min ex hk
  refine ⟨Nat.find ex, ?_, ?_⟩
  · by_contra hge
    obtain ⟨r, -, -, g3, g4⟩ := inv (tries F) (fun j hj => hmin j (by omega))
    have := below_tries F he hd
    have : 0 < μ := (two_pos _).trans_le hμ
    linarith
  · exact (C85_always_failing (float F) eps c start final h1 h2 s w1 w2 ⟨.fin d, .fin μ, .fin f⟩ ho hpol (by simp [float, Model.Float.lt, hdμ]) (by simp [float, Model.Float.le, Model.Float.lt, Model.Float.eq, hf1.le, hf1.ne']) hfail).1
      _ hmin (Nat.find_spec ex)

/-- the loop with any stepper that returns -/
theorem recover_returns (hp : 2 ≤ F.prec) (c : Calls W Fl Y) (time : Fl) (step : Int) (μ f : ℚ) (hμ : minNormal F ≤ μ) (hf : InFormat F f) (hf1 : 1 < f) (hs : ∀ t n x s, (c.stepper t n x s).stop? ≠ some .fuel)
    (M : Nat) (d : ℚ) (hd : Finite F d) (hdμ : μ ≤ d) (hM : d ≤ M * 2 ^ F.emin) (fuel : Nat) (hfu : M ≤ fuel) (s : St W Fl Y) :
    (∃ h s', h ≠ Stop.fuel ∧ Model.AdvanceFloat.recoverLoop (float F) c time step (.fin μ) (.fin f) fuel (.fin d) s = .stop h s') ∨
    (∃ r s', μ ≤ r ∧ Model.AdvanceFloat.recoverLoop (float F) c time step (.fin μ) (.fin f) fuel (.fin d) s = .ok (.fin r) s') := by
  have hμ0 : 0 < μ := (two_pos _).trans_le hμ
  induction M generalizing d fuel s with
  | zero => simp at hM; linarith
  | succ M ih =>
    obtain ⟨fuel, rfl⟩ : ∃ k, fuel = k + 1 := ⟨fuel - 1, by omega⟩
    obtain ⟨r, k1, k2, k3, k4⟩ := div_shrinks F hp hd (hμ.trans hdμ) hf hf1
    have hne := hs time step (.fin d) (s.y, s.w)
    rw [Model.AdvanceFloat.recoverLoop]
    simp only [Prog.bind_run, Prog.catchE, callStep, emit, onYW, k1]
    rcases e : c.stepper time step (.fin d) (s.y, s.w) with ⟨⟨⟩, y1, w1⟩ | ⟨hstop, y1, w1⟩
    · right; exact ⟨d, _, hdμ, rfl⟩
    · rw [e] at hne
      rcases hstop with ex | u | _
      · by_cases hx : ex = .timeStepFailure
        · subst hx
          simp only [if_true, Prog.pure_run, Bool.false_eq_true, if_false]
          by_cases hm : (float F).lt (.fin r) (.fin μ) = true
          · left; rw [if_pos hm]; exact ⟨_, _, by simp, rfl⟩
          · rw [if_neg hm]
            have : μ ≤ r := by simpa [float, Model.Float.lt] using hm
            exact ih r k2 this (by push_cast at hM; linarith) fuel (by omega) _
        · left; simp only [hx, if_false]; exact ⟨_, _, by simp, rfl⟩
      · left; exact ⟨_, _, by simp, rfl⟩
      · simp at hne

/-- **C85, recovering runs end.** Let the policy set finite sizes and factors and finite minima `≥ δ`, where `δ` has full precision and is at least twice the rounding error of a time near the target. Then a recovering call ends, whatever steps fail: normally, by an
    exception, or because the step number overflows. -/
theorem C85_terminates (hp : 2 ≤ F.prec) (he : F.emin ≤ F.emax) (eps : ℚ) (heps : 0 ≤ eps) (c : Calls W Fl Y) (t0 tf δ : ℚ) (ht0 : Finite F t0) (hδ : minNormal F ≤ δ)
    (hpol : ∀ n t v w, (c.dtPolicy5 n t v w).stop? ≠ some .fuel)
    (hfin : ∀ n t v w v' w', c.dtPolicy5 n t v w = .ok v' w' → ∃ d μ f, v' = ⟨.fin d, .fin μ, .fin f⟩ ∧ Finite F d ∧ Finite F f ∧ δ ≤ μ)
    (hs : ∀ t n x s, (c.stepper t n x s).stop? ≠ some .fuel) (ho : ∀ n t y w, (c.observer n t y w).stop? ≠ some .fuel)
    (hround : 2 ^ (-F.prec : Int) * (max |t0| |tf| + δ) + 2 ^ (F.emin - 1) ≤ δ / 2) (K : Nat) (hK : tf - t0 ≤ K * (δ / 2)) (fuel : Nat) (hf : K + tries F ≤ fuel) (s : St W Fl Y) :
    (Model.AdvanceFloat.advanceT (float F) true (.fin eps) c fuel (.fin t0) (.fin tf) s).stop? ≠ some .fuel := by
  have hδ0 : 0 < δ := (two_pos _).trans_le hδ
  have hp1 : 1 ≤ F.prec := by omega
  have hnum : IsNum F t0 := ⟨inFormat_rep F ht0.1, ht0.2⟩
  have key : ∀ (K : Nat) (fuel : Nat) (step : Int) (q : ℚ) (v : DtVars Fl) (s : St W Fl Y), t0 ≤ q → q < tf → tf - q ≤ K * (δ / 2) → K + tries F ≤ fuel →
      (Model.AdvanceFloat.tLoop (float F) true (.fin eps) (.fin tf) c fuel step (.fin q) v s).stop? ≠ some .fuel := by
    intro K
    induction K with
    | zero => intro fuel step q v s _ h2 h3; simp at h3; linarith
    | succ K ih =>
      intro fuel step q v s g1 g2 g3 g4
      obtain ⟨fuel, rfl⟩ : ∃ k, fuel = k + 1 := ⟨fuel - 1, by omega⟩
      have e1 := hpol step (.fin q) v s.w
      simp only [Model.AdvanceFloat.tLoop, Prog.bind_run, callDtPolicy, if_true, onW]
      rcases ep : c.dtPolicy5 step (.fin q) v s.w with ⟨v1, w1⟩ | ⟨hh, w1⟩
      swap
      · rw [ep] at e1; simpa using e1
      obtain ⟨d, μ, f, rfl, hd, hff, hμ⟩ := hfin _ _ _ _ _ _ ep
      simp only [emit]
      by_cases hmin : (float F).lt (.fin d) (.fin μ) = true
      · simp [hmin]
      by_cases hfac : (float F).le (.fin f) (float F).one = true
      · simp [hmin, hfac]
      have hdμ : μ ≤ d := by simpa [float, Model.Float.lt] using hmin
      have hf1 : 1 < f := by
        rcases lt_trichotomy f 1 with h | h | h
        · simp [float, Model.Float.le, Model.Float.lt, h] at hfac
        · simp [float, Model.Float.le, Model.Float.eq, h] at hfac
        · exact h
      simp only [hmin, hfac, Bool.and_false, Bool.false_eq_true, if_false, Prog.bind_run, Model.AdvanceFloat.attempt, if_true]
      rcases recover_returns F hp c (.fin q) step μ f (hδ.trans hμ) hff.1 hf1 hs (tries F) d hd hdμ (below_tries F he hd) (fuel+1) (by omega) ⟨w1, s.y, s.log ++ [.setVars step (.fin q) ⟨.fin d, .fin μ, .fin f⟩]⟩ with ⟨h, s2, k1, k2⟩ | ⟨r, s2, k1, k2⟩
      · rw [k2]; simpa using k1
      rw [k2]
      have e2 := ho step ((float F).add (.fin q) (.fin r)) s2.y s2.w
      simp only [callObs, Prog.bind_run, emit, onW]
      rcases eo : c.observer step ((float F).add (.fin q) (.fin r)) s2.y s2.w with ⟨⟨⟩, w3⟩ | ⟨hh, w3⟩
      swap
      · rw [eo] at e2; simpa using e2
      simp only
      by_cases hmax : step = int32Max
      · simp [hmax]
      rw [if_neg hmax]
      by_cases hre : reached (float F) (.fin eps) (.fin tf) ((float F).add (.fin q) (.fin r)) = true
      · simp [hre]
      rw [if_neg hre]
      have hsum : (float F).add (.fin q) (.fin r) = deliver F (q + r) := rfl
      rw [hsum] at hre ⊢
      rcases deliver_up F hp1 (q := q + r) hnum (by linarith) with h | h
      · rw [h] at hre ⊢
        have hq' := reached_fin F eps tf _ heps (by simpa using hre)
        have a1 := round_mono F hp1 (show q + δ ≤ q + r by linarith)
        have a2 := round_error_le F (q + δ)
        have a3 : |q + δ| ≤ max |t0| |tf| + δ := by
          have := le_max_left |t0| |tf|
          have := le_max_right |t0| |tf|
          have := neg_abs_le t0
          have := le_abs_self tf
          rw [abs_le]; constructor <;> linarith
        have a4 : (2:ℚ) ^ (-F.prec : Int) * |q + δ| ≤ 2 ^ (-F.prec : Int) * (max |t0| |tf| + δ) := mul_le_mul_of_nonneg_left a3 (two_pos _).le
        have a5 := (abs_le.1 a2).1
        exact ih _ _ _ _ _ (by linarith) hq' (by push_cast at g3; linarith) (by omega)
      · rw [h] at hre
        simp [reached, float, Model.Float.lt] at hre
  unfold Model.AdvanceFloat.advanceT
  by_cases h1 : (float F).lt (.fin tf) (.fin t0) = true
  · simp [h1]
  by_cases h2 : (float F).eq (.fin tf) (.fin t0) = true
  · simp [h1, h2]
  simp only [h1, h2, Bool.false_eq_true, if_false, Prog.bind_run, callObs, emit, onW]
  have hlt : t0 < tf := by
    have a : t0 ≤ tf := by simpa [float, Model.Float.lt] using h1
    have b : tf ≠ t0 := by simpa [float, Model.Float.eq] using h2
    exact lt_of_le_of_ne a b.symm
  have e2 := ho 0 (.fin t0) s.y s.w
  rcases eo : c.observer 0 (.fin t0) s.y s.w with ⟨⟨⟩, w3⟩ | ⟨hh, w3⟩
  swap
  · rw [eo] at e2; simpa using e2
  exact key K fuel 1 t0 _ _ le_rfl hlt hK hf

/-- **C85, where it fails: no minimum.** With a minimum of 0 (or below) a step that always fails is retried forever: the size underflows to 0 and 0 is not below the minimum. -/
theorem C85_zero_minimum_retries_forever (eps : Fl) (c : Calls W Fl Y) (start final : Fl) (h1 : Model.Float.lt final start = false) (h2 : Model.Float.eq final start = false) (s : St W Fl Y) (w1 w2 : W)
    (d μ f : ℚ) (ho : c.observer 0 start s.y s.w = .ok () w1) (hpol : c.dtPolicy5 1 start ⟨.fin 0, .fin 0, .fin 1⟩ w1 = .ok ⟨.fin d, .fin μ, .fin f⟩ w2)
    (hd : 0 ≤ d) (hf1 : 1 < f) (hμ : μ ≤ 0) (hfail : ∀ t n x s, ∃ s', c.stepper t n x s = .stop (.exc Exc.timeStepFailure) s') (fuel : Nat) :
    (Model.AdvanceFloat.advanceT (float F) true eps c fuel start final s).stop? = some .fuel := by
  have inv : ∀ k, (∃ r, 0 ≤ r ∧ shrunk (float F) (.fin d) (.fin f) k = .fin r) ∨ shrunk (float F) (.fin d) (.fin f) k = .inf false := by
    intro k
    induction k with
    | zero => exact .inl ⟨d, hd, rfl⟩
    | succ k ih =>
      have hf0 : f ≠ 0 := by linarith
      rcases ih with ⟨r, h0, h⟩ | h
      · rw [shrunk, h]
        have hq : 0 ≤ r / f := div_nonneg h0 (by linarith)
        simp only [float, Model.Float.div, hf0, if_false, deliver]
        split_ifs
        · exact .inl ⟨_, round_nonneg F hq, rfl⟩
        · right; simp [hq]
      · right
        rw [shrunk, h]
        exact ((C85_special_operators F 0 f .nan false false).2.2.2.2.2.2.2.2.2.2.2.2.2.2.2.2.2.2.2.2.1) (by linarith)
  refine (C85_always_failing (float F) eps c start final h1 h2 s w1 w2 ⟨.fin d, .fin μ, .fin f⟩ ho hpol (by simp [float, Model.Float.lt]; linarith) (by simp [float, Model.Float.le, Model.Float.lt, Model.Float.eq, hf1.le, hf1.ne']) hfail).2 (fun k => ?_) fuel
  rcases inv (k+1) with ⟨r, h0, h⟩ | h
  · rw [h]; simp only [float, Model.Float.lt, decide_eq_false_iff_not, not_lt]; linarith
  · rw [h]; rfl

/-- **C85, where it fails: infinite size.** An infinite step size passes the checks, stays infinite when divided, and is retried forever if it keeps failing. -/
theorem C85_infinite_size_retries_forever (eps : Fl) (c : Calls W Fl Y) (start final : Fl) (h1 : Model.Float.lt final start = false) (h2 : Model.Float.eq final start = false) (s : St W Fl Y) (w1 w2 : W)
    (μ f : ℚ) (ho : c.observer 0 start s.y s.w = .ok () w1) (hpol : c.dtPolicy5 1 start ⟨.fin 0, .fin 0, .fin 1⟩ w1 = .ok ⟨.inf false, .fin μ, .fin f⟩ w2)
    (hf1 : 1 < f) (hfail : ∀ t n x s, ∃ s', c.stepper t n x s = .stop (.exc Exc.timeStepFailure) s') (fuel : Nat) :
    (Model.AdvanceFloat.advanceT (float F) true eps c fuel start final s).stop? = some .fuel := by
  have inv : ∀ k, shrunk (float F) (.inf false) (.fin f) k = .inf false := by
    intro k
    induction k with
    | zero => rfl
    | succ k ih =>
      rw [shrunk, ih]
      exact ((C85_special_operators F 0 f .nan false false).2.2.2.2.2.2.2.2.2.2.2.2.2.2.2.2.2.2.2.2.1) (by linarith)
  exact (C85_always_failing (float F) eps c start final h1 h2 s w1 w2 ⟨.inf false, .fin μ, .fin f⟩ ho hpol rfl (by simp [float, Model.Float.le, Model.Float.lt, Model.Float.eq, hf1.le, hf1.ne']) hfail).2 (fun k => by rw [inv]; rfl) fuel

/-- **C85, where it fails: a positive minimum without full precision.** In `double`, size and minimum the smallest positive number, factor 3/2: the quotient rounds back to the same number, so the step is retried forever although the minimum is positive. -/
theorem C85_positive_minimum_refuted (eps : Fl) (c : Calls W Fl Y) (start final : Fl) (h1 : Model.Float.lt final start = false) (h2 : Model.Float.eq final start = false) (s : St W Fl Y) (w1 w2 : W)
    (ho : c.observer 0 start s.y s.w = .ok () w1) (hpol : c.dtPolicy5 1 start ⟨.fin 0, .fin 0, .fin 1⟩ w1 = .ok ⟨.fin (2 ^ (-1074 : Int)), .fin (2 ^ (-1074 : Int)), .fin (3/2)⟩ w2)
    (hfail : ∀ t n x s, ∃ s', c.stepper t n x s = .stop (.exc Exc.timeStepFailure) s') (fuel : Nat) :
    (Model.AdvanceFloat.advanceT (float binary64) true eps c fuel start final s).stop? = some .fuel := by
  have h0 : (float binary64).div (.fin (2 ^ (-1074 : Int))) (.fin (3/2)) = .fin (2 ^ (-1074 : Int)) := by decide +kernel
  have inv : ∀ k, shrunk (float binary64) (.fin (2 ^ (-1074 : Int))) (.fin (3/2)) k = .fin (2 ^ (-1074 : Int)) := by
    intro k
    induction k with
    | zero => rfl
    | succ k ih => rw [shrunk, ih, h0]
  exact (C85_always_failing (float binary64) eps c start final h1 h2 s w1 w2 _ ho hpol (by simp [float, Model.Float.lt]) (by decide +kernel) hfail).2 (fun k => by rw [inv]; simp [float, Model.Float.lt]) fuel

/-! #### Cases -/

/-- a policy with fixed values, a stepper that refuses sizes above `1/4` -/
def pickyCalls (v : DtVars Fl) (ok : Fl → Bool) : Calls Unit Fl Unit :=
  { idleCalls (fun _ _ => v.dt) with
    dtPolicy5 := fun _ _ _ => pure v
    stepper := fun _ _ x s => if ok x then .ok () s else .stop (.exc Exc.timeStepFailure) s }

theorem normal_thousandth : minNormal binary64 ≤ 1 / 1024 := by unfold minNormal; decide +kernel

/-- the run from 0 to 1 with size 1 -/
def pickyRun : Res (St Unit Fl Unit) Fl :=
  Model.AdvanceFloat.advanceT (float binary64) true (epsilon binary64) (pickyCalls ⟨.fin 1, .fin (1/1024), .fin 2⟩ (fun x => Model.Float.le x (.fin (1/4)))) 10 (.fin 0) (.fin 1) ⟨(), (), []⟩

/-- it returns; every step is halved twice: 12 attempts, times 1/4, 1/2, 3/4, 1 -/
example : pickyRun.stop? = none ∧ (steps pickyRun.state.log).length = 12 ∧ observed pickyRun.state.log = [(0, .fin 0), (1, .fin (1/4)), (2, .fin (1/2)), (3, .fin (3/4)), (4, .fin 1)] := by
  refine ⟨?_, ?_, ?_⟩ <;> decide +kernel

/-- a factor of exactly 1 is refused, 3/2 is not -/
example : (Model.AdvanceFloat.advanceT (float binary64) true (epsilon binary64) (pickyCalls ⟨.fin 1, .fin 0, .fin 1⟩ (fun _ => true)) 10 (.fin 0) (.fin 1) ⟨(), (), []⟩).stop? = some (.exc (.runtimeError "time step size reduction factor must be > 1")) ∧
    (Model.AdvanceFloat.advanceT (float binary64) true (epsilon binary64) (pickyCalls ⟨.fin 1, .fin 0, .fin (3/2)⟩ (fun _ => true)) 10 (.fin 0) (.fin 1) ⟨(), (), []⟩).stop? = none := by
  constructor <;> decide +kernel

/-- always failing, minimum `2^-10` -/
example (s : St Unit Fl Unit) : ∃ m < tries binary64, ∀ fuel, m < fuel → ∃ s', Model.AdvanceFloat.advanceT (float binary64) true (epsilon binary64) (pickyCalls ⟨.fin 1, .fin (1/1024), .fin (3/2)⟩ (fun _ => false)) fuel (.fin 0) (.fin 1) s =
      .stop (.exc (.runtimeError "violation of minimum time step while recovering")) s' ∧ steps s'.log = steps s.log ++ (List.range (m+1)).map (fun k => (1, .fin 0, shrunk (float binary64) (.fin 1) (.fin (3/2)) k)) :=
  C85_abandoned binary64 (by decide) (by decide) _ _ _ _ (by decide +kernel) (by decide +kernel) s () () 1 (1/1024) (3/2) rfl rfl ⟨rep_inFormat _ (by unfold Rep; decide +kernel), by decide +kernel⟩ (rep_inFormat _ (by unfold Rep; decide +kernel)) (by norm_num)
    normal_thousandth (by norm_num) (fun _ _ _ s => ⟨s, rfl⟩)

/-- any stepper that only succeeds or reports failure: from 0 to 1 with minimum `2^-10` the call ends -/
example (ok : Fl → Bool) (s : St Unit Fl Unit) (fuel : Nat) (hf : 2048 + tries binary64 ≤ fuel) :
    (Model.AdvanceFloat.advanceT (float binary64) true (.fin (2 ^ (1 - binary64.prec : Int))) (pickyCalls ⟨.fin 1, .fin (1/1024), .fin (3/2)⟩ ok) fuel (.fin 0) (.fin 1) s).stop? ≠ some .fuel :=
  C85_terminates binary64 (by decide) (by decide) _ (two_pos _).le _ 0 1 (1/1024) ⟨rep_inFormat _ (by unfold Rep; decide +kernel), by simp [two_pos]⟩ normal_thousandth (fun _ _ _ _ => by simp [pickyCalls])
    (fun _ _ _ _ v' w' h => by
      simp only [pickyCalls, Prog.pure_run, Res.ok.injEq] at h
      exact ⟨1, 1/1024, 3/2, h.1.symm, ⟨rep_inFormat _ (by unfold Rep; decide +kernel), by decide +kernel⟩, ⟨rep_inFormat _ (by unfold Rep; decide +kernel), by decide +kernel⟩, le_rfl⟩)
    (fun _ _ x _ => by simp only [pickyCalls]; split <;> simp) (fun _ _ _ _ => by simp [pickyCalls, idleCalls]) (by rw [abs_zero, abs_one, max_eq_right (by norm_num)]; decide +kernel) 2048 (by norm_num) fuel hf s

example (s : St Unit Fl Unit) (fuel : Nat) : (Model.AdvanceFloat.advanceT (float binary64) true (epsilon binary64) (pickyCalls ⟨.fin 1, .fin 0, .fin 2⟩ (fun _ => false)) fuel (.fin 0) (.fin 1) s).stop? = some .fuel :=
  C85_zero_minimum_retries_forever binary64 _ _ _ _ (by decide +kernel) (by decide +kernel) s () () 1 0 2 rfl rfl (by norm_num) (by norm_num) le_rfl (fun _ _ _ s => ⟨s, rfl⟩) fuel

example (s : St Unit Fl Unit) (fuel : Nat) : (Model.AdvanceFloat.advanceT (float binary64) true (epsilon binary64) (pickyCalls ⟨.inf false, .fin 1, .fin 2⟩ (fun _ => false)) fuel (.fin 0) (.fin 1) s).stop? = some .fuel :=
  C85_infinite_size_retries_forever binary64 _ _ _ _ (by decide +kernel) (by decide +kernel) s () () 1 2 rfl rfl (by norm_num) (fun _ _ _ s => ⟨s, rfl⟩) fuel

example (s : St Unit Fl Unit) (fuel : Nat) : (Model.AdvanceFloat.advanceT (float binary64) true (epsilon binary64) (pickyCalls ⟨.fin (2 ^ (-1074 : Int)), .fin (2 ^ (-1074 : Int)), .fin (3/2)⟩ (fun _ => false)) fuel (.fin 0) (.fin 1) s).stop? = some .fuel :=
  C85_positive_minimum_refuted _ _ _ _ (by decide +kernel) (by decide +kernel) s () () rfl rfl (fun _ _ _ s => ⟨s, rfl⟩) fuel

/-- `1/10` in `double`, and a sum of zeros -/
example := (C85_rounding binary64 (by decide) (1/10) (.fin tenth)).2 (by decide +kernel)
example := C85_epsilon binary64 (by decide) (by decide) (by decide)
example := C85_largest binary32 (by decide) (by decide)
example := C85_special_operators binary64 1 (-2) (.inf true) true false

/-- the run shown above -/
example := C85_run (float binary64) (epsilon binary64) (pickyCalls ⟨.fin 1, .fin (1/1024), .fin 2⟩ (fun x => Model.Float.le x (.fin (1/4)))) 10 (.fin 0) (.fin 1) (.fin 1) (by decide +kernel) (by decide +kernel)
  ⟨(), (), []⟩ pickyRun.state (by have : pickyRun = .ok (.fin 1) pickyRun.state := by decide +kernel
                                  exact this)

/-- a size below the minimum, and a factor of 1 -/
example (s : St Unit Fl Unit) := C85_checked (float binary64) (epsilon binary64) (pickyCalls ⟨.fin (1/4), .fin (1/2), .fin 2⟩ (fun _ => true)) 3 (.fin 0) (.fin 1) (by decide +kernel) (by decide +kernel) s () ()
  ⟨.fin (1/4), .fin (1/2), .fin 2⟩ rfl rfl (Or.inl (by decide +kernel))
example (s : St Unit Fl Unit) := C85_checked (float binary64) (epsilon binary64) (pickyCalls ⟨.fin 1, .fin (1/2), .fin 1⟩ (fun _ => true)) 3 (.fin 0) (.fin 1) (by decide +kernel) (by decide +kernel) s () ()
  ⟨.fin 1, .fin (1/2), .fin 1⟩ rfl rfl (Or.inr (by decide +kernel))

/-- size 1, minimum 1/2, factor 2: the sizes 1 and 1/2 are tried -/
example (s : St Unit Fl Unit) := (C85_always_failing (float binary64) (epsilon binary64) (pickyCalls ⟨.fin 1, .fin (1/2), .fin 2⟩ (fun _ => false)) (.fin 0) (.fin 1) (by decide +kernel) (by decide +kernel) s () ()
  ⟨.fin 1, .fin (1/2), .fin 2⟩ rfl rfl (by decide +kernel) (by decide +kernel) (fun _ _ _ s => ⟨s, rfl⟩)).1 1 (by decide +kernel) (by decide +kernel)

end FloatRuns
end Pressio.Props
