import Verif.Props.SolverMemory
import Verif.Props.LeastSquares
import Verif.Spec.LevenbergMarquardt
import Verif.Lemmas.LmIterate

/-
  Properties of the Levenberg-Marquardt solver: C40, C41, C42, C64.
-/
namespace Pressio.Props
set_option autoImplicit false
open Pressio Matrix
open Pressio.Model.Nonlinear (Env Cfg Reg StopCrit Update Tag leastSquaresDiagnostics fdiv lsObjective Quot' lm1Updater lm2Updater lmGainFactor Quot'.gt Quot'.lt)
open Pressio.Spec.Nonlinear
open Pressio.Lemmas.Nonlinear

variable {K m n p L : Type} [Field K] [LinearOrder K] [IsStrictOrderedRing K] [Fintype m] [Fintype n] [Fintype p] [DecidableEq n]

/-- `c` solves the damped normal equations `(H + damp D) c = -g` with `H = Jᵀ J`, `D` the diagonal of `H` -/
def DampedStep (J : Matrix m n K) (g c : n → K) (damp : K) : Prop := (Jᵀ * J + damp • Matrix.diagonal (Jᵀ * J).diag) *ᵥ c = -g

omit [LinearOrder K] [IsStrictOrderedRing K] in
/-- then the denominator of the gain factor is `-½ |J c|²` -/
theorem gain_denominator (J : Matrix m n K) (g c : n → K) (damp : K) (h : DampedStep J g c damp) :
    damp * (c ⬝ᵥ fun i => c i * (Jᵀ * J) i i) + c ⬝ᵥ g = -((J *ᵥ c) ⬝ᵥ (J *ᵥ c)) := by
  have hg : g = -((Jᵀ * J + damp • Matrix.diagonal (Jᵀ * J).diag) *ᵥ c) := by rw [h, neg_neg]
  have e : (Matrix.diagonal (Jᵀ * J).diag) *ᵥ c = fun i => c i * (Jᵀ * J) i i := by
    funext i; rw [Matrix.mulVec_diagonal, mul_comm]; rfl
  rw [hg, dotProduct_neg, Matrix.add_mulVec, Matrix.smul_mulVec, e, dotProduct_add, dotProduct_smul, dot_mulVec_transpose, Matrix.mulVec_mulVec, smul_eq_mul]
  ring

theorem gain_value (J : Matrix m n K) (g c : n → K) (damp f1 f0 : K) (h : DampedStep J g c damp) :
    gain f1 f0 damp (Jᵀ * J) g c = fdiv (f1 - f0) (-((J *ᵥ c) ⬝ᵥ (J *ᵥ c)) / 2) := by
  unfold gain; rw [gain_denominator J g c damp h]

theorem dot_self_pos {v : m → K} (h : v ≠ 0) : 0 < v ⬝ᵥ v := by
  rcases (dot_self_nonneg v).lt_or_eq with h' | h'
  · exact h'
  · exact absurd (dotProduct_self_eq_zero.mp h'.symm) h

/-- acceptance: the gain factor is positive exactly if the objective decreases -/
theorem gain_pos_iff (J : Matrix m n K) (g c : n → K) (damp f1 f0 : K) (h : DampedStep J g c damp) (hJ : J *ᵥ c ≠ 0) :
    (gain f1 f0 damp (Jᵀ * J) g c).gt 0 = true ↔ f1 < f0 := by
  have hpos := dot_self_pos hJ
  rw [gain_value J g c damp f1 f0 h]
  have hne : -((J *ᵥ c) ⬝ᵥ (J *ᵥ c)) / 2 ≠ 0 := by
    intro h0
    have : (J *ᵥ c) ⬝ᵥ (J *ᵥ c) = 0 := by linarith
    exact hpos.ne' this
  have hneg : -((J *ᵥ c) ⬝ᵥ (J *ᵥ c)) / 2 < 0 := by linarith
  unfold fdiv
  rw [if_neg hne]
  show decide _ = true ↔ _
  rw [decide_eq_true_eq]
  constructor
  · intro hq
    by_contra hle
    exact absurd hq (not_lt.mpr (div_nonpos_of_nonneg_of_nonpos (by linarith) hneg.le))
  · intro hlt
    exact div_pos_of_neg_of_neg (by linarith) hneg

/-- where an LM update goes -/
theorem lm1_x (rho : Quot' K) (x c : n → K) (d nu : K) (x' : n → K) (d' nu' : K) (h : lm1 rho x c d nu = .moved x' d' nu') : x' = if rho.gt 0 then x + c else x := by
  rcases rho with q | _ | _ | _
  · by_cases h0 : 0 < q
    · simp only [lm1, if_pos h0] at h; cases h; simp [Quot'.gt, h0]
    · simp only [lm1, if_neg h0] at h; cases h; simp [Quot'.gt, h0]
  · cases h; rfl
  · cases h; rfl
  · cases h; rfl

/-- the LM rules, uniformly -/
theorem lm_upd_moved (env : Env K m n p L) (sys : Sys K m n) (tag : Tag) (rule : Rule K) (hrule : rule = .lm1 ∨ rule = .lm2) (st : St K n L) (r : m → K) (J : Matrix m n K)
    (now : Norms K) (x' : n → K) (d' nu' : K) (h : (lsUpd env sys tag rule st r J now).val = .moved x' d' nu') :
    ∃ v, objAt env sys tag (st.x + st.c) = .ok v ∧ x' = (if (gain v now.obj st.damp (Jᵀ * J) (gradOf env tag r J) st.c).gt 0 then st.x + st.c else st.x) ∧
      (rule = .lm1 → lm1 (gain v now.obj st.damp (Jᵀ * J) (gradOf env tag r J) st.c) st.x st.c st.damp st.nu = .moved x' d' nu') ∧
      (rule = .lm2 → lm2 (gain v now.obj st.damp (Jᵀ * J) (gradOf env tag r J) st.c) st.x st.c st.damp st.nu = .moved x' d' nu') := by
  rcases hrule with rfl | rfl
  · unfold lsUpd at h
    simp only [] at h
    rcases ho : objAt env sys tag (st.x + st.c) with e | v
    · rw [ho] at h; cases h
    · rw [ho] at h
      exact ⟨v, rfl, lm1_x _ _ _ _ _ _ _ _ h, fun _ => h, fun h => by cases h⟩
  · unfold lsUpd at h
    simp only [] at h
    rcases ho : objAt env sys tag (st.x + st.c) with e | v
    · rw [ho] at h; cases h
    · rw [ho] at h
      refine ⟨v, rfl, ?_, (fun h' => by cases h'), fun _ => h⟩
      unfold lm2 at h
      cases h
      rfl

/-! ### C40 -/

/-- C40, one update (both schedules): `c` solves the damped system, `J c ≠ 0`, the objective at `x + c` can be evaluated: the step is taken if and only if it strictly
    decreases the objective; otherwise the state is left unchanged. -/
theorem C40_accepts_exactly_decrease (env : Env K m n p L) (sys : Sys K m n) (f0 : K) (s : Reg K m n p L) (J : Matrix m n K) (hH : s.H0 = Jᵀ * J)
    (hstep : DampedStep J s.g s.c s.damp) (hJ : J *ᵥ s.c ≠ 0) (v : K) (hv : objAt env sys .lm (s.x + s.c) = .ok v) :
    (∃ s', SM.run sys.toF (lm1Updater (lsObjective env .lm) f0) s = .ok () s' ∧ s'.x = if v < f0 then s.x + s.c else s.x) ∧
    (∃ s', SM.run sys.toF (lm2Updater (lsObjective env .lm) f0) s = .ok () s' ∧ s'.x = if v < f0 then s.x + s.c else s.x) := by
  have hgt := gain_pos_iff J s.g s.c s.damp v f0 hstep hJ
  constructor
  · have hm := lm1_matches env sys f0 s J hH .lm
    rw [hv] at hm
    simp only [] at hm
    rcases hl : lm1 (gain v f0 s.damp (Jᵀ * J) s.g s.c) s.x s.c s.damp s.nu with ⟨x', d', nu'⟩ | _ | e
    · rw [hl] at hm
      obtain ⟨s', h1, h2, -⟩ := hm
      refine ⟨s', h1, ?_⟩
      have : s'.x = x' := congrArg St.x h2
      rw [this, lm1_x _ _ _ _ _ _ _ _ hl]
      simp only [hgt]
    · exfalso; revert hl; generalize gain v f0 s.damp (Jᵀ * J) s.g s.c = rho
      rcases rho with q | _ | _ | _ <;> simp only [lm1] <;> (try split) <;> intro h <;> cases h
    · exfalso; revert hl; generalize gain v f0 s.damp (Jᵀ * J) s.g s.c = rho
      rcases rho with q | _ | _ | _ <;> simp only [lm1] <;> (try split) <;> intro h <;> cases h
  · have hm := lm2_matches env sys f0 s J hH .lm
    rw [hv] at hm
    obtain ⟨s', h1, h2, -⟩ := hm
    refine ⟨s', h1, ?_⟩
    have : s'.x = _ := congrArg St.x h2
    rw [this]
    simp only [hgt]

/-- C40 in a whole solve, however it ends: the states visited form a chain from `x₀` to the state that solve leaves; at each of them the correction `c` solves the damped system
    for some damping, and (unless `J c = 0`) the next state is `x + c` if the objective is strictly smaller there, otherwise `x`. -/
theorem C40_lm_chain (env : Env K m n p L) (cfg : Cfg K) (sys : Sys K m n) (hex : ExactLin env) (hupd : cfg.update = .LMSchedule1 ∨ cfg.update = .LMSchedule2)
    (s : Reg K m n p L) (hs : LsObj s) :
    let res := runLs env cfg sys .lm s
    ∃ ys : List (n → K), ys.length ≤ cfg.maxIters.toNat ∧ (s.x :: ys).getLast (by simp) = res.state.x ∧
      List.IsChain (fun x x' => ∃ r J c damp v, sys.resJac x = .ok (r, J) ∧ DampedStep J (Jᵀ *ᵥ r) c damp ∧ objAt env sys .lm (x + c) = .ok v ∧
        (x' = x ∨ x' = x + c) ∧ (J *ᵥ c ≠ 0 → x' = if v < objOf env .lm r then x + c else x)) (s.x :: ys) := by
  intro res
  obtain ⟨rule, hr, -, -, h3, h4⟩ := ls_rule (cfg := cfg) (tag := .lm) (.inr (.inr ⟨rfl, hupd⟩))
  have hrule : rule = .lm1 ∨ rule = .lm2 := by rcases hupd with h | h; exact .inl (h3 h); exact .inr (h4 h)
  obtain ⟨-, g2, -⟩ := ls_run env cfg sys .lm hs
  rw [ls_spec env cfg sys .lm (absR s) hr] at g2
  obtain ⟨ys, f1, f2, f3, -⟩ := iterate_accepts sys (lsProblem env cfg sys .lm rule) rfl cfg.maxIters.toNat 1 none (lsStart .lm rule (absR s))
  refine ⟨ys.map Prod.fst, by simpa using f1, ?_, ?_⟩
  · have := congrArg St.x g2
    have f3 := congrArg Prod.fst f3
    rw [show res.state.x = _ from this]
    refine Eq.trans ?_ f3
    rw [← List.getLast_map (f := Prod.fst) (by simp)]
    rfl
  · have hmap : s.x :: ys.map Prod.fst = (((lsStart .lm rule (absR s)).x, (lsStart .lm rule (absR s)).damp, (lsStart .lm rule (absR s)).nu) :: ys).map Prod.fst := rfl
    rw [hmap, List.isChain_map]
    refine List.IsChain.imp ?_ f2
    rintro ⟨x, d, nu⟩ ⟨x', d', nu'⟩ ⟨r, J, inn, c, b, l, hA, hC, hU⟩
    have hC' : negated (env.lin (hessOf env .lm J d) (gradOf env .lm r J)) inn = .ok () (c, b, l) := hC
    have hsolve := hex _ _ _ _ _ (negated_ok hC')
    have hD : DampedStep J (Jᵀ *ᵥ r) c d := by
      have hsolve : (Jᵀ * J + d • Matrix.diagonal (Jᵀ * J).diag) *ᵥ (-c) = Jᵀ *ᵥ r := hsolve
      unfold DampedStep
      rw [← hsolve, Matrix.mulVec_neg, neg_neg]
    obtain ⟨v, hv, hx, -, -⟩ := lm_upd_moved env sys .lm rule hrule _ r J _ x' d' nu' hU
    simp only at hx
    refine ⟨r, J, c, d, v, hA, hD, hv, ?_, fun hJ => ?_⟩
    · show x' = x ∨ x' = x + c
      rw [hx]; split <;> simp
    · show x' = _
      have hx : x' = if (gain v (objOf env .lm r) d (Jᵀ * J) (gradOf env .lm r J) c).gt 0 = true then x + c else x := hx
      rw [hx]
      have := gain_pos_iff J (Jᵀ *ᵥ r) c d v (objOf env .lm r) hD hJ
      have hcong : ((gain v (objOf env .lm r) d (Jᵀ * J) (gradOf env .lm r J) c).gt 0 = true) ↔ v < objOf env .lm r := this
      by_cases hlt : v < objOf env .lm r
      · rw [if_pos (hcong.mpr hlt), if_pos hlt]
      · rw [if_neg (fun h => hlt (hcong.mp h)), if_neg hlt]

/-- C40: hence, if every Jacobian met has full column rank and the two evaluations of the system agree, the objective at the state that solve leaves is not larger than
    at `x₀`, however the solve ends. -/
theorem C40_lm_monotone (env : Env K m n p L) (cfg : Cfg K) (sys : Sys K m n) (hex : ExactLin env) (hupd : cfg.update = .LMSchedule1 ∨ cfg.update = .LMSchedule2)
    (hc : sys.Consistent) (hrank : ∀ x r J, sys.resJac x = .ok (r, J) → ∀ c, J *ᵥ c = 0 → c = 0)
    (s : Reg K m n p L) (hs : LsObj s) (f0 : K) (h0 : objAt env sys .lm s.x = .ok f0) :
    ∃ f1, objAt env sys .lm (runLs env cfg sys .lm s).state.x = .ok f1 ∧ f1 ≤ f0 := by
  obtain ⟨ys, -, hlast, hchain⟩ := C40_lm_chain env cfg sys hex hupd s hs
  rw [← hlast]
  clear hlast
  generalize s.x = x at h0 hchain
  induction ys generalizing x f0 with
  | nil => exact ⟨f0, h0, le_rfl⟩
  | cons y ys ih =>
    rw [List.isChain_cons_cons] at hchain
    obtain ⟨⟨r, J, c, damp, v, hA, -, hv, hor, hy⟩, hrest⟩ := hchain
    have hobj : objOf env .lm r = f0 := by
      have : sys.res x = .ok r := by rw [hc x, hA]; rfl
      unfold objAt at h0
      rw [this] at h0
      exact Except.ok.inj h0
    have hstep : ∃ w, objAt env sys .lm y = .ok w ∧ w ≤ f0 := by
      by_cases hJ : J *ᵥ c = 0
      · have hc0 := hrank x r J hA c hJ
        subst hc0
        rw [add_zero, or_self] at hor
        rw [hor]
        exact ⟨f0, h0, le_rfl⟩
      · have hy := hy hJ
        rw [hobj] at hy
        by_cases hlt : v < f0
        · rw [if_pos hlt] at hy
          rw [hy]
          exact ⟨v, hv, hlt.le⟩
        · rw [if_neg hlt] at hy
          rw [hy]
          exact ⟨f0, h0, le_rfl⟩
    obtain ⟨w, hw, hle⟩ := hstep
    obtain ⟨f1, h1, h2⟩ := ih w y hw hrest
    refine ⟨f1, ?_, le_trans h2 hle⟩
    rw [List.getLast_cons (by simp)]; exact h1

/-- instances: on `x² - 2` from 1 (accepted steps), and on `x² - x + 1` from `0` (the first step, to `1/2`, is accepted; full rank except at `1/2`) -/
example : ∀ u ∈ [Update.LMSchedule1, .LMSchedule2], let res := runLs env1 (cfgN .AfterMaxIters (1/100) 4 u) sq2 .lm (reg1 leastSquaresDiagnostics 1)
    res.stop? = none ∧ res.state.x () ≠ 1 ∧ res.state.damp < 1 := by decide +kernel

example : ∀ x r J, (aff1 3 6).resJac x = .ok (r, J) → ∀ c, J *ᵥ c = 0 → c = 0 := by
  intro x r J h c hc
  cases h
  funext u
  have := congrFun hc u
  simpa [Matrix.mulVec, dotProduct, m1] using this

/-- a rejected step: residual `1/(1+x²)`-like jump, `r = -x` for `x ≤ 1`, huge beyond, so that the step from 1 to the minimiser of the model is refused and the damping doubled -/
example : let sys : Sys ℚ Unit Unit := Sys.ofFun (fun x => v1 (if x () < 1 then 100 else x ())) (fun _ => m1 1)
    let res := runLs env1 (cfgN .AfterMaxIters (1/100) 3 .LMSchedule1) sys .lm (reg1 leastSquaresDiagnostics 1)
    res.stop? = none ∧ res.state.x () = 1 ∧ res.state.damp = 1 * 2 * 4 := by decide +kernel

/-! ### C41 -/

/-- damping after a history of accepted (`true`) and rejected (`false`) steps, latest first, under schedule 1: starts at 1; an accepted step multiplies by a factor in `[1/3, 2)`; the
    `k`-th consecutive rejection multiplies by `2^k` -/
inductive Damping1 : List Bool → K → Prop
  | start : Damping1 [] 1
  | accepted (h : List Bool) (d f : K) : Damping1 h d → 1 / 3 ≤ f → f < 2 → Damping1 (true :: h) (d * f)
  | rejected (h : List Bool) (d : K) : Damping1 h d → Damping1 (false :: h) (d * 2 ^ ((h.takeWhile (fun b => !b)).length + 1))

theorem Damping1.pos {h : List Bool} {d : K} (hd : Damping1 h d) : 0 < d := by
  induction hd with
  | start => exact one_pos
  | accepted h d f _ h1 _ ih => exact mul_pos ih (lt_of_lt_of_le (by norm_num) h1)
  | rejected h d _ ih => exact mul_pos ih (by positivity)

/-- C41, schedule 1: in every solve of every object, with any system and inner solver, however it ends, the damping follows this schedule; in particular it is positive. -/
theorem C41_schedule1 (env : Env K m n p L) (cfg : Cfg K) (sys : Sys K m n) (hupd : cfg.update = .LMSchedule1) (s : Reg K m n p L) (hs : LsObj s) :
    let res := runLs env cfg sys .lm s
    (∃ h, Damping1 h res.state.damp) ∧ 0 < res.state.damp := by
  intro res
  have hr : lsRule cfg .lm = .ok .lm1 := by unfold lsRule; rw [hupd]; rfl
  obtain ⟨-, g2, -⟩ := ls_run env cfg sys .lm hs
  rw [ls_spec env cfg sys .lm (absR s) hr] at g2
  have hd : res.state.damp = _ := congrArg St.damp g2
  rw [hd]
  have hinv := iterate_inv sys (lsProblem env cfg sys .lm .lm1)
    (fun _ d nu => ∃ h, Damping1 h d ∧ nu = 2 ^ ((h.takeWhile (fun b => !b)).length + 1)) ?_ cfg.maxIters.toNat 1 none (lsStart .lm .lm1 (absR s)) ⟨[], .start, by simp [lsStart]⟩
  · obtain ⟨h, h1, -⟩ := hinv
    exact ⟨⟨h, h1⟩, h1.pos⟩
  · rintro x d nu r J inn c b l x' d' nu' ⟨h, h1, h2⟩ hA hC hU
    obtain ⟨v, -, -, hU, -⟩ := lm_upd_moved env sys .lm .lm1 (.inl rfl) _ r J _ x' d' nu' hU
    have hU := hU rfl
    simp only at hU
    generalize gain v _ d (Jᵀ * J) _ c = rho at hU
    rcases rho with q | _ | _ | _
    · by_cases h0 : 0 < q
      · simp only [lm1, if_pos h0] at hU
        cases hU
        refine ⟨true :: h, .accepted h d _ h1 (le_max_left _ _) (max_lt (by norm_num) ?_), by simp⟩
        have : -1 < (2 * q - 1) ^ 3 := by
          nlinarith [sq_nonneg (2 * q - 1), sq_nonneg (2 * q), mul_pos h0 h0, mul_pos (mul_pos h0 h0) h0, mul_nonneg h0.le (sq_nonneg (2 * q - 3 / 2))]
        linarith
      · simp only [lm1, if_neg h0] at hU
        cases hU
        exact ⟨false :: h, h2 ▸ .rejected h d h1, by rw [h2]; simp [pow_succ]⟩
    · cases hU
      exact ⟨false :: h, h2 ▸ .rejected h d h1, by rw [h2]; simp [pow_succ]⟩
    · cases hU
      exact ⟨true :: h, .accepted h d _ h1 le_rfl (by norm_num), by simp⟩
    · cases hU
      exact ⟨false :: h, h2 ▸ .rejected h d h1, by rw [h2]; simp [pow_succ]⟩

/-- C41, schedule 2: the damping stays within `[10⁻⁷, 10⁷]`. -/
theorem C41_schedule2 (env : Env K m n p L) (cfg : Cfg K) (sys : Sys K m n) (hupd : cfg.update = .LMSchedule2) (s : Reg K m n p L) (hs : LsObj s) :
    let res := runLs env cfg sys .lm s
    1 / 10 ^ 7 ≤ res.state.damp ∧ res.state.damp ≤ 10 ^ 7 := by
  intro res
  have hr : lsRule cfg .lm = .ok .lm2 := by unfold lsRule; rw [hupd]; rfl
  obtain ⟨-, g2, -⟩ := ls_run env cfg sys .lm hs
  rw [ls_spec env cfg sys .lm (absR s) hr] at g2
  have hd : res.state.damp = _ := congrArg St.damp g2
  rw [hd]
  refine iterate_inv sys (lsProblem env cfg sys .lm .lm2) (fun _ d _ => 1 / 10 ^ 7 ≤ d ∧ d ≤ 10 ^ 7) ?_ cfg.maxIters.toNat 1 none (lsStart .lm .lm2 (absR s)) ?_
  · rintro x d nu r J inn c b l x' d' nu' ⟨h1, h2⟩ hA hC hU
    obtain ⟨v, -, -, -, hU⟩ := lm_upd_moved env sys .lm .lm2 (.inr rfl) _ r J _ x' d' nu' hU
    have hU := hU rfl
    unfold lm2 at hU
    cases hU
    simp only
    have hd0 : 0 < d := lt_of_lt_of_le (by positivity) h1
    split
    · exact ⟨le_min (by linarith) (le_trans h1 h2), min_le_right _ _⟩
    · split
      · exact ⟨le_max_left _ _, max_le (le_trans h1 h2) (by linarith)⟩
      · exact ⟨h1, h2⟩
  · show 1 / 10 ^ 7 ≤ (1:K) ∧ (1:K) ≤ 10 ^ 7
    constructor
    · rw [div_le_one (by positivity)]; exact one_le_pow₀ (by norm_num)
    · exact one_le_pow₀ (by norm_num)

/-- C41: every solve starts with damping 1: if no iteration is allowed, 1 is what remains, whatever the object did before. -/
theorem C41_starts_at_one (env : Env K m n p L) (cfg : Cfg K) (sys : Sys K m n) (hupd : cfg.update = .LMSchedule1 ∨ cfg.update = .LMSchedule2) (h0 : cfg.maxIters ≤ 0)
    (s : Reg K m n p L) (hs : LsObj s) : (runLs env cfg sys .lm s).state.damp = 1 := by
  obtain ⟨rule, hr, -⟩ := ls_rule (cfg := cfg) (tag := .lm) (.inr (.inr ⟨rfl, hupd⟩))
  obtain ⟨-, g2, -⟩ := ls_run env cfg sys .lm hs
  rw [ls_spec env cfg sys .lm (absR s) hr] at g2
  have hd : (runLs env cfg sys .lm s).state.damp = _ := congrArg St.damp g2
  rw [hd, show cfg.maxIters.toNat = 0 by omega]
  unfold iterate
  split <;> rfl

/-- an instance of the upper bound of schedule 2 being reached: 30 rejections in a row -/
example : let sys : Sys ℚ Unit Unit := Sys.ofFun (fun x => v1 (if x () < 1 then 100 else x ())) (fun _ => m1 1)
    (runLs env1 (cfgN .AfterMaxIters (1/100) 31 .LMSchedule2) sys .lm (reg1 leastSquaresDiagnostics 1)).state.damp = 10 ^ 7 := by decide +kernel

/-! ### C42 -/

/-- decrease of the objective predicted by the quadratic model `½|r|² + gᵀ d + ½|J d|²` for the step `c` -/
def predictedDecrease (J : Matrix m n K) (g c : n → K) : K := -(g ⬝ᵥ c) - ((J *ᵥ c) ⬝ᵥ (J *ᵥ c)) / 2

/-- C42 is false: for a correction that solves the damped system, the ratio computed by the code is the actual decrease divided by `½|J c|²`, while the predicted decrease is
    `½|J c|² + damp cᵀ D c`.  Hence with positive damping the two ratios differ whenever `J c ≠ 0` and the objective changes. -/
theorem C42_gain_ratio_is_not_predicted (env : Env K m n p L) (sys : Sys K m n) (f0 : K) (s : Reg K m n p L) (J : Matrix m n K) (hH : s.H0 = Jᵀ * J)
    (hstep : DampedStep J s.g s.c s.damp) (hdamp : 0 < s.damp) (hJ : J *ᵥ s.c ≠ 0) (v : K) (hv : objAt env sys .lm (s.x + s.c) = .ok v) (hne : v ≠ f0) :
    ∃ s' rho, SM.run sys.toF (lmGainFactor (lsObjective env .lm) f0) s = .ok (.fin rho) s' ∧
      rho = (f0 - v) / (((J *ᵥ s.c) ⬝ᵥ (J *ᵥ s.c)) / 2) ∧ 0 < predictedDecrease J s.g s.c ∧ rho ≠ (f0 - v) / predictedDecrease J s.g s.c := by
  have hg := gain_run env sys f0 s J hH .lm
  rw [hv] at hg
  obtain ⟨s', h1, -⟩ := hg
  have hpos := dot_self_pos hJ
  have hden := gain_denominator J s.g s.c s.damp hstep
  -- some component of `c` meets a nonzero column
  have hD : 0 < s.c ⬝ᵥ fun i => s.c i * (Jᵀ * J) i i := by
    have hnn : ∀ i, 0 ≤ (Jᵀ * J) i i := by
      intro i
      rw [Matrix.mul_apply]
      exact Finset.sum_nonneg (fun j _ => by simpa [Matrix.transpose_apply] using mul_self_nonneg (J j i))
    have hterm : ∀ i, 0 ≤ s.c i * (s.c i * (Jᵀ * J) i i) := by
      intro i; rw [← mul_assoc]; exact mul_nonneg (mul_self_nonneg _) (hnn i)
    rcases (Finset.sum_nonneg (fun i (_ : i ∈ Finset.univ) => hterm i)).lt_or_eq with h | h
    · exact h
    · exfalso
      apply hJ
      have hz := (Finset.sum_eq_zero_iff_of_nonneg (fun i _ => hterm i)).mp h.symm
      have hcol : ∀ i j, J j i * s.c i = 0 := by
        intro i j
        rcases mul_eq_zero.mp (hz i (Finset.mem_univ i)) with h0 | h0
        · rw [h0, mul_zero]
        · rcases mul_eq_zero.mp h0 with h0 | h0
          · rw [h0, mul_zero]
          · rw [Matrix.mul_apply] at h0
            have := (Finset.sum_eq_zero_iff_of_nonneg (fun j _ => by simpa [Matrix.transpose_apply] using mul_self_nonneg (J j i))).mp h0 j (Finset.mem_univ j)
            have : J j i = 0 := by simpa [Matrix.transpose_apply] using this
            rw [this, zero_mul]
      funext j
      exact Finset.sum_eq_zero (fun i _ => hcol i j)
  have hpred : predictedDecrease J s.g s.c = ((J *ᵥ s.c) ⬝ᵥ (J *ᵥ s.c)) / 2 + s.damp * (s.c ⬝ᵥ fun i => s.c i * (Jᵀ * J) i i) := by
    unfold predictedDecrease
    rw [dotProduct_comm s.g s.c]
    linarith
  have hmul := mul_pos hdamp hD
  refine ⟨s', (f0 - v) / (((J *ᵥ s.c) ⬝ᵥ (J *ᵥ s.c)) / 2), ?_, rfl, by rw [hpred]; linarith, ?_⟩
  · rw [h1, gain_value J s.g s.c s.damp v f0 hstep]
    unfold fdiv
    rw [if_neg (by intro h; linarith)]
    congr 2
    rw [neg_div, div_neg, ← neg_div, neg_sub]
  · rw [hpred]
    intro h
    have hn : f0 - v ≠ 0 := sub_ne_zero.mpr (Ne.symm hne)
    rw [div_eq_div_iff (by linarith) (by linarith)] at h
    have := mul_left_cancel₀ hn h
    linarith

/-- C42, what holds: the ratio of the code has the sign of the actual decrease, and is larger in magnitude than the true ratio.  Missing from the full property: equality. -/
theorem C42_gain_ratio_sign_partial (J : Matrix m n K) (g c : n → K) (damp f1 f0 : K) (h : DampedStep J g c damp) (hJ : J *ᵥ c ≠ 0) :
    (gain f1 f0 damp (Jᵀ * J) g c).gt 0 = true ↔ 0 < f0 - f1 := by
  rw [gain_pos_iff J g c damp f1 f0 h hJ, sub_pos]

/-- an instance of the hypotheses: `J = 2`, `r = -1` (the residual `x² - 2` at 1), damping 1: `c = 1/4`; the code's ratio is `(1/2 - v)/(1/8)`, the predicted decrease `3/8` -/
example : DampedStep (m1 2) (v1 (-2)) (v1 (1/4)) (1:ℚ) ∧ m1 2 *ᵥ v1 (1/4) ≠ 0 ∧ predictedDecrease (m1 2) (v1 (-2)) (v1 (1/4)) = 3/8 := by
  refine ⟨?_, ?_, ?_⟩
  · unfold DampedStep; funext u
    simp [Matrix.mulVec, dotProduct, Matrix.mul_apply, m1, v1]; norm_num
  · intro h
    have := congrFun h ()
    simp [Matrix.mulVec, dotProduct, m1, v1] at this
  · simp [predictedDecrease, Matrix.mulVec, dotProduct, m1, v1]; norm_num

/-! ### The iteration as a sequence -/

open Pressio.Spec.LevenbergMarquardt in
/-- **C36, Levenberg-Marquardt.**  With a system that does not fail and an inner solver whose answer is a function `sol` of matrix and right-hand side: state, damping and growth factor follow the recursion `lmNext` from the
    initial guess, damping 1 and growth factor 2 (schedule 1), whatever the object did before; each iteration but the last evaluates the system there with Jacobian and the residual at the trial point; the solve ends at the
    first iteration whose test succeeds, else after `maxIters` updates. -/
theorem C36_lm_iterates (env : Env K m n p L) (cfg : Cfg K) (sched : Schedule) (r : (n → K) → m → K) (J : (n → K) → Matrix m n K) (sol : Matrix n n K → (n → K) → n → K) (tick : L → L)
    (hlin : ∀ A b c l, env.lin A b (c, l) = .ok () (sol A b, tick l)) (hupd : cfg.update = sched.update) (hmax : cfg.maxIters < int32Max) (s : Reg K m n p L) (hs : LsObj s) :
    let res := runLs env cfg (Sys.ofFun r J) .lm s
    let z : Nat → (n → K) × K × K := fun k => (lmNext sched (fun x => env.normM (r x) ^ 2 / 2) r J sol)^[k] (s.x, 1, sched.growth s.nu)
    let nrm : (n → K) × K × K → Norms K := fun z => ⟨env.normM (r z.1), env.normN (lmCorr r J sol z.1 z.2.1), env.normN ((J z.1)ᵀ *ᵥ r z.1), env.normM (r z.1) ^ 2 / 2⟩
    let met := fun k : Nat => lsMet cfg (nrm (z 0)) (nrm (z k)) k = true
    let evaluated := fun a : Nat => [(⟨(z a).1, true, .ok (r (z a).1, some (J (z a).1))⟩ : Query (n → K) (Model.Nonlinear.Ans K m n)),
      ⟨(z a).1 + lmCorr r J sol (z a).1 (z a).2.1, false, .ok (r ((z a).1 + lmCorr r J sol (z a).1 (z a).2.1), none)⟩]
    res.stop? = none ∧ res.state.files = s.files ∧
    (∀ k : Nat, (k : Int) < cfg.maxIters → met k → (∀ j < k, ¬ met j) →
      (res.state.x, res.state.damp, res.state.nu) = z k ∧ res.state.lin = tick^[k + 1] s.lin ∧
      res.state.log = s.log ++ (List.range k).flatMap evaluated ++ [⟨(z k).1, true, .ok (r (z k).1, some (J (z k).1))⟩]) ∧
    ((∀ k : Nat, (k : Int) < cfg.maxIters → ¬ met k) →
      (res.state.x, res.state.damp, res.state.nu) = z cfg.maxIters.toNat ∧ res.state.lin = tick^[cfg.maxIters.toNat] s.lin ∧
      res.state.log = s.log ++ (List.range cfg.maxIters.toNat).flatMap evaluated) := by
  intro res z nrm met evaluated
  obtain ⟨rule, hrule, hr⟩ : ∃ rule : Rule K, rule = (match sched with | .one => Rule.lm1 | .two => Rule.lm2) ∧ lsRule cfg .lm = .ok rule := by
    cases sched
    · exact ⟨.lm1, rfl, by unfold lsRule; rw [hupd]; rfl⟩
    · exact ⟨.lm2, rfl, by unfold lsRule; rw [hupd]; rfl⟩
  have hz0 : damped (lsStart .lm rule (absR s)) = (s.x, 1, sched.growth s.nu) := by
    subst hrule; cases sched <;> rfl
  have hstd : Damped (Sys.ofFun r J) (lsProblem env cfg (Sys.ofFun r J) .lm rule) r J (lmCorr r J sol) tick
      (fun i ref now => if cfg.stop = .AfterMaxIters then decide (i = cfg.maxIters) else below cfg.stop cfg.tol ref now) (lmNext sched (fun x => env.normM (r x) ^ 2 / 2) r J sol) := by
    refine ⟨fun x => rfl, fun x d c b l => ⟨b, ?_⟩, fun _ _ _ => rfl, fun _ _ _ => rfl, fun st hst => ?_⟩
    · simp only [lsProblem, negated, hlin]; rfl
    · subst hrule
      cases sched
      · simp only [lsProblem, lsUpd, objAt, Sys.ofFun, Except.map]
        rw [lmNext]
        simp only [damped, ← hst]
        have : ∀ q : Quot' K, lm1 q st.x st.c st.damp st.nu = .moved (match lm1 q st.x st.c st.damp st.nu with | .moved x d nu => (x, d, nu) | _ => (st.x, st.damp, st.nu)).1
            (match lm1 q st.x st.c st.damp st.nu with | .moved x d nu => (x, d, nu) | _ => (st.x, st.damp, st.nu)).2.1 (match lm1 q st.x st.c st.damp st.nu with | .moved x d nu => (x, d, nu) | _ => (st.x, st.damp, st.nu)).2.2 := by
          intro q
          rcases q with q | _ | _ | _ <;> simp only [lm1]
          by_cases h : 0 < q <;> simp [h]
        exact congrArg (UpdOut.mk _) (this _)
      · simp only [lsProblem, lsUpd, objAt, Sys.ofFun, Except.map]
        rw [lmNext]
        simp only [damped, ← hst]
        rfl
  obtain ⟨g1, g2, g3, g4, -, -⟩ := ls_run env cfg (Sys.ofFun r J) .lm hs
  rw [ls_spec env cfg (Sys.ofFun r J) .lm (absR s) hr] at g1 g2 g3 g4
  have hT : ∀ k : Nat, (if cfg.stop = .AfterMaxIters then decide ((1 : Int) + k = cfg.maxIters) else below cfg.stop cfg.tol (nrm (z 0)) (nrm (z k))) = true ↔ met k := by
    intro k
    show _ ↔ (if _ then _ else _) = true
    rw [add_comm]
  have hx : (res.state.x, res.state.damp, res.state.nu) = damped (iterate (Sys.ofFun r J) (lsProblem env cfg (Sys.ofFun r J) .lm rule) cfg.maxIters.toNat 1 none (lsStart .lm rule (absR s))).st := congrArg damped g2
  have hstop : ∀ k : Nat, (k : Int) < cfg.maxIters → met k → (∀ j < k, ¬ met j) → res.stop? = none ∧ res.state.files = s.files ∧
      (res.state.x, res.state.damp, res.state.nu) = z k ∧ res.state.lin = tick^[k + 1] s.lin ∧
      res.state.log = s.log ++ (List.range k).flatMap evaluated ++ [⟨(z k).1, true, .ok (r (z k).1, some (J (z k).1))⟩] := by
    intro k hk hmet hbefore
    obtain ⟨f1, f2, f3, f4, f5⟩ := damped_stop hstd cfg.maxIters.toNat 1 none (lsStart .lm rule (absR s)) k (by omega)
      (fun j hj => by rw [hz0]; exact Bool.of_not_eq_true (fun h => hbefore j hj ((hT j).mp h))) (by rw [hz0]; exact (hT k).mpr hmet)
    rw [hz0] at f2 f5
    refine ⟨by rw [show res.stop? = _ from g1, f1]; rfl, ?_, hx.trans f2, ?_, ?_⟩
    · rw [show res.state.files = _ from g3, f3]; exact List.append_nil _
    · have := congrArg St.lin g2; rw [f4] at this; exact this
    · rw [show res.state.log = _ from g4, f5, List.append_assoc]; rfl
  have hlimit : (∀ k : Nat, (k : Int) < cfg.maxIters → ¬ met k) → res.stop? = none ∧ res.state.files = s.files ∧
      (res.state.x, res.state.damp, res.state.nu) = z cfg.maxIters.toNat ∧ res.state.lin = tick^[cfg.maxIters.toNat] s.lin ∧
      res.state.log = s.log ++ (List.range cfg.maxIters.toNat).flatMap evaluated := by
    intro hnever
    obtain ⟨f1, f2, f3, f4, f5⟩ := damped_limit hstd cfg.maxIters.toNat 1 none (lsStart .lm rule (absR s))
      (fun j hj => by rw [hz0]; exact Bool.of_not_eq_true (fun h => hnever j (by omega) ((hT j).mp h)))
    rw [hz0] at f2 f5
    refine ⟨?_, ?_, hx.trans f2, ?_, ?_⟩
    · rw [show res.stop? = _ from g1, f1, if_neg]
      · rfl
      · intro h
        have : (0:Int) < int32Max := by decide
        omega
    · rw [show res.state.files = _ from g3, f3]; exact List.append_nil _
    · have := congrArg St.lin g2; rw [f4] at this; exact this
    · rw [show res.state.log = _ from g4, f5]; rfl
  classical
  have hall : res.stop? = none ∧ res.state.files = s.files := by
    by_cases hex : ∃ k : Nat, (k : Int) < cfg.maxIters ∧ met k
    · have hm := Nat.find_spec hex
      have := hstop (Nat.find hex) hm.1 hm.2 (fun j hj hmet => Nat.find_min hex hj ⟨by omega, hmet⟩)
      exact ⟨this.1, this.2.1⟩
    · have := hlimit (fun k hk hmet => hex ⟨k, hk, hmet⟩)
      exact ⟨this.1, this.2.1⟩
  exact ⟨hall.1, hall.2, fun k h1 h2 h3 => (hstop k h1 h2 h3).2.2, fun h => (hlimit h).2.2⟩

open Pressio.Spec.LevenbergMarquardt in
/-- `x² - 2` from 1 with schedule 2: after two updates, with damping 1 and 1/3 -/
example : let sol : Matrix Unit Unit ℚ → (Unit → ℚ) → Unit → ℚ := fun A b => v1 (b () / A () ())
    let env : Env ℚ Unit Unit Unit ℚ := { env1 with lin := fun A b (_, l) => .ok () (sol A b, l + 1) }
    let res := runLs env (cfgN .WhenAbsolutel2NormOfGradientBelowTolerance (1/100) 2 .LMSchedule2) sq2 .lm (reg1 leastSquaresDiagnostics 1)
    res.state.x = ((lmNext .two (fun x => |x () * x () - 2| ^ 2 / 2) (fun x => v1 (x () * x () - 2)) (fun x => m1 (2 * x ())) sol)^[2] (v1 1, 1, (reg1 leastSquaresDiagnostics 1).nu)).1 ∧ res.state.log.length = 4 := by
  intro sol env res
  obtain ⟨-, -, -, h⟩ := C36_lm_iterates env (cfgN .WhenAbsolutel2NormOfGradientBelowTolerance (1/100) 2 .LMSchedule2) .two (fun x => v1 (x () * x () - 2)) (fun x => m1 (2 * x ())) sol (· + 1) (fun _ _ _ _ => rfl) rfl (by decide)
    (reg1 leastSquaresDiagnostics 1) (.created _ rfl)
  obtain ⟨h1, -, h3⟩ := h (fun k hk => by
    obtain rfl | rfl : k = 0 ∨ k = 1 := by
      have : (k : Int) < 2 := hk
      omega
    · decide +kernel
    · decide +kernel)
  exact ⟨congrArg Prod.fst h1, (congrArg List.length h3).trans rfl⟩

/-! ### C64 -/

theorem chain_inv {T : Type} {R : T → T → Prop} {P : T → Prop} (hP : ∀ a b, R a b → P a → P b) : ∀ (l : List T) (a : T), P a → List.IsChain R (a :: l) →
    List.IsChain (fun a b => P a ∧ R a b) (a :: l)
  | [], _, _, _ => List.isChain_singleton _
  | b :: l, a, ha, h => by
    rw [List.isChain_cons_cons] at h ⊢
    exact ⟨⟨ha, h.1⟩, chain_inv hP l b (hP a b h.1 ha) h.2⟩

theorem lm_pos (rule : Rule K) (rho : Quot' K) (x c x' : n → K) (d nu d' nu' : K) (hd : 0 < d) (hnu : rule = .lm1 → 0 < nu)
    (h : rule = .lm1 ∧ lm1 rho x c d nu = .moved x' d' nu' ∨ rule = .lm2 ∧ lm2 rho x c d nu = .moved x' d' nu') : 0 < d' ∧ (rule = .lm1 → 0 < nu') := by
  rcases h with ⟨rfl, h⟩ | ⟨rfl, h⟩
  · rcases rho with q | _ | _ | _
    · by_cases h0 : 0 < q
      · simp only [lm1, if_pos h0] at h
        cases h
        exact ⟨mul_pos hd (lt_of_lt_of_le (by norm_num) (le_max_left _ _)), fun _ => two_pos⟩
      · simp only [lm1, if_neg h0] at h
        cases h
        exact ⟨mul_pos hd (hnu rfl), fun _ => mul_pos (hnu rfl) two_pos⟩
    · cases h; exact ⟨mul_pos hd (hnu rfl), fun _ => mul_pos (hnu rfl) two_pos⟩
    · cases h; exact ⟨mul_pos hd (by norm_num), fun _ => two_pos⟩
    · cases h; exact ⟨mul_pos hd (hnu rfl), fun _ => mul_pos (hnu rfl) two_pos⟩
  · unfold lm2 at h
    cases h
    refine ⟨?_, fun h => by cases h⟩
    split
    · exact lt_min (by positivity) (by positivity)
    · split
      · exact lt_max_of_lt_left (by positivity)
      · exact hd

/-- C64.  Levenberg-Marquardt with an exact inner solver: in each iteration of each solve, however it ends, the correction used minimises `|J d + r|² + damp dᵀ D d` over all `d`, with
    the damping of that iteration, which is positive. -/
theorem C64_lm_damped_minimiser [DecidableEq m] (env : Env K m n p L) (cfg : Cfg K) (sys : Sys K m n) (hex : ExactLin env)
    (hupd : cfg.update = .LMSchedule1 ∨ cfg.update = .LMSchedule2) (s : Reg K m n p L) (hs : LsObj s) :
    let res := runLs env cfg sys .lm s
    ∃ ys : List ((n → K) × K), ((s.x, 1) :: ys).getLast (by simp) = (res.state.x, res.state.damp) ∧
      List.IsChain (fun a b => ∃ r J c, sys.resJac a.1 = .ok (r, J) ∧ 0 < a.2 ∧ (b.1 = a.1 ∨ b.1 = a.1 + c) ∧
        ∀ d, (J *ᵥ c + r) ⬝ᵥ (J *ᵥ c + r) + a.2 * (c ⬝ᵥ fun i => (Jᵀ * J) i i * c i) ≤ (J *ᵥ d + r) ⬝ᵥ (J *ᵥ d + r) + a.2 * (d ⬝ᵥ fun i => (Jᵀ * J) i i * d i)) ((s.x, 1) :: ys) := by
  intro res
  obtain ⟨rule, hr, -, -, h3, h4⟩ := ls_rule (cfg := cfg) (tag := .lm) (.inr (.inr ⟨rfl, hupd⟩))
  have hrule : rule = .lm1 ∨ rule = .lm2 := by rcases hupd with h | h; exact .inl (h3 h); exact .inr (h4 h)
  obtain ⟨-, g2, -⟩ := ls_run env cfg sys .lm hs
  rw [ls_spec env cfg sys .lm (absR s) hr] at g2
  obtain ⟨ys, -, f2, f3, -⟩ := iterate_accepts sys (lsProblem env cfg sys .lm rule) rfl cfg.maxIters.toNat 1 none (lsStart .lm rule (absR s))
  have hsd : (lsStart .lm rule (absR s)).damp = 1 := by rcases hrule with rfl | rfl <;> rfl
  have hsn : rule = .lm1 → (lsStart .lm rule (absR s)).nu = 2 := by rintro rfl; rfl
  have f2' := chain_inv (P := fun t : (n → K) × K × K => 0 < t.2.1 ∧ (rule = .lm1 → 0 < t.2.2)) ?_ ys _ ?_ f2
  · refine ⟨ys.map (fun t => (t.1, t.2.1)), ?_, ?_⟩
    · have hx : res.state.x = _ := congrArg St.x g2
      have hd : res.state.damp = _ := congrArg St.damp g2
      rw [hx, hd]
      refine Eq.trans ?_ (congrArg (fun t : (n → K) × K × K => (t.1, t.2.1)) f3)
      rw [← List.getLast_map (f := fun t : (n → K) × K × K => (t.1, t.2.1)) (by simp)]
      simp only [List.map_cons, hsd]
      rfl
    · have hmap : (s.x, (1:K)) :: ys.map (fun t => (t.1, t.2.1)) =
          (((lsStart .lm rule (absR s)).x, (lsStart .lm rule (absR s)).damp, (lsStart .lm rule (absR s)).nu) :: ys).map (fun t => (t.1, t.2.1)) := by
        simp only [List.map_cons, hsd]; rfl
      rw [hmap, List.isChain_map]
      refine List.IsChain.imp ?_ f2'
      rintro ⟨x, d, nu⟩ ⟨x', d', nu'⟩ ⟨⟨hd, -⟩, r, J, inn, c, b, l, hA, hC, hU⟩
      obtain ⟨v, hv, hx, -, -⟩ := lm_upd_moved env sys .lm rule hrule _ r J _ x' d' nu' hU
      simp only at hx
      refine ⟨r, J, c, hA, hd, ?_, fun e => ?_⟩
      · show x' = x ∨ x' = x + c
        rw [hx]; split <;> simp
      · have := correction_minimises env cfg sys .lm rule hex x r J d (fun _ => hd.le) inn c b l hC e
        simpa [linModel] using this
  · rintro ⟨x, d, nu⟩ ⟨x', d', nu'⟩ ⟨r, J, inn, c, b, l, hA, hC, hU⟩ ⟨hd, hnu⟩
    obtain ⟨v, hv, hx, h5, h6⟩ := lm_upd_moved env sys .lm rule hrule _ r J _ x' d' nu' hU
    rcases hrule with h | h
    · exact lm_pos rule _ x c x' d nu d' nu' hd hnu (.inl ⟨h, h5 h⟩)
    · exact lm_pos rule _ x c x' d nu d' nu' hd hnu (.inr ⟨h, h6 h⟩)
  · exact ⟨by rw [hsd]; exact one_pos, fun h => by rw [hsn h]; exact two_pos⟩

/-- the first step on `x² - 2` from 1 (`J = 2`, `r = -1`, damping 1) has `c = 1/4`, the minimiser of `(2 d - 1)² + 4 d²` -/
example : (runLs env1 (cfgN .AfterMaxIters (1/100) 2 .LMSchedule1) sq2 .lm (reg1 leastSquaresDiagnostics 1)).state.x () = 1 + 1/4 := by decide +kernel

/-! ### The theorems on concrete runs -/

/-- the residual `2 x - 1` at 0, with damping 1: the step is 1/4, and the objective decreases from 1/2 to 1/8 -/
def dampedReg : Reg ℚ Unit Unit Unit ℚ := { reg1 leastSquaresDiagnostics 0 with H0 := (m1 2)ᵀ * m1 2, g := v1 (-2), c := v1 (1/4), damp := 1 }
theorem dampedReg_step : DampedStep (m1 2) dampedReg.g dampedReg.c dampedReg.damp := by
  unfold DampedStep; funext u
  simp [dampedReg, Matrix.mulVec, dotProduct, Matrix.mul_apply, m1, v1]; norm_num
theorem dampedReg_moves : m1 2 *ᵥ dampedReg.c ≠ 0 := by
  intro h
  have := congrFun h ()
  simp [dampedReg, Matrix.mulVec, dotProduct, m1, v1] at this
example := C40_accepts_exactly_decrease env1 (aff1 2 1) (1/2) dampedReg (m1 2) rfl dampedReg_step dampedReg_moves _ rfl
example := C42_gain_ratio_is_not_predicted env1 (aff1 2 1) (1/2) dampedReg (m1 2) rfl dampedReg_step (by decide +kernel) dampedReg_moves (1/8) (by decide +kernel) (by norm_num)
example := C40_lm_chain env1 (cfgN .AfterMaxIters (1/100) 4 .LMSchedule2) sq2 div1_exact (.inr rfl) (reg1 leastSquaresDiagnostics 1) (.created _ rfl)
example := C41_schedule1 env1 (cfgN .AfterMaxIters (1/100) 4 .LMSchedule1) sq2 rfl (reg1 leastSquaresDiagnostics 1) (.created _ rfl)
example := C41_schedule2 env1 (cfgN .AfterMaxIters (1/100) 4 .LMSchedule2) sq2 rfl (reg1 leastSquaresDiagnostics 1) (.created _ rfl)


end Pressio.Props
