import Verif.Props.ConvergenceOrder
import Verif.Lemmas.TaylorSmooth
import Mathlib.Analysis.Calculus.BumpFunction.FiniteDimension
import Mathlib.Analysis.Calculus.ContDiff.RCLike
import Mathlib.Analysis.SpecialFunctions.Trigonometric.Deriv

/-
  C74: the Runge-Kutta schemes converge with their full order, 1 for ForwardEuler, 3 for SSPRungeKutta3, 4 for RungeKutta4, on every problem with a smooth right-hand side.
-/
namespace Pressio.Props
set_option autoImplicit false
set_option linter.unusedSectionVars false
open Pressio Pressio.Model.Advance Pressio.Model.Explicit Pressio.Spec.Explicit Pressio.Spec.Run Pressio.Lemmas.Run Pressio.Lemmas.Numerics
open Pressio.Spec.AdvanceTarget Pressio.Lemmas.TaylorOrder

variable {Y : Type} [NormedAddCommGroup Y] [NormedSpace ℝ Y]

/-! ### Local errors -/

/-- the equation with the time as a further unknown -/
def withTime (f : Y → ℝ → Y) (z : Y × ℝ) : Y × ℝ := (f z.1 z.2, 1)

theorem withTime_solves {f : Y → ℝ → Y} {φ : ℝ → Y} {a b : ℝ} (hφ : Solves f φ a b) : ∀ s ∈ Set.Icc a b, HasDerivAt (fun s => (φ s, s)) (withTime f (φ s, s)) s :=
  fun s hs => (hφ s hs).prodMk (hasDerivAt_id s)

theorem withTime_smooth {f : Y → ℝ → Y} {n : WithTop ℕ∞} (hf : ContDiff ℝ n (fun z : Y × ℝ => f z.1 z.2)) : ContDiff ℝ n (withTime f) := hf.prodMk contDiff_const

theorem small_fst {W : Type} [NormedAddCommGroup W] [NormedSpace ℝ W] {D : Set (ℝ × ℝ)} {p : Nat} {u : ℝ × ℝ → W × ℝ} (h : Small D p u) : Small D p (fun x => (u x).1) := by
  obtain ⟨C, hC, h⟩ := h
  exact ⟨C, hC, fun x hx => (norm_fst_le _).trans (h x hx)⟩

/-- local error of ForwardEuler for an autonomous equation -/
theorem euler_autonomous {Z : Type} [NormedAddCommGroup Z] [NormedSpace ℝ Z] [ProperSpace Z] {F : Z → Z} (hF : ContDiff ℝ 1 F) {φ : ℝ → Z} {a b H : ℝ} (hφ : ∀ s ∈ Set.Icc a b, HasDerivAt φ (F (φ s)) s) :
    Small (Within a b H) 2 (fun x => φ x.1 + x.2 • F (φ x.1) - φ (x.1 + x.2)) := by
  obtain ⟨z0, z1⟩ := solution_small_zero (H := H) hφ
  obtain ⟨R, hR, hb⟩ := small_zero_bound z0
  obtain ⟨R', hR', hb'⟩ := small_zero_bound z1
  obtain ⟨d1, c1⟩ := smooth_deriv (n := 0) (G := F) (by exact_mod_cast hF)
  obtain ⟨M, hM, hl⟩ := lipschitz_segment d1 c1.continuous (R + R')
  obtain ⟨B, hB, hf⟩ := bounded_of_continuous hF.continuous R'
  have f1 : Small (Within a b H) 0 (fun x => F (φ (x.1 + x.2))) := bound_small_zero B hB fun x hx => hf _ (hb' x hx)
  have r1 : Small (Within a b H) 1 (fun x => φ (x.1 + x.2) - φ x.1) := small_of_deriv (fun x => φ (x.1 + x.2) - φ x.1) _ (fun s => by simp) (fun x hx => solution_deriv hφ x hx) f1
  obtain ⟨C, hC, hr⟩ := r1
  have r2 : Small (Within a b H) 1 (fun x => F (φ (x.1 + x.2)) - F (φ x.1)) := by
    refine ⟨M * C, by positivity, fun x hx => ?_⟩
    have l := hl (φ x.1) (φ (x.1 + x.2) - φ x.1) ((hb x hx).trans (by linarith)) ((norm_sub_le _ _).trans (by linarith [hb x hx, hb' x hx])) 1 ⟨zero_le_one, le_rfl⟩
    rw [one_smul, add_sub_cancel, mul_one] at l
    refine l.trans ?_
    rw [mul_assoc]
    exact mul_le_mul_of_nonneg_left (hr x hx) hM
  have r3 := small_of_deriv (p := 1) (fun x => (φ (x.1 + x.2) - φ x.1) - x.2 • F (φ x.1)) (fun x => F (φ (x.1 + x.2)) - F (φ x.1)) (fun s => by simp) (fun x hx => by
    have h1 := solution_deriv hφ x hx
    have h2 : HasDerivAt (fun r : ℝ => r • F (φ x.1)) (F (φ x.1)) x.2 := by simpa using (hasDerivAt_id x.2).smul_const (F (φ x.1))
    exact h1.fun_sub h2) r2
  exact r3.neg.congr (fun x _ => by abel)

theorem local_order [FiniteDimensional ℝ Y] (scheme : Scheme) (tab : Tableau ℝ) (htab : tableauOf scheme = some tab) (f : Y → ℝ → Y) (hf : ContDiff ℝ (orderOf scheme) (fun z : Y × ℝ => f z.1 z.2)) (φ : ℝ → Y) (a b H : ℝ)
    (hφ : Solves f φ a b) : Small (Within a b H) (orderOf scheme + 1) (fun x => rkStep tab f (φ x.1) x.1 x.2 - φ (x.1 + x.2)) := by
  have : ProperSpace Y := FiniteDimensional.proper_real Y
  have hΦ := withTime_solves hφ
  have hF := withTime_smooth hf
  cases scheme <;> simp only [tableauOf, Option.some.injEq, reduceCtorEq] at htab <;> subst htab <;> simp only [orderOf] at hF ⊢
  · refine (small_fst (euler_autonomous (by exact_mod_cast hF) hΦ)).congr (fun x _ => ?_)
    rw [euler_unfold]
    simp [withTime]
  · refine (small_fst (rk4_autonomous (taylor3_of_contDiff (by exact_mod_cast hF)) hΦ)).congr (fun x _ => ?_)
    rw [rk4_unfold]
    simp [withTime]
  · refine (small_fst (ssprk3_autonomous (taylor2_of_contDiff (by exact_mod_cast hF)) hΦ)).congr (fun x _ => ?_)
    rw [ssprk3_unfold]
    have e : x.2 / 4 * (1 + 1) = x.2 / 2 := by ring
    simp [withTime, e]

/-! ### Lipschitz right-hand sides -/

theorem order_of_sequence [FiniteDimensional ℝ Y] (scheme : Scheme) (tab : Tableau ℝ) (htab : tableauOf scheme = some tab) (f : Y → ℝ → Y) (hsmooth : ContDiff ℝ (orderOf scheme) (fun z : Y × ℝ => f z.1 z.2))
    (L : ℝ) (hL : 0 ≤ L) (hf : Lip f L) (φ : ℝ → Y) (start T : ℝ) (hφ : Solves f φ start T) :
    ∃ C, 0 ≤ C ∧ ∀ (H : ℝ) (y0 : Y) (t h : Nat → ℝ), t 0 = start → (∀ k, 0 ≤ h k ∧ h k ≤ H) → (∀ k, t (k+1) = t k + h k) → ∀ N, t N ≤ T →
      ∀ k ≤ N, start ≤ t k ∧ ‖seqOf scheme f y0 t h k - φ (t k)‖ ≤ Real.exp (L * (t k - start)) * (‖y0 - φ start‖ + (t k - start) * (C * H ^ orderOf scheme)) := by
  obtain ⟨C, hC, hloc⟩ := local_order scheme tab htab f hsmooth φ start T (T - start) hφ
  refine ⟨C, hC, fun H y0 t h ht0 hh ht N hN => ?_⟩
  have hH : 0 ≤ H := (hh 0).1.trans (hh 0).2
  have hmono := t_mono t h (fun k => (hh k).1) ht
  have := one_step_convergence f φ L (C * H ^ orderOf scheme) hL (by positivity) hf scheme tab htab y0 t h (fun k => (hh k).1) ht N (by
    intro k hk
    have h1 : start ≤ t k := ht0 ▸ hmono (Nat.zero_le k)
    have h2 : t k + h k ≤ T := by rw [← ht k]; exact (hmono (by omega : k + 1 ≤ N)).trans hN
    have h0 := (hh k).1
    have l := hloc (t k, h k) ⟨h1, h0, by simp only; linarith, h2⟩
    refine l.trans ?_
    have e1 : (1:ℝ) ≤ Real.exp (L * h k) := Real.one_le_exp (by positivity)
    have e2 : C * h k ^ (orderOf scheme + 1) ≤ h k * (C * H ^ orderOf scheme) := by
      rw [pow_succ]
      have : h k ^ orderOf scheme ≤ H ^ orderOf scheme := pow_le_pow_left₀ h0 (hh k).2 _
      calc C * (h k ^ orderOf scheme * h k) = h k * (C * h k ^ orderOf scheme) := by ring
        _ ≤ _ := by gcongr
    refine e2.trans ?_
    have : 0 ≤ h k * (C * H ^ orderOf scheme) := by positivity
    nlinarith)
  rwa [ht0] at this

/-- **C74, full order.** ForwardEuler, SSPRungeKutta3 and RungeKutta4 (orders p = 1, 3, 4): for a right-hand side that is Lipschitz in the state and p times continuously differentiable, and a solution φ on `[start, T]`, there is a constant C
    such that, for every step-size policy with sizes between 0 and H, every number of steps that stays within T and every initial state, the error at every observation is at most
    `exp(L (t - start)) (‖y₀ - φ(start)‖ + (t - start) C Hᵖ)`. -/
theorem C74_full_order [FiniteDimensional ℝ Y] (scheme : Scheme) (hs : scheme = .ForwardEuler ∨ scheme = .SSPRungeKutta3 ∨ scheme = .RungeKutta4) (f : Y → ℝ → Y)
    (hsmooth : ContDiff ℝ (orderOf scheme) (fun z : Y × ℝ => f z.1 z.2)) (L : ℝ) (hL : 0 ≤ L) (hf : Lip f L) (φ : ℝ → Y) (start T : ℝ) (hφ : Solves f φ start T) :
    ∃ C, 0 ≤ C ∧ ∀ (sys : System ℝ Y), Computes sys f → ∀ (obs : RhsEv ℝ Y → Except Exc Unit), (∀ e, obs e = .ok ()) → ∀ (H : ℝ) (pol : Int → ℝ → ℝ → ℝ), (∀ n t d, 0 ≤ pol n t d ∧ pol n t d ≤ H) →
      ∀ (N : Nat), (N : Int) < int32Max → tSeq 0 pol start N ≤ T → ∀ (y0 : Y) (m : EMem ℝ Y), m.1.length = numRhs scheme →
      ∃ s, run 0 pol (asStepper sys scheme obs) N start y0 m = .ok () s ∧ ∀ k ≤ N, ∃ t y, (observations s.log)[k]? = some ((k : Int), t, y) ∧ (k = N → s.y = y) ∧
        ‖y - φ t‖ ≤ Real.exp (L * (t - start)) * (‖y0 - φ start‖ + (t - start) * (C * H ^ orderOf scheme)) := by
  obtain ⟨tab, htab⟩ : ∃ tab : Tableau ℝ, tableauOf scheme = some tab := by rcases hs with rfl | rfl | rfl <;> exact ⟨_, rfl⟩
  obtain ⟨C, hC, key⟩ := order_of_sequence scheme tab htab f hsmooth L hL hf φ start T hφ
  refine ⟨C, hC, fun sys hsys obs hobs H pol hpol N hN hT y0 m hlen => ?_⟩
  obtain ⟨s, a1, a2, a3⟩ := explicit_run sys f hsys scheme (by rcases hs with rfl | rfl | rfl <;> simp [isExplicit]) obs hobs pol start N hN y0 m hlen
  exact ⟨s, a1, fun k hk => ⟨_, _, a3 k hk, by rintro rfl; exact a2, (key H y0 _ _ rfl (fun j => hpol _ _ _) (fun j => rfl) N hT k hk).2⟩⟩

/-! ### Right-hand sides that are only smooth -/

/-- steps of two right-hand sides that agree near the state are equal -/
theorem step_congr (scheme : Scheme) (tab : Tableau ℝ) (htab : tableauOf scheme = some tab) (f g : Y → ℝ → Y) (R B : ℝ) (hfg : ∀ y t, ‖y‖ ≤ R + 2 → |t| ≤ R + 2 → f y t = g y t) (hg : ∀ y t, ‖g y t‖ ≤ B)
    (y : Y) (t h : ℝ) (hy : ‖y‖ ≤ R + 1) (ht : |t| ≤ R + 1) (h0 : 0 ≤ h) (h1 : h ≤ 1) (hB : h * B ≤ 1) : rkStep tab f y t h = rkStep tab g y t h := by
  have ht' : ∀ c, 0 ≤ c → c ≤ h → |t + c| ≤ R + 2 := by
    intro c hc hch
    refine (abs_add_le _ _).trans ?_
    rw [abs_of_nonneg hc]
    linarith
  have hy' : ∀ c k, 0 ≤ c → c ≤ h → ‖k‖ ≤ B → ‖y + c • k‖ ≤ R + 2 := by
    intro c k hc hch hk
    refine (norm_add_le _ _).trans ?_
    rw [norm_smul, Real.norm_of_nonneg hc]
    have : c * ‖k‖ ≤ h * B := mul_le_mul hch hk (norm_nonneg k) h0
    linarith
  have e1 : f y t = g y t := hfg y t (by linarith) (by linarith)
  cases scheme <;> simp only [tableauOf, Option.some.injEq, reduceCtorEq] at htab <;> subst htab
  · rw [euler_unfold, euler_unfold, e1]
  · rw [rk4_unfold, rk4_unfold, e1]
    have e2 : f (y + (h / 2) • g y t) (t + h / 2) = g (y + (h / 2) • g y t) (t + h / 2) := hfg _ _ (hy' _ _ (by linarith) (by linarith) (hg _ _)) (ht' _ (by linarith) (by linarith))
    rw [e2]
    have e3 : f (y + (h / 2) • g (y + (h / 2) • g y t) (t + h / 2)) (t + h / 2) = g (y + (h / 2) • g (y + (h / 2) • g y t) (t + h / 2)) (t + h / 2) :=
      hfg _ _ (hy' _ _ (by linarith) (by linarith) (hg _ _)) (ht' _ (by linarith) (by linarith))
    rw [e3]
    rw [hfg _ (t + h) (hy' h _ h0 le_rfl (hg _ _)) (ht' _ h0 le_rfl)]
  · rw [ssprk3_unfold, ssprk3_unfold, e1]
    have e2 : f (y + h • g y t) (t + h) = g (y + h • g y t) (t + h) := hfg _ _ (hy' _ _ h0 le_rfl (hg _ _)) (ht' _ h0 le_rfl)
    rw [e2]
    have e : ∀ u v : Y, y + (h / 4) • (u + v) = y + (h / 2) • ((1/2 : ℝ) • u + (1/2 : ℝ) • v) := fun u v => by module
    rw [hfg (y + (h / 4) • (g y t + g (y + h • g y t) (t + h))) (t + h / 2) (by
      rw [e]
      refine hy' _ _ (by linarith) (by linarith) ?_
      refine (norm_add_le _ _).trans ?_
      rw [norm_smul, norm_smul, Real.norm_of_nonneg (by norm_num : (0:ℝ) ≤ 1/2)]
      linarith [hg y t, hg (y + h • g y t) (t + h)]) (ht' _ (by linarith) (by linarith))]

/-- a smooth right-hand side agrees on a ball with one that is bounded and Lipschitz -/
theorem cutoff [FiniteDimensional ℝ Y] (f : Y → ℝ → Y) (n : Nat) (hn : n ≠ 0) (hf : ContDiff ℝ n (fun z : Y × ℝ => f z.1 z.2)) (R : ℝ) (hR : 0 ≤ R) :
    ∃ g : Y → ℝ → Y, ContDiff ℝ n (fun z : Y × ℝ => g z.1 z.2) ∧ (∀ y t, ‖y‖ ≤ R + 2 → |t| ≤ R + 2 → f y t = g y t) ∧ ∃ L B, 0 ≤ L ∧ 0 ≤ B ∧ Lip g L ∧ ∀ y t, ‖g y t‖ ≤ B := by
  let χ : ContDiffBump (0 : Y × ℝ) := ⟨R + 2, R + 3, by linarith, by linarith⟩
  have hg : ContDiff ℝ n (fun z : Y × ℝ => χ z • f z.1 z.2) := χ.contDiff.smul hf
  have hc : HasCompactSupport (fun z : Y × ℝ => χ z • f z.1 z.2) := χ.hasCompactSupport.smul_right
  obtain ⟨L, hL⟩ := hg.lipschitzWith_of_hasCompactSupport hc (by exact_mod_cast hn)
  obtain ⟨B, hB⟩ := hc.exists_bound_of_continuous hg.continuous
  refine ⟨fun y t => χ (y, t) • f y t, hg, fun y t hy ht => ?_, L, B, L.2, (norm_nonneg _).trans (hB 0), fun y z t => ?_, fun y t => hB (y, t)⟩
  · have : χ (y, t) = 1 := χ.one_of_mem_closedBall (by
      rw [mem_closedBall_zero_iff, Prod.norm_def]
      exact max_le hy ht)
    simp only [this, one_smul]
  · have := hL.dist_le_mul (y, t) (z, t)
    simpa [dist_eq_norm, Prod.norm_def] using this

/-- **C74, full order without a Lipschitz constant.** ForwardEuler, SSPRungeKutta3 and RungeKutta4 (orders p = 1, 3, 4): for every p times continuously differentiable right-hand side and every solution φ on `[start, T]`, there are constants
    such that, for all initial states close to `φ(start)` and all step sizes between 0 and some `H ≤ H₀`, the run stays close to the solution, with errors at most `K (‖y₀ - φ(start)‖ + Hᵖ)` at every observation. -/
theorem C74_full_order_smooth [FiniteDimensional ℝ Y] (scheme : Scheme) (hs : scheme = .ForwardEuler ∨ scheme = .SSPRungeKutta3 ∨ scheme = .RungeKutta4) (f : Y → ℝ → Y)
    (hsmooth : ContDiff ℝ (orderOf scheme) (fun z : Y × ℝ => f z.1 z.2)) (φ : ℝ → Y) (start T : ℝ) (hφ : Solves f φ start T) :
    ∃ K H0 ε, 0 < H0 ∧ 0 < ε ∧ ∀ (sys : System ℝ Y), Computes sys f → ∀ (obs : RhsEv ℝ Y → Except Exc Unit), (∀ e, obs e = .ok ()) → ∀ (H : ℝ) (pol : Int → ℝ → ℝ → ℝ), H ≤ H0 → (∀ n t d, 0 ≤ pol n t d ∧ pol n t d ≤ H) →
      ∀ (N : Nat), (N : Int) < int32Max → tSeq 0 pol start N ≤ T → ∀ (y0 : Y), ‖y0 - φ start‖ ≤ ε → ∀ (m : EMem ℝ Y), m.1.length = numRhs scheme →
      ∃ s, run 0 pol (asStepper sys scheme obs) N start y0 m = .ok () s ∧ ∀ k ≤ N, ∃ t y, (observations s.log)[k]? = some ((k : Int), t, y) ∧ (k = N → s.y = y) ∧
        ‖y - φ t‖ ≤ K * (‖y0 - φ start‖ + H ^ orderOf scheme) := by
  obtain ⟨tab, htab⟩ : ∃ tab : Tableau ℝ, tableauOf scheme = some tab := by rcases hs with rfl | rfl | rfl <;> exact ⟨_, rfl⟩
  have hp : orderOf scheme ≠ 0 := by rcases hs with rfl | rfl | rfl <;> simp [orderOf]
  obtain ⟨R, hR, hb⟩ := solution_bounded (F := withTime f) (withTime_solves hφ)
  obtain ⟨g, gs, hfg, L, B, hL, hB, gL, gB⟩ := cutoff f (orderOf scheme) hp hsmooth R hR
  have hφR : ∀ s ∈ Set.Icc start T, ‖φ s‖ ≤ R ∧ |s| ≤ R := fun s hs => ⟨(norm_fst_le ((φ s, s) : Y × ℝ)).trans (hb s hs), (norm_snd_le ((φ s, s) : Y × ℝ)).trans (hb s hs)⟩
  have hφg : Solves g φ start T := by
    intro s hs
    rw [← hfg (φ s) s (by linarith [(hφR s hs).1]) (by linarith [(hφR s hs).2])]
    exact hφ s hs
  obtain ⟨C, hC, key⟩ := order_of_sequence scheme tab htab g gs L hL gL φ start T hφg
  set D := Real.exp (L * |T - start|) * (1 + |T - start| * C) with hD
  have hD1 : 1 ≤ D := by
    have e1 : (1:ℝ) ≤ Real.exp (L * |T - start|) := Real.one_le_exp (by positivity)
    have : 0 ≤ |T - start| * C := by positivity
    nlinarith
  refine ⟨D, min (1 / (2 * D)) (1 / (1 + B)), 1 / (2 * D), by positivity, by positivity, fun sys hsys obs hobs H pol hH hpol N hN hT y0 hy0 m hlen => ?_⟩
  obtain ⟨s, a1, a2, a3⟩ := explicit_run sys f hsys scheme (by rcases hs with rfl | rfl | rfl <;> simp [isExplicit]) obs hobs pol start N hN y0 m hlen
  have hH0 : 0 ≤ H := (hpol 0 0 0).1.trans (hpol 0 0 0).2
  have hHD : H ≤ 1 / (2 * D) := hH.trans (min_le_left _ _)
  have hH1 : H ≤ 1 := hHD.trans (by rw [div_le_one (by positivity)]; linarith)
  have hHB : H * B ≤ 1 := by
    have := hH.trans (min_le_right _ _)
    rw [le_div_iff₀ (by positivity)] at this
    linarith
  have bound : ∀ k ≤ N, start ≤ tSeq 0 pol start k ∧ tSeq 0 pol start k ≤ T ∧ ‖seqOf scheme g y0 (tSeq 0 pol start) (hSeq 0 pol start) k - φ (tSeq 0 pol start k)‖ ≤ D * (‖y0 - φ start‖ + H ^ orderOf scheme) := by
    intro k hk
    obtain ⟨b1, b2⟩ := key H y0 (tSeq 0 pol start) (hSeq 0 pol start) rfl (fun j => hpol _ _ _) (fun j => rfl) N hT k hk
    have b3 : tSeq 0 pol start k ≤ T := (t_mono (tSeq 0 pol start) (hSeq 0 pol start) (fun j => (hpol _ _ _).1) (fun j => rfl) hk).trans hT
    refine ⟨b1, b3, b2.trans ?_⟩
    have c1 : tSeq 0 pol start k - start ≤ |T - start| := by rw [abs_of_nonneg (by linarith)]; linarith
    have c0 : 0 ≤ tSeq 0 pol start k - start := by linarith
    have c2 : Real.exp (L * (tSeq 0 pol start k - start)) ≤ Real.exp (L * |T - start|) := Real.exp_le_exp.2 (mul_le_mul_of_nonneg_left c1 hL)
    have c3 : (tSeq 0 pol start k - start) * (C * H ^ orderOf scheme) ≤ |T - start| * (C * H ^ orderOf scheme) := mul_le_mul_of_nonneg_right c1 (by positivity)
    have c4 : ‖y0 - φ start‖ + (tSeq 0 pol start k - start) * (C * H ^ orderOf scheme) ≤ (1 + |T - start| * C) * (‖y0 - φ start‖ + H ^ orderOf scheme) := by
      have q1 : 0 ≤ |T - start| * C * ‖y0 - φ start‖ := by positivity
      have q2 : 0 ≤ H ^ orderOf scheme := by positivity
      nlinarith
    rw [hD, mul_assoc]
    exact mul_le_mul c2 c4 (by positivity) (Real.exp_pos _).le
  have small : ∀ k ≤ N, ‖seqOf scheme g y0 (tSeq 0 pol start) (hSeq 0 pol start) k - φ (tSeq 0 pol start k)‖ ≤ 1 := by
    intro k hk
    refine (bound k hk).2.2.trans ?_
    have q : H ^ orderOf scheme ≤ H := by
      calc H ^ orderOf scheme ≤ H ^ 1 := pow_le_pow_of_le_one hH0 hH1 (Nat.one_le_iff_ne_zero.2 hp)
        _ = H := pow_one H
    calc D * (‖y0 - φ start‖ + H ^ orderOf scheme) ≤ D * (1 / (2 * D) + 1 / (2 * D)) := by
          refine mul_le_mul_of_nonneg_left (add_le_add hy0 (q.trans hHD)) (by linarith)
      _ = 1 := by field_simp; norm_num
  have same : ∀ k ≤ N, seqOf scheme f y0 (tSeq 0 pol start) (hSeq 0 pol start) k = seqOf scheme g y0 (tSeq 0 pol start) (hSeq 0 pol start) k := by
    intro k
    induction k with
    | zero => intro _; rw [seqOf_zero, seqOf_zero]
    | succ k ih =>
      intro hk
      have ih' := ih (by omega)
      obtain ⟨b1, b2, -⟩ := bound k (by omega)
      have b3 := small k (by omega)
      have hr := hφR (tSeq 0 pol start k) ⟨b1, b2⟩
      simp only [seqOf, htab, oneStepSeq] at ih' b3 ⊢
      rw [ih']
      have n1 := norm_le_insert' (oneStepSeq (rkStep tab g) y0 (tSeq 0 pol start) (hSeq 0 pol start) k) (φ (tSeq 0 pol start k))
      have hk0 : 0 ≤ hSeq 0 pol start k := (hpol _ _ _).1
      have hkH : hSeq 0 pol start k ≤ H := (hpol _ _ _).2
      exact step_congr scheme tab htab f g R B hfg gB _ _ _ (by linarith [hr.1]) (by linarith [hr.2]) hk0 (hkH.trans hH1) ((mul_le_mul_of_nonneg_right hkH hB).trans hHB)
  refine ⟨s, a1, fun k hk => ⟨_, _, a3 k hk, by rintro rfl; exact a2, ?_⟩⟩
  rw [same k hk]
  exact (bound k hk).2.2

/-! ### Nonlinear problems that meet the hypotheses -/

/-- the logistic equation `y' = y (1 - y)`, which has no Lipschitz constant, and its solution `exp(t) / (1 + exp(t))` -/
example : ContDiff ℝ (orderOf .RungeKutta4) (fun z : ℝ × ℝ => z.1 * (1 - z.1)) ∧ (∀ a b, Solves (fun y _ => y * (1 - y)) (fun t => Real.exp t / (1 + Real.exp t)) a b) ∧ ∀ L, ¬ Lip (fun (y : ℝ) (_ : ℝ) => y * (1 - y)) L := by
  refine ⟨by fun_prop, fun a b s _ => ?_, fun L h => ?_⟩
  · have h0 : (1 + Real.exp s) ≠ 0 := by positivity
    have := (Real.hasDerivAt_exp s).div ((Real.hasDerivAt_exp s).const_add 1) h0
    refine this.congr_deriv ?_
    field_simp
  · have h1 := h (|L| + 3) 0 0
    simp only [Real.norm_eq_abs, zero_mul, sub_zero] at h1
    rw [abs_mul, abs_of_nonneg (by positivity : (0:ℝ) ≤ |L| + 3), abs_of_nonpos (by linarith [abs_nonneg L] : 1 - (|L| + 3) ≤ 0)] at h1
    nlinarith [abs_nonneg L, le_abs_self L]

/-- `y' = sin y + t` is smooth and Lipschitz -/
example : ContDiff ℝ (orderOf .RungeKutta4) (fun z : ℝ × ℝ => Real.sin z.1 + z.2) ∧ Lip (fun (y t : ℝ) => Real.sin y + t) 1 := by
  refine ⟨by fun_prop, fun y z t => ?_⟩
  rw [add_sub_add_right_eq_sub, one_mul]
  have := Convex.norm_image_sub_le_of_norm_hasDerivWithin_le (C := 1) (s := Set.univ) (fun x _ => (Real.hasDerivAt_sin x).hasDerivWithinAt) (fun x _ => Real.abs_cos_le_one x) convex_univ (Set.mem_univ z) (Set.mem_univ y)
  simpa using this

/-- the whole statement for the relaxation problem with exact solution `t^2` -/
example := C74_full_order .RungeKutta4 (Or.inr (Or.inr rfl)) relaxation (by unfold relaxation; fun_prop) 1 (by norm_num) relaxation_lip _ 0 10 (relaxation_solves _ _)

end Pressio.Props
