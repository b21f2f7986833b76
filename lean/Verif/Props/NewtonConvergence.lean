import Verif.Lemmas.NewtonConvergence
import Verif.Props.Newton
import Verif.Props.ImplicitStabilityNewton
import Mathlib.Analysis.Calculus.ContDiff.RCLike
import Mathlib.Analysis.SpecificLimits.Basic

/-
  C78: Newton's solver near a regular root.  `RegularRoot`, `Reached` and `errorBound` are in `Spec/NewtonConvergence.lean`.
-/
namespace Pressio.Props
set_option autoImplicit false
set_option linter.unusedSectionVars false
open Pressio Matrix
open Pressio.Model.Nonlinear (Env Cfg Reg StopCrit Update Ans fdiv)
open Pressio.Spec.Nonlinear Pressio.Spec.NewtonConvergence Pressio.Lemmas.NewtonConvergence
open Pressio.Lemmas.Nonlinear

variable {E n p L : Type} [NormedAddCommGroup E] [NormedSpace ℝ E] [Fintype n] [DecidableEq n] [Fintype p]

/-- a division of norms below a tolerance -/
theorem fdiv_lt {a b tol : ℝ} (hb : 0 < b) : (fdiv a b).lt tol = decide (a < tol * b) := by
  have : b ≠ 0 := hb.ne'
  simp only [fdiv, this, if_false, Model.Nonlinear.Quot'.lt]
  congr 1
  rw [div_lt_iff₀ hb]

/-- when the error has been reduced enough, the criterion is met -/
theorem met_of_reached (stop : StopCrit) (hcrit : rootCriterion stop = true) (tol β Λ ρ q e0 e c0 c r0 r : ℝ) (hβ : 0 < β) (hq : 0 ≤ q) (he0 : 0 ≤ e0) (hρ : e0 ≤ ρ) (hrel : isRelative stop = true → 0 < e0)
    (he : e ≤ e0 * q) (hc : c ≤ 3 / 2 * e) (hr : r ≤ 5 / 4 * Λ * e) (hc0 : e0 ≤ 2 * c0) (hr0 : e0 ≤ 4 / 3 * β * r0) (hΛ : 0 ≤ Λ) (hreach : Reached stop tol β Λ ρ q) :
    below stop tol ⟨r0, c0, 0, 0⟩ ⟨r, c, 0, 0⟩ = true := by
  have heρ : e ≤ ρ * q := he.trans (by gcongr)
  cases stop <;> simp only [rootCriterion, Bool.false_eq_true] at hcrit <;> simp only [Reached] at hreach <;> simp only [below]
  · rw [decide_eq_true_eq]; nlinarith
  · have h0 := hrel rfl
    have hc00 : 0 < c0 := by linarith
    rw [fdiv_lt hc00, decide_eq_true_eq]
    have h1 : c ≤ 3 * q * c0 := by nlinarith
    nlinarith
  · rw [decide_eq_true_eq]
    have : 5 / 4 * Λ * e ≤ 5 / 4 * Λ * ρ * q := by rw [mul_assoc (5 / 4 * Λ)]; gcongr
    linarith
  · have h0 := hrel rfl
    have hr00 : 0 < r0 := by
      by_contra hc
      push Not at hc
      have : 4 / 3 * β * r0 ≤ 0 := by nlinarith
      linarith
    rw [fdiv_lt hr00, decide_eq_true_eq]
    have h1 : r ≤ 5 / 4 * Λ * (4 / 3 * β * r0 * q) := hr.trans (by gcongr; exact he.trans (by gcongr))
    nlinarith

/-- a met criterion bounds the error -/
theorem error_of_met (stop : StopCrit) (hcrit : rootCriterion stop = true) (tol β Λ e0 e c0 c r0 r : ℝ) (hβ : 0 < β) (he0 : isRelative stop = true → 0 < e0)
    (hc : e ≤ 2 * c) (hr : e ≤ 4 / 3 * β * r) (hc0 : e0 ≤ 2 * c0) (hr0 : e0 ≤ 4 / 3 * β * r0) (hc0' : c0 ≤ 3 / 2 * e0) (hr0' : r0 ≤ 5 / 4 * Λ * e0) (htol : 0 ≤ tol)
    (hmet : below stop tol ⟨r0, c0, 0, 0⟩ ⟨r, c, 0, 0⟩ = true) : e ≤ errorBound stop tol β Λ e0 := by
  cases stop <;> simp only [rootCriterion, Bool.false_eq_true] at hcrit <;> simp only [below] at hmet <;> simp only [errorBound]
  · rw [decide_eq_true_eq] at hmet; linarith
  · have h0 := he0 rfl
    have hc00 : 0 < c0 := by linarith
    rw [fdiv_lt hc00, decide_eq_true_eq] at hmet
    nlinarith
  · rw [decide_eq_true_eq] at hmet
    have : 4 / 3 * β * r ≤ 4 / 3 * β * tol := by gcongr
    linarith
  · have h0 := he0 rfl
    have hr00 : 0 < r0 := by
      by_contra hc
      push Not at hc
      have : 4 / 3 * β * r0 ≤ 0 := by nlinarith
      linarith
    rw [fdiv_lt hr00, decide_eq_true_eq] at hmet
    have h1 : r ≤ tol * (5 / 4 * Λ * e0) := hmet.le.trans (by gcongr)
    have h2 : 4 / 3 * β * r ≤ 4 / 3 * β * (tol * (5 / 4 * Λ * e0)) := by gcongr
    linarith

/-- **C78.** Newton with standard updates and a linear solver that solves regular systems exactly, started within the distance `ρ` of a regular root `x'`.  There is a sequence `it` of iterates with quadratic
    convergence to `x'`, at the points of which the system is evaluated.  If after `k < maxIters` updates the reduction `2^(-(2^k - 1))` of the error is enough for the tolerance, then `solve` returns normally,
    after at most `k + 1` evaluations, without writing the termination file, and the error of the returned state is at most `errorBound`.  With the relative criteria the initial guess must not be the root itself. -/
theorem C78_newton_converges (ι : (n → ℝ) →ₗ[ℝ] E) (hι : Function.Injective ι) (env : Env ℝ n n p L) (hM : ∀ v, env.normM v = ‖ι v‖) (hN : ∀ v, env.normN v = ‖ι v‖)
    (cfg : Cfg ℝ) (r : (n → ℝ) → n → ℝ) (J : (n → ℝ) → Matrix n n ℝ) (sol : Matrix n n ℝ → (n → ℝ) → n → ℝ) (tick : L → L)
    (hlin : ∀ A b c l, env.linJ A b (c, l) = .ok () (sol A b, tick l)) (hsol : ∀ A b, IsUnit A.det → A *ᵥ sol A b = b) (hcrit : rootCriterion cfg.stop = true)
    (hupd : cfg.update = .Standard) (hmax : cfg.maxIters < int32Max) (s : Reg ℝ n n p L) (hs : NewtonObj s)
    (x' : n → ℝ) (β Λ γ ρ : ℝ) (H : RegularRoot ι r J x' β Λ γ ρ) (hstart : ‖ι (s.x - x')‖ ≤ ρ) (hrel : isRelative cfg.stop = true → s.x ≠ x')
    (k : Nat) (hk : (k : Int) < cfg.maxIters) (hreach : Reached cfg.stop cfg.tol β Λ ρ ((1 / 2) ^ (2 ^ k - 1))) :
    let res := runNewton env cfg (Sys.ofFun r J) s
    res.stop? = none ∧ res.state.files = s.files ∧ ‖ι (res.state.x - x')‖ ≤ errorBound cfg.stop cfg.tol β Λ ‖ι (s.x - x')‖ ∧
    ∃ (it : Nat → n → ℝ) (j : Nat), it 0 = s.x ∧ (∀ a, ‖ι (it (a + 1) - x')‖ ≤ β * γ * ‖ι (it a - x')‖ ^ 2) ∧ (∀ a, ‖ι (it a - x')‖ ≤ ρ * (1 / 2) ^ (2 ^ a - 1)) ∧
      j ≤ k ∧ res.state.x = it j ∧ res.state.log = s.log ++ (List.range (j + 1)).map (fun a => ⟨it a, true, .ok (r (it a), some (J (it a)))⟩) := by
  intro res
  have hb := H.β0
  obtain ⟨g1, g2, -⟩ := C30_newton_iterates env cfg r J sol tick hlin hcrit hupd hmax s hs
  set N : (n → ℝ) → n → ℝ := fun x => x + -sol (J x) (r x) with hNdef
  have hdir : ∀ x, ‖ι (x - x')‖ ≤ ρ → J x *ᵥ sol (J x) (r x) = r x := fun x hx => hsol _ _ (H.unit_near hι x hx)
  have hNs : ∀ x, ‖ι (x - x')‖ ≤ ρ → ∃ d, J x *ᵥ d = r x ∧ N x = x - d := fun x hx => ⟨_, hdir x hx, (sub_eq_add_neg _ _).symm⟩
  have hst := fun a => H.stays N hNs s.x hstart a
  have hit := fun a => H.iterates N hNs s.x hstart a
  have hms := fun a => H.measures hι _ _ (hst a) (hdir _ (hst a))
  have hms0 := H.measures hι _ _ hstart (hdir _ hstart)
  have he0 : isRelative cfg.stop = true → 0 < ‖ι (s.x - x')‖ := fun h => by
    rw [norm_pos_iff]
    intro h0
    rw [map_sub, sub_eq_zero] at h0
    exact hrel h (hι h0)
  have htol : 0 ≤ cfg.tol := by
    have hρ : 0 ≤ ρ := (norm_nonneg _).trans hstart
    have hq : (0:ℝ) ≤ (1 / 2) ^ (2 ^ k - 1) := by positivity
    have hΛ := H.Λ0
    rcases hc : cfg.stop <;> rw [hc] at hreach <;> simp only [Reached] at hreach <;> first | exact hreach.elim | exact le_trans (by positivity) hreach.le
  have nrmN : ∀ x, env.normN (-sol (J x) (r x)) = ‖ι (sol (J x) (r x))‖ := fun x => by rw [hN, map_neg, norm_neg]
  have hmetk : below cfg.stop cfg.tol ⟨env.normM (r s.x), env.normN (-sol (J s.x) (r s.x)), 0, 0⟩
      ⟨env.normM (r (N^[k] s.x)), env.normN (-sol (J (N^[k] s.x)) (r (N^[k] s.x))), 0, 0⟩ = true := by
    rw [hM, hM, nrmN, nrmN]
    exact met_of_reached cfg.stop hcrit cfg.tol β Λ ρ _ _ _ _ _ _ _ hb (by positivity) (norm_nonneg _) hstart he0 (hit k) (hms k).2.2.1 (hms k).2.2.2.2 hms0.2.1 hms0.2.2.2.1 H.Λ0 hreach
  classical
  have hex : ∃ k : Nat, below cfg.stop cfg.tol ⟨env.normM (r s.x), env.normN (-sol (J s.x) (r s.x)), 0, 0⟩
      ⟨env.normM (r (N^[k] s.x)), env.normN (-sol (J (N^[k] s.x)) (r (N^[k] s.x))), 0, 0⟩ = true := ⟨k, hmetk⟩
  obtain ⟨j, hjk, hmet, hmin⟩ : ∃ j ≤ k, below cfg.stop cfg.tol ⟨env.normM (r s.x), env.normN (-sol (J s.x) (r s.x)), 0, 0⟩
      ⟨env.normM (r (N^[j] s.x)), env.normN (-sol (J (N^[j] s.x)) (r (N^[j] s.x))), 0, 0⟩ = true ∧ ∀ i < j, ¬ below cfg.stop cfg.tol ⟨env.normM (r s.x), env.normN (-sol (J s.x) (r s.x)), 0, 0⟩
      ⟨env.normM (r (N^[i] s.x)), env.normN (-sol (J (N^[i] s.x)) (r (N^[i] s.x))), 0, 0⟩ = true :=
    ⟨Nat.find hex, Nat.find_le hmetk, Nat.find_spec hex, fun i hi => Nat.find_min hex hi⟩
  obtain ⟨f1, f2, -, f4⟩ := g2 j (by omega) hmet hmin
  refine ⟨g1, f4, ?_, fun a => N^[a] s.x, j, rfl, fun a => ?_, fun a => (hit a).trans (by gcongr), hjk, f1, f2⟩
  · rw [f1]
    rw [hM, hM, nrmN, nrmN] at hmet
    exact error_of_met cfg.stop hcrit cfg.tol β Λ _ _ _ _ _ _ hb he0 (hms _).2.1 (hms _).2.2.2.1 hms0.2.1 hms0.2.2.2.1 hms0.2.2.1 hms0.2.2.2.2 htol hmet
  · show ‖ι (N^[a + 1] s.x - x')‖ ≤ _
    rw [Function.iterate_succ_apply']
    have := H.step _ _ (hst a) (hdir _ (hst a))
    rwa [sub_eq_add_neg (N^[a] s.x)] at this

/-- Every root with a regular Jacobian of a twice continuously differentiable system is one of these, with some constants. -/
theorem C78_smooth_roots_are_regular (ι : (n → ℝ) →ₗ[ℝ] E) (hι : Function.Injective ι) (r : (n → ℝ) → n → ℝ) (J : (n → ℝ) → Matrix n n ℝ) (hr : ContDiff ℝ 2 r) (hJ : ∀ x, IsJacobian r J x)
    (x' : n → ℝ) (hroot : r x' = 0) (hdet : (J x').det ≠ 0) : ∃ β Λ γ ρ, 0 < ρ ∧ RegularRoot ι r J x' β Λ γ ρ := by
  obtain ⟨K, hK0, hK⟩ := LinearMap.exists_antilipschitzWith ι (LinearMap.ker_eq_bot.2 hι)
  have hι1 : ∀ v, ‖v‖ ≤ K * ‖ι v‖ := fun v => by
    have := hK.le_mul_dist v 0
    simpa using this
  set C := ‖ι.toContinuousLinearMap‖ with hC
  have hι2 : ∀ v, ‖ι v‖ ≤ C * ‖v‖ := fun v => by
    have := ι.toContinuousLinearMap.le_opNorm v
    simpa using this
  have hC0 : 0 ≤ C := norm_nonneg _
  -- the inverse of the Jacobian at the root
  have hu : IsUnit (J x').det := isUnit_iff_ne_zero.2 hdet
  set A := (Matrix.toLin' (J x')).toContinuousLinearMap with hA
  set B := (Matrix.toLin' (J x')⁻¹).toContinuousLinearMap with hB
  have hAv : ∀ v, A v = J x' *ᵥ v := fun v => by simp [hA]
  have hBv : ∀ v, B (J x' *ᵥ v) = v := fun v => by simp [hB, Matrix.mulVec_mulVec, Matrix.nonsing_inv_mul _ hu]
  have hfd : ∀ x, fderiv ℝ r x = (Matrix.toLin' (J x)).toContinuousLinearMap := fun x => HasFDerivAt.fderiv (hJ x)
  -- the Jacobian is Lipschitz near the root
  have hc : ContDiff ℝ 1 (fderiv ℝ r) := hr.fderiv_right (by norm_num)
  obtain ⟨G, t, ht, hG⟩ := hc.contDiffAt (x := x') |>.exists_lipschitzOnWith
  obtain ⟨ε, hε, hball⟩ := Metric.mem_nhds_iff.1 ht
  have hKr : (0:ℝ) < K := hK0
  set β := C * ‖B‖ * K + 1 with hβ
  have hβ0 : 0 < β := by positivity
  set γ := C * G * K * K with hγ
  have hγ0 : 0 ≤ γ := by positivity
  set ρ := min (ε / (2 * K)) (1 / (2 * (β * γ + 1))) with hρ
  have hρ0 : 0 < ρ := by positivity
  have hin : ∀ x, ‖ι (x - x')‖ ≤ ρ → x ∈ t := fun x hx => by
    refine hball ?_
    rw [Metric.mem_ball, dist_eq_norm]
    have h1 : ρ ≤ ε / (2 * K) := min_le_left _ _
    have h2 := hι1 (x - x')
    have h3 : (K:ℝ) * ‖ι (x - x')‖ ≤ K * (ε / (2 * K)) := by gcongr; exact hx.trans h1
    have h4 : (K:ℝ) * (ε / (2 * K)) = ε / 2 := by field_simp
    linarith
  refine ⟨β, C * ‖A‖ * K, γ, ρ, hρ0, hroot, fun x _ => hJ x, fun v => ?_, fun v => ?_, fun x y v hx hy => ?_, hβ0, by positivity, hγ0, ?_⟩
  · calc ‖ι v‖ ≤ C * ‖B (J x' *ᵥ v)‖ := by rw [hBv]; exact hι2 v
      _ ≤ C * (‖B‖ * (K * ‖ι (J x' *ᵥ v)‖)) := by
          gcongr
          exact (B.le_opNorm _).trans (by gcongr; exact hι1 _)
      _ = C * ‖B‖ * K * ‖ι (J x' *ᵥ v)‖ := by ring
      _ ≤ β * ‖ι (J x' *ᵥ v)‖ := by gcongr; rw [hβ]; linarith
  · calc ‖ι (J x' *ᵥ v)‖ ≤ C * ‖A v‖ := by rw [hAv]; exact hι2 _
      _ ≤ C * (‖A‖ * (K * ‖ι v‖)) := by
          gcongr
          exact (A.le_opNorm _).trans (by gcongr; exact hι1 _)
      _ = _ := by ring
  · have h1 : J x *ᵥ v - J y *ᵥ v = (fderiv ℝ r x - fderiv ℝ r y) v := by rw [hfd, hfd]; simp
    have h2 : ‖fderiv ℝ r x - fderiv ℝ r y‖ ≤ G * ‖x - y‖ := by
      have := hG.dist_le_mul x (hin x hx) y (hin y hy)
      rwa [dist_eq_norm, dist_eq_norm] at this
    calc ‖ι (J x *ᵥ v - J y *ᵥ v)‖ ≤ C * ‖(fderiv ℝ r x - fderiv ℝ r y) v‖ := by rw [h1]; exact hι2 _
      _ ≤ C * ((G * (K * ‖ι (x - y)‖)) * (K * ‖ι v‖)) := by
          gcongr
          exact (ContinuousLinearMap.le_opNorm _ _).trans (mul_le_mul (h2.trans (by gcongr; exact hι1 _)) (hι1 v) (norm_nonneg _) (by positivity))
      _ = _ := by rw [hγ]; ring
  · have h1 : ρ ≤ 1 / (2 * (β * γ + 1)) := min_le_right _ _
    have h2 : 0 ≤ β * γ := by positivity
    calc β * γ * ρ ≤ β * γ * (1 / (2 * (β * γ + 1))) := by gcongr
      _ ≤ 1 / 2 := by
          rw [mul_one_div, div_le_div_iff₀ (by positivity) (by norm_num)]
          linarith

/-- **C78, local convergence.** For every root with regular Jacobian of a twice continuously differentiable system there are a distance `δ` and a constant `C` so that, for every positive tolerance, all four criteria
    and every solver object with a linear solver that is exact on regular systems: from every initial guess within `δ` (for the relative criteria: other than the root itself) `solve` returns normally, without writing
    the termination file, with an error of at most `C * tol`, provided that the iteration limit exceeds a number that depends on the tolerance only. -/
theorem C78_local_convergence (ι : (n → ℝ) →ₗ[ℝ] E) (hι : Function.Injective ι) (r : (n → ℝ) → n → ℝ) (J : (n → ℝ) → Matrix n n ℝ) (hr : ContDiff ℝ 2 r) (hJ : ∀ x, IsJacobian r J x)
    (x' : n → ℝ) (hroot : r x' = 0) (hdet : (J x').det ≠ 0) :
    ∃ δ C : ℝ, 0 < δ ∧ ∀ tol : ℝ, 0 < tol → ∃ k : Nat, ∀ (env : Env ℝ n n p L) (cfg : Cfg ℝ) (sol : Matrix n n ℝ → (n → ℝ) → n → ℝ) (tick : L → L) (s : Reg ℝ n n p L),
      (∀ v, env.normM v = ‖ι v‖) → (∀ v, env.normN v = ‖ι v‖) → (∀ A b c l, env.linJ A b (c, l) = .ok () (sol A b, tick l)) → (∀ A b, IsUnit A.det → A *ᵥ sol A b = b) →
      rootCriterion cfg.stop = true → cfg.update = .Standard → cfg.tol = tol → (k : Int) < cfg.maxIters → cfg.maxIters < int32Max → NewtonObj s →
      ‖ι (s.x - x')‖ ≤ δ → (isRelative cfg.stop = true → s.x ≠ x') →
      let res := runNewton env cfg (Sys.ofFun r J) s
      res.stop? = none ∧ res.state.files = s.files ∧ ‖ι (res.state.x - x')‖ ≤ C * tol ∧ res.state.log.length ≤ s.log.length + k + 1 := by
  obtain ⟨β, Λ, γ, ρ, hρ, H⟩ := C78_smooth_roots_are_regular ι hι r J hr hJ x' hroot hdet
  have hβ := H.β0
  have hΛ := H.Λ0
  refine ⟨ρ, 2 + 3 * ρ + 4 / 3 * β + 5 / 3 * Λ * β * ρ, hρ, fun tol htol => ?_⟩
  set D := 3 / 2 * ρ + 3 + 5 / 4 * Λ * ρ + 5 / 3 * Λ * β with hD
  have hD0 : 0 < D := by positivity
  obtain ⟨i, hi⟩ := exists_pow_lt_of_lt_one (show 0 < tol / D by positivity) (show (1 / 2 : ℝ) < 1 by norm_num)
  have hq : D * (1 / 2 : ℝ) ^ (2 ^ i - 1) < tol := by
    have h1 : i ≤ 2 ^ i - 1 := by have := Nat.lt_two_pow_self (n := i); omega
    have h2 : (1 / 2 : ℝ) ^ (2 ^ i - 1) ≤ (1 / 2) ^ i := pow_le_pow_of_le_one (by norm_num) (by norm_num) h1
    calc D * (1 / 2 : ℝ) ^ (2 ^ i - 1) ≤ D * (1 / 2) ^ i := by gcongr
      _ < D * (tol / D) := by gcongr
      _ = tol := by field_simp
  refine ⟨i, fun env cfg sol tick s hM hN hlin hsol hcrit hupd ht hk hmax hs hstart hrel => ?_⟩
  subst ht
  set q := (1 / 2 : ℝ) ^ (2 ^ i - 1) with hqd
  have hq0 : 0 ≤ q := by positivity
  have p1 : 0 ≤ 3 / 2 * ρ * q := by positivity
  have p2 : 0 ≤ 5 / 4 * Λ * ρ * q := by positivity
  have p3 : 0 ≤ 5 / 3 * Λ * β * q := by positivity
  have hreach : Reached cfg.stop cfg.tol β Λ ρ q := by
    rcases hc : cfg.stop <;> rw [hc] at hcrit <;> simp only [rootCriterion, Bool.false_eq_true] at hcrit <;> simp only [Reached] <;> rw [hD] at hq <;> nlinarith
  obtain ⟨g1, g2, g3, it, j, -, -, -, hj, -, hlog⟩ := C78_newton_converges ι hι env hM hN cfg r J sol tick hlin hsol hcrit hupd hmax s hs x' β Λ γ ρ H hstart hrel i hk hreach
  refine ⟨g1, g2, g3.trans ?_, by rw [hlog]; simp; omega⟩
  have e0 := norm_nonneg (ι (s.x - x'))
  have p4 : 0 ≤ 3 * ρ * cfg.tol := by positivity
  have p5 : 0 ≤ 4 / 3 * β * cfg.tol := by positivity
  have p6 : 0 ≤ 5 / 3 * Λ * β * ρ * cfg.tol := by positivity
  rcases hc : cfg.stop <;> rw [hc] at hcrit <;> simp only [rootCriterion, Bool.false_eq_true] at hcrit <;> simp only [errorBound]
  · nlinarith
  · have : 3 * cfg.tol * ‖ι (s.x - x')‖ ≤ 3 * cfg.tol * ρ := by gcongr
    nlinarith
  · nlinarith
  · have : 5 / 3 * Λ * β * cfg.tol * ‖ι (s.x - x')‖ ≤ 5 / 3 * Λ * β * cfg.tol * ρ := by gcongr
    nlinarith

/-! ### A concrete case: the square root of 2 -/
section Examples

noncomputable def sqRes (x : Unit → ℝ) : Unit → ℝ := fun _ => x () ^ 2 - 2
noncomputable def sqJac (x : Unit → ℝ) : Matrix Unit Unit ℝ := Matrix.of fun _ _ => 2 * x ()

theorem sq_isJacobian (x : Unit → ℝ) : IsJacobian sqRes sqJac x := by
  unfold IsJacobian
  rw [hasFDerivAt_pi']
  intro i
  have h1 : HasFDerivAt (fun x : Unit → ℝ => x ()) (ContinuousLinearMap.proj (R := ℝ) (φ := fun _ : Unit => ℝ) ()) x :=
    (ContinuousLinearMap.proj (R := ℝ) (φ := fun _ : Unit => ℝ) ()).hasFDerivAt
  have h2 := HasDerivAt.comp_hasFDerivAt (h₂ := fun y : ℝ => y ^ 2) x (hasDerivAt_pow 2 (x ())) h1
  refine (h2.sub_const 2).congr_fderiv ?_
  ext v
  simp [sqJac, Matrix.mulVec, dotProduct]

/-- from 3/2, with the default tolerance 1e-6 and the default criterion: at most 6 evaluations -/
example : let res := runNewton envR (⟨100, .WhenAbsolutel2NormOfCorrectionBelowTolerance, 1 / 10 ^ 6, .Standard, none⟩ : Cfg ℝ) (Sys.ofFun sqRes sqJac) { regR with x := fun _ => 3 / 2 }
    res.stop? = none ∧ |res.state.x () - Real.sqrt 2| ≤ 2 / 10 ^ 6 ∧ res.state.log.length ≤ 6 := by
  have h2 : Real.sqrt 2 ^ 2 = 2 := Real.sq_sqrt (by norm_num)
  have h0 := Real.sqrt_nonneg 2
  have hlo : (1.41 : ℝ) ≤ Real.sqrt 2 := Real.le_sqrt_of_sq_le (by norm_num)
  have hhi : Real.sqrt 2 ≤ 1.42 := Real.sqrt_le_iff.2 (by norm_num)
  have H : RegularRoot (E := ℝ) (LinearMap.proj ()) sqRes sqJac (fun _ => Real.sqrt 2) (1 / 2) 3 2 (1 / 2) := by
    refine ⟨?_, fun x _ => sq_isJacobian x, fun v => ?_, fun v => ?_, fun x y v _ _ => ?_, by norm_num, by norm_num, by norm_num, by norm_num⟩
    · funext u; simp [sqRes]
    · simp [sqJac, Matrix.mulVec, dotProduct, abs_of_nonneg h0]
      nlinarith [abs_nonneg (v ())]
    · simp [sqJac, Matrix.mulVec, dotProduct, abs_of_nonneg h0]
      nlinarith [abs_nonneg (v ())]
    · simp [sqJac, Matrix.mulVec, dotProduct]
      rw [show 2 * x () * v () - 2 * y () * v () = 2 * ((x () - y ()) * v ()) by ring, abs_mul, abs_mul]
      norm_num
      linarith
  have := C78_newton_converges (E := ℝ) (LinearMap.proj ()) (fun v w h => by funext u; exact h) envR (fun v => by simp [envR]) (fun v => by simp [envR]) ⟨100, .WhenAbsolutel2NormOfCorrectionBelowTolerance, 1 / 10 ^ 6, .Standard, none⟩
    sqRes sqJac (fun A b _ => b () / A () ()) id (fun _ _ _ _ => rfl) (fun A b hA => by
      funext u
      have : A () () ≠ 0 := by simpa [isUnit_iff_ne_zero] using hA
      simp [Matrix.mulVec, dotProduct]
      field_simp) rfl rfl (by simp [int32Max]) { regR with x := fun _ => 3 / 2 } (.created _ rfl) _ _ _ _ _ H (by
      simp
      rw [abs_le]; constructor <;> norm_num at * <;> linarith) (by simp [isRelative]) 5 (by norm_num) (by norm_num [Reached])
  obtain ⟨g1, -, g3, it, j, -, -, -, hj, -, hlog⟩ := this
  refine ⟨g1, ?_, ?_⟩
  · refine le_trans (by simpa using g3) ?_
    norm_num [errorBound]
  · rw [hlog]; simp [regR]; omega

/-- the root `√2` of `x² - 2` is regular because the residual is smooth and its derivative there is not zero -/
example := C78_smooth_roots_are_regular (LinearMap.id : (Unit → ℝ) →ₗ[ℝ] (Unit → ℝ)) (fun _ _ h => h) sqRes sqJac (by unfold sqRes; fun_prop) sq_isJacobian (fun _ => Real.sqrt 2)
  (by funext u; simp [sqRes]) (by simp [sqJac, Matrix.det_unique])


end Examples

end Pressio.Props
