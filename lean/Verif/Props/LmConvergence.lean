import Verif.Lemmas.LmConvergence
import Verif.Props.GaussNewtonConvergence

/-
  C88: Levenberg-Marquardt finds a stationary point from every initial guess.  `Smooth`, `LmBounds`, `enoughDamping`, `asked` and `Finds` are in `Spec/LmConvergence.lean`.
-/
namespace Pressio.Props
set_option autoImplicit false
set_option linter.unusedSectionVars false
open Pressio Matrix
open Pressio.Model.Nonlinear (Env Cfg Reg StopCrit Update Ans Tag fdiv)
open Pressio.Spec.Nonlinear Pressio.Spec.NewtonConvergence Pressio.Spec.GaussNewtonConvergence Pressio.Spec.LevenbergMarquardt Pressio.Spec.LmConvergence Pressio.Lemmas.GaussNewtonConvergence Pressio.Lemmas.LmConvergence
open Pressio.Lemmas.Nonlinear
open Pressio.Spec.Reduced (eu)

variable {m n p L : Type} [Fintype m] [Fintype n] [DecidableEq n] [Fintype p]

/-- the criteria on the gradient, in terms of `asked` -/
theorem gradient_met (cfg : Cfg ℝ) (hstop : onGradient cfg.stop = true) (ref now : Norms ℝ) (hrel : relative cfg.stop = true → 0 < ref.grad) (k : Nat) : lsMet cfg ref now k = true ↔ now.grad < asked cfg.stop cfg.tol ref.grad := by
  unfold lsMet
  cases hs : cfg.stop <;> rw [hs] at hstop hrel <;> simp only [onGradient, Bool.false_eq_true] at hstop
  · simp [asked, below]
  · have h0 := hrel rfl
    simp only [below, asked, fdiv, if_neg h0.ne', Model.Nonlinear.Quot'.lt, decide_eq_true_eq]
    simp [div_lt_iff₀ h0]

/-- schedule 2 does not use the growth factor -/
theorem points_of_growth (sched : Schedule) (f : (n → ℝ) → ℝ) (r : (n → ℝ) → m → ℝ) (J : (n → ℝ) → Matrix m n ℝ) (sol : Matrix n n ℝ → (n → ℝ) → n → ℝ) (x0 : n → ℝ) (nu nu' : ℝ) (k : Nat) :
    ((lmNext sched f r J sol)^[k] (x0, 1, sched.growth nu)).1 = ((lmNext sched f r J sol)^[k] (x0, 1, sched.growth nu')).1 := by
  cases sched with
  | one => rfl
  | two =>
    suffices h : ((lmNext .two f r J sol)^[k] (x0, 1, nu)).1 = ((lmNext .two f r J sol)^[k] (x0, 1, nu')).1 ∧ ((lmNext .two f r J sol)^[k] (x0, 1, nu)).2.1 = ((lmNext .two f r J sol)^[k] (x0, 1, nu')).2.1 from h.1
    induction k with
    | zero => exact ⟨rfl, rfl⟩
    | succ k ih =>
      rw [Function.iterate_succ_apply', Function.iterate_succ_apply']
      simp only [lmNext, lm2, ih.1, ih.2, and_self]

/-- The core: with the bounds `LmBounds` on the points that are not stationary enough, both schedules find a point that is, schedule 2 if the damping that is needed does not exceed its largest. -/
theorem finds_of_bounds (sched : Schedule) (stop : StopCrit) (hstop : onGradient stop = true) (tol : ℝ) (r : (n → ℝ) → m → ℝ) (J : (n → ℝ) → Matrix m n ℝ) (sol : Matrix n n ℝ → (n → ℝ) → n → ℝ)
    (hsol : ∀ A b, A.PosDef → A *ᵥ sol A b = b) (x0 : n → ℝ) (hrel : relative stop = true → gradAt r J x0 ≠ 0) (R h δ Λ ρ : ℝ)
    (H : LmBounds r J {x | x ∈ level r x0 ∧ asked stop tol ‖eu n (gradAt r J x0)‖ ≤ ‖eu n (gradAt r J x)‖} (asked stop tol ‖eu n (gradAt r J x0)‖) R h δ Λ ρ)
    (hcap : sched = .two → enoughDamping R h δ Λ ρ ≤ 10 ^ 7) :
    ∃ N : Nat, ∀ (env : Env ℝ m n p L) (cfg : Cfg ℝ) (tick : L → L) (s : Reg ℝ m n p L), (∀ v, env.normM v = ‖eu m v‖) → (∀ v, env.normN v = ‖eu n v‖) →
      (∀ A b c l, env.lin A b (c, l) = .ok () (sol A b, tick l)) → cfg.update = sched.update → cfg.stop = stop → cfg.tol = tol → (N : Int) < cfg.maxIters → cfg.maxIters < int32Max →
      LsObj s → s.x = x0 → Finds cfg r J N s (runLs env cfg (Sys.ofFun r J) .lm s) := by
  classical
  obtain ⟨nu0, hnu0⟩ : ∃ nu0 : ℝ, nu0 = sched.growth 0 := ⟨_, rfl⟩
  have hnu : sched = .one → nu0 = 2 := fun h => by rw [hnu0, h]; rfl
  have hex := H.reaches sol hsol sched x0 nu0 hnu (fun x h1 h2 => ⟨h1, h2⟩) hcap
  refine ⟨Nat.find hex, fun env cfg tick s hM hN hlin hupd hst htol hN1 hmax hs hx => ?_⟩
  subst hst htol hx
  have hinv := H.invariant sol hsol sched s.x nu0 hnu (fun x h1 h2 => ⟨h1, h2⟩) (Nat.find hex) (fun j hj => not_lt.1 (Nat.find_min hex hj))
  have hfind := Nat.find_spec hex
  have hmin := fun j (hj : j < Nat.find hex) => Nat.find_min hex hj
  generalize Nat.find hex = N at hinv hfind hmin hN1
  have key := C36_lm_iterates env cfg sched r J sol tick hlin hupd hmax s hs
  have hpts := points_of_growth sched (fun x => ‖eu m (r x)‖ ^ 2 / 2) r J sol s.x s.nu 0
  rw [← hnu0] at hpts
  simp only [hM, hN] at key
  obtain ⟨k1, k2, k3, -⟩ := key
  have hmet := fun j : Nat => gradient_met cfg hstop
    ⟨‖eu m (r s.x)‖, ‖eu n (lmCorr r J sol s.x 1)‖, ‖eu n ((J s.x)ᵀ *ᵥ r s.x)‖, ‖eu m (r s.x)‖ ^ 2 / 2⟩
    ((fun z : (n → ℝ) × ℝ × ℝ => (⟨‖eu m (r z.1)‖, ‖eu n (lmCorr r J sol z.1 z.2.1)‖, ‖eu n ((J z.1)ᵀ *ᵥ r z.1)‖, ‖eu m (r z.1)‖ ^ 2 / 2⟩ : Norms ℝ)) ((lmNext sched (fun x => ‖eu m (r x)‖ ^ 2 / 2) r J sol)^[j] (s.x, 1, sched.growth s.nu)))
    (fun hr => norm_pos_iff.2 (fun h0 => hrel hr (eu_inj (by rw [map_zero]; exact h0)))) j
  obtain ⟨c1, -, c3⟩ := k3 N hN1 ((hmet N).2 (by beta_reduce; rw [hpts]; exact hfind)) (fun j hj hm => hmin j hj (by rw [← hpts]; exact (hmet j).1 hm))
  have hxN := congrArg Prod.fst c1
  simp only [hpts] at hxN
  refine ⟨k1, k2, ?_, ?_, ?_⟩
  · rw [hxN]; exact hfind
  · rw [hxN]; exact hinv.1
  · rw [c3]
    simp [List.length_flatMap]
    omega

/-- **C88, schedule 1.**  On a smooth least-squares problem the first schedule of Levenberg-Marquardt brings the gradient below every positive bound, absolute or relative to the initial one, from every initial guess: there is a number
    `N` of updates that suffices whatever norms, workspace contents and history the solver object has. -/
theorem C88_schedule1_finds (stop : StopCrit) (hstop : onGradient stop = true) (tol : ℝ) (htol : 0 < tol) (r : (n → ℝ) → m → ℝ) (J : (n → ℝ) → Matrix m n ℝ) (x0 : n → ℝ) (hr : Smooth r J x0)
    (hrel : relative stop = true → gradAt r J x0 ≠ 0) (sol : Matrix n n ℝ → (n → ℝ) → n → ℝ) (hsol : ∀ A b, A.PosDef → A *ᵥ sol A b = b) :
    ∃ N : Nat, ∀ (env : Env ℝ m n p L) (cfg : Cfg ℝ) (tick : L → L) (s : Reg ℝ m n p L), (∀ v, env.normM v = ‖eu m v‖) → (∀ v, env.normN v = ‖eu n v‖) →
      (∀ A b c l, env.lin A b (c, l) = .ok () (sol A b, tick l)) → cfg.update = .LMSchedule1 → cfg.stop = stop → cfg.tol = tol → (N : Int) < cfg.maxIters → cfg.maxIters < int32Max →
      LsObj s → s.x = x0 → Finds cfg r J N s (runLs env cfg (Sys.ofFun r J) .lm s) := by
  have hε : 0 < asked stop tol ‖eu n (gradAt r J x0)‖ := by
    unfold asked
    split_ifs with h
    · exact mul_pos htol (norm_pos_iff.2 (fun h0 => hrel (by rw [h]; rfl) (eu_inj (by rw [map_zero]; exact h0))))
    · exact htol
  obtain ⟨R, h, δ, Λ, ρ, H⟩ := smooth_bounds r J x0 hr _ hε
  obtain ⟨N, hN⟩ := finds_of_bounds (p := p) (L := L) .one stop hstop tol r J sol hsol x0 hrel R h δ Λ ρ H (fun h => by cases h)
  exact ⟨N, hN⟩

/-- **C88, minimiser.**  When the level set of the initial guess has only one stationary point, the first schedule comes as close to it as one likes: for every distance `η` every small enough tolerance of the absolute criterion
    suffices. -/
theorem C88_schedule1_reaches_minimiser (r : (n → ℝ) → m → ℝ) (J : (n → ℝ) → Matrix m n ℝ) (x0 x' : n → ℝ) (hr : Smooth r J x0) (honly : ∀ x ∈ level r x0, gradAt r J x = 0 → x = x')
    (sol : Matrix n n ℝ → (n → ℝ) → n → ℝ) (hsol : ∀ A b, A.PosDef → A *ᵥ sol A b = b) (η : ℝ) (hη : 0 < η) :
    ∃ t : ℝ, 0 < t ∧ ∀ tol : ℝ, 0 < tol → tol ≤ t → ∃ N : Nat, ∀ (env : Env ℝ m n p L) (cfg : Cfg ℝ) (tick : L → L) (s : Reg ℝ m n p L), (∀ v, env.normM v = ‖eu m v‖) → (∀ v, env.normN v = ‖eu n v‖) →
      (∀ A b c l, env.lin A b (c, l) = .ok () (sol A b, tick l)) → cfg.update = .LMSchedule1 → cfg.stop = .WhenAbsolutel2NormOfGradientBelowTolerance → cfg.tol = tol → (N : Int) < cfg.maxIters → cfg.maxIters < int32Max →
      LsObj s → s.x = x0 → (runLs env cfg (Sys.ofFun r J) .lm s).stop? = none ∧ ‖eu n ((runLs env cfg (Sys.ofFun r J) .lm s).state.x - x')‖ < η := by
  obtain ⟨t, ht, hclose⟩ := smooth_isolates r J x0 x' hr honly η hη
  refine ⟨t, ht, fun tol h0 h1 => ?_⟩
  obtain ⟨N, hN⟩ := C88_schedule1_finds (p := p) (L := L) .WhenAbsolutel2NormOfGradientBelowTolerance rfl tol h0 r J x0 hr (fun h => by cases h) sol hsol
  refine ⟨N, fun env cfg tick s h1' h2 h3 h4 h5 h6 h7 h8 h9 h10 => ?_⟩
  obtain ⟨f1, -, f3, f4, -⟩ := hN env cfg tick s h1' h2 h3 h4 h5 h6 h7 h8 h9 h10
  refine ⟨f1, hclose _ (by rw [← h10]; exact f4) ?_⟩
  rw [h5, h6, asked, if_neg (by simp)] at f3
  linarith

/-- **C88, schedule 2 (partial).**  The second schedule never damps by more than `10^7`.  It finds a stationary point like the first one when that is enough: `enoughDamping`, from bounds on the problem at the points of the level
    set that are not stationary enough, does not exceed it.  Missing: `C88_schedule2_stuck`. -/
theorem C88_schedule2_finds_partial (stop : StopCrit) (hstop : onGradient stop = true) (tol : ℝ) (r : (n → ℝ) → m → ℝ) (J : (n → ℝ) → Matrix m n ℝ) (x0 : n → ℝ) (R h δ Λ ρ : ℝ)
    (H : LmBounds r J {x | x ∈ level r x0 ∧ asked stop tol ‖eu n (gradAt r J x0)‖ ≤ ‖eu n (gradAt r J x)‖} (asked stop tol ‖eu n (gradAt r J x0)‖) R h δ Λ ρ) (hcap : enoughDamping R h δ Λ ρ ≤ 10 ^ 7)
    (hrel : relative stop = true → gradAt r J x0 ≠ 0) (sol : Matrix n n ℝ → (n → ℝ) → n → ℝ) (hsol : ∀ A b, A.PosDef → A *ᵥ sol A b = b) :
    ∃ N : Nat, ∀ (env : Env ℝ m n p L) (cfg : Cfg ℝ) (tick : L → L) (s : Reg ℝ m n p L), (∀ v, env.normM v = ‖eu m v‖) → (∀ v, env.normN v = ‖eu n v‖) →
      (∀ A b c l, env.lin A b (c, l) = .ok () (sol A b, tick l)) → cfg.update = .LMSchedule2 → cfg.stop = stop → cfg.tol = tol → (N : Int) < cfg.maxIters → cfg.maxIters < int32Max →
      LsObj s → s.x = x0 → Finds cfg r J N s (runLs env cfg (Sys.ofFun r J) .lm s) := by
  obtain ⟨N, hN⟩ := finds_of_bounds (p := p) (L := L) .two stop hstop tol r J sol hsol x0 hrel R h δ Λ ρ H (fun _ => hcap)
  exact ⟨N, hN⟩

/-! ### Examples -/

section Examples

/-- residual `(1 - x, b x²)`, a line and a parabola -/
def steepRes (b : ℝ) (x : Unit → ℝ) : Fin 2 → ℝ := ![1 - x (), b * x () ^ 2]
def steepJac (b : ℝ) (x : Unit → ℝ) : Matrix (Fin 2) Unit ℝ := Matrix.of fun i _ => ![-1, 2 * b * x ()] i

theorem steep_isJacobian (b : ℝ) (x : Unit → ℝ) : IsJacobian (steepRes b) (steepJac b) x := by
  refine comp2_isJacobian (fun t => 1 - t) (fun t => b * t ^ 2) (fun _ => -1) (fun t => 2 * b * t) (fun t => ?_) (fun t => ?_) x
  · exact (hasDerivAt_id t).const_sub 1
  · refine ((hasDerivAt_pow 2 t).const_mul b).congr_deriv ?_
    simp; ring

theorem steep_mulVec (b : ℝ) (x v : Unit → ℝ) : steepJac b x *ᵥ v = ![-v (), 2 * b * x () * v ()] := by
  funext i; fin_cases i <;> simp [steepJac, Matrix.mulVec, dotProduct]

theorem steep_grad (b : ℝ) (x : Unit → ℝ) : gradAt (steepRes b) (steepJac b) x = fun _ => x () - 1 + 2 * b ^ 2 * x () ^ 3 := by
  funext u
  simp [gradAt, steepRes, steepJac, Matrix.mulVec, dotProduct, Fin.sum_univ_two]
  ring

theorem steep_diag (b : ℝ) (x : Unit → ℝ) (i : Unit) : ((steepJac b x)ᵀ * steepJac b x) i i = 1 + 4 * b ^ 2 * x () ^ 2 := by
  simp [steepJac, Matrix.mul_apply, Fin.sum_univ_two]
  ring

theorem steep_smooth (b : ℝ) : Smooth (steepRes b) (steepJac b) 0 := by
  refine ⟨?_, steep_isJacobian b, ⟨2, fun x hx => ?_⟩, fun x _ _ j => ⟨0, by simp [steepJac]⟩⟩
  · refine contDiff_pi.2 (fun i => ?_)
    have h0 : ContDiff ℝ 2 (fun x : Unit → ℝ => x ()) := contDiff_apply ℝ ℝ ()
    fin_cases i
    · exact contDiff_const.sub h0
    · exact contDiff_const.mul (h0.pow 2)
  · have h1 : ‖eu (Fin 2) (steepRes b x)‖ ^ 2 ≤ ‖eu (Fin 2) (steepRes b 0)‖ ^ 2 := by
      have : ‖eu (Fin 2) (steepRes b x)‖ ≤ ‖eu (Fin 2) (steepRes b 0)‖ := hx
      gcongr
    rw [steepRes, steepRes, eu_two, eu_two] at h1
    rw [eu_unit, abs_le]
    simp at h1
    constructor <;> nlinarith [sq_nonneg (b * x () ^ 2)]

/-- Schedule 1 from 0 on `(1 - x, 10^11 x²)` -/
example : ∃ N : Nat, ∀ maxIters : Int, N < maxIters → maxIters < int32Max →
    Finds ⟨maxIters, .WhenAbsolutel2NormOfGradientBelowTolerance, 1 / 10 ^ 6, .LMSchedule1, none⟩ (steepRes (10 ^ 11)) (steepJac (10 ^ 11)) N regF
      (runLs envF ⟨maxIters, .WhenAbsolutel2NormOfGradientBelowTolerance, 1 / 10 ^ 6, .LMSchedule1, none⟩ (Sys.ofFun (steepRes (10 ^ 11)) (steepJac (10 ^ 11))) .lm regF) := by
  obtain ⟨N, hN⟩ := C88_schedule1_finds (p := Unit) (L := Unit) .WhenAbsolutel2NormOfGradientBelowTolerance rfl (1 / 10 ^ 6) (by norm_num) (steepRes (10 ^ 11)) (steepJac (10 ^ 11)) 0 (steep_smooth _) (fun h => by cases h)
    (fun A b _ => b () / A () ()) envF_exact
  exact ⟨N, fun maxIters h1 h2 => hN envF _ id regF (fun _ => rfl) (fun _ => rfl) (fun _ _ _ _ => rfl) rfl rfl rfl h1 h2 (.created _ rfl) rfl⟩

/-- the problem on which Gauss-Newton cycles (`C86_large_residual_cycles`): schedule 1 comes close to the minimum from the same guess -/
example (η : ℝ) (hη : 0 < η) : ∃ (tol : ℝ) (N : Nat), 0 < tol ∧ ∀ maxIters : Int, N < maxIters → maxIters < int32Max →
    |(runLs envF ⟨maxIters, .WhenAbsolutel2NormOfGradientBelowTolerance, tol, .LMSchedule1, none⟩ (Sys.ofFun (bowlRes (5 / 4)) (bowlJac (5 / 4))) .lm { regF with x := fun _ => 2 / 5 }).state.x ()| < η := by
  have hs : Smooth (bowlRes (5 / 4)) (bowlJac (5 / 4)) (fun _ => 2 / 5) := by
    refine ⟨?_, bowl_isJacobian _, ⟨2, fun x hx => ?_⟩, fun x _ _ j => ⟨0, by simp [bowlJac]⟩⟩
    · refine contDiff_pi.2 (fun i => ?_)
      have h0 : ContDiff ℝ 2 (fun x : Unit → ℝ => x ()) := contDiff_apply ℝ ℝ ()
      fin_cases i
      · exact h0
      · exact contDiff_const.add (contDiff_const.mul (h0.pow 2))
    · have h1 : ‖eu (Fin 2) (bowlRes (5 / 4) x)‖ ^ 2 ≤ ‖eu (Fin 2) (bowlRes (5 / 4) fun _ => 2 / 5)‖ ^ 2 := by
        have : ‖eu (Fin 2) (bowlRes (5 / 4) x)‖ ≤ ‖eu (Fin 2) (bowlRes (5 / 4) fun _ => 2 / 5)‖ := hx
        gcongr
      rw [bowlRes, bowlRes, eu_two, eu_two] at h1
      rw [eu_unit, abs_le]
      constructor <;> nlinarith [sq_nonneg (1 + 5 / 4 * x () ^ 2)]
  obtain ⟨t, ht, h⟩ := C88_schedule1_reaches_minimiser (p := Unit) (L := Unit) (bowlRes (5 / 4)) (bowlJac (5 / 4)) (fun _ => 2 / 5) 0 hs (fun x _ hg => by
    have := congrFun hg ()
    simp [gradAt, bowlRes, bowlJac, Matrix.mulVec, dotProduct, Fin.sum_univ_two] at this
    have e : x () * (1 + 2 * (5 / 4) * (1 + 5 / 4 * x () ^ 2)) = 0 := by linarith
    rcases mul_eq_zero.1 e with e | e
    · funext u; exact e
    · nlinarith [sq_nonneg (x ())]) (fun A b _ => b () / A () ()) envF_exact η hη
  obtain ⟨N, hN⟩ := h t ht le_rfl
  refine ⟨t, N, ht, fun maxIters h1 h2 => ?_⟩
  have := (hN envF ⟨maxIters, .WhenAbsolutel2NormOfGradientBelowTolerance, t, .LMSchedule1, none⟩ id { regF with x := fun _ => 2 / 5 } (fun _ => rfl) (fun _ => rfl) (fun _ _ _ _ => rfl) rfl rfl rfl h1 h2 (.created _ rfl) rfl).2
  rwa [sub_zero, eu_unit] at this

/-- Schedule 2 from 0 on `(1 - x, x²)`: damping 9 is enough -/
example : ∃ N : Nat, ∀ maxIters : Int, N < maxIters → maxIters < int32Max →
    Finds ⟨maxIters, .WhenAbsolutel2NormOfGradientBelowTolerance, 1 / 10 ^ 6, .LMSchedule2, none⟩ (steepRes 1) (steepJac 1) N regF
      (runLs envF ⟨maxIters, .WhenAbsolutel2NormOfGradientBelowTolerance, 1 / 10 ^ 6, .LMSchedule2, none⟩ (Sys.ofFun (steepRes 1) (steepJac 1)) .lm regF) := by
  have hR : ‖eu (Fin 2) (steepRes 1 0)‖ = 1 := by
    rw [steepRes]
    exact le_antisymm (eu_two_le _ _ _ (by norm_num) (by norm_num)) (le_eu_two _ _ _ (by norm_num) (by norm_num))
  have hlev : ∀ x ∈ level (steepRes 1) 0, 0 ≤ x () ∧ x () ≤ 1 := fun x hx => by
    have h1 : ‖eu (Fin 2) (steepRes 1 x)‖ ^ 2 ≤ 1 := by
      have h : ‖eu (Fin 2) (steepRes 1 x)‖ ≤ ‖eu (Fin 2) (steepRes 1 0)‖ := hx
      rw [hR] at h
      exact pow_le_one₀ (norm_nonneg _) h
    rw [steepRes, eu_two] at h1
    have h2 : x () * (x () ^ 3 + x () - 2) ≤ 0 := by nlinarith
    constructor
    · nlinarith [sq_nonneg (x () ^ 2)]
    · by_contra h3
      have h3 := not_lt.1 (fun h => h3 (le_of_lt h))
      rcases h3.eq_or_lt with h | h
      · linarith
      · have : 0 < x () ^ 3 + x () - 2 := by nlinarith [sq_nonneg (x ()), mul_pos (sub_pos.2 h) (sub_pos.2 h)]
        nlinarith
  have H : LmBounds (steepRes 1) (steepJac 1) {x | x ∈ level (steepRes 1) 0 ∧ asked .WhenAbsolutel2NormOfGradientBelowTolerance (1 / 10 ^ 6) ‖eu Unit (gradAt (steepRes 1) (steepJac 1) 0)‖ ≤ ‖eu Unit (gradAt (steepRes 1) (steepJac 1) x)‖}
      (asked .WhenAbsolutel2NormOfGradientBelowTolerance (1 / 10 ^ 6) ‖eu Unit (gradAt (steepRes 1) (steepJac 1) 0)‖) 1 3 1 12 1 := by
    refine ⟨by rw [asked, if_neg (by simp)]; norm_num, by norm_num, by norm_num, by norm_num, by norm_num, by norm_num, fun x hx => hx.2, fun x hx => ?_, fun x hx v => ?_, fun x hx i => ?_, fun x hx c hc => ?_⟩
    · exact (show ‖eu (Fin 2) (steepRes 1 x)‖ ≤ ‖eu (Fin 2) (steepRes 1 0)‖ from hx.1).trans hR.le
    · obtain ⟨h0, h1⟩ := hlev x hx.1
      rw [steep_mulVec, eu_unit]
      refine eu_two_le _ _ _ (by positivity) ?_
      rw [mul_pow 3, sq_abs]
      have : x () ^ 2 ≤ 1 := pow_le_one₀ h0 h1
      nlinarith [sq_nonneg (v ())]
    · rw [steep_diag]; nlinarith [sq_nonneg (x ())]
    · obtain ⟨h0, h1⟩ := hlev x hx.1
      have hg := steep_grad 1 x
      rw [gradAt] at hg
      rw [hg, steepRes, steepRes, eu_two, eu_two, eu_unit, sq_abs]
      rw [eu_unit, abs_le] at hc
      simp only [dotProduct, Finset.univ_unique, Finset.sum_singleton, Pi.add_apply, PUnit.default_eq_unit]
      have hx2 : x () ^ 2 ≤ 1 := pow_le_one₀ h0 h1
      have hc2 : c () ^ 2 ≤ 1 := by nlinarith
      have hxc : x () * c () ≤ 1 := by nlinarith
      have e : 6 * x () ^ 2 + 4 * (x () * c ()) + c () ^ 2 ≤ 11 := by linarith
      have := mul_le_mul_of_nonneg_right e (sq_nonneg (c ()))
      nlinarith
  obtain ⟨N, hN⟩ := C88_schedule2_finds_partial (p := Unit) (L := Unit) .WhenAbsolutel2NormOfGradientBelowTolerance rfl (1 / 10 ^ 6) (steepRes 1) (steepJac 1) 0 1 3 1 12 1 H (by norm_num [enoughDamping]) (fun h => by cases h)
    (fun A b _ => b () / A () ()) envF_exact
  exact ⟨N, fun maxIters h1 h2 => hN envF _ id regF (fun _ => rfl) (fun _ => rfl) (fun _ _ _ _ => rfl) rfl rfl rfl h1 h2 (.created _ rfl) rfl⟩

/-- **C88, refuted for schedule 2.**  The largest damping of the second schedule, `10^7`, may be too small.  On the smooth problem `(1 - x, 10^11 x²)` every step from 0 is too long and is rejected: with every iteration limit
    and every tolerance up to 1 on the gradient, `solve` returns normally, without a termination file, at the initial guess, where the norm of the gradient is 1.  (The first schedule finds the stationary point: example above.) -/
theorem C88_schedule2_stuck (maxIters : Int) (hmax : maxIters < int32Max) (tol : ℝ) (htol : tol ≤ 1) :
    Smooth (steepRes (10 ^ 11)) (steepJac (10 ^ 11)) 0 ∧ ‖eu Unit (gradAt (steepRes (10 ^ 11)) (steepJac (10 ^ 11)) 0)‖ = 1 ∧
    let res := runLs envF (⟨maxIters, .WhenAbsolutel2NormOfGradientBelowTolerance, tol, .LMSchedule2, none⟩ : Cfg ℝ) (Sys.ofFun (steepRes (10 ^ 11)) (steepJac (10 ^ 11))) .lm regF
    res.stop? = none ∧ res.state.files = [] ∧ res.state.x = 0 ∧ res.state.log.length = 2 * maxIters.toNat := by
  have hg0 : ‖eu Unit (gradAt (steepRes (10 ^ 11)) (steepJac (10 ^ 11)) 0)‖ = 1 := by rw [steep_grad, eu_unit]; simp
  refine ⟨steep_smooth _, hg0, ?_⟩
  intro res
  have hR : ‖eu (Fin 2) (steepRes (10 ^ 11) 0)‖ = 1 := by
    rw [steepRes]
    exact le_antisymm (eu_two_le _ _ _ (by norm_num) (by norm_num)) (le_eu_two _ _ _ (by norm_num) (by norm_num))
  have H : LmBounds (steepRes (10 ^ 11)) (steepJac (10 ^ 11)) {0} 1 1 1 1 (1 + 10 ^ 22) 1 := by
    refine ⟨by norm_num, by norm_num, by norm_num, by norm_num, by norm_num, by norm_num, fun x hx => ?_, fun x hx => ?_, fun x hx v => ?_, fun x hx i => ?_, fun x hx c hc => ?_⟩ <;> rw [Set.mem_singleton_iff] at hx <;> subst hx
    · exact hg0.ge
    · exact hR.le
    · rw [steep_mulVec, eu_unit]
      exact eu_two_le _ _ _ (by positivity) (by rw [one_mul, sq_abs]; simp)
    · rw [steep_diag]; simp
    · have hg := steep_grad (10 ^ 11) 0
      rw [gradAt] at hg
      rw [hg, steepRes, steepRes, eu_two, eu_two, eu_unit, sq_abs]
      rw [eu_unit, abs_le] at hc
      simp only [dotProduct, Finset.univ_unique, Finset.sum_singleton, Pi.add_apply, PUnit.default_eq_unit, Pi.zero_apply]
      have hc2 : c () ^ 2 ≤ 1 := by nlinarith
      have := mul_le_mul_of_nonneg_right hc2 (sq_nonneg (c ()))
      nlinarith
  set sol : Matrix Unit Unit ℝ → (Unit → ℝ) → Unit → ℝ := fun A b _ => b () / A () () with hsol
  have hcorr : ∀ μ : ℝ, lmCorr (steepRes (10 ^ 11)) (steepJac (10 ^ 11)) sol 0 μ = fun _ => 1 / (1 + μ) := fun μ => by
    funext u
    simp [lmCorr, hsol, Matrix.mulVec, Matrix.mul_apply, dotProduct, Fin.sum_univ_two, steepJac, steepRes]
    rw [neg_div, neg_neg, one_div]
  have hratio : ∀ μ nu : ℝ, 0 < μ → μ ≤ 10 ^ 7 → ratio (steepRes (10 ^ 11)) (steepJac (10 ^ 11)) sol (0, μ, nu) ≤ 0 := fun μ nu h0 h1 => by
    refine div_nonpos_of_nonpos_of_nonneg ?_ (by positivity)
    simp only [hcorr, zero_add]
    rw [hR, steepRes, eu_two]
    obtain ⟨c, hc⟩ : ∃ c : ℝ, 1 / (1 + μ) = c := ⟨_, rfl⟩
    have hlow : 1 / (1 + 10 ^ 7) ≤ c := by rw [← hc]; gcongr
    simp only [hc]
    have h3 : (1 / (1 + 10 ^ 7)) ^ 3 ≤ c ^ 3 := by gcongr
    have h4 : 2 ≤ (10 ^ 11 : ℝ) ^ 2 * c ^ 3 := le_trans (by norm_num) (mul_le_mul_of_nonneg_left h3 (by norm_num))
    have h5 : 0 < c := lt_of_lt_of_le (by norm_num) hlow
    nlinarith [mul_le_mul_of_nonneg_right h4 h5.le]
  obtain ⟨g1, g2, -, g4⟩ := C36_lm_iterates envF ⟨maxIters, .WhenAbsolutel2NormOfGradientBelowTolerance, tol, .LMSchedule2, none⟩ .two (steepRes (10 ^ 11)) (steepJac (10 ^ 11)) sol id (fun _ _ _ _ => rfl) rfl hmax regF (.created _ rfl)
  have hstay : ∀ k : Nat, ∃ μ : ℝ, 0 < μ ∧ μ ≤ 10 ^ 7 ∧ (lmNext .two (fun x => envF.normM (steepRes (10 ^ 11) x) ^ 2 / 2) (steepRes (10 ^ 11)) (steepJac (10 ^ 11)) sol)^[k] (0, 1, 7) = (0, μ, 7) := fun k => by
    induction k with
    | zero => exact ⟨1, one_pos, by norm_num, rfl⟩
    | succ k ih =>
      obtain ⟨μ, h0, h1, h2⟩ := ih
      rw [Function.iterate_succ_apply', h2]
      have hn := H.next2 sol envF_exact (0, μ, 7) rfl h0
      have hq := hratio μ 7 h0 h1
      rw [if_neg (not_lt.2 hq), if_pos (lt_of_le_of_lt hq (by norm_num))] at hn
      exact ⟨min (μ * 2) (10 ^ 7), lt_min (by linarith) (by norm_num), min_le_right _ _, hn⟩
  obtain ⟨e1, -, e3⟩ := g4 (fun k _ hm => by
    obtain ⟨μ, -, -, h2⟩ := hstay k
    have hm := (gradient_met _ rfl _ _ (fun h => by cases h) k).1 hm
    have hz : ((lmNext .two (fun x => envF.normM (steepRes (10 ^ 11) x) ^ 2 / 2) (steepRes (10 ^ 11)) (steepJac (10 ^ 11)) sol)^[k] (regF.x, 1, Schedule.two.growth regF.nu)) = (0, μ, 7) := h2
    beta_reduce at hm
    rw [hz, asked, if_neg (by simp)] at hm
    have : ‖eu Unit (gradAt (steepRes (10 ^ 11)) (steepJac (10 ^ 11)) 0)‖ < tol := hm
    linarith)
  refine ⟨g1, g2, ?_, ?_⟩
  · obtain ⟨μ, -, -, h2⟩ := hstay maxIters.toNat
    exact (congrArg Prod.fst e1).trans (congrArg Prod.fst h2)
  · rw [e3]
    simp [List.length_flatMap, regF]
    omega

end Examples

end Pressio.Props
