import Verif.Lemmas.TaylorRK

/-
  Smooth functions of a finite-dimensional space have Taylor expansions, uniformly on bounded sets.  Lemmas for C74.
-/
namespace Pressio.Lemmas.TaylorOrder
set_option autoImplicit false
set_option linter.unusedSectionVars false
open Pressio.Lemmas.Numerics

variable {Z W : Type} [NormedAddCommGroup Z] [NormedSpace ℝ Z] [NormedAddCommGroup W] [NormedSpace ℝ W]

/-- third order Taylor expansion on `[0, 1]` -/
theorem taylor_third (g g1 g2 g3 : ℝ → W) (M : ℝ) (hg : ∀ s, HasDerivAt g (g1 s) s) (hg1 : ∀ s, HasDerivAt g1 (g2 s) s) (hg2 : ∀ s, HasDerivAt g2 (g3 s) s)
    (hM : ∀ s ∈ Set.Icc (0:ℝ) 1, ‖g3 s - g3 0‖ ≤ M * s) : ‖g 1 - (g 0 + g1 0 + (1/2 : ℝ) • g2 0 + (1/6 : ℝ) • g3 0)‖ ≤ M / 24 := by
  have hd : ∀ s, HasDerivAt (fun x : ℝ => g x - (x ^ 2 / 2) • g2 0 - (x ^ 3 / 6) • g3 0) (g1 s - s • g2 0 - (s ^ 2 / 2) • g3 0) s := by
    intro s
    have h2 : HasDerivAt (fun x : ℝ => x ^ 2 / 2) s s := ((hasDerivAt_pow 2 s).div_const 2).congr_deriv (by simp)
    have h3 : HasDerivAt (fun x : ℝ => x ^ 3 / 6) (s ^ 2 / 2) s := ((hasDerivAt_pow 3 s).div_const 6).congr_deriv (by norm_num; ring)
    exact ((hg s).fun_sub (h2.smul_const (g2 0))).fun_sub (h3.smul_const (g3 0))
  have := increment_le _ _ 0 1 zero_le_one (fun s _ => hd s) (g1 0) (fun x => M * x ^ 4 / 24) (fun x => M * x ^ 3 / 6) (by simp) ?_ ?_
  · have e : g 1 - ((1:ℝ) ^ 2 / 2) • g2 0 - ((1:ℝ) ^ 3 / 6) • g3 0 - (g 0 - ((0:ℝ) ^ 2 / 2) • g2 0 - ((0:ℝ) ^ 3 / 6) • g3 0) - ((1:ℝ) - 0) • g1 0 = g 1 - (g 0 + g1 0 + (1/2 : ℝ) • g2 0 + (1/6 : ℝ) • g3 0) := by
      module
    rw [e] at this
    simpa using this
  · intro x
    exact (((hasDerivAt_pow 4 x).const_mul M).div_const 24).congr_deriv (by norm_num; ring)
  · intro s hs
    have := taylor_second g1 g2 g3 0 s M hs.1 (fun x _ => hg1 x) (fun x _ => hg2 x) (fun x hx => by rw [sub_zero]; exact hM x ⟨hx.1, hx.2.trans hs.2⟩)
    rw [sub_zero] at this
    have e : g1 s - s • g2 0 - (s ^ 2 / 2) • g3 0 - g1 0 = g1 s - g1 0 - s • g2 0 - (s ^ 2 / 2) • g3 0 := by module
    rw [e]
    exact this

/-- derivative along a segment -/
theorem along {G : Z → W} {G1 : Z → Z →L[ℝ] W} (h : ∀ z, HasFDerivAt G (G1 z) z) (z δ : Z) (s : ℝ) : HasDerivAt (fun s : ℝ => G (z + s • δ)) (G1 (z + s • δ) δ) s := by
  have hl : HasDerivAt (fun s : ℝ => z + s • δ) δ s := by
    have := ((hasDerivAt_id s).smul_const δ).const_add z
    simpa using this
  exact (h (z + s • δ)).comp_hasDerivAt s hl

/-- the derivative of a linear map applied to a fixed vector -/
theorem apply_const {c : ℝ → Z →L[ℝ] W} {c' : Z →L[ℝ] W} {s : ℝ} (h : HasDerivAt c c' s) (δ : Z) : HasDerivAt (fun s => c s δ) (c' δ) s :=
  (ContinuousLinearMap.apply ℝ W δ).hasFDerivAt.comp_hasDerivAt s h

/-- boundedness on bounded sets -/
theorem bounded_of_continuous [ProperSpace Z] {G : Z → W} (h : Continuous G) (R : ℝ) : ∃ C, 0 ≤ C ∧ ∀ z, ‖z‖ ≤ R → ‖G z‖ ≤ C := by
  obtain ⟨C, hC⟩ := (isCompact_closedBall (0 : Z) R).exists_bound_of_continuousOn h.continuousOn
  exact ⟨max C 0, le_max_right _ _, fun z hz => (hC z (by simpa using hz)).trans (le_max_left _ _)⟩

theorem segment_norm {R : ℝ} {z δ : Z} (hz : ‖z‖ ≤ R) (hδ : ‖δ‖ ≤ R) {s : ℝ} (hs : s ∈ Set.Icc (0:ℝ) 1) : ‖z + s • δ‖ ≤ 2 * R := by
  refine (norm_add_le _ _).trans ?_
  rw [norm_smul, Real.norm_of_nonneg hs.1]
  have := mul_le_of_le_one_left (norm_nonneg δ) hs.2
  linarith

/-- Lipschitz along segments of bounded sets -/
theorem lipschitz_segment [ProperSpace Z] {G : Z → W} {G1 : Z → Z →L[ℝ] W} (h : ∀ z, HasFDerivAt G (G1 z) z) (hc : Continuous G1) (R : ℝ) :
    ∃ M, 0 ≤ M ∧ ∀ z δ, ‖z‖ ≤ R → ‖δ‖ ≤ R → ∀ s ∈ Set.Icc (0:ℝ) 1, ‖G (z + s • δ) - G z‖ ≤ M * ‖δ‖ * s := by
  obtain ⟨M, hM0, hM⟩ := bounded_of_continuous hc (2 * R)
  refine ⟨M, hM0, fun z δ hz hδ s hs => ?_⟩
  have := increment_le _ _ 0 s hs.1 (fun x _ => along h z δ x) 0 (fun x => M * ‖δ‖ * x) (fun _ => M * ‖δ‖) (by simp) (fun x => ((hasDerivAt_id x).const_mul (M * ‖δ‖)).congr_deriv (by simp)) ?_
  · simpa using this
  · intro x hx
    rw [sub_zero]
    exact ((G1 (z + x • δ)).le_opNorm δ).trans (mul_le_mul_of_nonneg_right (hM _ (segment_norm hz hδ ⟨hx.1, hx.2.trans hs.2⟩)) (norm_nonneg δ))

variable {F : Z → Z}

/-- the derivatives of a smooth function -/
theorem smooth_deriv {n : Nat} {G : Z → W} (h : ContDiff ℝ (n + 1 : Nat) G) : (∀ z, HasFDerivAt G (fderiv ℝ G z) z) ∧ ContDiff ℝ n (fderiv ℝ G) := by
  refine ⟨fun z => (h.differentiable (by exact_mod_cast Nat.succ_ne_zero n) z).hasFDerivAt, h.fderiv_right (by exact_mod_cast le_rfl)⟩

/-- three times continuously differentiable functions have second order expansions with cubic remainder -/
theorem taylor2_of_contDiff [ProperSpace Z] (h : ContDiff ℝ 3 F) : Taylor2 F (fderiv ℝ F) (fderiv ℝ (fderiv ℝ F)) := by
  intro R
  obtain ⟨d1, c1⟩ := smooth_deriv (n := 2) (G := F) (by exact_mod_cast h)
  obtain ⟨d2, c2⟩ := smooth_deriv (n := 1) c1
  obtain ⟨d3, c3⟩ := smooth_deriv (n := 0) c2
  obtain ⟨A0, p0, h0⟩ := bounded_of_continuous h.continuous R
  obtain ⟨A1, p1, h1⟩ := bounded_of_continuous c1.continuous R
  obtain ⟨A2, p2, h2⟩ := bounded_of_continuous c2.continuous R
  obtain ⟨M, pM, hM⟩ := lipschitz_segment d3 c3.continuous R
  refine ⟨A0 + A1 + A2 + M, by positivity, fun z hz => ⟨(h0 z hz).trans (by linarith), (h1 z hz).trans (by linarith), (h2 z hz).trans (by linarith), fun δ hδ => ?_⟩⟩
  have := taylor_second (fun s : ℝ => F (z + s • δ)) (fun s => fderiv ℝ F (z + s • δ) δ) (fun s => fderiv ℝ (fderiv ℝ F) (z + s • δ) δ δ) 0 1 (M * ‖δ‖ ^ 3) zero_le_one
    (fun s _ => along d1 z δ s) (fun s _ => apply_const (along d2 z δ s) δ) ?_
  · have e : F (z + (1:ℝ) • δ) - F (z + (0:ℝ) • δ) - ((1:ℝ) - 0) • fderiv ℝ F (z + (0:ℝ) • δ) δ - (((1:ℝ) - 0) ^ 2 / 2) • fderiv ℝ (fderiv ℝ F) (z + (0:ℝ) • δ) δ δ =
        F (z + δ) - (F z + fderiv ℝ F z δ + (1/2 : ℝ) • fderiv ℝ (fderiv ℝ F) z δ δ) := by
      simp only [zero_smul, add_zero, one_smul]
      module
    rw [e] at this
    refine this.trans ?_
    have q := norm_nonneg δ
    have q3 : 0 ≤ M * ‖δ‖ ^ 3 := by positivity
    have q4 : 0 ≤ (A0 + A1 + A2) * ‖δ‖ ^ 3 := by positivity
    nlinarith
  · intro s hs
    have l := hM z δ hz hδ s hs
    simp only [zero_smul, add_zero, sub_zero]
    have e : fderiv ℝ (fderiv ℝ F) (z + s • δ) δ δ - fderiv ℝ (fderiv ℝ F) z δ δ = (fderiv ℝ (fderiv ℝ F) (z + s • δ) - fderiv ℝ (fderiv ℝ F) z) δ δ := by simp
    rw [e]
    refine (ContinuousLinearMap.le_opNorm₂ _ δ δ).trans ?_
    have := mul_le_mul_of_nonneg_right (mul_le_mul_of_nonneg_right l (norm_nonneg δ)) (norm_nonneg δ)
    refine this.trans (le_of_eq (by ring))

/-- four times continuously differentiable functions have third order expansions with quartic remainder -/
theorem taylor3_of_contDiff [ProperSpace Z] (h : ContDiff ℝ 4 F) : Taylor3 F (fderiv ℝ F) (fderiv ℝ (fderiv ℝ F)) (fderiv ℝ (fderiv ℝ (fderiv ℝ F))) := by
  intro R
  obtain ⟨d1, c1⟩ := smooth_deriv (n := 3) (G := F) (by exact_mod_cast h)
  obtain ⟨d2, c2⟩ := smooth_deriv (n := 2) c1
  obtain ⟨d3, c3⟩ := smooth_deriv (n := 1) c2
  obtain ⟨d4, c4⟩ := smooth_deriv (n := 0) c3
  obtain ⟨A0, p0, h0⟩ := bounded_of_continuous h.continuous R
  obtain ⟨A1, p1, h1⟩ := bounded_of_continuous c1.continuous R
  obtain ⟨A2, p2, h2⟩ := bounded_of_continuous c2.continuous R
  obtain ⟨A3, p3, h3⟩ := bounded_of_continuous c3.continuous R
  obtain ⟨M, pM, hM⟩ := lipschitz_segment d4 c4.continuous R
  refine ⟨A0 + A1 + A2 + A3 + M, by positivity, fun z hz => ⟨(h0 z hz).trans (by linarith), (h1 z hz).trans (by linarith), (h2 z hz).trans (by linarith), (h3 z hz).trans (by linarith), fun δ hδ => ?_⟩⟩
  have := taylor_third (fun s : ℝ => F (z + s • δ)) (fun s => fderiv ℝ F (z + s • δ) δ) (fun s => fderiv ℝ (fderiv ℝ F) (z + s • δ) δ δ) (fun s => fderiv ℝ (fderiv ℝ (fderiv ℝ F)) (z + s • δ) δ δ δ) (M * ‖δ‖ ^ 4)
    (fun s => along d1 z δ s) (fun s => apply_const (along d2 z δ s) δ) (fun s => apply_const (apply_const (along d3 z δ s) δ) δ) ?_
  · simp only [zero_smul, add_zero, one_smul] at this
    refine this.trans ?_
    have q := norm_nonneg δ
    have q3 : 0 ≤ M * ‖δ‖ ^ 4 := by positivity
    have q4 : 0 ≤ (A0 + A1 + A2 + A3) * ‖δ‖ ^ 4 := by positivity
    nlinarith
  · intro s hs
    have l := hM z δ hz hδ s hs
    simp only [zero_smul, add_zero]
    have e : fderiv ℝ (fderiv ℝ (fderiv ℝ F)) (z + s • δ) δ δ δ - fderiv ℝ (fderiv ℝ (fderiv ℝ F)) z δ δ δ = (fderiv ℝ (fderiv ℝ (fderiv ℝ F)) (z + s • δ) - fderiv ℝ (fderiv ℝ (fderiv ℝ F)) z) δ δ δ := by simp
    rw [e]
    refine (ContinuousLinearMap.le_opNorm₂ _ δ δ).trans ?_
    have l2 := (ContinuousLinearMap.le_opNorm (fderiv ℝ (fderiv ℝ (fderiv ℝ F)) (z + s • δ) - fderiv ℝ (fderiv ℝ (fderiv ℝ F)) z) δ).trans (mul_le_mul_of_nonneg_right l (norm_nonneg δ))
    have := mul_le_mul_of_nonneg_right (mul_le_mul_of_nonneg_right l2 (norm_nonneg δ)) (norm_nonneg δ)
    refine this.trans (le_of_eq (by ring))

end Pressio.Lemmas.TaylorOrder
