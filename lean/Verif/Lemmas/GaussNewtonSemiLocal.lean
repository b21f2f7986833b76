import Verif.Lemmas.GaussNewtonConvergence
import Verif.Lemmas.LmConvergence
import Mathlib.Analysis.Calculus.LocalExtr.Basic
import Mathlib.Analysis.InnerProductSpace.Calculus

/-
  Least-squares problems with a small residual at a given point have a regular solution close to it.
-/
namespace Pressio.Lemmas.GaussNewtonSemiLocal
set_option autoImplicit false
open Matrix Pressio.Model.Nonlinear Pressio.Spec.Nonlinear Pressio.Spec.NewtonConvergence Pressio.Spec.GaussNewtonConvergence Pressio.Lemmas.Numerics Pressio.Lemmas.GaussNewtonConvergence
open Pressio.Spec.Reduced (eu)
open Pressio.Lemmas.LmConvergence (sup_le_eu eu_continuous)
open scoped InnerProductSpace

set_option linter.unusedSectionVars false

variable {E m n : Type} [NormedAddCommGroup E] [InnerProductSpace ℝ E] [Fintype m] [Fintype n] [DecidableEq n]

variable {ι : (m → ℝ) →ₗ[ℝ] E} {r : (n → ℝ) → m → ℝ} {J : (n → ℝ) → Matrix m n ℝ}

theorem ball_compact (x0 : n → ℝ) (R : ℝ) : IsCompact {x : n → ℝ | ‖eu n (x - x0)‖ ≤ R} := by
  refine (isCompact_closedBall x0 R).of_isClosed_subset ?_ ?_
  · exact isClosed_le ((eu_continuous n).comp (continuous_id.sub continuous_const)).norm continuous_const
  · intro x hx
    rw [Metric.mem_closedBall, dist_eq_norm]
    exact (sup_le_eu _).trans hx

theorem ball_segment (x0 x v : n → ℝ) (R s : ℝ) (hs : s ∈ Set.Icc (0:ℝ) 1) (hx : ‖eu n (x - x0)‖ ≤ R) (hv : ‖eu n (x + v - x0)‖ ≤ R) : ‖eu n (x + s • v - x0)‖ ≤ R := by
  have e : x + s • v - x0 = (1 - s) • (x - x0) + s • (x + v - x0) := by
    ext i; simp; ring
  rw [e, map_add, map_smul, map_smul]
  refine (norm_add_le _ _).trans ?_
  rw [norm_smul, norm_smul, Real.norm_eq_abs, Real.norm_eq_abs, abs_of_nonneg (by linarith [hs.2]), abs_of_nonneg hs.1]
  nlinarith [hs.1, hs.2]

/-- a minimiser over a ball which lies inside the ball is stationary -/
theorem stationary_of_min (x0 x' : n → ℝ) (R : ℝ) (hin : ‖eu n (x' - x0)‖ < R) (hJ : IsJacobian r J x') (hmin : ∀ z, ‖eu n (z - x0)‖ ≤ R → ‖ι (r x')‖ ≤ ‖ι (r z)‖) (v : n → ℝ) :
    ⟪ι (r x'), ι (J x' *ᵥ v)⟫_ℝ = 0 := by
  have hd : HasDerivAt (fun s : ℝ => ι (r (x' + s • v))) (ι (J x' *ᵥ v)) 0 := by
    have := along_line (ι := ι) x' v 0 (r := r) (J := J) (by simpa using hJ)
    simpa using this
  have hd2 := hd.norm_sq
  have hloc : IsLocalMin (fun s : ℝ => ‖ι (r (x' + s • v))‖ ^ 2) 0 := by
    have hc : Continuous (fun s : ℝ => ‖eu n (x' + s • v - x0)‖) :=
      ((eu_continuous n).comp ((continuous_const.add (continuous_id.smul continuous_const)).sub continuous_const)).norm
    have : ∀ᶠ s in nhds (0:ℝ), ‖eu n (x' + s • v - x0)‖ < R := by
      refine hc.continuousAt.eventually_lt continuousAt_const ?_
      simpa using hin
    filter_upwards [this] with s hs
    have := hmin _ hs.le
    simp only [zero_smul, add_zero]
    gcongr
  have := hloc.hasDerivAt_eq_zero hd2
  simpa using this

/-- **Existence.** If the residual at `x0` is at most `σ` and, within the distance `8 β σ`, the Jacobian has full rank (constant `β`), is bounded and is Lipschitz with a small constant, then the residual has a minimiser over
    this ball, not further than `8/3 β σ` from `x0`, where the solution is regular. -/
theorem exists_fit (x0 : n → ℝ) (β Λ γ σ : ℝ) (hβ : 0 < β) (hΛ : 0 ≤ Λ) (hγ : 0 ≤ γ) (hσ : ‖ι (r x0)‖ ≤ σ)
    (hjac : ∀ x, ‖eu n (x - x0)‖ ≤ 8 * β * σ → IsJacobian r J x) (hinv : ∀ x, ‖eu n (x - x0)‖ ≤ 8 * β * σ → ∀ v, ‖eu n v‖ ≤ β * ‖ι (J x *ᵥ v)‖)
    (hbound : ∀ x, ‖eu n (x - x0)‖ ≤ 8 * β * σ → ∀ v, ‖ι (J x *ᵥ v)‖ ≤ Λ * ‖eu n v‖)
    (hlip : ∀ x y, ‖eu n (x - x0)‖ ≤ 8 * β * σ → ‖eu n (y - x0)‖ ≤ 8 * β * σ → ∀ v, ‖ι (J x *ᵥ v - J y *ᵥ v)‖ ≤ γ * ‖eu n (x - y)‖ * ‖eu n v‖)
    (hsmall : 16 * β ^ 2 * γ * σ ≤ 1) :
    ∃ x', ‖eu n (x' - x0)‖ ≤ 8 / 3 * β * σ ∧ (∀ z, ‖eu n (z - x0)‖ ≤ 8 * β * σ → ‖ι (r x')‖ ≤ ‖ι (r z)‖) ∧ RegularFit ι r J x' β Λ γ (4 * β * σ) := by
  have hσ0 : 0 ≤ σ := (norm_nonneg _).trans hσ
  have hR0 : 0 ≤ 8 * β * σ := by positivity
  have h00 : ‖eu n (x0 - x0)‖ ≤ 8 * β * σ := by simpa using hR0
  have hcont : ContinuousOn (fun x => ‖ι (r x)‖) {x : n → ℝ | ‖eu n (x - x0)‖ ≤ 8 * β * σ} := fun x hx =>
    ((LinearMap.continuous_of_finiteDimensional ι).continuousAt.comp (hjac x hx).continuousAt).norm.continuousWithinAt
  obtain ⟨x', hx', hmin⟩ := (ball_compact x0 (8 * β * σ)).exists_isMinOn ⟨x0, h00⟩ hcont
  have hx' : ‖eu n (x' - x0)‖ ≤ 8 * β * σ := hx'
  have hmin : ∀ z, ‖eu n (z - x0)‖ ≤ 8 * β * σ → ‖ι (r x')‖ ≤ ‖ι (r z)‖ := fun z hz => hmin hz
  have hrx : ‖ι (r x')‖ ≤ σ := (hmin x0 h00).trans hσ
  -- the minimiser is well inside
  set d := ‖eu n (x' - x0)‖ with hd
  have hd0 : 0 ≤ d := norm_nonneg _
  have htay : ‖ι (r x' - r x0 - J x0 *ᵥ (x' - x0))‖ ≤ γ / 2 * d ^ 2 := by
    have := taylor_jac (ι := ι) (r := r) (J := J) (γ := γ) x0 (x' - x0)
      (fun s hs => hjac _ (ball_segment x0 x0 (x' - x0) _ s hs h00 (by rw [add_sub_cancel]; exact hx')))
      (fun s hs => by
        have := hlip (x0 + s • (x' - x0)) x0 (ball_segment x0 x0 (x' - x0) _ s hs h00 (by rw [add_sub_cancel]; exact hx')) h00 (x' - x0)
        simpa using this)
    rw [add_sub_cancel] at this
    exact this
  have hlow : d ≤ β * (2 * σ + γ / 2 * d ^ 2) := by
    refine (hinv x0 h00 (x' - x0)).trans ?_
    gcongr
    have e : ι (J x0 *ᵥ (x' - x0)) = ι (r x') - ι (r x0) - ι (r x' - r x0 - J x0 *ᵥ (x' - x0)) := by
      simp only [map_sub]; abel
    rw [e]
    refine (norm_sub_le _ _).trans ?_
    have := norm_sub_le (ι (r x')) (ι (r x0))
    linarith
  have hd1 : d ≤ 8 / 3 * β * σ := by
    have h1 : β * (γ / 2 * d ^ 2) ≤ d / 4 := by
      have : β * (γ / 2 * d ^ 2) ≤ β * (γ / 2 * (8 * β * σ * d)) := by
        rw [pow_two]; gcongr
      nlinarith
    nlinarith
  have hstat : ∀ v, ⟪ι (r x'), ι (J x' *ᵥ v)⟫_ℝ = 0 := by
    intro v
    rcases hσ0.eq_or_lt with h | h
    · have : ι (r x') = 0 := by rw [← norm_le_zero_iff, h]; exact hrx
      rw [this, inner_zero_left]
    · refine stationary_of_min x0 x' (8 * β * σ) ?_ (hjac x' hx') hmin v
      have : 0 < β * σ := by positivity
      rw [← hd]
      nlinarith
  have hsub : ∀ x, ‖eu n (x - x')‖ ≤ 4 * β * σ → ‖eu n (x - x0)‖ ≤ 8 * β * σ := by
    intro x hx
    have e : x - x0 = (x - x') + (x' - x0) := by abel
    rw [e, map_add]
    refine (norm_add_le _ _).trans ?_
    have : 0 ≤ β * σ := by positivity
    nlinarith
  refine ⟨x', hd1, hmin, ⟨hstat, fun x hx => hjac x (hsub x hx), hinv x' hx', hbound x' hx', fun x y v hx hy => hlip x y (hsub x hx) (hsub y hy) v, hβ, hΛ, hγ, ?_⟩⟩
  have : 4 * β ^ 2 * γ * ‖ι (r x')‖ ≤ 4 * β ^ 2 * γ * σ := by gcongr
  nlinarith

/-- the criteria are monotone in the reduction -/
theorem enough_mono (stop : StopCrit) (tol β Λ ρ q q' : ℝ) (hβ : 0 ≤ β) (hΛ : 0 ≤ Λ) (hρ : 0 ≤ ρ) (hq : 0 ≤ q) (hqq : q ≤ q') (h : Enough stop tol β Λ ρ q') : Enough stop tol β Λ ρ q := by
  cases stop <;> simp only [Enough] at h ⊢ <;> refine lt_of_le_of_lt ?_ h <;> gcongr

theorem enough_mono_radius (stop : StopCrit) (tol β Λ ρ ρ' q : ℝ) (hΛ : 0 ≤ Λ) (hρ : 0 ≤ ρ) (hq : 0 ≤ q) (hρρ : ρ ≤ ρ') (h : Enough stop tol β Λ ρ' q) : Enough stop tol β Λ ρ q := by
  cases stop <;> simp only [Enough] at h ⊢ <;> first | exact h | (refine lt_of_le_of_lt ?_ h; gcongr)

end Pressio.Lemmas.GaussNewtonSemiLocal
