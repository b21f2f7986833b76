import Verif.Spec.GaussNewtonConvergence
import Verif.Lemmas.Numerics
import Mathlib.LinearAlgebra.Matrix.PosDef

/-
  Gauss-Newton near a regular solution: one step, and the sequence.
-/
namespace Pressio.Lemmas.GaussNewtonConvergence
set_option autoImplicit false
open Matrix Pressio.Model.Nonlinear Pressio.Spec.Nonlinear Pressio.Spec.NewtonConvergence Pressio.Spec.GaussNewtonConvergence Pressio.Lemmas.Numerics
open Pressio.Spec.Reduced (eu)
open scoped InnerProductSpace

set_option linter.unusedSectionVars false

variable {E m n p L : Type} [NormedAddCommGroup E] [InnerProductSpace ℝ E] [Fintype m] [Fintype n] [DecidableEq n] [Fintype p]

variable {ι : (m → ℝ) →ₗ[ℝ] E} {r : (n → ℝ) → m → ℝ} {J : (n → ℝ) → Matrix m n ℝ} {x' : n → ℝ} {β Λ γ ρ : ℝ}

omit [DecidableEq n] in
theorem eu_in (u v : n → ℝ) : ⟪eu n v, eu n u⟫_ℝ = u ⬝ᵥ v := by
  simp [eu, PiLp.inner_apply, dotProduct, mul_comm]

omit [DecidableEq n] in
theorem eu_dot (u v : n → ℝ) : u ⬝ᵥ v ≤ ‖eu n u‖ * ‖eu n v‖ := by
  rw [← eu_in, mul_comm]
  exact real_inner_le_norm _ _

omit [DecidableEq n] in
theorem eu_sq (u : n → ℝ) : ‖eu n u‖ ^ 2 = u ⬝ᵥ u := by
  rw [← real_inner_self_eq_norm_sq, eu_in]

omit [DecidableEq n] in
theorem eu_inj : Function.Injective (eu n) := (WithLp.linearEquiv 2 ℝ (n → ℝ)).symm.injective

/-- directional derivative along a segment -/
theorem along_line (x v : n → ℝ) (s : ℝ) (h : IsJacobian r J (x + s • v)) : HasDerivAt (fun s : ℝ => ι (r (x + s • v))) (ι (J (x + s • v) *ᵥ v)) s := by
  have hl : HasDerivAt (fun s : ℝ => x + s • v) v s := by
    have := ((hasDerivAt_id s).smul_const v).const_add x
    simpa using this
  have h1 := HasFDerivAt.comp_hasDerivAt (f := fun s : ℝ => x + s • v) (l := r) s h hl
  have h2 := ι.toContinuousLinearMap.hasFDerivAt.comp_hasDerivAt s h1
  simpa [Function.comp_def] using h2

/-- Taylor with the Jacobian at one end of a segment on which the Jacobian is Lipschitz -/
theorem taylor_jac (x v : n → ℝ) (hj : ∀ s ∈ Set.Icc (0:ℝ) 1, IsJacobian r J (x + s • v))
    (hl : ∀ s ∈ Set.Icc (0:ℝ) 1, ‖ι (J (x + s • v) *ᵥ v - J x *ᵥ v)‖ ≤ γ * ‖eu n (s • v)‖ * ‖eu n v‖) :
    ‖ι (r (x + v) - r x - J x *ᵥ v)‖ ≤ γ / 2 * ‖eu n v‖ ^ 2 := by
  have := taylor_left (fun s : ℝ => ι (r (x + s • v))) (fun s => ι (J (x + s • v) *ᵥ v)) 0 1 (γ * ‖eu n v‖ ^ 2) zero_le_one (fun s hs => along_line x v s (hj s hs)) (by
    intro s hs
    have := hl s hs
    rw [map_sub, map_smul, norm_smul, Real.norm_eq_abs, abs_of_nonneg hs.1] at this
    simp only [zero_smul, add_zero, sub_zero]
    refine this.trans (le_of_eq (by ring)))
  simp only [one_smul, zero_smul, add_zero, sub_zero] at this
  rw [map_sub, map_sub]
  refine this.trans (le_of_eq (by ring))

variable (H : RegularFit ι r J x' β Λ γ ρ)
include H

theorem _root_.Pressio.Spec.GaussNewtonConvergence.RegularFit.taylor (x : n → ℝ) (hx : ‖eu n (x - x')‖ ≤ ρ) : ‖ι (r x' - r x + J x *ᵥ (x - x'))‖ ≤ γ / 2 * ‖eu n (x - x')‖ ^ 2 := by
  have hseg : ∀ s ∈ Set.Icc (0:ℝ) 1, ‖eu n (x + s • (x' - x) - x')‖ ≤ ρ := by
    intro s hs
    have : x + s • (x' - x) - x' = (1 - s) • (x - x') := by module
    rw [this, map_smul, norm_smul, Real.norm_eq_abs, abs_of_nonneg (by linarith [hs.2])]
    exact (mul_le_of_le_one_left (norm_nonneg _) (by linarith [hs.1])).trans hx
  have := taylor_jac (ι := ι) x (x' - x) (fun s hs => H.jac _ (hseg s hs)) (fun s hs => by
    have := H.lip (x + s • (x' - x)) x (x' - x) (hseg s hs) hx
    simpa using this)
  rw [add_sub_cancel] at this
  have e : r x' - r x + J x *ᵥ (x - x') = r x' - r x - J x *ᵥ (x' - x) := by
    rw [← neg_sub x x', Matrix.mulVec_neg, sub_neg_eq_add]
  rw [e]
  refine this.trans (le_of_eq ?_)
  rw [show x' - x = -(x - x') by abel, map_neg, norm_neg]

theorem _root_.Pressio.Spec.GaussNewtonConvergence.RegularFit.taylor_root (x : n → ℝ) (hx : ‖eu n (x - x')‖ ≤ ρ) : ‖ι (r x - r x' - J x' *ᵥ (x - x'))‖ ≤ γ / 2 * ‖eu n (x - x')‖ ^ 2 := by
  have h0 : 0 ≤ ρ := (norm_nonneg _).trans hx
  have hseg : ∀ s ∈ Set.Icc (0:ℝ) 1, ‖eu n (x' + s • (x - x') - x')‖ ≤ ρ := by
    intro s hs
    have : x' + s • (x - x') - x' = s • (x - x') := by module
    rw [this, map_smul, norm_smul, Real.norm_eq_abs, abs_of_nonneg hs.1]
    exact (mul_le_of_le_one_left (norm_nonneg _) hs.2).trans hx
  have := taylor_jac (ι := ι) x' (x - x') (fun s hs => H.jac _ (hseg s hs)) (fun s hs => by
    have := H.lip (x' + s • (x - x')) x' (x - x') (hseg s hs) (by simpa using h0)
    simpa using this)
  rwa [add_sub_cancel] at this

theorem _root_.Pressio.Spec.GaussNewtonConvergence.RegularFit.small' : β * γ * ρ ≤ 1 / 2 := by
  have := H.small
  have : 0 ≤ 4 * β ^ 2 * γ * ‖ι (r x')‖ := by have := H.γ0; positivity
  linarith

theorem _root_.Pressio.Spec.GaussNewtonConvergence.RegularFit.diff (x : n → ℝ) (hx : ‖eu n (x - x')‖ ≤ ρ) (v : n → ℝ) : ‖ι (J x *ᵥ v - J x' *ᵥ v)‖ ≤ γ * ‖eu n (x - x')‖ * ‖eu n v‖ :=
  H.lip x x' v hx (by simpa using (norm_nonneg _).trans hx)

/-- the Jacobian has full rank near the solution -/
theorem _root_.Pressio.Spec.GaussNewtonConvergence.RegularFit.inv_near (x : n → ℝ) (hx : ‖eu n (x - x')‖ ≤ ρ) (v : n → ℝ) : ‖eu n v‖ ≤ 2 * β * ‖ι (J x *ᵥ v)‖ := by
  have h1 := H.inv v
  have h2 := H.diff x hx v
  have h3 : ‖ι (J x' *ᵥ v)‖ ≤ ‖ι (J x *ᵥ v)‖ + ‖ι (J x *ᵥ v - J x' *ᵥ v)‖ := by
    have : ι (J x' *ᵥ v) = ι (J x *ᵥ v) - ι (J x *ᵥ v - J x' *ᵥ v) := by rw [← map_sub]; congr 1; abel
    rw [this]; exact norm_sub_le _ _
  have hb := H.β0
  have h5 : β * ‖ι (J x *ᵥ v - J x' *ᵥ v)‖ ≤ 1 / 2 * ‖eu n v‖ := by
    calc β * ‖ι (J x *ᵥ v - J x' *ᵥ v)‖ ≤ β * (γ * ρ * ‖eu n v‖) := by
          refine mul_le_mul_of_nonneg_left (h2.trans ?_) hb.le
          gcongr
          exact H.γ0
      _ = β * γ * ρ * ‖eu n v‖ := by ring
      _ ≤ 1 / 2 * ‖eu n v‖ := by gcongr; exact H.small'
  have h6 := mul_le_mul_of_nonneg_left h3 hb.le
  linarith

/-- and it is bounded -/
theorem _root_.Pressio.Spec.GaussNewtonConvergence.RegularFit.bound_near (x : n → ℝ) (hx : ‖eu n (x - x')‖ ≤ ρ) (v : n → ℝ) : ‖ι (J x *ᵥ v)‖ ≤ 3 / 2 * Λ * ‖eu n v‖ := by
  have hb := H.β0
  have hg := H.γ0
  have hB := H.bound v
  have h2 := H.diff x hx v
  have h3 : ‖ι (J x *ᵥ v)‖ ≤ ‖ι (J x' *ᵥ v)‖ + ‖ι (J x *ᵥ v - J x' *ᵥ v)‖ := by
    have : ι (J x *ᵥ v) = ι (J x' *ᵥ v) + ι (J x *ᵥ v - J x' *ᵥ v) := by rw [← map_add]; congr 1; abel
    rw [this]; exact norm_add_le _ _
  rcases (norm_nonneg (eu n v)).eq_or_lt with h0 | h0
  · rw [← h0] at h2 hB ⊢; linarith
  · have h6 : 1 ≤ β * Λ := by
      have := (H.inv v).trans (mul_le_mul_of_nonneg_left hB hb.le)
      by_contra hc
      push Not at hc
      nlinarith
    have h7 : γ * ‖eu n (x - x')‖ ≤ 1 / 2 * Λ := by
      have h8 : β * (γ * ‖eu n (x - x')‖) ≤ β * (1 / 2 * Λ) := by
        calc β * (γ * ‖eu n (x - x')‖) ≤ β * (γ * ρ) := by gcongr
          _ = β * γ * ρ := by ring
          _ ≤ 1 / 2 := H.small'
          _ ≤ β * (1 / 2 * Λ) := by linarith
      exact le_of_mul_le_mul_left h8 hb
    have h9 : γ * ‖eu n (x - x')‖ * ‖eu n v‖ ≤ 1 / 2 * Λ * ‖eu n v‖ := by gcongr
    linarith

/-- one Gauss-Newton step: `d` solves the normal equations -/
theorem _root_.Pressio.Spec.GaussNewtonConvergence.RegularFit.step (x d : n → ℝ) (hx : ‖eu n (x - x')‖ ≤ ρ) (hd : ∀ w, ⟪ι (J x *ᵥ d), ι (J x *ᵥ w)⟫_ℝ = ⟪ι (r x), ι (J x *ᵥ w)⟫_ℝ) :
    ‖eu n (x - d - x')‖ ≤ β * γ * ‖eu n (x - x')‖ ^ 2 + 4 * β ^ 2 * γ * ‖ι (r x')‖ * ‖eu n (x - x')‖ := by
  have hb := H.β0
  have hg := H.γ0
  set w := x - d - x' with hw
  set a := ‖ι (J x *ᵥ w)‖ with ha
  set e := ‖eu n (x - x')‖ with he
  set σ := ‖ι (r x')‖ with hσ
  have h1 : ‖eu n w‖ ≤ 2 * β * a := H.inv_near x hx w
  have key : a ^ 2 ≤ a * (γ / 2 * e ^ 2) + σ * (γ * e * ‖eu n w‖) := by
    have e1 : ι (J x *ᵥ w) = ι (r x' - r x + J x *ᵥ (x - x')) - ι (J x *ᵥ d) + ι (r x) - ι (r x') := by
      rw [← map_sub, ← map_add, ← map_sub]
      congr 1
      rw [show w = (x - x') - d by rw [hw]; abel, Matrix.mulVec_sub]
      abel
    have e2 : a ^ 2 = ⟪ι (r x' - r x + J x *ᵥ (x - x')), ι (J x *ᵥ w)⟫_ℝ - ⟪ι (r x'), ι (J x *ᵥ w - J x' *ᵥ w)⟫_ℝ := by
      rw [ha, ← real_inner_self_eq_norm_sq]
      conv_lhs => rw [e1]
      rw [inner_sub_left, inner_add_left, inner_sub_left, ← e1, hd w, map_sub, inner_sub_right, H.stationary w]
      ring
    have b1 : ⟪ι (r x' - r x + J x *ᵥ (x - x')), ι (J x *ᵥ w)⟫_ℝ ≤ a * (γ / 2 * e ^ 2) := by
      refine (real_inner_le_norm _ _).trans ?_
      rw [mul_comm]
      gcongr
      exact H.taylor x hx
    have b2 : -⟪ι (r x'), ι (J x *ᵥ w - J x' *ᵥ w)⟫_ℝ ≤ σ * (γ * e * ‖eu n w‖) := by
      rw [← inner_neg_left]
      refine (real_inner_le_norm _ _).trans ?_
      rw [norm_neg]
      gcongr
      exact H.diff x hx w
    rw [e2]; linarith
  have ha0 : 0 ≤ a := norm_nonneg _
  have he0 : 0 ≤ e := norm_nonneg _
  have hσ0 : 0 ≤ σ := norm_nonneg _
  have h2 : a ≤ γ / 2 * e ^ 2 + 2 * β * γ * σ * e := by
    rcases ha0.eq_or_lt with h | h
    · rw [← h]; positivity
    · have h3 : σ * (γ * e * ‖eu n w‖) ≤ σ * (γ * e * (2 * β * a)) := by gcongr
      have h4 : a * a ≤ a * (γ / 2 * e ^ 2 + 2 * β * γ * σ * e) := by nlinarith
      exact le_of_mul_le_mul_left h4 h
  calc ‖eu n w‖ ≤ 2 * β * a := h1
    _ ≤ 2 * β * (γ / 2 * e ^ 2 + 2 * β * γ * σ * e) := by gcongr
    _ = _ := by ring

/-- correction and gradient are measures of the error -/
theorem _root_.Pressio.Spec.GaussNewtonConvergence.RegularFit.measures (x d g : n → ℝ) (hx : ‖eu n (x - x')‖ ≤ ρ) (hd : ∀ w, ⟪ι (J x *ᵥ d), ι (J x *ᵥ w)⟫_ℝ = ⟪ι (r x), ι (J x *ᵥ w)⟫_ℝ)
    (hgr : ∀ w, g ⬝ᵥ w = ⟪ι (r x), ι (J x *ᵥ w)⟫_ℝ) :
    ‖eu n (x - d - x')‖ ≤ 1 / 2 * ‖eu n (x - x')‖ ∧ ‖eu n (x - x')‖ ≤ 2 * ‖eu n d‖ ∧ ‖eu n d‖ ≤ 3 / 2 * ‖eu n (x - x')‖ ∧
    ‖eu n (x - x')‖ ≤ 8 * β ^ 2 * ‖eu n g‖ ∧ ‖eu n g‖ ≤ 27 / 8 * Λ ^ 2 * ‖eu n (x - x')‖ := by
  have hb := H.β0
  have hΛ := H.Λ0
  have hg := H.γ0
  have hn := norm_nonneg (eu n (x - x'))
  have h1 : ‖eu n (x - d - x')‖ ≤ 1 / 2 * ‖eu n (x - x')‖ := by
    refine (H.step x d hx hd).trans ?_
    calc β * γ * ‖eu n (x - x')‖ ^ 2 + 4 * β ^ 2 * γ * ‖ι (r x')‖ * ‖eu n (x - x')‖ = (β * γ * ‖eu n (x - x')‖ + 4 * β ^ 2 * γ * ‖ι (r x')‖) * ‖eu n (x - x')‖ := by ring
      _ ≤ (β * γ * ρ + 4 * β ^ 2 * γ * ‖ι (r x')‖) * ‖eu n (x - x')‖ := by gcongr
      _ ≤ 1 / 2 * ‖eu n (x - x')‖ := by gcongr; exact H.small
  have e : eu n d = eu n (x - x') - eu n (x - d - x') := by rw [← map_sub]; congr 1; abel
  have e2 : eu n (x - x') = eu n d + eu n (x - d - x') := by rw [← map_add]; congr 1; abel
  have h2 : ‖eu n d‖ ≤ ‖eu n (x - x')‖ + ‖eu n (x - d - x')‖ := by rw [e]; exact norm_sub_le _ _
  have h3 : ‖eu n (x - x')‖ ≤ ‖eu n d‖ + ‖eu n (x - d - x')‖ := by
    conv_lhs => rw [e2]
    exact norm_add_le _ _
  have hdn := norm_nonneg (eu n d)
  have hgn := norm_nonneg (eu n g)
  have h4 : ‖eu n d‖ ≤ 4 * β ^ 2 * ‖eu n g‖ := by
    have a1 : ‖ι (J x *ᵥ d)‖ ^ 2 ≤ ‖eu n g‖ * ‖eu n d‖ := by
      rw [← real_inner_self_eq_norm_sq, hd d, ← hgr d]; exact eu_dot g d
    have a2 := H.inv_near x hx d
    have a3 : ‖eu n d‖ ^ 2 ≤ 4 * β ^ 2 * ‖eu n g‖ * ‖eu n d‖ := by
      calc ‖eu n d‖ ^ 2 ≤ (2 * β * ‖ι (J x *ᵥ d)‖) ^ 2 := by gcongr
        _ = 4 * β ^ 2 * ‖ι (J x *ᵥ d)‖ ^ 2 := by ring
        _ ≤ 4 * β ^ 2 * (‖eu n g‖ * ‖eu n d‖) := by gcongr
        _ = _ := by ring
    rcases hdn.eq_or_lt with h | h
    · rw [← h]; positivity
    · exact le_of_mul_le_mul_right (by rwa [← sq]) h
  have h5 : ‖eu n g‖ ≤ 9 / 4 * Λ ^ 2 * ‖eu n d‖ := by
    have a1 : ‖eu n g‖ ^ 2 ≤ 9 / 4 * Λ ^ 2 * ‖eu n d‖ * ‖eu n g‖ := by
      rw [eu_sq, hgr g, ← hd g]
      refine (real_inner_le_norm _ _).trans ?_
      calc ‖ι (J x *ᵥ d)‖ * ‖ι (J x *ᵥ g)‖ ≤ (3 / 2 * Λ * ‖eu n d‖) * (3 / 2 * Λ * ‖eu n g‖) := by
            gcongr
            · exact H.bound_near x hx d
            · exact H.bound_near x hx g
        _ = _ := by ring
    rcases hgn.eq_or_lt with h | h
    · rw [← h]; positivity
    · exact le_of_mul_le_mul_right (by rwa [← sq]) h
  refine ⟨h1, by linarith, by linarith, by linarith, ?_⟩
  calc ‖eu n g‖ ≤ 9 / 4 * Λ ^ 2 * ‖eu n d‖ := h5
    _ ≤ 9 / 4 * Λ ^ 2 * (3 / 2 * ‖eu n (x - x')‖) := by gcongr; linarith
    _ = _ := by ring

/-- a perfect fit: the residual is a measure of the error, too -/
theorem _root_.Pressio.Spec.GaussNewtonConvergence.RegularFit.residual (hσ : ‖ι (r x')‖ = 0) (x : n → ℝ) (hx : ‖eu n (x - x')‖ ≤ ρ) :
    ‖eu n (x - x')‖ ≤ 4 / 3 * β * ‖ι (r x)‖ ∧ ‖ι (r x)‖ ≤ 5 / 4 * Λ * ‖eu n (x - x')‖ := by
  have hb := H.β0
  have hg := H.γ0
  have hn := norm_nonneg (eu n (x - x'))
  have ht := H.taylor_root x hx
  have hz : ι (r x') = 0 := norm_eq_zero.1 hσ
  have hq : β * (γ / 2 * ‖eu n (x - x')‖ ^ 2) ≤ 1 / 4 * ‖eu n (x - x')‖ := by
    calc β * (γ / 2 * ‖eu n (x - x')‖ ^ 2) = β * γ * ‖eu n (x - x')‖ * ‖eu n (x - x')‖ / 2 := by ring
      _ ≤ β * γ * ρ * ‖eu n (x - x')‖ / 2 := by gcongr
      _ ≤ 1 / 2 * ‖eu n (x - x')‖ / 2 := by gcongr; exact H.small'
      _ = _ := by ring
  have e0 : ι (r x - r x' - J x' *ᵥ (x - x')) = ι (r x) - ι (J x' *ᵥ (x - x')) := by rw [map_sub, map_sub, hz, sub_zero]
  rw [e0] at ht
  have h4 : ‖ι (J x' *ᵥ (x - x'))‖ ≤ ‖ι (r x)‖ + ‖ι (r x) - ι (J x' *ᵥ (x - x'))‖ := by
    have : ι (J x' *ᵥ (x - x')) = ι (r x) - (ι (r x) - ι (J x' *ᵥ (x - x'))) := by abel
    conv_lhs => rw [this]
    exact norm_sub_le _ _
  have h5 : ‖ι (r x)‖ ≤ ‖ι (J x' *ᵥ (x - x'))‖ + ‖ι (r x) - ι (J x' *ᵥ (x - x'))‖ := by
    have : ι (r x) = ι (J x' *ᵥ (x - x')) + (ι (r x) - ι (J x' *ᵥ (x - x'))) := by abel
    conv_lhs => rw [this]
    exact norm_add_le _ _
  refine ⟨?_, ?_⟩
  · have := mul_le_mul_of_nonneg_left (h4.trans (add_le_add_right ht _)) hb.le
    have := H.inv (x - x')
    linarith
  · have hB := H.bound (x - x')
    rcases hn.eq_or_lt with h0 | h0
    · rw [← h0] at ht hB ⊢
      linarith
    · have h6 : 1 ≤ β * Λ := by
        have := (H.inv (x - x')).trans (mul_le_mul_of_nonneg_left hB hb.le)
        by_contra hc
        push Not at hc
        nlinarith
      have h7 : γ / 2 * ‖eu n (x - x')‖ ^ 2 ≤ 1 / 4 * Λ * ‖eu n (x - x')‖ := by
        have : β * (γ / 2 * ‖eu n (x - x')‖ ^ 2) ≤ β * (1 / 4 * Λ * ‖eu n (x - x')‖) := by nlinarith
        exact le_of_mul_le_mul_left this hb
      linarith

omit H in
theorem reduction_nonneg (σ : ℝ) (k : Nat) : 0 ≤ reduction σ k := by unfold reduction; split <;> positivity

omit H in
theorem reduction_le_one (σ : ℝ) (k : Nat) : reduction σ k ≤ 1 := by
  unfold reduction; split <;> exact pow_le_one₀ (by norm_num) (by norm_num)

omit H in
theorem reduction_zero (σ : ℝ) : reduction σ 0 = 1 := by unfold reduction; split <;> simp

omit H in
theorem reduction_le (σ : ℝ) (k : Nat) : reduction σ k ≤ (1 / 2) ^ k := by
  unfold reduction; split
  · exact pow_le_pow_of_le_one (by norm_num) (by norm_num) (by have := Nat.lt_two_pow_self (n := k); omega)
  · exact le_refl _

/-- the iterates -/
theorem _root_.Pressio.Spec.GaussNewtonConvergence.RegularFit.iterates (N : (n → ℝ) → n → ℝ)
    (hN : ∀ x, ‖eu n (x - x')‖ ≤ ρ → ∃ d, (∀ w, ⟪ι (J x *ᵥ d), ι (J x *ᵥ w)⟫_ℝ = ⟪ι (r x), ι (J x *ᵥ w)⟫_ℝ) ∧ N x = x - d) (x0 : n → ℝ) (h0 : ‖eu n (x0 - x')‖ ≤ ρ) (k : Nat) :
    ‖eu n (N^[k] x0 - x')‖ ≤ ‖eu n (x0 - x')‖ * reduction ‖ι (r x')‖ k := by
  have hb := H.β0
  have hg := H.γ0
  induction k with
  | zero => simp [reduction_zero]
  | succ k ih =>
    have hk : ‖eu n (N^[k] x0 - x')‖ ≤ ρ := ih.trans ((mul_le_of_le_one_right (norm_nonneg _) (reduction_le_one _ _)).trans h0)
    obtain ⟨d, hd, hNd⟩ := hN _ hk
    rw [Function.iterate_succ_apply', hNd]
    refine (H.step _ d hk hd).trans ?_
    by_cases hσ : ‖ι (r x')‖ = 0
    · have hp : 2 ^ (k+1) - 1 = (2 ^ k - 1) + (2 ^ k - 1) + 1 := by
        have := Nat.one_le_two_pow (n := k)
        rw [pow_succ]; omega
      simp only [reduction, hσ, if_true] at ih ⊢
      rw [hp, pow_add, pow_add, pow_one, mul_zero, zero_mul, add_zero]
      set q : ℝ := (1 / 2) ^ (2 ^ k - 1)
      have hq : 0 ≤ q := by positivity
      calc β * γ * ‖eu n (N^[k] x0 - x')‖ ^ 2 ≤ β * γ * (‖eu n (x0 - x')‖ * q) ^ 2 := by gcongr
        _ = β * γ * ‖eu n (x0 - x')‖ * (‖eu n (x0 - x')‖ * (q * q)) := by ring
        _ ≤ β * γ * ρ * (‖eu n (x0 - x')‖ * (q * q)) := by gcongr
        _ ≤ 1 / 2 * (‖eu n (x0 - x')‖ * (q * q)) := by gcongr; exact H.small'
        _ = _ := by ring
    · simp only [reduction, hσ, if_false] at ih ⊢
      calc β * γ * ‖eu n (N^[k] x0 - x')‖ ^ 2 + 4 * β ^ 2 * γ * ‖ι (r x')‖ * ‖eu n (N^[k] x0 - x')‖
          = (β * γ * ‖eu n (N^[k] x0 - x')‖ + 4 * β ^ 2 * γ * ‖ι (r x')‖) * ‖eu n (N^[k] x0 - x')‖ := by ring
        _ ≤ (β * γ * ρ + 4 * β ^ 2 * γ * ‖ι (r x')‖) * ‖eu n (N^[k] x0 - x')‖ := by gcongr
        _ ≤ 1 / 2 * (‖eu n (x0 - x')‖ * (1 / 2) ^ k) := by gcongr; exact H.small
        _ = _ := by ring

theorem _root_.Pressio.Spec.GaussNewtonConvergence.RegularFit.stays (N : (n → ℝ) → n → ℝ)
    (hN : ∀ x, ‖eu n (x - x')‖ ≤ ρ → ∃ d, (∀ w, ⟪ι (J x *ᵥ d), ι (J x *ᵥ w)⟫_ℝ = ⟪ι (r x), ι (J x *ᵥ w)⟫_ℝ) ∧ N x = x - d) (x0 : n → ℝ) (h0 : ‖eu n (x0 - x')‖ ≤ ρ) (k : Nat) :
    ‖eu n (N^[k] x0 - x')‖ ≤ ρ :=
  (H.iterates N hN x0 h0 k).trans ((mul_le_of_le_one_right (norm_nonneg _) (reduction_le_one _ _)).trans h0)

/-- the normal equations have a positive definite matrix -/
theorem _root_.Pressio.Spec.GaussNewtonConvergence.RegularFit.posDef {env : Env ℝ m n p L} {tag : Tag} (hm : Minimises env tag ι) (x : n → ℝ) (hx : ‖eu n (x - x')‖ ≤ ρ) (d : ℝ) : (hessOf env tag (J x) d).PosDef := by
  refine Matrix.PosDef.of_dotProduct_mulVec_pos ?_ ?_
  · ext i j
    have h1 := hm.hess (J x) d (Pi.single i 1) (Pi.single j 1)
    have h2 := hm.hess (J x) d (Pi.single j 1) (Pi.single i 1)
    rw [real_inner_comm, ← h2] at h1
    simpa using h1
  · intro v hv
    have h := hm.hess (J x) d v v
    rw [dotProduct_comm] at h
    simp only [star_trivial]
    rw [h, real_inner_self_eq_norm_sq]
    have h1 := H.inv_near x hx v
    have h2 : 0 < ‖eu n v‖ := by
      rw [norm_pos_iff]
      intro h0
      exact hv (eu_inj (by rw [h0, map_zero]))
    have h3 : 0 < ‖ι (J x *ᵥ v)‖ := by
      by_contra hc
      have : ‖ι (J x *ᵥ v)‖ = 0 := le_antisymm (not_lt.1 hc) (norm_nonneg _)
      rw [this] at h1; linarith
    positivity

end Pressio.Lemmas.GaussNewtonConvergence
