import Verif.Spec.NewtonConvergence
import Verif.Lemmas.Numerics
import Mathlib.LinearAlgebra.Matrix.NonsingularInverse
import Mathlib.LinearAlgebra.Matrix.ToLinearEquiv

/-
  Newton's method near a regular root: one step, and the sequence.
-/
namespace Pressio.Lemmas.NewtonConvergence
set_option autoImplicit false
open Matrix Pressio.Spec.NewtonConvergence Pressio.Lemmas.Numerics

variable {E n : Type} [NormedAddCommGroup E] [NormedSpace ℝ E] [Fintype n] [DecidableEq n]

variable {ι : (n → ℝ) →ₗ[ℝ] E} {r : (n → ℝ) → n → ℝ} {J : (n → ℝ) → Matrix n n ℝ} {x' : n → ℝ} {β Λ γ ρ : ℝ}

/-- directional derivative along a segment -/
theorem along_line (x v : n → ℝ) (s : ℝ) (h : IsJacobian r J (x + s • v)) : HasDerivAt (fun s : ℝ => ι (r (x + s • v))) (ι (J (x + s • v) *ᵥ v)) s := by
  have hl : HasDerivAt (fun s : ℝ => x + s • v) v s := by
    have := ((hasDerivAt_id s).smul_const v).const_add x
    simpa using this
  have h1 := HasFDerivAt.comp_hasDerivAt (f := fun s : ℝ => x + s • v) (l := r) s h hl
  have h2 := ι.toContinuousLinearMap.hasFDerivAt.comp_hasDerivAt s h1
  simpa [Function.comp_def] using h2

/-- Taylor with the Jacobian at one end of a segment on which the Jacobian is Lipschitz -/
theorem taylor_jac (x v : n → ℝ) (hj : ∀ s ∈ Set.Icc (0:ℝ) 1, IsJacobian r J (x + s • v))
    (hl : ∀ s ∈ Set.Icc (0:ℝ) 1, ‖ι (J (x + s • v) *ᵥ v - J x *ᵥ v)‖ ≤ γ * ‖ι (s • v)‖ * ‖ι v‖) :
    ‖ι (r (x + v) - r x - J x *ᵥ v)‖ ≤ γ / 2 * ‖ι v‖ ^ 2 := by
  have := taylor_left (fun s : ℝ => ι (r (x + s • v))) (fun s => ι (J (x + s • v) *ᵥ v)) 0 1 (γ * ‖ι v‖ ^ 2) zero_le_one (fun s hs => along_line x v s (hj s hs)) (by
    intro s hs
    have := hl s hs
    rw [map_sub, map_smul, norm_smul, Real.norm_eq_abs, abs_of_nonneg hs.1] at this
    simp only [zero_smul, add_zero, sub_zero]
    refine this.trans (le_of_eq (by ring)))
  simp only [one_smul, zero_smul, add_zero, sub_zero] at this
  rw [map_sub, map_sub]
  refine this.trans (le_of_eq (by ring))

variable (H : RegularRoot ι r J x' β Λ γ ρ)
include H

theorem _root_.Pressio.Spec.NewtonConvergence.RegularRoot.taylor (x : n → ℝ) (hx : ‖ι (x - x')‖ ≤ ρ) : ‖ι (r x + J x *ᵥ (x' - x))‖ ≤ γ / 2 * ‖ι (x - x')‖ ^ 2 := by
  have hseg : ∀ s ∈ Set.Icc (0:ℝ) 1, ‖ι (x + s • (x' - x) - x')‖ ≤ ρ := by
    intro s hs
    have : x + s • (x' - x) - x' = (1 - s) • (x - x') := by module
    rw [this, map_smul, norm_smul, Real.norm_eq_abs, abs_of_nonneg (by linarith [hs.2])]
    exact (mul_le_of_le_one_left (norm_nonneg _) (by linarith [hs.1])).trans hx
  have := taylor_jac (ι := ι) x (x' - x) (fun s hs => H.jac _ (hseg s hs)) (fun s hs => by
    have := H.lip (x + s • (x' - x)) x (x' - x) (hseg s hs) hx
    simpa using this)
  rw [add_sub_cancel, H.root, zero_sub] at this
  have e : r x + J x *ᵥ (x' - x) = -(-r x - J x *ᵥ (x' - x)) := by abel
  rw [e, map_neg, norm_neg]
  refine this.trans (le_of_eq ?_)
  rw [show x' - x = -(x - x') by abel, map_neg, norm_neg]

theorem _root_.Pressio.Spec.NewtonConvergence.RegularRoot.taylor_root (x : n → ℝ) (hx : ‖ι (x - x')‖ ≤ ρ) : ‖ι (r x - J x' *ᵥ (x - x'))‖ ≤ γ / 2 * ‖ι (x - x')‖ ^ 2 := by
  have h0 : 0 ≤ ρ := (norm_nonneg _).trans hx
  have hseg : ∀ s ∈ Set.Icc (0:ℝ) 1, ‖ι (x' + s • (x - x') - x')‖ ≤ ρ := by
    intro s hs
    have : x' + s • (x - x') - x' = s • (x - x') := by module
    rw [this, map_smul, norm_smul, Real.norm_eq_abs, abs_of_nonneg hs.1]
    exact (mul_le_of_le_one_left (norm_nonneg _) hs.2).trans hx
  have := taylor_jac (ι := ι) x' (x - x') (fun s hs => H.jac _ (hseg s hs)) (fun s hs => by
    have := H.lip (x' + s • (x - x')) x' (x - x') (hseg s hs) (by simpa using h0)
    simpa using this)
  rwa [add_sub_cancel, H.root, sub_zero] at this

/-- the Jacobian is regular near the root -/
theorem _root_.Pressio.Spec.NewtonConvergence.RegularRoot.inv_near (x : n → ℝ) (hx : ‖ι (x - x')‖ ≤ ρ) (v : n → ℝ) : ‖ι v‖ ≤ 2 * β * ‖ι (J x *ᵥ v)‖ := by
  have h0 : 0 ≤ ρ := (norm_nonneg _).trans hx
  have h1 := H.inv v
  have h2 := H.lip x' x v (by simpa using h0) hx
  have h3 : ‖ι (J x' *ᵥ v)‖ ≤ ‖ι (J x' *ᵥ v - J x *ᵥ v)‖ + ‖ι (J x *ᵥ v)‖ := by
    have : ι (J x' *ᵥ v) = ι (J x' *ᵥ v - J x *ᵥ v) + ι (J x *ᵥ v) := by rw [← map_add, sub_add_cancel]
    rw [this]; exact norm_add_le _ _
  have h4 : ‖ι (x' - x)‖ ≤ ρ := by rwa [show x' - x = -(x - x') by abel, map_neg, norm_neg]
  have hb := H.β0
  have h5 : β * ‖ι (J x' *ᵥ v - J x *ᵥ v)‖ ≤ 1 / 2 * ‖ι v‖ := by
    calc β * ‖ι (J x' *ᵥ v - J x *ᵥ v)‖ ≤ β * (γ * ρ * ‖ι v‖) := by
          refine mul_le_mul_of_nonneg_left (h2.trans ?_) hb.le
          gcongr
          exact H.γ0
      _ = β * γ * ρ * ‖ι v‖ := by ring
      _ ≤ 1 / 2 * ‖ι v‖ := by gcongr; exact H.small
  have h6 := mul_le_mul_of_nonneg_left h3 hb.le
  linarith

/-- and so the linear solver is asked for regular systems only -/
theorem _root_.Pressio.Spec.NewtonConvergence.RegularRoot.unit_near (hι : Function.Injective ι) (x : n → ℝ) (hx : ‖ι (x - x')‖ ≤ ρ) : IsUnit (J x).det := by
  rw [← Matrix.isUnit_iff_isUnit_det, ← Matrix.mulVec_injective_iff_isUnit]
  intro v w hvw
  have := H.inv_near x hx (v - w)
  rw [Matrix.mulVec_sub, sub_eq_zero.2 hvw, map_zero, norm_zero, mul_zero] at this
  have := norm_le_zero_iff.1 this
  rw [map_sub, sub_eq_zero] at this
  exact hι this

/-- one Newton step: quadratic -/
theorem _root_.Pressio.Spec.NewtonConvergence.RegularRoot.step (x d : n → ℝ) (hx : ‖ι (x - x')‖ ≤ ρ) (hd : J x *ᵥ d = r x) : ‖ι (x - d - x')‖ ≤ β * γ * ‖ι (x - x')‖ ^ 2 := by
  have h1 := H.inv_near x hx (x - d - x')
  have e : J x *ᵥ (x - d - x') = -(r x + J x *ᵥ (x' - x)) := by
    rw [← hd, ← Matrix.mulVec_add, ← Matrix.mulVec_neg]
    congr 1; abel
  rw [e, map_neg, norm_neg] at h1
  have := mul_le_mul_of_nonneg_left (H.taylor x hx) (by have := H.β0; positivity : 0 ≤ 2 * β)
  linarith

/-- the correction and the residual are measures of the error -/
theorem _root_.Pressio.Spec.NewtonConvergence.RegularRoot.measures (hι : Function.Injective ι) (x d : n → ℝ) (hx : ‖ι (x - x')‖ ≤ ρ) (hd : J x *ᵥ d = r x) :
    ‖ι (x - d - x')‖ ≤ 1 / 2 * ‖ι (x - x')‖ ∧ ‖ι (x - x')‖ ≤ 2 * ‖ι d‖ ∧ ‖ι d‖ ≤ 3 / 2 * ‖ι (x - x')‖ ∧ ‖ι (x - x')‖ ≤ 4 / 3 * β * ‖ι (r x)‖ ∧ ‖ι (r x)‖ ≤ 5 / 4 * Λ * ‖ι (x - x')‖ := by
  have hb := H.β0
  have hg := H.γ0
  have hn := norm_nonneg (ι (x - x'))
  have h1 : ‖ι (x - d - x')‖ ≤ 1 / 2 * ‖ι (x - x')‖ := by
    refine (H.step x d hx hd).trans ?_
    calc β * γ * ‖ι (x - x')‖ ^ 2 = β * γ * ‖ι (x - x')‖ * ‖ι (x - x')‖ := by ring
      _ ≤ β * γ * ρ * ‖ι (x - x')‖ := by gcongr
      _ ≤ 1 / 2 * ‖ι (x - x')‖ := by gcongr; exact H.small
  have e : ι d = ι (x - x') - ι (x - d - x') := by rw [← map_sub]; congr 1; abel
  have e2 : ι (x - x') = ι d + ι (x - d - x') := by rw [← map_add]; congr 1; abel
  have h2 : ‖ι d‖ ≤ ‖ι (x - x')‖ + ‖ι (x - d - x')‖ := by rw [e]; exact norm_sub_le _ _
  have h3 : ‖ι (x - x')‖ ≤ ‖ι d‖ + ‖ι (x - d - x')‖ := by
    conv_lhs => rw [e2]
    exact norm_add_le _ _
  have ht := H.taylor_root x hx
  have hq : β * (γ / 2 * ‖ι (x - x')‖ ^ 2) ≤ 1 / 4 * ‖ι (x - x')‖ := by
    calc β * (γ / 2 * ‖ι (x - x')‖ ^ 2) = β * γ * ‖ι (x - x')‖ * ‖ι (x - x')‖ / 2 := by ring
      _ ≤ β * γ * ρ * ‖ι (x - x')‖ / 2 := by gcongr
      _ ≤ 1 / 2 * ‖ι (x - x')‖ / 2 := by gcongr; exact H.small
      _ = _ := by ring
  have h4 : ‖ι (J x' *ᵥ (x - x'))‖ ≤ ‖ι (r x)‖ + ‖ι (r x - J x' *ᵥ (x - x'))‖ := by
    have : ι (J x' *ᵥ (x - x')) = ι (r x) - ι (r x - J x' *ᵥ (x - x')) := by rw [← map_sub]; congr 1; abel
    conv_lhs => rw [this]
    exact norm_sub_le _ _
  have h5 : ‖ι (r x)‖ ≤ ‖ι (J x' *ᵥ (x - x'))‖ + ‖ι (r x - J x' *ᵥ (x - x'))‖ := by
    have : ι (r x) = ι (J x' *ᵥ (x - x')) + ι (r x - J x' *ᵥ (x - x')) := by rw [← map_add]; congr 1; abel
    conv_lhs => rw [this]
    exact norm_add_le _ _
  refine ⟨h1, by linarith, by linarith, ?_, ?_⟩
  · have := mul_le_mul_of_nonneg_left (h4.trans (add_le_add_right ht _)) hb.le
    have := H.inv (x - x')
    linarith
  · have hB := H.bound (x - x')
    rcases hn.eq_or_lt with h0 | h0
    · have : x = x' := by
        have := norm_eq_zero.1 h0.symm
        rw [map_sub, sub_eq_zero] at this
        exact hι this
      subst this
      simp [H.root]
    · have h6 : 1 ≤ β * Λ := by
        have := (H.inv (x - x')).trans (mul_le_mul_of_nonneg_left hB hb.le)
        by_contra hc
        push Not at hc
        nlinarith
      have h7 : γ / 2 * ‖ι (x - x')‖ ^ 2 ≤ 1 / 4 * Λ * ‖ι (x - x')‖ := by
        have : β * (γ / 2 * ‖ι (x - x')‖ ^ 2) ≤ β * (1 / 4 * Λ * ‖ι (x - x')‖) := by nlinarith
        exact le_of_mul_le_mul_left this hb
      linarith

/-- the iterates -/
theorem _root_.Pressio.Spec.NewtonConvergence.RegularRoot.iterates (N : (n → ℝ) → n → ℝ) (hN : ∀ x, ‖ι (x - x')‖ ≤ ρ → ∃ d, J x *ᵥ d = r x ∧ N x = x - d) (x0 : n → ℝ) (h0 : ‖ι (x0 - x')‖ ≤ ρ) (k : Nat) :
    ‖ι (N^[k] x0 - x')‖ ≤ ‖ι (x0 - x')‖ * (1 / 2) ^ (2 ^ k - 1) := by
  have hb := H.β0
  have hg := H.γ0
  have hρ : 0 ≤ ρ := (norm_nonneg _).trans h0
  induction k with
  | zero => simp
  | succ k ih =>
    have hk : ‖ι (N^[k] x0 - x')‖ ≤ ρ := ih.trans ((mul_le_of_le_one_right (norm_nonneg _) (pow_le_one₀ (by norm_num) (by norm_num))).trans h0)
    obtain ⟨d, hd, hNd⟩ := hN _ hk
    rw [Function.iterate_succ_apply', hNd]
    refine (H.step _ d hk hd).trans ?_
    have hp : 2 ^ (k+1) - 1 = (2 ^ k - 1) + (2 ^ k - 1) + 1 := by
      have := Nat.one_le_two_pow (n := k)
      rw [pow_succ]; omega
    rw [hp, pow_add, pow_add, pow_one]
    set q : ℝ := (1 / 2) ^ (2 ^ k - 1)
    have hq : 0 ≤ q := by positivity
    calc β * γ * ‖ι (N^[k] x0 - x')‖ ^ 2 ≤ β * γ * (‖ι (x0 - x')‖ * q) ^ 2 := by gcongr
      _ = β * γ * ‖ι (x0 - x')‖ * (‖ι (x0 - x')‖ * (q * q)) := by ring
      _ ≤ β * γ * ρ * (‖ι (x0 - x')‖ * (q * q)) := by gcongr
      _ ≤ 1 / 2 * (‖ι (x0 - x')‖ * (q * q)) := by gcongr; exact H.small
      _ = _ := by ring

theorem _root_.Pressio.Spec.NewtonConvergence.RegularRoot.stays (N : (n → ℝ) → n → ℝ) (hN : ∀ x, ‖ι (x - x')‖ ≤ ρ → ∃ d, J x *ᵥ d = r x ∧ N x = x - d) (x0 : n → ℝ) (h0 : ‖ι (x0 - x')‖ ≤ ρ) (k : Nat) :
    ‖ι (N^[k] x0 - x')‖ ≤ ρ :=
  (H.iterates N hN x0 h0 k).trans ((mul_le_of_le_one_right (norm_nonneg _) (pow_le_one₀ (by norm_num) (by norm_num))).trans h0)

end Pressio.Lemmas.NewtonConvergence
