import Verif.Lemmas.NewtonConvergence

/-
  Newton's method in terms of residuals: quadratic decrease, without reference to a root.
-/
namespace Pressio.Lemmas.NewtonConvergence
set_option autoImplicit false
open Matrix Pressio.Spec.NewtonConvergence Pressio.Lemmas.Numerics

variable {E n : Type} [NormedAddCommGroup E] [NormedSpace ℝ E] [Fintype n] [DecidableEq n]
variable {ι : (n → ℝ) →ₗ[ℝ] E} {r : (n → ℝ) → n → ℝ} {J : (n → ℝ) → Matrix n n ℝ} {β γ : ℝ}

theorem half_pow_le (k : Nat) : (1 / 2 : ℝ) ^ (2 ^ k - 1) ≤ (1 / 2) ^ k :=
  pow_le_pow_of_le_one (by norm_num) (by norm_num) (by have := Nat.lt_two_pow_self (n := k); omega)

/-- the iterates from `x0`: the residuals decrease quadratically and the distance to `x0` stays below `2 β ρ` -/
theorem residual_iterates (x0 : n → ℝ) (ρ : ℝ) (h0 : ‖ι (r x0)‖ ≤ ρ) (hβ : 0 ≤ β) (hγ : 0 ≤ γ) (hsmall : β ^ 2 * γ * ρ ≤ 1)
    (hj : ∀ x, ‖ι (x - x0)‖ ≤ 2 * β * ρ → IsJacobian r J x) (hinv : ∀ x, ‖ι (x - x0)‖ ≤ 2 * β * ρ → ∀ v, ‖ι v‖ ≤ β * ‖ι (J x *ᵥ v)‖)
    (hl : ∀ x y v, ‖ι (x - x0)‖ ≤ 2 * β * ρ → ‖ι (y - x0)‖ ≤ 2 * β * ρ → ‖ι (J x *ᵥ v - J y *ᵥ v)‖ ≤ γ * ‖ι (x - y)‖ * ‖ι v‖)
    (N : (n → ℝ) → n → ℝ) (hN : ∀ x, ‖ι (x - x0)‖ ≤ 2 * β * ρ → ∃ d, J x *ᵥ d = r x ∧ N x = x - d) (k : Nat) :
    ‖ι (N^[k] x0 - x0)‖ ≤ 2 * β * ρ * (1 - (1 / 2) ^ k) ∧ ‖ι (r (N^[k] x0))‖ ≤ ρ * (1 / 2) ^ (2 ^ k - 1) := by
  have hρ : 0 ≤ ρ := (norm_nonneg _).trans h0
  induction k with
  | zero => simpa using h0
  | succ k ih =>
    obtain ⟨i1, i2⟩ := ih
    set x := N^[k] x0 with hx
    have hpk : (0:ℝ) < (1 / 2) ^ k := by positivity
    have hball : ‖ι (x - x0)‖ ≤ 2 * β * ρ := i1.trans (mul_le_of_le_one_right (by positivity) (by linarith))
    obtain ⟨d, hd, hNd⟩ := hN x hball
    rw [Function.iterate_succ_apply', ← hx, hNd]
    have hdn : ‖ι d‖ ≤ β * ‖ι (r x)‖ := by rw [← hd]; exact hinv x hball d
    have hdk : ‖ι d‖ ≤ β * (ρ * (1 / 2) ^ k) := hdn.trans (by have := i2.trans (mul_le_mul_of_nonneg_left (half_pow_le k) hρ); gcongr)
    have hseg : ∀ s ∈ Set.Icc (0:ℝ) 1, ‖ι (x + s • (-d) - x0)‖ ≤ 2 * β * ρ * (1 - (1 / 2) ^ (k + 1)) := by
      intro s hs
      have e : ι (x + s • (-d) - x0) = ι (x - x0) - s • ι d := by rw [← map_smul, ← map_sub]; congr 1; rw [smul_neg]; abel
      rw [e]
      refine (norm_sub_le _ _).trans ?_
      rw [norm_smul, Real.norm_eq_abs, abs_of_nonneg hs.1]
      have h1 : s * ‖ι d‖ ≤ β * (ρ * (1 / 2) ^ k) := (mul_le_of_le_one_left (norm_nonneg _) hs.2).trans hdk
      have h2 : 2 * β * ρ * (1 - (1 / 2) ^ (k + 1)) = 2 * β * ρ * (1 - (1 / 2) ^ k) + β * (ρ * (1 / 2) ^ k) := by rw [pow_succ]; ring
      rw [h2]; linarith
    have hseg' : ∀ s ∈ Set.Icc (0:ℝ) 1, ‖ι (x + s • (-d) - x0)‖ ≤ 2 * β * ρ := fun s hs =>
      (hseg s hs).trans (mul_le_of_le_one_right (by positivity) (by have : (0:ℝ) < (1 / 2) ^ (k + 1) := by positivity
                                                                    linarith))
    refine ⟨by simpa [sub_eq_add_neg] using hseg 1 ⟨by norm_num, le_rfl⟩, ?_⟩
    have ht := taylor_jac (ι := ι) (r := r) (J := J) (γ := γ) x (-d) (fun s hs => hj _ (hseg' s hs)) (fun s hs => by
      have := hl (x + s • (-d)) x (-d) (hseg' s hs) hball
      rwa [add_sub_cancel_left] at this)
    rw [Matrix.mulVec_neg, hd, sub_neg_eq_add, sub_add_cancel, ← sub_eq_add_neg, map_neg, norm_neg] at ht
    have hp : 2 ^ (k+1) - 1 = (2 ^ k - 1) + (2 ^ k - 1) + 1 := by
      have := Nat.one_le_two_pow (n := k)
      rw [pow_succ]; omega
    rw [hp, pow_add, pow_add, pow_one]
    set q : ℝ := (1 / 2) ^ (2 ^ k - 1)
    have hq : 0 ≤ q := by positivity
    have hdq : ‖ι d‖ ≤ β * (ρ * q) := hdn.trans (by gcongr)
    calc ‖ι (r (x - d))‖ ≤ γ / 2 * ‖ι d‖ ^ 2 := ht
      _ ≤ γ / 2 * (β * (ρ * q)) ^ 2 := by gcongr
      _ = (β ^ 2 * γ * ρ) * (ρ * (q * q * (1 / 2))) := by ring
      _ ≤ 1 * (ρ * (q * q * (1 / 2))) := by gcongr
      _ = _ := by ring

end Pressio.Lemmas.NewtonConvergence
