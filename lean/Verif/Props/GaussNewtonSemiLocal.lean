import Verif.Lemmas.GaussNewtonSemiLocal
import Verif.Props.GaussNewtonConvergence

/-
  C86, continued: Gauss-Newton from an initial guess with a small residual; no solution is assumed to exist.
-/
namespace Pressio.Props
set_option autoImplicit false
set_option linter.unusedSectionVars false
open Pressio Matrix Pressio.Model.Nonlinear Pressio.Spec.Nonlinear Pressio.Spec.NewtonConvergence Pressio.Spec.GaussNewtonConvergence Pressio.Lemmas.GaussNewtonConvergence Pressio.Lemmas.GaussNewtonSemiLocal
open Pressio.Spec.Reduced (eu)
open scoped InnerProductSpace

section
variable {E m n p L : Type} [NormedAddCommGroup E] [InnerProductSpace ℝ E] [Fintype m] [Fintype n] [DecidableEq n] [Fintype p]

/-- at a regular solution the gradient vanishes -/
theorem grad_of_fit {env : Env ℝ m n p L} {tag : Tag} {ι : (m → ℝ) →ₗ[ℝ] E} (hmin : Minimises env tag ι) {r : (n → ℝ) → m → ℝ} {J : (n → ℝ) → Matrix m n ℝ} {x' : n → ℝ} {β Λ γ ρ : ℝ}
    (H : RegularFit ι r J x' β Λ γ ρ) : gradOf env tag (r x') (J x') = 0 := by
  have := hmin.grad (r x') (J x') (gradOf env tag (r x') (J x'))
  rw [H.stationary] at this
  exact dotProduct_self_eq_zero.1 this

/-- **C86, from a small residual.** Gauss-Newton (normal equations, weighted or not), inner solver exact on positive definite matrices, any of the criteria on correction and gradient.  If the residual at the initial guess is at
    most `σ`, and within the distance `8 β σ` the Jacobian has full rank (constant `β`), is bounded (by `Λ`) and Lipschitz (constant `γ`) with `16 β² γ σ ≤ 1`, then the residual has a minimiser over this ball and `solve`
    converges to it. -/
theorem C86_from_small_residual (ι : (m → ℝ) →ₗ[ℝ] E) (env : Env ℝ m n p L) (hM : ∀ v, env.normM v = ‖eu m v‖) (hN : ∀ v, env.normN v = ‖eu n v‖) (tag : Tag) (htag : tag = .gn ∨ tag = .wgn ∨ tag = .cwgn)
    (hmin : Minimises env tag ι) (cfg : Cfg ℝ) (r : (n → ℝ) → m → ℝ) (J : (n → ℝ) → Matrix m n ℝ) (sol : Matrix n n ℝ → (n → ℝ) → n → ℝ) (tick : L → L)
    (hlin : ∀ A b c l, env.lin A b (c, l) = .ok () (sol A b, tick l)) (hsol : ∀ A b, A.PosDef → A *ᵥ sol A b = b) (hupd : cfg.update = .Standard) (hmax : cfg.maxIters < int32Max) (s : Reg ℝ m n p L) (hs : LsObj s)
    (β Λ γ σ : ℝ) (hβ : 0 < β) (hΛ : 0 ≤ Λ) (hγ : 0 ≤ γ) (hσ : ‖ι (r s.x)‖ ≤ σ)
    (hjac : ∀ x, ‖eu n (x - s.x)‖ ≤ 8 * β * σ → IsJacobian r J x) (hinv : ∀ x, ‖eu n (x - s.x)‖ ≤ 8 * β * σ → ∀ v, ‖eu n v‖ ≤ β * ‖ι (J x *ᵥ v)‖)
    (hbound : ∀ x, ‖eu n (x - s.x)‖ ≤ 8 * β * σ → ∀ v, ‖ι (J x *ᵥ v)‖ ≤ Λ * ‖eu n v‖)
    (hlip : ∀ x y, ‖eu n (x - s.x)‖ ≤ 8 * β * σ → ‖eu n (y - s.x)‖ ≤ 8 * β * σ → ∀ v, ‖ι (J x *ᵥ v - J y *ᵥ v)‖ ≤ γ * ‖eu n (x - y)‖ * ‖eu n v‖)
    (hsmall : 16 * β ^ 2 * γ * σ ≤ 1) (hrec : ∀ a, recognises cfg.stop tag a) (hrel : relative cfg.stop = true → gradOf env tag (r s.x) (J s.x) ≠ 0)
    (k : Nat) (hk : (k : Int) < cfg.maxIters) (hen : Enough cfg.stop cfg.tol β Λ (4 * β * σ) ((1 / 2) ^ k)) :
    ∃ x', ‖eu n (x' - s.x)‖ ≤ 8 / 3 * β * σ ∧ (∀ z, ‖eu n (z - s.x)‖ ≤ 8 * β * σ → ‖ι (r x')‖ ≤ ‖ι (r z)‖) ∧ (∀ v, ⟪ι (r x'), ι (J x' *ᵥ v)⟫_ℝ = 0) ∧
      ConvergesTo ι cfg r J x' β Λ γ k s (runLs env cfg (Sys.ofFun r J) tag s) := by
  obtain ⟨x', h1, h2, H⟩ := exists_fit s.x β Λ γ σ hβ hΛ hγ hσ hjac hinv hbound hlip hsmall
  have hσ0 : 0 ≤ σ := (norm_nonneg _).trans hσ
  have hβσ : 0 ≤ β * σ := by positivity
  refine ⟨x', h1, h2, H.stationary, C86_gauss_newton_converges ι env hM hN tag htag hmin cfg r J sol tick hlin hsol hupd hmax s hs x' β Λ γ (4 * β * σ) H ?_ (hrec _) (fun h e => hrel h ?_) k hk
    (enough_mono _ _ _ _ _ _ _ hβ.le hΛ (by positivity) (reduction_nonneg _ _) (reduction_le _ _) hen)⟩
  · rw [← neg_sub, map_neg, norm_neg]
    linarith
  · rw [e]; exact grad_of_fit hmin H

/-- **C86, from a small residual, QR.** -/
theorem C86_qr_from_small_residual [DecidableEq m] (env : Env ℝ m n p L) (hM : ∀ v, env.normM v = ‖eu m v‖) (hN : ∀ v, env.normN v = ‖eu n v‖)
    (cfg : Cfg ℝ) (r : (n → ℝ) → m → ℝ) (J : (n → ℝ) → Matrix m n ℝ) (fact : Matrix m n ℝ → L) (qt : Matrix m n ℝ → (m → ℝ) → n → ℝ)
    (back : Matrix m n ℝ → (n → ℝ) → n → ℝ) (hthin : ∀ A l, env.qrThin A l = .ok () (fact A)) (hqt : ∀ A v b, env.qrApplyQT v (b, fact A) = .ok () (qt A v, fact A))
    (hback : ∀ A b c, env.qrSolve b (c, fact A) = .ok () (back A b, fact A))
    (hqr : ∀ A : Matrix m n ℝ, (∀ v, A *ᵥ v = 0 → v = 0) → ∃ (Q : Matrix m n ℝ) (R : Matrix n n ℝ), A = Q * R ∧ Qᵀ * Q = 1 ∧ (∀ v, qt A v = Qᵀ *ᵥ v) ∧ ∀ b, R *ᵥ back A b = b)
    (hupd : cfg.update = .Standard) (hmax : cfg.maxIters < int32Max) (s : Reg ℝ m n p L) (hs : LsObj s)
    (β Λ γ σ : ℝ) (hβ : 0 < β) (hΛ : 0 ≤ Λ) (hγ : 0 ≤ γ) (hσ : ‖eu m (r s.x)‖ ≤ σ)
    (hjac : ∀ x, ‖eu n (x - s.x)‖ ≤ 8 * β * σ → IsJacobian r J x) (hinv : ∀ x, ‖eu n (x - s.x)‖ ≤ 8 * β * σ → ∀ v, ‖eu n v‖ ≤ β * ‖eu m (J x *ᵥ v)‖)
    (hbound : ∀ x, ‖eu n (x - s.x)‖ ≤ 8 * β * σ → ∀ v, ‖eu m (J x *ᵥ v)‖ ≤ Λ * ‖eu n v‖)
    (hlip : ∀ x y, ‖eu n (x - s.x)‖ ≤ 8 * β * σ → ‖eu n (y - s.x)‖ ≤ 8 * β * σ → ∀ v, ‖eu m (J x *ᵥ v - J y *ᵥ v)‖ ≤ γ * ‖eu n (x - y)‖ * ‖eu n v‖)
    (hsmall : 16 * β ^ 2 * γ * σ ≤ 1) (hrec : ∀ a, recognises cfg.stop .gnQr a) (hrel : relative cfg.stop = true → (J s.x)ᵀ *ᵥ r s.x ≠ 0)
    (k : Nat) (hk : (k : Int) < cfg.maxIters) (hen : Enough cfg.stop cfg.tol β Λ (4 * β * σ) ((1 / 2) ^ k)) :
    ∃ x', ‖eu n (x' - s.x)‖ ≤ 8 / 3 * β * σ ∧ (∀ z, ‖eu n (z - s.x)‖ ≤ 8 * β * σ → ‖eu m (r x')‖ ≤ ‖eu m (r z)‖) ∧ (∀ v, ⟪eu m (r x'), eu m (J x' *ᵥ v)⟫_ℝ = 0) ∧
      ConvergesTo (eu m) cfg r J x' β Λ γ k s (runLs env cfg (Sys.ofFun r J) .gnQr s) := by
  obtain ⟨x', h1, h2, H⟩ := exists_fit s.x β Λ γ σ hβ hΛ hγ hσ hjac hinv hbound hlip hsmall
  have hσ0 : 0 ≤ σ := (norm_nonneg _).trans hσ
  have hβσ : 0 ≤ β * σ := by positivity
  refine ⟨x', h1, h2, H.stationary, C86_gauss_newton_qr_converges env hM hN cfg r J fact qt back hthin hqt hback hqr hupd hmax s hs x' β Λ γ (4 * β * σ) H ?_ (hrec _) (fun h e => hrel h ?_) k hk
    (enough_mono _ _ _ _ _ _ _ hβ.le hΛ (by positivity) (reduction_nonneg _ _) (reduction_le _ _) hen)⟩
  · rw [← neg_sub, map_neg, norm_neg]
    linarith
  · rw [e]; exact grad_of_fit (C86_minimises_plain env hM .gnQr (.inr rfl)) H

end

section Examples

theorem bowl_start : ‖eu (Fin 2) (bowlRes (1 / 50) fun _ => 1)‖ ≤ 29 / 20 := by
  refine eu_two_le _ _ _ (by norm_num) ?_
  norm_num

theorem bowl_inv (a : ℝ) (x v : Unit → ℝ) : ‖eu Unit v‖ ≤ 1 * ‖eu (Fin 2) (bowlJac a x *ᵥ v)‖ := by
  rw [eu_unit, bowl_mulVec, one_mul]
  exact le_eu_two _ _ _ (abs_nonneg _) (by rw [sq_abs]; nlinarith [sq_nonneg (2 * a * x () * v ())])

theorem bowl_bound (x : Unit → ℝ) (hx : ‖eu Unit (x - fun _ => 1)‖ ≤ 8 * 1 * (29 / 20)) (v : Unit → ℝ) : ‖eu (Fin 2) (bowlJac (1 / 50) x *ᵥ v)‖ ≤ 2 * ‖eu Unit v‖ := by
  rw [eu_unit, bowl_mulVec]
  rw [eu_unit] at hx
  have h := abs_le.1 hx
  simp only [Pi.sub_apply] at h
  refine eu_two_le _ _ _ (by positivity) ?_
  rw [mul_pow 2 |v ()|, sq_abs]
  have h2 : x () ^ 2 ≤ 400 := by nlinarith [h.1, h.2]
  nlinarith [mul_le_mul_of_nonneg_right h2 (sq_nonneg (v ()))]

theorem bowl_lip (x y v : Unit → ℝ) : ‖eu (Fin 2) (bowlJac (1 / 50) x *ᵥ v - bowlJac (1 / 50) y *ᵥ v)‖ ≤ 1 / 25 * ‖eu Unit (x - y)‖ * ‖eu Unit v‖ := by
  have e : bowlJac (1 / 50) x *ᵥ v - bowlJac (1 / 50) y *ᵥ v = ![0, 1 / 25 * ((x () - y ()) * v ())] := by
    rw [bowl_mulVec, bowl_mulVec]; funext i; fin_cases i <;> simp <;> ring
  rw [e, eu_unit, eu_unit, Pi.sub_apply]
  refine eu_two_le _ _ _ (by positivity) ?_
  simp only [mul_pow, sq_abs]
  nlinarith

/-- Residual `(x, 1 + x²/50)`, from `1`, where it is about as large as at its minimiser: with the default criterion and tolerance, at most 25 evaluations -/
example := C86_from_small_residual (eu (Fin 2)) envF (fun v => rfl) (fun v => rfl) .gn (.inl rfl) (C86_minimises_plain envF (fun _ => rfl) .gn (.inl rfl))
    ⟨100, .WhenAbsolutel2NormOfCorrectionBelowTolerance, 1 / 10 ^ 6, .Standard, none⟩ (bowlRes (1 / 50)) (bowlJac (1 / 50)) (fun A b _ => b () / A () ()) id (fun _ _ _ _ => rfl) envF_exact rfl (by simp [int32Max])
    { regF with x := fun _ => 1 } (.created _ rfl) 1 2 (1 / 25) (29 / 20) (by norm_num) (by norm_num) (by norm_num) bowl_start (fun x _ => bowl_isJacobian _ x) (fun x _ => bowl_inv _ x) bowl_bound (fun x y _ _ => bowl_lip x y)
    (by norm_num) (fun a => by simp [recognises]) (by simp [relative]) 24 (by norm_num) (by norm_num [Enough])

example := C86_qr_from_small_residual envQ (fun v => rfl) (fun v => rfl)
    ⟨100, .WhenAbsolutel2NormOfCorrectionBelowTolerance, 1 / 10 ^ 6, .Standard, none⟩ (bowlRes (1 / 50)) (bowlJac (1 / 50)) id (fun A v _ => (∑ i, A i () * v i) / colLen A) (fun A b _ => b () / colLen A) (fun _ _ => rfl) (fun _ _ _ => rfl)
    (fun _ _ _ => rfl) envQ_exact rfl (by simp [int32Max])
    { regQ with x := fun _ => 1 } (.created _ rfl) 1 2 (1 / 25) (29 / 20) (by norm_num) (by norm_num) (by norm_num) bowl_start (fun x _ => bowl_isJacobian _ x) (fun x _ => bowl_inv _ x) bowl_bound (fun x y _ _ => bowl_lip x y)
    (by norm_num) (fun a => by simp [recognises]) (by simp [relative]) 24 (by norm_num) (by norm_num [Enough])

end Examples

end Pressio.Props
