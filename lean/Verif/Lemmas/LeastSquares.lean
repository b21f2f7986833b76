import Verif.Lemmas.NonlinearChain
import Verif.Spec.LeastSquares
import Mathlib.Tactic.Linarith
import Mathlib.Tactic.Module
import Mathlib.Tactic.Abel

/-
  Facts about the corrections of the least-squares solvers.
-/
namespace Pressio.Lemmas.Nonlinear
set_option autoImplicit false
open Pressio Matrix
open Pressio.Model.Nonlinear (Env Cfg Reg Tag)
open Pressio.Spec.Nonlinear

variable {K m n p L : Type} [Field K] [LinearOrder K] [IsStrictOrderedRing K] [Fintype m] [Fintype n] [Fintype p]

omit [LinearOrder K] [IsStrictOrderedRing K] [Fintype p] in
/-- `u · A v = Aᵀ u · v` -/
theorem dot_mulVec_transpose (A : Matrix m n K) (u : m → K) (v : n → K) : (A *ᵥ v) ⬝ᵥ u = v ⬝ᵥ (Aᵀ *ᵥ u) := by
  rw [Matrix.mulVec_transpose, dotProduct_comm, Matrix.dotProduct_mulVec, dotProduct_comm]

omit [Fintype p] in
/-- a stationary point of the damped quadratic model minimises it -/
theorem quad_min (J : Matrix m n K) (r : m → K) (W : Matrix m m K) (hW : Wᵀ = W) (hpsd : ∀ v, 0 ≤ v ⬝ᵥ W *ᵥ v) (D : n → K) (hD : ∀ i, 0 ≤ D i) (t : K) (ht : 0 ≤ t)
    (c : n → K) (h : Jᵀ *ᵥ (W *ᵥ (J *ᵥ c + r)) + t • (fun i => D i * c i) = 0) (d : n → K) :
    (J *ᵥ c + r) ⬝ᵥ W *ᵥ (J *ᵥ c + r) + t * (c ⬝ᵥ fun i => D i * c i) ≤ (J *ᵥ d + r) ⬝ᵥ W *ᵥ (J *ᵥ d + r) + t * (d ⬝ᵥ fun i => D i * d i) := by
  obtain ⟨e, rfl⟩ : ∃ e, d = c + e := ⟨d - c, by abel⟩
  set u := J *ᵥ c + r with hu
  have h1 : J *ᵥ (c + e) + r = u + J *ᵥ e := by rw [Matrix.mulVec_add, hu]; abel
  rw [h1]
  have hsym : ∀ a b : m → K, a ⬝ᵥ W *ᵥ b = b ⬝ᵥ W *ᵥ a := by
    intro a b
    rw [dotProduct_comm, dot_mulVec_transpose, hW]
  have h2 : (u + J *ᵥ e) ⬝ᵥ W *ᵥ (u + J *ᵥ e) = u ⬝ᵥ W *ᵥ u + 2 * ((J *ᵥ e) ⬝ᵥ W *ᵥ u) + (J *ᵥ e) ⬝ᵥ W *ᵥ (J *ᵥ e) := by
    rw [Matrix.mulVec_add, add_dotProduct, dotProduct_add, dotProduct_add, hsym u (J *ᵥ e)]; ring
  have h3 : ((c + e) ⬝ᵥ fun i => D i * (c + e) i) = (c ⬝ᵥ fun i => D i * c i) + 2 * (e ⬝ᵥ fun i => D i * c i) + (e ⬝ᵥ fun i => D i * e i) := by
    simp only [dotProduct, Pi.add_apply, Finset.mul_sum, ← Finset.sum_add_distrib]
    exact Finset.sum_congr rfl (fun i _ => by ring)
  have h4 : (J *ᵥ e) ⬝ᵥ W *ᵥ u + t * (e ⬝ᵥ fun i => D i * c i) = 0 := by
    rw [dot_mulVec_transpose]
    have := congrArg (fun v => e ⬝ᵥ v) h
    simp only [dotProduct_add, dotProduct_smul, dotProduct_zero, smul_eq_mul] at this
    exact this
  have h5 : 0 ≤ e ⬝ᵥ fun i => D i * e i := by
    refine Finset.sum_nonneg (fun i _ => ?_)
    have := mul_nonneg (hD i) (mul_self_nonneg (e i))
    nlinarith
  have h6 := hpsd (J *ᵥ e)
  rw [h2, h3]
  have h7 := mul_nonneg ht h5
  nlinarith

omit [Fintype p] in
theorem dot_self_nonneg (v : m → K) : 0 ≤ v ⬝ᵥ v := Finset.sum_nonneg (fun i _ => mul_self_nonneg (v i))

/-- The correction of each method, negated as the code does, is stationary for its model; hence it is a minimiser. -/
theorem correction_minimises [DecidableEq m] [DecidableEq n] (env : Env K m n p L) (cfg : Cfg K) (sys : Sys K m n) (tag : Tag) (rule : Rule K) (hinner : InnerExact env tag)
    (x : n → K) (r : m → K) (J : Matrix m n K) (damp : K) (hd : tag = .lm → 0 ≤ damp) (inn : (n → K) × (n → K) × L) (c b : n → K) (l : L)
    (h : (lsProblem env cfg sys tag rule).corr x r J damp inn = .ok () (c, b, l)) (d : n → K) :
    linModel env tag r J c + (if tag = .lm then damp * (c ⬝ᵥ fun i => (Jᵀ * J) i i * c i) else 0) ≤
      linModel env tag r J d + (if tag = .lm then damp * (d ⬝ᵥ fun i => (Jᵀ * J) i i * d i) else 0) := by
  have hone : ∀ v : m → K, 0 ≤ v ⬝ᵥ (1 : Matrix m m K) *ᵥ v := by intro v; rw [Matrix.one_mulVec]; exact dot_self_nonneg v
  have hneg : ∀ f : Prog ((n → K) × L) Unit, negated f inn = .ok () (c, b, l) → f (inn.1, inn.2.2) = .ok () (-c, l) := by
    intro f hf
    obtain ⟨c0, b0, l0⟩ := inn
    unfold negated at hf
    rcases hf' : f (c0, l0) with ⟨⟨⟩, c1, l1⟩ | ⟨h', c1, l1⟩
    · simp only [hf'] at hf; cases hf; simp [hf']
    · simp only [hf'] at hf; cases hf
  cases tag with
  | gn =>
    have h' := hinner _ _ _ _ _ (hneg _ h)
    have hst : Jᵀ *ᵥ ((1 : Matrix m m K) *ᵥ (J *ᵥ c + r)) + (0 : K) • (fun i => (0 : K) * c i) = 0 := by
      have h' : (Jᵀ * J) *ᵥ (-c) = Jᵀ *ᵥ r := h'
      rw [Matrix.one_mulVec, zero_smul, add_zero, Matrix.mulVec_add, ← h', ← Matrix.mulVec_mulVec, Matrix.mulVec_neg, Matrix.mulVec_neg]; abel
    have := quad_min J r 1 Matrix.transpose_one hone (fun _ => 0) (fun _ => le_rfl) 0 le_rfl c hst d
    simpa [linModel] using this
  | wgn =>
    obtain ⟨hl, W, hs, hp, hr, hJ⟩ := hinner
    have h' := hl _ _ _ _ _ (hneg _ h)
    have hst : Jᵀ *ᵥ (W *ᵥ (J *ᵥ c + r)) + (0 : K) • (fun i => (0 : K) * c i) = 0 := by
      have h' : (Jᵀ * env.wJ J) *ᵥ (-c) = Jᵀ *ᵥ env.wR r := h'
      rw [hr, hJ] at h'
      rw [zero_smul, add_zero, Matrix.mulVec_add, Matrix.mulVec_add, ← h', ← Matrix.mulVec_mulVec, ← Matrix.mulVec_mulVec, Matrix.mulVec_neg, Matrix.mulVec_neg,
        Matrix.mulVec_neg]; abel
    have := quad_min J r W hs hp (fun _ => 0) (fun _ => le_rfl) 0 le_rfl c hst d
    simpa [linModel, hr] using this
  | cwgn =>
    obtain ⟨hl, W, hr, hJ⟩ := hinner
    have h' := hl _ _ _ _ _ (hneg _ h)
    have hsq : ∀ v : m → K, (W *ᵥ v) ⬝ᵥ (W *ᵥ v) = v ⬝ᵥ (Wᵀ * W) *ᵥ v := by
      intro v; rw [dot_mulVec_transpose, Matrix.mulVec_mulVec]
    have hst : Jᵀ *ᵥ ((Wᵀ * W) *ᵥ (J *ᵥ c + r)) + (0 : K) • (fun i => (0 : K) * c i) = 0 := by
      have h' : ((env.cwJ J)ᵀ * env.cwJ J) *ᵥ (-c) = (env.cwJ J)ᵀ *ᵥ env.cwR r := h'
      rw [hr, hJ, Matrix.transpose_mul] at h'
      have e1 : Jᵀ *ᵥ ((Wᵀ * W) *ᵥ r) = (Jᵀ * Wᵀ) *ᵥ (W *ᵥ r) := by simp only [Matrix.mulVec_mulVec, Matrix.mul_assoc]
      have e2 : Jᵀ *ᵥ ((Wᵀ * W) *ᵥ (J *ᵥ c)) = (Jᵀ * Wᵀ * (W * J)) *ᵥ c := by simp only [Matrix.mulVec_mulVec, Matrix.mul_assoc]
      rw [zero_smul, add_zero, Matrix.mulVec_add, Matrix.mulVec_add, e1, e2, ← h', Matrix.mulVec_neg]; abel
    have := quad_min J r (Wᵀ * W) (by simp) (fun v => by rw [← hsq]; exact dot_self_nonneg _) (fun _ => 0) (fun _ => le_rfl) 0 le_rfl c hst d
    simpa [linModel, hr, hsq] using this
  | lm =>
    have h' := hinner _ _ _ _ _ (hneg _ h)
    have hst : Jᵀ *ᵥ ((1 : Matrix m m K) *ᵥ (J *ᵥ c + r)) + damp • (fun i => (Jᵀ * J) i i * c i) = 0 := by
      have h' : (Jᵀ * J + damp • Matrix.diagonal (Jᵀ * J).diag) *ᵥ (-c) = Jᵀ *ᵥ r := h'
      have e : (Matrix.diagonal (Jᵀ * J).diag) *ᵥ c = fun i => (Jᵀ * J) i i * c i := by
        funext i; rw [Matrix.mulVec_diagonal]; rfl
      rw [Matrix.one_mulVec, Matrix.mulVec_add, ← h', Matrix.mulVec_neg, Matrix.add_mulVec, Matrix.smul_mulVec, e, Matrix.mulVec_mulVec]; abel
    have hD : ∀ i, 0 ≤ (Jᵀ * J) i i := by
      intro i
      rw [Matrix.mul_apply]
      exact Finset.sum_nonneg (fun j _ => by simpa [Matrix.transpose_apply] using mul_self_nonneg (J j i))
    have := quad_min J r 1 Matrix.transpose_one hone (fun i => (Jᵀ * J) i i) hD damp (hd rfl) c hst d
    simpa [linModel] using this
  | gnQr =>
    have h : qrNegated env r J inn = .ok () (c, b, l) := h
    obtain ⟨c0, b0, l0⟩ := inn
    unfold qrNegated at h
    rcases ht : env.qrThin J l0 with ⟨⟨⟩, l1⟩ | ⟨h', l1⟩
    · simp only [ht] at h
      obtain ⟨Q, R, hQR, hQ, hrest⟩ := hinner _ _ _ ht
      rcases ha : env.qrApplyQT r (b0, l1) with ⟨⟨⟩, b2, l2⟩ | ⟨h', b2, l2⟩
      · simp only [ha] at h
        obtain ⟨hb, hsolve⟩ := hrest _ _ _ _ ha
        unfold negated at h
        rcases hs : env.qrSolve b2 (c0, l2) with ⟨⟨⟩, c3, l3⟩ | ⟨h', c3, l3⟩
        · simp only [hs] at h
          cases h
          have hR := hsolve _ _ _ hs
          have hst : Jᵀ *ᵥ ((1 : Matrix m m K) *ᵥ (J *ᵥ (-c3) + r)) + (0 : K) • (fun i => (0 : K) * (-c3) i) = 0 := by
            rw [Matrix.one_mulVec, zero_smul, add_zero, Matrix.mulVec_add, hQR, Matrix.transpose_mul]
            have e1 : (Rᵀ * Qᵀ) *ᵥ ((Q * R) *ᵥ (-c3)) = -(Rᵀ *ᵥ (R *ᵥ c3)) := by
              rw [Matrix.mulVec_mulVec, show Rᵀ * Qᵀ * (Q * R) = Rᵀ * (Qᵀ * Q) * R by simp only [Matrix.mul_assoc], hQ, Matrix.mul_one, Matrix.mulVec_neg,
                Matrix.mulVec_mulVec]
            rw [e1, hR, hb, ← Matrix.mulVec_mulVec]; abel
          have := quad_min J r 1 Matrix.transpose_one hone (fun _ => 0) (fun _ => le_rfl) 0 le_rfl (-c3) hst d
          simpa [linModel] using this
        · simp only [hs] at h; cases h
      · simp only [ha] at h; cases h
    · simp only [ht] at h; cases h

/-- the rule of an accepted option -/
theorem ls_rule {cfg : Cfg K} {tag : Tag} (h : LsOption cfg tag) : ∃ rule, lsRule cfg tag = .ok rule ∧
    (cfg.update = .Standard → rule = .standard) ∧ (cfg.update = .BacktrackStrictlyDecreasingObjective ∨ cfg.update = .Armijo → rule = .backtrack (zetaOf cfg)) ∧
    (cfg.update = .LMSchedule1 → rule = .lm1) ∧ (cfg.update = .LMSchedule2 → rule = .lm2) := by
  unfold lsRule zetaOf
  rcases h with h | ⟨h, hp⟩ | ⟨ht, h⟩
  · rw [h]; exact ⟨_, rfl, by simp⟩
  · rcases hq : cfg.params with _ | _ | ⟨z, zs⟩
    · rcases h with h | h <;> rw [h] <;> exact ⟨_, rfl, by simp⟩
    · exact absurd hq hp
    · rcases h with h | h <;> rw [h] <;> exact ⟨_, rfl, by simp⟩
  · subst ht
    rcases h with h | h <;> rw [h] <;> exact ⟨_, rfl, by simp⟩

theorem ls_spec [DecidableEq n] (env : Env K m n p L) (cfg : Cfg K) (sys : Sys K m n) (tag : Tag) (st : St K n L) {rule : Rule K} (hr : lsRule cfg tag = .ok rule) :
    Spec.Nonlinear.lsSolve env cfg sys tag st = iterate sys (lsProblem env cfg sys tag rule) cfg.maxIters.toNat 1 none (lsStart tag rule st) := by
  unfold Spec.Nonlinear.lsSolve; rw [hr]

end Pressio.Lemmas.Nonlinear
