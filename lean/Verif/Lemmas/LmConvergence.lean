import Verif.Props.LevenbergMarquardt
import Verif.Spec.LmConvergence
import Mathlib.Analysis.Calculus.MeanValue
import Mathlib.Analysis.Calculus.ContDiff.Operations
import Mathlib.Analysis.InnerProductSpace.Calculus
import Mathlib.Algebra.Order.Field.Pi
import Verif.Lemmas.GaussNewtonConvergence
import Mathlib.Topology.Order.MonotoneConvergence
import Mathlib.Topology.Order.LiminfLimsup
import Mathlib.Analysis.SpecificLimits.Basic
import Mathlib.Topology.Algebra.Order.LiminfLimsup

/-
  Levenberg-Marquardt from any initial guess: the damping schedules, and one step.
-/
namespace Pressio.Lemmas.LmConvergence
set_option autoImplicit false
set_option linter.unusedSectionVars false
open Matrix Pressio.Model.Nonlinear Pressio.Spec.Nonlinear Pressio.Spec.LevenbergMarquardt Pressio.Lemmas.GaussNewtonConvergence Pressio.Lemmas.Nonlinear Pressio.Props
open Pressio.Spec.Reduced (eu)
open Pressio.Spec.LmConvergence Pressio.Spec.NewtonConvergence

/-! ### The schedules -/

/-- a nonnegative quantity that never grows drops by a fixed amount only finitely often -/
theorem finitely_many_drops (f : ℕ → ℝ) (h0 : ∀ k, 0 ≤ f k) (h1 : ∀ k, f (k + 1) ≤ f k) (κ : ℝ) (hκ : 0 < κ) : ∃ K, ∀ k ≥ K, f k - f (k + 1) < κ := by
  have ht := tendsto_atTop_ciInf (antitone_nat_of_succ_le h1) ⟨0, by rintro _ ⟨k, rfl⟩; exact h0 k⟩
  have hd : Filter.Tendsto (fun k => f k - f (k + 1)) Filter.atTop (nhds 0) := by
    have := ht.sub (ht.comp (Filter.tendsto_add_atTop_nat 1))
    simpa using this
  have := hd.eventually (gt_mem_nhds hκ)
  obtain ⟨K, hK⟩ := Filter.eventually_atTop.1 this
  exact ⟨K, hK⟩

/-- growth by a fixed factor passes every bound -/
theorem growth_unbounded (μ : ℕ → ℝ) (K : ℕ) (a M : ℝ) (ha : 1 < a) (h0 : 0 < μ K) (h1 : ∀ k ≥ K, a * μ k ≤ μ (k + 1)) : ∃ k ≥ K, M < μ k := by
  have hpow : ∀ j, a ^ j * μ K ≤ μ (K + j) := by
    intro j
    induction j with
    | zero => simp
    | succ j ih =>
      have := h1 (K + j) (by omega)
      calc a ^ (j + 1) * μ K = a * (a ^ j * μ K) := by ring
        _ ≤ a * μ (K + j) := by gcongr
        _ ≤ _ := this
  obtain ⟨j, hj⟩ := pow_unbounded_of_one_lt (M / μ K) ha
  refine ⟨K + j, by omega, ?_⟩
  calc M = M / μ K * μ K := by field_simp
    _ < a ^ j * μ K := by gcongr
    _ ≤ _ := hpow j

/-- Schedule 1 cannot go on forever: `q` is the gain ratio, `w` half the square of the linearised change. -/
theorem schedule1_ends (f μ nu q w : ℕ → ℝ) (μ' κ : ℝ) (hμ' : 0 < μ') (hκ : 0 < κ) (hf : ∀ k, 0 ≤ f k) (hμ : ∀ k, 0 < μ k) (hnu : ∀ k, 2 ≤ nu k) (hw : ∀ k, 0 < w k)
    (hacc : ∀ k, 0 < q k → f (k + 1) = f k - q k * w k ∧ μ (k + 1) = μ k * max (1 / 3) (1 - (2 * q k - 1) ^ 3))
    (hrej : ∀ k, q k ≤ 0 → f (k + 1) = f k ∧ μ (k + 1) = μ k * nu k)
    (hbig : ∀ k, μ' ≤ μ k → 2 ≤ q k) (hlow : ∀ k, μ k ≤ 3 * μ' → κ ≤ w k) : False := by
  have hanti : ∀ k, f (k + 1) ≤ f k := fun k => by
    rcases lt_or_ge 0 (q k) with h | h
    · rw [(hacc k h).1]; nlinarith [hw k, mul_pos h (hw k)]
    · rw [(hrej k h).1]
  obtain ⟨K, hK⟩ := finitely_many_drops f hf hanti (κ / 4) (by positivity)
  -- after `K` no iteration is good
  have hgood : ∀ k ≥ K, 1 / 4 ≤ q k → 3 * μ' < μ k := fun k hk hq => by
    by_contra hle
    have hd := hK k hk
    rw [(hacc k (by linarith)).1] at hd
    have := hlow k (not_lt.1 hle)
    nlinarith [hw k]
  have hthird : ∀ k, μ' ≤ μ k → μ (k + 1) = μ k / 3 := fun k hk => by
    have hq := hbig k hk
    rw [(hacc k (by linarith)).2, max_eq_left]
    · ring
    · have : (27:ℝ) ≤ (2 * q k - 1) ^ 3 := by
        calc (27:ℝ) = 3 ^ 3 := by norm_num
          _ ≤ _ := by gcongr; linarith
      linarith
  have hup : ∀ k ≥ K, ¬ 3 * μ' < μ k := by
    intro k hk hlt
    have hall : ∀ j, 3 * μ' < μ (k + j) ∧ μ (k + j) = μ k * (1 / 3) ^ j := by
      intro j
      induction j with
      | zero => exact ⟨hlt, by simp⟩
      | succ j ih =>
        have h3 := hthird (k + j) (by linarith [ih.1])
        refine ⟨hgood (k + (j + 1)) (by omega) ?_, ?_⟩
        · have := hbig (k + (j + 1)) (by rw [show k + (j + 1) = k + j + 1 by ring, h3]; linarith [ih.1])
          linarith
        · rw [show k + (j + 1) = k + j + 1 by ring, h3, ih.2]; ring
    obtain ⟨j, hj⟩ := exists_pow_lt_of_lt_one (show 0 < 3 * μ' / μ k from div_pos (by positivity) (hμ k)) (show (1 / 3 : ℝ) < 1 by norm_num)
    have h1 := (hall j).1
    rw [(hall j).2] at h1
    have h2 : μ k * (1 / 3) ^ j < μ k * (3 * μ' / μ k) := by have := hμ k; gcongr
    rw [mul_div_cancel₀ _ (hμ k).ne'] at h2
    linarith
  obtain ⟨k, hk, hlt⟩ := growth_unbounded μ K (9 / 8) (3 * μ') (by norm_num) (hμ K) (fun k hk => by
    have hq : q k < 1 / 4 := by
      by_contra h
      exact hup k hk (hgood k hk (not_lt.1 h))
    rcases lt_or_ge 0 (q k) with h | h
    · rw [(hacc k h).2]
      have h8 : (2 * q k - 1) ^ 3 ≤ -(1 / 8) := by
        have : (1 / 2 : ℝ) ^ 3 ≤ (1 - 2 * q k) ^ 3 := by gcongr; linarith
        nlinarith
      have : 9 / 8 ≤ max (1 / 3) (1 - (2 * q k - 1) ^ 3) := le_max_of_le_right (by linarith)
      nlinarith [hμ k]
    · rw [(hrej k h).2]
      nlinarith [hμ k, hnu k])
  exact hup k hk hlt

/-- Schedule 2 cannot go on forever if the damping that it needs is at most its largest one. -/
theorem schedule2_ends (f μ q w : ℕ → ℝ) (μ' κ M : ℝ) (hκ : 0 < κ) (hM : μ' ≤ M) (hf : ∀ k, 0 ≤ f k) (hμ : ∀ k, 0 < μ k) (hw : ∀ k, κ ≤ w k)
    (hacc : ∀ k, 0 < q k → f (k + 1) = f k - q k * w k) (hrej : ∀ k, q k ≤ 0 → f (k + 1) = f k) (hdamp : ∀ k, q k < 1 / 5 → μ (k + 1) = min (μ k * 2) M)
    (hbig : ∀ k, μ' ≤ μ k → 2 ≤ q k) : False := by
  have hanti : ∀ k, f (k + 1) ≤ f k := fun k => by
    rcases lt_or_ge 0 (q k) with h | h
    · rw [hacc k h]; nlinarith [hw k, mul_pos h (hκ.trans_le (hw k))]
    · rw [hrej k h]
  obtain ⟨K, hK⟩ := finitely_many_drops f hf hanti (κ / 5) (by positivity)
  have hq : ∀ k ≥ K, q k < 1 / 5 := fun k hk => by
    by_contra hle
    have hd := hK k hk
    rw [hacc k (by linarith)] at hd
    nlinarith [hw k]
  have hsmall : ∀ k ≥ K, μ k < μ' := fun k hk => by
    by_contra h
    have := hbig k (not_lt.1 h)
    linarith [hq k hk]
  obtain ⟨k, hk, hlt⟩ := growth_unbounded μ K 2 μ' (by norm_num) (hμ K) (fun k hk => by
    have h1 := hdamp k (hq k hk)
    have h2 := hsmall (k + 1) (by omega)
    rw [h1] at h2 ⊢
    rcases min_lt_iff.1 h2 with h | h
    · rw [min_eq_left (by linarith)]; linarith
    · linarith)
  exact absurd hlt (not_lt.2 (hsmall k hk).le)

/-! ### One step -/

variable {m n : Type} [Fintype m] [Fintype n] [DecidableEq n]

/-- lower bound of half the square of the linearised change -/
noncomputable def changeBound (ε R h M : ℝ) : ℝ := (ε ^ 2 / ((1 + M) * h ^ 2 * R)) ^ 2 / 2

theorem diag_form (A : Matrix m n ℝ) (v w : n → ℝ) : v ⬝ᵥ (Matrix.diagonal (Aᵀ * A).diag *ᵥ w) = ∑ i, (Aᵀ * A) i i * (v i * w i) := by
  simp only [dotProduct, Matrix.mulVec_diagonal, Matrix.diag_apply]
  exact Finset.sum_congr rfl (fun i _ => by ring)

theorem diag_le (A : Matrix m n ℝ) (h : ℝ) (hA : ∀ v, ‖eu m (A *ᵥ v)‖ ≤ h * ‖eu n v‖) (i : n) : (Aᵀ * A) i i ≤ h ^ 2 := by
  have h1 := hA (Pi.single i 1)
  have e1 : ‖eu m (A *ᵥ Pi.single i 1)‖ ^ 2 = (Aᵀ * A) i i := by
    rw [eu_sq, Matrix.mulVec_single_one, Matrix.mul_apply]
    rfl
  have e2 : ‖eu n (Pi.single i (1:ℝ))‖ = 1 := by
    have : ‖eu n (Pi.single i (1:ℝ))‖ ^ 2 = 1 := by rw [eu_sq]; simp
    have h0 := norm_nonneg (eu n (Pi.single i (1:ℝ)))
    nlinarith
  rw [e2, mul_one] at h1
  rw [← e1]
  have := norm_nonneg (eu m (A *ᵥ Pi.single i 1))
  nlinarith

variable {r : (n → ℝ) → m → ℝ} {J : (n → ℝ) → Matrix m n ℝ} {S : Set (n → ℝ)} {ε R h δ Λ ρ : ℝ}

/-- the step against the gradient -/
theorem slope (x c : n → ℝ) (μ : ℝ) (hc : DampedStep (J x) ((J x)ᵀ *ᵥ r x) c μ) :
    -(((J x)ᵀ *ᵥ r x) ⬝ᵥ c) = ‖eu m (J x *ᵥ c)‖ ^ 2 + μ * ∑ i, ((J x)ᵀ * J x) i i * (c i * c i) := by
  have := gain_denominator (J x) _ c μ hc
  rw [eu_sq, dotProduct_comm]
  have e : (c ⬝ᵥ fun i => c i * ((J x)ᵀ * J x) i i) = ∑ i, ((J x)ᵀ * J x) i i * (c i * c i) := by
    simp only [dotProduct]; exact Finset.sum_congr rfl (fun i _ => by ring)
  rw [e] at this
  linarith

theorem slope_eq (x c : n → ℝ) : ((J x)ᵀ *ᵥ r x) ⬝ᵥ c = r x ⬝ᵥ (J x *ᵥ c) := by
  rw [Matrix.mulVec_transpose, ← Matrix.dotProduct_mulVec]

variable (H : LmBounds r J S ε R h δ Λ ρ)
include H

theorem _root_.Pressio.Spec.LmConvergence.LmBounds.diag_ge (x : n → ℝ) (hx : x ∈ S) (c : n → ℝ) : δ * ‖eu n c‖ ^ 2 ≤ ∑ i, ((J x)ᵀ * J x) i i * (c i * c i) := by
  rw [eu_sq, dotProduct, Finset.mul_sum]
  exact Finset.sum_le_sum (fun i _ => mul_le_mul_of_nonneg_right (H.col x hx i) (mul_self_nonneg _))

theorem _root_.Pressio.Spec.LmConvergence.LmBounds.diag_le (x : n → ℝ) (hx : x ∈ S) (c : n → ℝ) : ∑ i, ((J x)ᵀ * J x) i i * (c i * c i) ≤ h ^ 2 * ‖eu n c‖ ^ 2 := by
  rw [eu_sq, dotProduct, Finset.mul_sum]
  exact Finset.sum_le_sum (fun i _ => mul_le_mul_of_nonneg_right (LmConvergence.diag_le _ _ (H.bound x hx) i) (mul_self_nonneg _))

/-- the slope along the step is bounded from below -/
theorem _root_.Pressio.Spec.LmConvergence.LmBounds.slope_ge (x : n → ℝ) (hx : x ∈ S) (μ : ℝ) (hμ : 0 < μ) (c : n → ℝ) (hc : DampedStep (J x) ((J x)ᵀ *ᵥ r x) c μ) :
    ε ^ 2 / ((1 + μ) * h ^ 2) ≤ -(((J x)ᵀ *ᵥ r x) ⬝ᵥ c) := by
  set g := (J x)ᵀ *ᵥ r x with hg
  set A := (J x)ᵀ * J x + μ • Matrix.diagonal ((J x)ᵀ * J x).diag with hA
  have hh := H.h0
  have hquad : ∀ v, v ⬝ᵥ (A *ᵥ v) = ‖eu m (J x *ᵥ v)‖ ^ 2 + μ * ∑ i, ((J x)ᵀ * J x) i i * (v i * v i) := by
    intro v
    rw [hA, Matrix.add_mulVec, dotProduct_add, Matrix.smul_mulVec, dotProduct_smul, diag_form, ← Matrix.mulVec_mulVec, eu_sq, dot_mulVec_transpose, smul_eq_mul]
  have hnn : ∀ v, 0 ≤ v ⬝ᵥ (A *ᵥ v) := fun v => by
    rw [hquad]
    have h1 := H.diag_ge x hx v
    have h2 := H.δ0
    have : 0 ≤ ∑ i, ((J x)ᵀ * J x) i i * (v i * v i) := le_trans (by positivity) h1
    positivity
  have hle : g ⬝ᵥ (A *ᵥ g) ≤ (1 + μ) * h ^ 2 * ‖eu n g‖ ^ 2 := by
    rw [hquad]
    have h1 := H.bound x hx g
    have h2 := H.diag_le x hx g
    have h3 : ‖eu m (J x *ᵥ g)‖ ^ 2 ≤ (h * ‖eu n g‖) ^ 2 := by gcongr
    nlinarith
  have hAc : A *ᵥ c = -g := hc
  have hsymm : c ⬝ᵥ (A *ᵥ g) = g ⬝ᵥ (A *ᵥ c) := by
    have hAt : Aᵀ = A := by rw [hA]; simp
    rw [Matrix.dotProduct_mulVec, ← Matrix.mulVec_transpose, hAt, dotProduct_comm]
  have hq : c ⬝ᵥ (A *ᵥ c) = -(g ⬝ᵥ c) := by rw [hAc, dotProduct_neg, dotProduct_comm]
  have hgA : g ⬝ᵥ (A *ᵥ c) = -‖eu n g‖ ^ 2 := by rw [hAc, dotProduct_neg, eu_sq]
  -- Cauchy-Schwarz for the form of `A`
  have hcs : ∀ t : ℝ, 0 ≤ (1 + μ) * h ^ 2 * ‖eu n g‖ ^ 2 - 2 * t * ‖eu n g‖ ^ 2 + t ^ 2 * -(g ⬝ᵥ c) := by
    intro t
    have h1 := hnn (g + t • c)
    rw [Matrix.mulVec_add, Matrix.mulVec_smul, add_dotProduct, dotProduct_add, dotProduct_add, smul_dotProduct, smul_dotProduct, dotProduct_smul, dotProduct_smul, hsymm, hgA, hq] at h1
    simp only [smul_eq_mul] at h1
    nlinarith
  have hG := H.grad x hx
  have hε := H.ε0
  have ht := hcs ((1 + μ) * h ^ 2)
  have hpos : 0 < (1 + μ) * h ^ 2 := by positivity
  rw [div_le_iff₀ hpos]
  have h5 : ε ^ 2 ≤ ‖eu n g‖ ^ 2 := by gcongr
  have h6 : 0 ≤ ((1 + μ) * h ^ 2) * (-(g ⬝ᵥ c) * ((1 + μ) * h ^ 2) - ‖eu n g‖ ^ 2) := by nlinarith
  have h7 := nonneg_of_mul_nonneg_right h6 hpos
  linarith

/-- the linearised change is bounded from below -/
theorem _root_.Pressio.Spec.LmConvergence.LmBounds.change_ge (x : n → ℝ) (hx : x ∈ S) (μ M : ℝ) (hμ : 0 < μ) (hM : μ ≤ M) (c : n → ℝ) (hc : DampedStep (J x) ((J x)ᵀ *ᵥ r x) c μ) :
    changeBound ε R h M ≤ ‖eu m (J x *ᵥ c)‖ ^ 2 / 2 := by
  have h1 := H.slope_ge x hx μ hμ c hc
  have h2 : -(((J x)ᵀ *ᵥ r x) ⬝ᵥ c) ≤ R * ‖eu m (J x *ᵥ c)‖ := by
    rw [slope_eq, ← neg_dotProduct]
    refine (eu_dot _ _).trans ?_
    rw [map_neg, norm_neg]
    gcongr
    exact H.res x hx
  have hR := H.R0
  have hh := H.h0
  have hε := H.ε0
  have h3 : ε ^ 2 / ((1 + M) * h ^ 2) ≤ ε ^ 2 / ((1 + μ) * h ^ 2) := by gcongr
  have h4 : ε ^ 2 / ((1 + M) * h ^ 2 * R) ≤ ‖eu m (J x *ᵥ c)‖ := by
    rw [← div_div, div_le_iff₀ hR]
    linarith
  unfold changeBound
  have : 0 < 1 + M := by linarith
  gcongr

theorem _root_.Pressio.Spec.LmConvergence.LmBounds.changeBound_pos (M : ℝ) (hM : 0 < M) : 0 < changeBound ε R h M := by
  have hR := H.R0
  have hh := H.h0
  have hε := H.ε0
  unfold changeBound
  positivity

theorem _root_.Pressio.Spec.LmConvergence.LmBounds.enoughDamping_pos : 0 < enoughDamping R h δ Λ ρ := by
  have hR := H.R0
  have hh := H.h0
  have hδ := H.δ0
  have hρ := H.ρ0
  have hΛ := H.Λ0
  unfold enoughDamping
  positivity

/-- with enough damping the decrease is at least that of the linearisation -/
theorem _root_.Pressio.Spec.LmConvergence.LmBounds.decrease_ge (x : n → ℝ) (hx : x ∈ S) (μ : ℝ) (hμ : enoughDamping R h δ Λ ρ ≤ μ) (c : n → ℝ) (hc : DampedStep (J x) ((J x)ᵀ *ᵥ r x) c μ) :
    ‖eu m (J x *ᵥ c)‖ ^ 2 ≤ ‖eu m (r x)‖ ^ 2 / 2 - ‖eu m (r (x + c))‖ ^ 2 / 2 := by
  have hR := H.R0
  have hh := H.h0
  have hδ := H.δ0
  have hρ := H.ρ0
  have hΛ := H.Λ0
  have hμ0 : 0 < μ := H.enoughDamping_pos.trans_le hμ
  have h1 := slope (r := r) (J := J) x c μ hc
  have h2 := H.diag_ge x hx c
  have h3 : -(((J x)ᵀ *ᵥ r x) ⬝ᵥ c) ≤ R * (h * ‖eu n c‖) := by
    rw [slope_eq, ← neg_dotProduct]
    refine (eu_dot _ _).trans ?_
    rw [map_neg, norm_neg]
    gcongr
    · exact H.res x hx
    · exact H.bound x hx c
  have hΛμ : Λ / 2 ≤ μ * δ := by
    have : Λ / (2 * δ) ≤ μ := le_trans (by unfold enoughDamping; have : 0 ≤ h * R / (δ * ρ) := by positivity
                                           linarith) hμ
    rw [div_le_iff₀ (by positivity)] at this
    linarith
  have hρμ : h * R ≤ μ * (δ * ρ) := by
    have : h * R / (δ * ρ) ≤ μ := le_trans (by unfold enoughDamping; have : 0 ≤ Λ / (2 * δ) := by positivity
                                               linarith) hμ
    rwa [div_le_iff₀ (by positivity)] at this
  have hcρ : ‖eu n c‖ ≤ ρ := by
    have hcn := norm_nonneg (eu n c)
    have h4 : μ * (δ * ‖eu n c‖ ^ 2) ≤ R * (h * ‖eu n c‖) := by
      have := mul_le_mul_of_nonneg_left h2 hμ0.le
      nlinarith [sq_nonneg ‖eu m (J x *ᵥ c)‖]
    rcases hcn.eq_or_lt with h0 | h0
    · rw [← h0]; exact hρ.le
    · have h5 : μ * δ * ‖eu n c‖ ≤ R * h := le_of_mul_le_mul_right (by nlinarith) h0
      have h6 : μ * δ * ‖eu n c‖ ≤ μ * δ * ρ := by nlinarith
      exact le_of_mul_le_mul_left h6 (by positivity)
  have h7 := H.descent x hx c hcρ
  have h8 : Λ / 2 * ‖eu n c‖ ^ 2 ≤ μ * ∑ i, ((J x)ᵀ * J x) i i * (c i * c i) := by
    calc Λ / 2 * ‖eu n c‖ ^ 2 ≤ μ * δ * ‖eu n c‖ ^ 2 := by gcongr
      _ = μ * (δ * ‖eu n c‖ ^ 2) := by ring
      _ ≤ _ := by gcongr
  linarith

/-- the damped matrix is positive definite -/
theorem _root_.Pressio.Spec.LmConvergence.LmBounds.posDef (x : n → ℝ) (hx : x ∈ S) (μ : ℝ) (hμ : 0 < μ) : ((J x)ᵀ * J x + μ • Matrix.diagonal ((J x)ᵀ * J x).diag).PosDef := by
  have hAt : ((J x)ᵀ * J x + μ • Matrix.diagonal ((J x)ᵀ * J x).diag)ᵀ = (J x)ᵀ * J x + μ • Matrix.diagonal ((J x)ᵀ * J x).diag := by simp
  refine Matrix.PosDef.of_dotProduct_mulVec_pos (by rw [Matrix.IsHermitian, Matrix.conjTranspose_eq_transpose_of_trivial, hAt]) (fun v hv => ?_)
  rw [star_trivial, Matrix.add_mulVec, dotProduct_add, Matrix.smul_mulVec, dotProduct_smul, diag_form, ← Matrix.mulVec_mulVec, ← dot_mulVec_transpose, ← eu_sq, smul_eq_mul]
  have h1 := H.diag_ge x hx v
  have hδ := H.δ0
  have h2 : 0 < ‖eu n v‖ ^ 2 := by
    have : ‖eu n v‖ ≠ 0 := fun h0 => hv (eu_inj (by rw [map_zero]; exact norm_eq_zero.1 h0))
    positivity
  have h3 : 0 < ∑ i, ((J x)ᵀ * J x) i i * (v i * v i) := lt_of_lt_of_le (by positivity) h1
  have := sq_nonneg ‖eu m (J x *ᵥ v)‖
  nlinarith [mul_pos hμ h3]

/-! ### The sequence -/

omit H in
/-- the gain ratio of a step with a nonzero linearised change -/
theorem gain_eq (x c : n → ℝ) (μ f1 f0 : ℝ) (hc : DampedStep (J x) ((J x)ᵀ *ᵥ r x) c μ) (hne : 0 < ‖eu m (J x *ᵥ c)‖ ^ 2 / 2) :
    gain f1 f0 μ ((J x)ᵀ * J x) ((J x)ᵀ *ᵥ r x) c = .fin ((f0 - f1) / (‖eu m (J x *ᵥ c)‖ ^ 2 / 2)) := by
  rw [gain_value (J x) _ c μ f1 f0 hc, ← eu_sq, fdiv, if_neg (by linarith)]
  congr 1
  rw [neg_div, div_neg, ← neg_div, neg_sub]

/-- the quantities of iteration `z` -/
noncomputable def ratio (r : (n → ℝ) → m → ℝ) (J : (n → ℝ) → Matrix m n ℝ) (sol : Matrix n n ℝ → (n → ℝ) → n → ℝ) (z : (n → ℝ) × ℝ × ℝ) : ℝ :=
  (‖eu m (r z.1)‖ ^ 2 / 2 - ‖eu m (r (z.1 + lmCorr r J sol z.1 z.2.1))‖ ^ 2 / 2) / (‖eu m (J z.1 *ᵥ lmCorr r J sol z.1 z.2.1)‖ ^ 2 / 2)

variable (sol : Matrix n n ℝ → (n → ℝ) → n → ℝ) (hsol : ∀ A b, A.PosDef → A *ᵥ sol A b = b)
include hsol

theorem _root_.Pressio.Spec.LmConvergence.LmBounds.corr (x : n → ℝ) (hx : x ∈ S) (μ : ℝ) (hμ : 0 < μ) : DampedStep (J x) ((J x)ᵀ *ᵥ r x) (lmCorr r J sol x μ) μ := by
  unfold DampedStep lmCorr
  rw [Matrix.mulVec_neg, hsol _ _ (H.posDef x hx μ hμ)]

theorem _root_.Pressio.Spec.LmConvergence.LmBounds.next1 (z : (n → ℝ) × ℝ × ℝ) (hx : z.1 ∈ S) (hμ : 0 < z.2.1) :
    lmNext .one (fun x => ‖eu m (r x)‖ ^ 2 / 2) r J sol z = if 0 < ratio r J sol z then (z.1 + lmCorr r J sol z.1 z.2.1, z.2.1 * max (1 / 3) (1 - (2 * ratio r J sol z - 1) ^ 3), 2) else (z.1, z.2.1 * z.2.2, z.2.2 * 2) := by
  have hc := H.corr sol hsol z.1 hx _ hμ
  have hw := (H.changeBound_pos _ hμ).trans_le (H.change_ge z.1 hx _ _ hμ le_rfl _ hc)
  rw [lmNext]
  simp only [gain_eq z.1 _ _ _ _ hc hw, lm1]
  rw [← ratio]
  by_cases h : 0 < ratio r J sol z <;> simp [h]

theorem _root_.Pressio.Spec.LmConvergence.LmBounds.next2 (z : (n → ℝ) × ℝ × ℝ) (hx : z.1 ∈ S) (hμ : 0 < z.2.1) :
    lmNext .two (fun x => ‖eu m (r x)‖ ^ 2 / 2) r J sol z = (if 0 < ratio r J sol z then z.1 + lmCorr r J sol z.1 z.2.1 else z.1,
      if ratio r J sol z < 1 / 5 then min (z.2.1 * 2) (10 ^ 7) else if 4 / 5 < ratio r J sol z then max (1 / 10 ^ 7) (z.2.1 * (1 / 3)) else z.2.1, z.2.2) := by
  have hc := H.corr sol hsol z.1 hx _ hμ
  have hw := (H.changeBound_pos _ hμ).trans_le (H.change_ge z.1 hx _ _ hμ le_rfl _ hc)
  rw [lmNext]
  simp only [gain_eq z.1 _ _ _ _ hc hw, lm2, Quot'.gt, Quot'.lt, decide_eq_true_eq]
  rw [← ratio]

omit H in
theorem level_of_ratio (z : (n → ℝ) × ℝ × ℝ) (h : 0 < ratio r J sol z) : ‖eu m (r (z.1 + lmCorr r J sol z.1 z.2.1))‖ ≤ ‖eu m (r z.1)‖ := by
  by_contra hlt
  have hlt := not_le.1 hlt
  have h1 : ‖eu m (r z.1)‖ ^ 2 < ‖eu m (r (z.1 + lmCorr r J sol z.1 z.2.1))‖ ^ 2 := by gcongr
  have h2 : ratio r J sol z ≤ 0 := div_nonpos_of_nonpos_of_nonneg (by linarith) (by positivity)
  linarith

/-- along the iteration: the objective does not grow, the damping stays positive -/
theorem _root_.Pressio.Spec.LmConvergence.LmBounds.invariant (sched : Schedule) (x0 : n → ℝ) (nu0 : ℝ) (hnu : sched = .one → nu0 = 2) (hS : ∀ x, ‖eu m (r x)‖ ≤ ‖eu m (r x0)‖ → ε ≤ ‖eu n ((J x)ᵀ *ᵥ r x)‖ → x ∈ S) (k : ℕ)
    (hk : ∀ j < k, ε ≤ ‖eu n ((J ((lmNext sched (fun x => ‖eu m (r x)‖ ^ 2 / 2) r J sol)^[j] (x0, 1, nu0)).1)ᵀ *ᵥ r ((lmNext sched (fun x => ‖eu m (r x)‖ ^ 2 / 2) r J sol)^[j] (x0, 1, nu0)).1)‖) :
    ‖eu m (r ((lmNext sched (fun x => ‖eu m (r x)‖ ^ 2 / 2) r J sol)^[k] (x0, 1, nu0)).1)‖ ≤ ‖eu m (r x0)‖ ∧ 0 < ((lmNext sched (fun x => ‖eu m (r x)‖ ^ 2 / 2) r J sol)^[k] (x0, 1, nu0)).2.1 ∧
      (sched = .one → 2 ≤ ((lmNext sched (fun x => ‖eu m (r x)‖ ^ 2 / 2) r J sol)^[k] (x0, 1, nu0)).2.2) ∧ (sched = .two → ((lmNext sched (fun x => ‖eu m (r x)‖ ^ 2 / 2) r J sol)^[k] (x0, 1, nu0)).2.1 ≤ 10 ^ 7) := by
  induction k with
  | zero => exact ⟨le_rfl, one_pos, fun h => (hnu h).ge, fun _ => by norm_num⟩
  | succ k ih =>
    obtain ⟨i1, i2, i3, i4⟩ := ih (fun j hj => hk j (by omega))
    have hg := hk k (by omega)
    rw [Function.iterate_succ_apply']
    generalize (lmNext sched (fun x => ‖eu m (r x)‖ ^ 2 / 2) r J sol)^[k] (x0, 1, nu0) = z at i1 i2 i3 i4 hg
    have hz := hS z.1 i1 hg
    cases sched with
    | one =>
      rw [H.next1 sol hsol z hz i2]
      by_cases h : 0 < ratio r J sol z
      · rw [if_pos h]
        exact ⟨(level_of_ratio sol hsol z h).trans i1, mul_pos i2 (lt_max_of_lt_left (by norm_num)), fun _ => le_rfl, fun h => by cases h⟩
      · rw [if_neg h]
        have := i3 rfl
        exact ⟨i1, mul_pos i2 (by linarith), fun _ => by simp only; linarith, fun h => by cases h⟩
    | two =>
      rw [H.next2 sol hsol z hz i2]
      refine ⟨?_, ?_, (fun h => by cases h), fun _ => ?_⟩
      · by_cases h : 0 < ratio r J sol z
        · simp only [if_pos h]; exact (level_of_ratio sol hsol z h).trans i1
        · simp only [if_neg h]; exact i1
      · simp only
        split_ifs
        · exact lt_min (by linarith) (by norm_num)
        · exact lt_max_of_lt_left (by norm_num)
        · exact i2
      · have := i4 rfl
        simp only
        split_ifs
        · exact min_le_right _ _
        · exact max_le (by norm_num) (by linarith)
        · exact this

/-- the gradient falls below `ε`: schedule 1, and schedule 2 if the damping that is needed does not exceed its largest -/
theorem _root_.Pressio.Spec.LmConvergence.LmBounds.reaches (sched : Schedule) (x0 : n → ℝ) (nu0 : ℝ) (hnu : sched = .one → nu0 = 2) (hS : ∀ x, ‖eu m (r x)‖ ≤ ‖eu m (r x0)‖ → ε ≤ ‖eu n ((J x)ᵀ *ᵥ r x)‖ → x ∈ S)
    (hcap : sched = .two → enoughDamping R h δ Λ ρ ≤ 10 ^ 7) :
    ∃ k : ℕ, ‖eu n ((J ((lmNext sched (fun x => ‖eu m (r x)‖ ^ 2 / 2) r J sol)^[k] (x0, 1, nu0)).1)ᵀ *ᵥ r ((lmNext sched (fun x => ‖eu m (r x)‖ ^ 2 / 2) r J sol)^[k] (x0, 1, nu0)).1)‖ < ε := by
  by_contra hnone
  have hge := fun k => not_lt.1 (not_exists.1 hnone k)
  set z := fun k => (lmNext sched (fun x => ‖eu m (r x)‖ ^ 2 / 2) r J sol)^[k] (x0, 1, nu0) with hz
  have hinv := fun k => H.invariant sol hsol sched x0 nu0 hnu hS k (fun j _ => hge j)
  have hin : ∀ k, (z k).1 ∈ S := fun k => hS _ (hinv k).1 (hge k)
  have hμ : ∀ k, 0 < (z k).2.1 := fun k => (hinv k).2.1
  have hsucc : ∀ k, z (k + 1) = lmNext sched (fun x => ‖eu m (r x)‖ ^ 2 / 2) r J sol (z k) := fun k => Function.iterate_succ_apply' _ _ _
  have hc := fun k => H.corr sol hsol (z k).1 (hin k) _ (hμ k)
  have hw : ∀ k, 0 < ‖eu m (J (z k).1 *ᵥ lmCorr r J sol (z k).1 (z k).2.1)‖ ^ 2 / 2 := fun k => (H.changeBound_pos _ (hμ k)).trans_le (H.change_ge _ (hin k) _ _ (hμ k) le_rfl _ (hc k))
  have hbig : ∀ k, enoughDamping R h δ Λ ρ ≤ (z k).2.1 → 2 ≤ ratio r J sol (z k) := fun k hk => by
    rw [ratio, le_div_iff₀ (hw k)]
    have := H.decrease_ge (z k).1 (hin k) _ hk _ (hc k)
    linarith
  have hdrop : ∀ k, ‖eu m (r ((z k).1 + lmCorr r J sol (z k).1 (z k).2.1))‖ ^ 2 / 2 =
      ‖eu m (r (z k).1)‖ ^ 2 / 2 - ratio r J sol (z k) * (‖eu m (J (z k).1 *ᵥ lmCorr r J sol (z k).1 (z k).2.1)‖ ^ 2 / 2) := fun k => by
    rw [ratio, div_mul_cancel₀ _ (hw k).ne']; ring
  cases sched with
  | one =>
    refine schedule1_ends (fun k => ‖eu m (r (z k).1)‖ ^ 2 / 2) (fun k => (z k).2.1) (fun k => (z k).2.2) (fun k => ratio r J sol (z k))
      (fun k => ‖eu m (J (z k).1 *ᵥ lmCorr r J sol (z k).1 (z k).2.1)‖ ^ 2 / 2) (enoughDamping R h δ Λ ρ) (changeBound ε R h (3 * enoughDamping R h δ Λ ρ)) H.enoughDamping_pos
      (H.changeBound_pos _ (by have := H.enoughDamping_pos; positivity)) (fun k => by positivity) hμ (fun k => (hinv k).2.2.1 rfl) hw (fun k hk => ?_) (fun k hk => ?_) hbig
      (fun k hk => H.change_ge _ (hin k) _ _ (hμ k) hk _ (hc k))
    · have := H.next1 sol hsol (z k) (hin k) (hμ k)
      rw [if_pos hk] at this
      rw [hsucc, this]
      exact ⟨hdrop k, rfl⟩
    · have := H.next1 sol hsol (z k) (hin k) (hμ k)
      rw [if_neg (not_lt.2 hk)] at this
      rw [hsucc, this]
      exact ⟨rfl, rfl⟩
  | two =>
    refine schedule2_ends (fun k => ‖eu m (r (z k).1)‖ ^ 2 / 2) (fun k => (z k).2.1) (fun k => ratio r J sol (z k))
      (fun k => ‖eu m (J (z k).1 *ᵥ lmCorr r J sol (z k).1 (z k).2.1)‖ ^ 2 / 2) (enoughDamping R h δ Λ ρ) (changeBound ε R h (10 ^ 7)) (10 ^ 7)
      (H.changeBound_pos _ (by norm_num)) (hcap rfl) (fun k => by positivity) hμ (fun k => H.change_ge _ (hin k) _ _ (hμ k) ((hinv k).2.2.2 rfl) _ (hc k)) (fun k hk => ?_) (fun k hk => ?_) (fun k hk => ?_) hbig
    · have := H.next2 sol hsol (z k) (hin k) (hμ k)
      rw [if_pos hk] at this
      rw [hsucc, this]
      exact hdrop k
    · have := H.next2 sol hsol (z k) (hin k) (hμ k)
      rw [if_neg (not_lt.2 hk)] at this
      rw [hsucc, this]
    · have := H.next2 sol hsol (z k) (hin k) (hμ k)
      rw [if_pos hk] at this
      rw [hsucc, this]

omit H hsol

/-! ### Smooth problems -/

theorem sup_le_eu (v : n → ℝ) : ‖v‖ ≤ ‖eu n v‖ :=
  (pi_norm_le_iff_of_nonneg (norm_nonneg _)).2 (fun i => PiLp.norm_apply_le (eu n v) i)

theorem eu_le_sup (k : Type) [Fintype k] (v : k → ℝ) : ‖eu k v‖ ≤ ‖(eu k).toContinuousLinearMap‖ * ‖v‖ := by
  have := (eu k).toContinuousLinearMap.le_opNorm v
  simpa using this

theorem eu_continuous (k : Type) [Fintype k] : Continuous (eu k) := LinearMap.continuous_of_finiteDimensional _

/-- derivative of half the square of the residual norm -/
theorem deriv_obj (x : n → ℝ) (hJ : IsJacobian r J x) (φ : (n → ℝ) → ℝ) (hφ : φ = fun x => ‖eu m (r x)‖ ^ 2 / 2) : ∃ D : (n → ℝ) →L[ℝ] ℝ, HasFDerivAt φ D x ∧ ∀ v, D v = ((J x)ᵀ *ᵥ r x) ⬝ᵥ v := by
  have h1 : HasFDerivAt (fun x => eu m (r x)) ((eu m).toContinuousLinearMap.comp (Matrix.toLin' (J x)).toContinuousLinearMap) x :=
    ((eu m).toContinuousLinearMap.hasFDerivAt (x := r x)).comp x hJ
  have h2 := h1.norm_sq
  have h3 := h2.const_mul (1 / 2 : ℝ)
  refine ⟨_, (h3.congr_of_eventuallyEq (Filter.Eventually.of_forall fun y => ?_)), fun v => ?_⟩
  · rw [hφ]; ring
  · rw [slope_eq]
    simp [eu_in, dotProduct_comm]

theorem _root_.Pressio.Spec.LmConvergence.Smooth.entry {x0 : n → ℝ} (H : Smooth r J x0) (i : m) (j : n) : Continuous (fun x => J x i j) := by
  have hfc : Continuous (fderiv ℝ r) := H.diff.continuous_fderiv (by norm_num)
  have : (fun x => J x i j) = fun x => (fderiv ℝ r x (Pi.single j 1)) i := by
    funext x; rw [HasFDerivAt.fderiv (H.jac x)]; simp
  rw [this]
  exact (continuous_apply i).comp (hfc.clm_apply continuous_const)

theorem _root_.Pressio.Spec.LmConvergence.Smooth.grad_continuous {x0 : n → ℝ} (H : Smooth r J x0) : Continuous (gradAt r J) := by
  refine continuous_pi (fun j => ?_)
  simp only [gradAt, Matrix.mulVec, dotProduct, Matrix.transpose_apply]
  exact continuous_finsetSum _ (fun i _ => (H.entry i j).mul ((continuous_apply i).comp H.diff.continuous))

theorem _root_.Pressio.Spec.LmConvergence.Smooth.compact {x0 : n → ℝ} (H : Smooth r J x0) : IsCompact (level r x0) := by
  obtain ⟨B, hB⟩ := H.bounded
  have hcl : IsClosed (level r x0) := isClosed_le ((eu_continuous m).comp H.diff.continuous).norm continuous_const
  refine (isCompact_closedBall (0 : n → ℝ) B).of_isClosed_subset hcl (fun x hx => ?_)
  rw [mem_closedBall_zero_iff]
  exact (sup_le_eu x).trans (hB x hx)

/-- away from the only stationary point the gradient is bounded from below -/
theorem smooth_isolates (r : (n → ℝ) → m → ℝ) (J : (n → ℝ) → Matrix m n ℝ) (x0 x' : n → ℝ) (H : Smooth r J x0) (honly : ∀ x ∈ level r x0, gradAt r J x = 0 → x = x') (η : ℝ) (hη : 0 < η) :
    ∃ t : ℝ, 0 < t ∧ ∀ x ∈ level r x0, ‖eu n (gradAt r J x)‖ < t → ‖eu n (x - x')‖ < η := by
  have hcl : IsClosed {x | η ≤ ‖eu n (x - x')‖} := isClosed_le continuous_const ((eu_continuous n).comp (continuous_id.sub continuous_const)).norm
  obtain ⟨t, ht, hmin⟩ := (H.compact.inter_right hcl).exists_forall_le' ((eu_continuous n).comp H.grad_continuous).norm.continuousOn (a := 0) (fun x hx => by
    rw [norm_pos_iff]
    intro h0
    have h1 := honly x hx.1 (eu_inj (by rw [map_zero]; exact h0))
    have h2 := hx.2
    rw [Set.mem_setOf_eq, h1, sub_self, map_zero, norm_zero] at h2
    linarith)
  refine ⟨t, ht, fun x hx hg => ?_⟩
  by_contra hlt
  exact absurd (hmin x ⟨hx, not_lt.1 hlt⟩) (not_le.2 hg)

theorem smooth_bounds (r : (n → ℝ) → m → ℝ) (J : (n → ℝ) → Matrix m n ℝ) (x0 : n → ℝ) (H : Smooth r J x0) (ε : ℝ) (hε : 0 < ε) :
    ∃ R h δ Λ ρ, LmBounds r J {x | x ∈ level r x0 ∧ ε ≤ ‖eu n (gradAt r J x)‖} ε R h δ Λ ρ := by
  obtain ⟨B, hB⟩ := H.bounded
  have hr0 : Continuous r := H.diff.continuous
  have hfd : ∀ x, fderiv ℝ r x = (Matrix.toLin' (J x)).toContinuousLinearMap := fun x => HasFDerivAt.fderiv (H.jac x)
  have hfc : Continuous (fderiv ℝ r) := H.diff.continuous_fderiv (by norm_num)
  have hJij := H.entry
  have hg := H.grad_continuous
  set S := {x | x ∈ level r x0 ∧ ε ≤ ‖eu n (gradAt r J x)‖} with hS
  have hcl : IsClosed S := by
    have h1 : IsClosed {x | ‖eu m (r x)‖ ≤ ‖eu m (r x0)‖} := isClosed_le ((eu_continuous m).comp hr0).norm continuous_const
    have h2 : IsClosed {x | ε ≤ ‖eu n (gradAt r J x)‖} := isClosed_le continuous_const ((eu_continuous n).comp hg).norm
    exact h1.inter h2
  have hSB : S ⊆ Metric.closedBall 0 B := fun x hx => by
    rw [mem_closedBall_zero_iff]
    exact (sup_le_eu x).trans (hB x hx.1)
  have hcomp : IsCompact S := (isCompact_closedBall (0 : n → ℝ) B).of_isClosed_subset hcl hSB
  -- the Jacobian
  obtain ⟨C, hC⟩ := hcomp.exists_bound_of_continuousOn hfc.continuousOn
  -- the columns
  have hcol : ∀ j, ∃ d : ℝ, 0 < d ∧ ∀ x ∈ S, d ≤ ((J x)ᵀ * J x) j j := fun j => by
    have hc : Continuous (fun x => ((J x)ᵀ * J x) j j) := by
      simp only [Matrix.mul_apply, Matrix.transpose_apply]
      exact continuous_finsetSum _ (fun i _ => (hJij i j).mul (hJij i j))
    refine hcomp.exists_forall_le' hc.continuousOn (fun x hx => ?_)
    obtain ⟨i, hi⟩ := H.columns x hx.1 (fun h0 => by
      have := hx.2
      rw [h0, map_zero, norm_zero] at this
      linarith) j
    rw [Matrix.mul_apply]
    exact Finset.sum_pos' (fun i _ => by rw [Matrix.transpose_apply]; exact mul_self_nonneg _) ⟨i, Finset.mem_univ _, by rw [Matrix.transpose_apply]; exact mul_self_pos.2 hi⟩
  choose d hd0 hd using hcol
  obtain ⟨δ, hδ0, hδ⟩ := Pi.exists_forall_pos_add_lt (x := fun _ => (0:ℝ)) (y := d) hd0
  -- the objective
  set φ : (n → ℝ) → ℝ := fun x => ‖eu m (r x)‖ ^ 2 / 2 with hφ
  have hφ2 : ContDiff ℝ 2 φ := by
    have h1 : ContDiff ℝ 2 (fun x => eu m (r x)) := (eu m).toContinuousLinearMap.contDiff.comp H.diff
    exact (h1.norm_sq ℝ).div_const 2
  have hφd : ∀ x v, fderiv ℝ φ x v = ((J x)ᵀ *ᵥ r x) ⬝ᵥ v := fun x v => by
    obtain ⟨D, h1, h2⟩ := deriv_obj x (H.jac x) φ hφ
    rw [h1.fderiv, h2]
  have hφ1 : ContDiff ℝ 1 (fderiv ℝ φ) := hφ2.fderiv_right (by norm_num)
  obtain ⟨M, hM⟩ := (isCompact_closedBall (0 : n → ℝ) (B + 1)).exists_bound_of_continuousOn (hφ1.continuous_fderiv (by norm_num)).continuousOn
  have hφL : ∀ x ∈ Metric.closedBall (0 : n → ℝ) (B + 1), ∀ y ∈ Metric.closedBall (0 : n → ℝ) (B + 1), ‖fderiv ℝ φ y - fderiv ℝ φ x‖ ≤ M * ‖y - x‖ := fun x hx y hy =>
    (convex_closedBall (0 : n → ℝ) (B + 1)).norm_image_sub_le_of_norm_fderiv_le (𝕜 := ℝ) (fun z _ => (hφ1.differentiable (by norm_num)).differentiableAt) (fun z hz => hM z hz) hx hy
  refine ⟨‖eu m (r x0)‖ + 1, ‖(eu m).toContinuousLinearMap‖ * |C| + 1, δ, 2 * |M|, 1, hε, by positivity, by positivity, hδ0, by positivity, one_pos, fun x hx => hx.2, fun x hx => ?_, fun x hx v => ?_, fun x hx i => ?_, fun x hx c hc => ?_⟩
  · have : ‖eu m (r x)‖ ≤ ‖eu m (r x0)‖ := hx.1
    linarith
  · have h1 : J x *ᵥ v = fderiv ℝ r x v := by rw [hfd]; simp
    have h2 : ‖fderiv ℝ r x v‖ ≤ |C| * ‖eu n v‖ := (ContinuousLinearMap.le_opNorm _ _).trans (mul_le_mul ((hC x hx).trans (le_abs_self _)) (sup_le_eu v) (norm_nonneg _) (abs_nonneg _))
    calc ‖eu m (J x *ᵥ v)‖ ≤ ‖(eu m).toContinuousLinearMap‖ * (|C| * ‖eu n v‖) := by rw [h1]; exact (eu_le_sup m _).trans (by gcongr)
      _ ≤ _ := by nlinarith [norm_nonneg (eu n v)]
  · have := hδ i
    have := hd i x hx
    linarith
  · have hxB : ‖x‖ ≤ B := by have := hSB hx; rwa [mem_closedBall_zero_iff] at this
    have hcs := (sup_le_eu c).trans hc
    have hsub : ∀ y ∈ Metric.closedBall x ‖c‖, y ∈ Metric.closedBall (0 : n → ℝ) (B + 1) := fun y hy => by
      rw [mem_closedBall_zero_iff]
      rw [mem_closedBall_iff_norm] at hy
      calc ‖y‖ = ‖(y - x) + x‖ := by rw [sub_add_cancel]
        _ ≤ ‖y - x‖ + ‖x‖ := norm_add_le _ _
        _ ≤ B + 1 := by linarith
    have hx' : x ∈ Metric.closedBall x ‖c‖ := Metric.mem_closedBall_self (norm_nonneg _)
    have h1 := (convex_closedBall x ‖c‖).norm_image_sub_le_of_norm_fderiv_le' (𝕜 := ℝ) (f := φ) (φ := fderiv ℝ φ x) (C := |M| * ‖c‖) (x := x) (y := x + c)
      (fun z _ => (hφ2.differentiable (by norm_num)).differentiableAt) (fun z hz => by
        have h2 := hφL x (hsub x hx') z (hsub z hz)
        rw [mem_closedBall_iff_norm] at hz
        exact h2.trans (mul_le_mul (le_abs_self _) hz (norm_nonneg _) (abs_nonneg _))) hx' (by rw [mem_closedBall_iff_norm]; simp)
    rw [add_sub_cancel_left, hφd, Real.norm_eq_abs] at h1
    have h3 := (abs_le.1 h1).2
    have h4 : |M| * ‖c‖ * ‖c‖ ≤ |M| * ‖eu n c‖ ^ 2 := by
      have := sup_le_eu c
      rw [mul_assoc, sq]
      gcongr
    have h5 : φ (x + c) ≤ φ x + ((J x)ᵀ *ᵥ r x) ⬝ᵥ c + 2 * |M| / 2 * ‖eu n c‖ ^ 2 := by linarith
    exact h5

end Pressio.Lemmas.LmConvergence
