import Verif.Lemmas.GaussNewtonConvergence
import Verif.Props.LeastSquares
import Verif.Props.NewtonConvergence

/-
  C86: the Gauss-Newton solvers near a regular solution.  `Minimises`, `RegularFit`, `reduction`, `recognises`, `Enough` and `fitError` are in `Spec/GaussNewtonConvergence.lean`.
-/
namespace Pressio.Props
set_option autoImplicit false
set_option linter.unusedSectionVars false
open Pressio Matrix
open Pressio.Model.Nonlinear (Env Cfg Reg StopCrit Update Ans Tag fdiv)
open Pressio.Spec.Nonlinear Pressio.Spec.NewtonConvergence Pressio.Spec.GaussNewtonConvergence Pressio.Lemmas.GaussNewtonConvergence
open Pressio.Lemmas.Nonlinear
open Pressio.Spec.Reduced (eu)
open scoped InnerProductSpace

variable {E m n p L : Type} [NormedAddCommGroup E] [InnerProductSpace ℝ E] [Fintype m] [Fintype n] [DecidableEq n] [Fintype p]

/-! ### Which function each solver minimises -/

/-- without weights: the Euclidean norm of the residual -/
theorem C86_minimises_plain [DecidableEq m] (env : Env ℝ m n p L) (hM : ∀ v, env.normM v = ‖eu m v‖) (tag : Tag) (htag : tag = .gn ∨ tag = .gnQr) : Minimises env tag (eu m) := by
  have hg : ∀ (r : m → ℝ) (J : Matrix m n ℝ) v, (Jᵀ *ᵥ r) ⬝ᵥ v = ⟪eu m r, eu m (J *ᵥ v)⟫_ℝ := fun r J v => by
    rw [eu_in, Matrix.mulVec_transpose, ← Matrix.dotProduct_mulVec, dotProduct_comm]
  have hh : ∀ (J : Matrix m n ℝ) v w, ((Jᵀ * J) *ᵥ v) ⬝ᵥ w = ⟪eu m (J *ᵥ v), eu m (J *ᵥ w)⟫_ℝ := fun J v w => by
    rw [← Matrix.mulVec_mulVec, hg]
  rcases htag with h | h <;> subst h <;> exact ⟨fun r => by simp only [objOf, hM], fun r J v => hg r J v, fun J _ v w => hh J v w⟩

/-- weights `W = VᵀV`: the Euclidean norm of `V r` -/
theorem C86_minimises_weighted [DecidableEq p] {q : Type} [Fintype q] [DecidableEq q] (env : Env ℝ m n p L) (V : Matrix q m ℝ) (hr : ∀ r, env.wR r = (Vᵀ * V) *ᵥ r) (hJ : ∀ J, env.wJ J = (Vᵀ * V) * J) :
    Minimises env .wgn (eu q ∘ₗ V.mulVecLin) := by
  have hg : ∀ (r : m → ℝ) (J : Matrix m n ℝ) v, (Jᵀ *ᵥ ((Vᵀ * V) *ᵥ r)) ⬝ᵥ v = ⟪eu q (V *ᵥ r), eu q (V *ᵥ (J *ᵥ v))⟫_ℝ := fun r J v => by
    rw [eu_in, Matrix.mulVec_transpose, ← Matrix.dotProduct_mulVec, ← Matrix.mulVec_mulVec, Matrix.mulVec_transpose, ← Matrix.dotProduct_mulVec, dotProduct_comm]
  refine ⟨fun r => ?_, fun r J v => ?_, fun J _ v w => ?_⟩
  · simp only [objOf, hr, LinearMap.comp_apply, Matrix.mulVecLin_apply, eu_sq]
    rw [← Matrix.mulVec_mulVec, Matrix.mulVec_transpose, dotProduct_comm, ← Matrix.dotProduct_mulVec]
  · simp only [gradOf, hr, LinearMap.comp_apply, Matrix.mulVecLin_apply]
    exact hg r J v
  · simp only [hessOf, hJ, LinearMap.comp_apply, Matrix.mulVecLin_apply]
    rw [← Matrix.mulVec_mulVec, ← Matrix.mulVec_mulVec, hg]

/-- compact weights: the Euclidean norm of the weighted residual -/
theorem C86_minimises_compact [DecidableEq p] (env : Env ℝ m n p L) (V : Matrix p m ℝ) (hr : ∀ r, env.cwR r = V *ᵥ r) (hJ : ∀ J, env.cwJ J = V * J) : Minimises env .cwgn (eu p ∘ₗ V.mulVecLin) := by
  have hg : ∀ (r : m → ℝ) (J : Matrix m n ℝ) v, ((V * J)ᵀ *ᵥ (V *ᵥ r)) ⬝ᵥ v = ⟪eu p (V *ᵥ r), eu p (V *ᵥ (J *ᵥ v))⟫_ℝ := fun r J v => by
    rw [eu_in, Matrix.mulVec_transpose, ← Matrix.dotProduct_mulVec, Matrix.mulVec_mulVec, dotProduct_comm]
  refine ⟨fun r => ?_, fun r J v => ?_, fun J _ v w => ?_⟩
  · simp only [objOf, hr, LinearMap.comp_apply, Matrix.mulVecLin_apply, eu_sq]
  · simp only [gradOf, hr, hJ, LinearMap.comp_apply, Matrix.mulVecLin_apply]
    exact hg r J v
  · simp only [hessOf, hJ, LinearMap.comp_apply, Matrix.mulVecLin_apply]
    rw [← Matrix.mulVec_mulVec, ← Matrix.mulVec_mulVec, hg]

/-! ### The criteria -/

/-- when the error has been reduced enough, the criterion is met -/
theorem fit_met_of_enough (stop : StopCrit) (tag : Tag) (σ tol β Λ ρ q e0 e c0 c g0 g r0 r R0 R f0 f : ℝ) (hrec : recognises stop tag σ) (hβ : 0 < β) (hΛ : 0 ≤ Λ) (hq : 0 ≤ q) (he0 : 0 ≤ e0) (hρ : e0 ≤ ρ)
    (hrel : relative stop = true → 0 < e0) (hen : 0 ≤ e) (he : e ≤ e0 * q) (hc : c ≤ 3 / 2 * e) (hc0 : e0 ≤ 2 * c0) (hg : g ≤ 27 / 8 * Λ ^ 2 * e) (hg0 : e0 ≤ 8 * β ^ 2 * g0)
    (hR : σ = 0 → R ≤ 5 / 4 * Λ * e) (hR0 : σ = 0 → e0 ≤ 4 / 3 * β * R0) (hRn : 0 ≤ R) (hR0n : 0 ≤ R0) (hf : f = R ^ 2 / 2) (hf0 : f0 = R0 ^ 2 / 2) (hr : tag = .gn ∨ tag = .gnQr → r = R ∧ r0 = R0) (hen' : Enough stop tol β Λ ρ q) :
    below stop tol ⟨r0, c0, g0, f0⟩ ⟨r, c, g, f⟩ = true := by
  have heρ : e ≤ ρ * q := he.trans (by gcongr)
  have hρ0 : 0 ≤ ρ := he0.trans hρ
  cases stop <;> simp only [recognises] at hrec <;> simp only [Enough] at hen' <;> simp only [below]
  case WhenAbsolutel2NormOfCorrectionBelowTolerance => rw [decide_eq_true_eq]; nlinarith
  case WhenRelativel2NormOfCorrectionBelowTolerance =>
    have h0 := hrel rfl
    have hc00 : 0 < c0 := by linarith
    rw [fdiv_lt hc00, decide_eq_true_eq]
    have h1 : c ≤ 3 * q * c0 := by nlinarith
    nlinarith
  case WhenAbsolutel2NormOfGradientBelowTolerance =>
    rw [decide_eq_true_eq]
    have : 27 / 8 * Λ ^ 2 * e ≤ 27 / 8 * Λ ^ 2 * (ρ * q) := by gcongr
    linarith
  case WhenRelativel2NormOfGradientBelowTolerance =>
    have h0 := hrel rfl
    have hg00 : 0 < g0 := by
      by_contra hc
      push Not at hc
      have : 8 * β ^ 2 * g0 ≤ 0 := mul_nonpos_of_nonneg_of_nonpos (by positivity) hc
      linarith
    rw [fdiv_lt hg00, decide_eq_true_eq]
    calc g ≤ 27 / 8 * Λ ^ 2 * e := hg
      _ ≤ 27 / 8 * Λ ^ 2 * (8 * β ^ 2 * g0 * q) := by gcongr; exact he.trans (by gcongr)
      _ = 27 * Λ ^ 2 * β ^ 2 * q * g0 := by ring
      _ < tol * g0 := by gcongr
  case WhenAbsolutel2NormOfResidualBelowTolerance =>
    rw [decide_eq_true_eq, (hr hrec.2).1]
    have : 5 / 4 * Λ * e ≤ 5 / 4 * Λ * (ρ * q) := by gcongr
    linarith [hR hrec.1]
  case WhenRelativel2NormOfResidualBelowTolerance =>
    have h0 := hrel rfl
    have h1 := hR0 hrec.1
    have hR00 : 0 < R0 := by
      by_contra hc
      push Not at hc
      have : 4 / 3 * β * R0 ≤ 0 := mul_nonpos_of_nonneg_of_nonpos (by positivity) hc
      linarith
    rw [(hr hrec.2).1, (hr hrec.2).2, fdiv_lt hR00, decide_eq_true_eq]
    calc R ≤ 5 / 4 * Λ * e := hR hrec.1
      _ ≤ 5 / 4 * Λ * (4 / 3 * β * R0 * q) := by gcongr; exact he.trans (by gcongr)
      _ = 5 / 3 * Λ * β * q * R0 := by ring
      _ < tol * R0 := by gcongr
  case WhenAbsoluteObjectiveBelowTolerance =>
    rw [decide_eq_true_eq, hf]
    calc R ^ 2 / 2 ≤ (5 / 4 * Λ * (ρ * q)) ^ 2 / 2 := by gcongr; exact (hR hrec).trans (by gcongr)
      _ = 25 / 32 * Λ ^ 2 * ρ ^ 2 * q ^ 2 := by ring
      _ < tol := hen'
  case WhenRelativeObjectiveBelowTolerance =>
    have h0 := hrel rfl
    have h1 := hR0 hrec
    have hR00 : 0 < R0 := by
      by_contra hc
      push Not at hc
      have : 4 / 3 * β * R0 ≤ 0 := mul_nonpos_of_nonneg_of_nonpos (by positivity) hc
      linarith
    rw [hf, hf0, fdiv_lt (by positivity), decide_eq_true_eq]
    calc R ^ 2 / 2 ≤ (5 / 4 * Λ * (4 / 3 * β * R0 * q)) ^ 2 / 2 := by gcongr; exact (hR hrec).trans (by gcongr; exact he.trans (by gcongr))
      _ = 25 / 9 * Λ ^ 2 * β ^ 2 * q ^ 2 * (R0 ^ 2 / 2) := by ring
      _ < tol * (R0 ^ 2 / 2) := by gcongr

/-- a met criterion bounds the error -/
theorem fit_error_of_met (stop : StopCrit) (tag : Tag) (σ tol β Λ e0 e c0 c g0 g r0 r R0 R f0 f : ℝ) (hrec : recognises stop tag σ) (hβ : 0 < β) (hΛ : 0 ≤ Λ) (htol : 0 ≤ tol) (he0 : 0 ≤ e0)
    (hrel : relative stop = true → 0 < e0) (hc : e ≤ 2 * c) (hc0 : e0 ≤ 2 * c0) (hc0' : c0 ≤ 3 / 2 * e0) (hg : e ≤ 8 * β ^ 2 * g) (hg0 : e0 ≤ 8 * β ^ 2 * g0) (hg0' : g0 ≤ 27 / 8 * Λ ^ 2 * e0)
    (hR : σ = 0 → e ≤ 4 / 3 * β * R) (hR0 : σ = 0 → e0 ≤ 4 / 3 * β * R0) (hR0' : σ = 0 → R0 ≤ 5 / 4 * Λ * e0) (hRn : 0 ≤ R) (hR0n : 0 ≤ R0) (hf : f = R ^ 2 / 2) (hf0 : f0 = R0 ^ 2 / 2)
    (hr : tag = .gn ∨ tag = .gnQr → r = R ∧ r0 = R0) (hmet : below stop tol ⟨r0, c0, g0, f0⟩ ⟨r, c, g, f⟩ = true) : e ≤ fitError stop tol β Λ e0 := by
  cases stop <;> simp only [recognises] at hrec <;> simp only [below] at hmet <;> simp only [fitError]
  case WhenAbsolutel2NormOfCorrectionBelowTolerance => rw [decide_eq_true_eq] at hmet; linarith
  case WhenRelativel2NormOfCorrectionBelowTolerance =>
    have h0 := hrel rfl
    have hc00 : 0 < c0 := by linarith
    rw [fdiv_lt hc00, decide_eq_true_eq] at hmet
    nlinarith
  case WhenAbsolutel2NormOfGradientBelowTolerance =>
    rw [decide_eq_true_eq] at hmet
    exact hg.trans (by gcongr)
  case WhenRelativel2NormOfGradientBelowTolerance =>
    have h0 := hrel rfl
    have hg00 : 0 < g0 := by
      by_contra hc
      push Not at hc
      have : 8 * β ^ 2 * g0 ≤ 0 := mul_nonpos_of_nonneg_of_nonpos (by positivity) hc
      linarith
    rw [fdiv_lt hg00, decide_eq_true_eq] at hmet
    calc e ≤ 8 * β ^ 2 * g := hg
      _ ≤ 8 * β ^ 2 * (tol * (27 / 8 * Λ ^ 2 * e0)) := by gcongr; exact hmet.le.trans (by gcongr)
      _ = _ := by ring
  case WhenAbsolutel2NormOfResidualBelowTolerance =>
    rw [decide_eq_true_eq, (hr hrec.2).1] at hmet
    exact (hR hrec.1).trans (by gcongr)
  case WhenRelativel2NormOfResidualBelowTolerance =>
    have h0 := hrel rfl
    have h1 := hR0 hrec.1
    have hR00 : 0 < R0 := by
      by_contra hc
      push Not at hc
      have : 4 / 3 * β * R0 ≤ 0 := mul_nonpos_of_nonneg_of_nonpos (by positivity) hc
      linarith
    rw [(hr hrec.2).1, (hr hrec.2).2, fdiv_lt hR00, decide_eq_true_eq] at hmet
    calc e ≤ 4 / 3 * β * R := hR hrec.1
      _ ≤ 4 / 3 * β * (tol * (5 / 4 * Λ * e0)) := by gcongr; exact hmet.le.trans (by gcongr; exact hR0' hrec.1)
      _ = _ := by ring
  case WhenAbsoluteObjectiveBelowTolerance =>
    rw [decide_eq_true_eq, hf] at hmet
    refine (hR hrec).trans ?_
    gcongr
    exact Real.le_sqrt_of_sq_le (by linarith)
  case WhenRelativeObjectiveBelowTolerance =>
    have h0 := hrel rfl
    have h1 := hR0 hrec
    have hR00 : 0 < R0 := by
      by_contra hc
      push Not at hc
      have : 4 / 3 * β * R0 ≤ 0 := mul_nonpos_of_nonneg_of_nonpos (by positivity) hc
      linarith
    rw [hf, hf0, fdiv_lt (by positivity), decide_eq_true_eq] at hmet
    have h2 : R ≤ Real.sqrt tol * R0 := by
      rw [← Real.sqrt_sq hRn, ← Real.sqrt_sq hR0n, ← Real.sqrt_mul htol]
      exact Real.sqrt_le_sqrt (by linarith)
    calc e ≤ 4 / 3 * β * R := hR hrec
      _ ≤ 4 / 3 * β * (Real.sqrt tol * (5 / 4 * Λ * e0)) := by gcongr; exact h2.trans (by gcongr; exact hR0' hrec)
      _ = _ := by ring

/-! ### Convergence -/

/-- the common part -/
theorem fit_converges (ι : (m → ℝ) →ₗ[ℝ] E) (env : Env ℝ m n p L) (hM : ∀ v, env.normM v = ‖eu m v‖) (hN : ∀ v, env.normN v = ‖eu n v‖) (tag : Tag) (hmin : Minimises env tag ι) (cfg : Cfg ℝ)
    (r : (n → ℝ) → m → ℝ) (J : (n → ℝ) → Matrix m n ℝ) (s : Reg ℝ m n p L)
    (x' : n → ℝ) (β Λ γ ρ : ℝ) (H : RegularFit ι r J x' β Λ γ ρ) (hstart : ‖eu n (s.x - x')‖ ≤ ρ) (hrec : recognises cfg.stop tag ‖ι (r x')‖) (hrel : relative cfg.stop = true → s.x ≠ x')
    (k : Nat) (hk : (k : Int) < cfg.maxIters) (hen : Enough cfg.stop cfg.tol β Λ ρ (reduction ‖ι (r x')‖ k)) (D : (n → ℝ) → n → ℝ)
    (hD : ∀ x, ‖eu n (x - x')‖ ≤ ρ → ∀ w, ⟪ι (J x *ᵥ D x), ι (J x *ᵥ w)⟫_ℝ = ⟪ι (r x), ι (J x *ᵥ w)⟫_ℝ) (res : Res (Reg ℝ m n p L) Unit)
    (hrun : let N : (n → ℝ) → n → ℝ := fun x => x + -D x
      let nrm : (n → ℝ) → Norms ℝ := fun x => ⟨env.normM (r x), env.normN (-D x), env.normN (gradOf env tag (r x) (J x)), objOf env tag (r x)⟩
      let met := fun k : Nat => lsMet cfg (nrm s.x) (nrm (N^[k] s.x)) k = true
      res.stop? = none ∧ res.state.files = s.files ∧ (∀ k : Nat, (k : Int) < cfg.maxIters → met k → (∀ j < k, ¬ met j) →
        res.state.x = N^[k] s.x ∧ res.state.log = s.log ++ (List.range (k + 1)).map (fun a => ⟨N^[a] s.x, true, .ok (r (N^[a] s.x), some (J (N^[a] s.x)))⟩))) :
    ConvergesTo ι cfg r J x' β Λ γ k s res := by
  have hb := H.β0
  have hΛ := H.Λ0
  obtain ⟨g1, g2, g3⟩ := hrun
  set N : (n → ℝ) → n → ℝ := fun x => x + -D x with hNdef
  have hNs : ∀ x, ‖eu n (x - x')‖ ≤ ρ → ∃ d, (∀ w, ⟪ι (J x *ᵥ d), ι (J x *ᵥ w)⟫_ℝ = ⟪ι (r x), ι (J x *ᵥ w)⟫_ℝ) ∧ N x = x - d := fun x hx => ⟨D x, hD x hx, (sub_eq_add_neg _ _).symm⟩
  have hst := fun a => H.stays N hNs s.x hstart a
  have hit := fun a => H.iterates N hNs s.x hstart a
  have hms := fun a => H.measures _ _ (gradOf env tag (r (N^[a] s.x)) (J (N^[a] s.x))) (hst a) (hD _ (hst a)) (fun w => hmin.grad _ _ w)
  have hms0 := H.measures _ _ (gradOf env tag (r s.x) (J s.x)) hstart (hD _ hstart) (fun w => hmin.grad _ _ w)
  have hrs := fun a (hσ : ‖ι (r x')‖ = 0) => H.residual hσ _ (hst a)
  have hrs0 := fun (hσ : ‖ι (r x')‖ = 0) => H.residual hσ _ hstart
  have hq := reduction_nonneg ‖ι (r x')‖ k
  have hρ : 0 ≤ ρ := (norm_nonneg _).trans hstart
  have he0 : relative cfg.stop = true → 0 < ‖eu n (s.x - x')‖ := fun h => by
    rw [norm_pos_iff]
    intro h0
    rw [map_sub, sub_eq_zero] at h0
    exact hrel h (eu_inj h0)
  have htol : 0 ≤ cfg.tol := by
    rcases hc : cfg.stop <;> rw [hc] at hen <;> simp only [Enough] at hen <;> first | exact hen.elim | exact le_trans (by positivity) hen.le
  have nrmN : ∀ x, env.normN (-D x) = ‖eu n (D x)‖ := fun x => by rw [hN, map_neg, norm_neg]
  have hres : ∀ x, tag = .gn ∨ tag = .gnQr → env.normM (r x) = ‖ι (r x)‖ := fun x h => by
    have h1 := hmin.obj (r x)
    have h2 : objOf env tag (r x) = env.normM (r x) ^ 2 / 2 := by rcases h with h | h <;> rw [h] <;> rfl
    rw [h2] at h1
    have h3 : env.normM (r x) ^ 2 = ‖ι (r x)‖ ^ 2 := by linarith
    have h4 : 0 ≤ env.normM (r x) := by rw [hM]; exact norm_nonneg _
    exact (pow_left_inj₀ h4 (norm_nonneg _) two_ne_zero).1 h3
  have hstop : cfg.stop ≠ .AfterMaxIters := by
    intro h; rw [h] at hrec; exact hrec
  set nrm : (n → ℝ) → Norms ℝ := fun x => ⟨env.normM (r x), env.normN (-D x), env.normN (gradOf env tag (r x) (J x)), objOf env tag (r x)⟩ with hnrm
  have hls : ∀ k, lsMet cfg (nrm s.x) (nrm (N^[k] s.x)) k = below cfg.stop cfg.tol (nrm s.x) (nrm (N^[k] s.x)) := fun k => by rw [lsMet, if_neg hstop]
  have hmetk : below cfg.stop cfg.tol (nrm s.x) (nrm (N^[k] s.x)) = true := by
    simp only [hnrm, nrmN]
    refine fit_met_of_enough cfg.stop tag _ cfg.tol β Λ ρ _ _ _ _ _ _ _ _ _ ‖ι (r s.x)‖ ‖ι (r (N^[k] s.x))‖ _ _ hrec hb hΛ hq (norm_nonneg _) hstart he0 (norm_nonneg _) (hit k) (hms k).2.2.1 hms0.2.1 ?_ ?_
      (fun h => (hrs k h).2) (fun h => (hrs0 h).1) (norm_nonneg _) (norm_nonneg _) (hmin.obj _) (hmin.obj _) (fun h => ⟨hres _ h, hres _ h⟩) hen
    · rw [hN]; exact (hms k).2.2.2.2
    · rw [hN]; exact hms0.2.2.2.1
  classical
  have hex : ∃ k : Nat, below cfg.stop cfg.tol (nrm s.x) (nrm (N^[k] s.x)) = true := ⟨k, hmetk⟩
  obtain ⟨j, hjk, hmet, hmin'⟩ : ∃ j ≤ k, below cfg.stop cfg.tol (nrm s.x) (nrm (N^[j] s.x)) = true ∧ ∀ i < j, ¬ below cfg.stop cfg.tol (nrm s.x) (nrm (N^[i] s.x)) = true :=
    ⟨Nat.find hex, Nat.find_le hmetk, Nat.find_spec hex, fun i hi => Nat.find_min hex hi⟩
  obtain ⟨f1, f2⟩ := g3 j (by omega) ((hls j).trans hmet) (fun i hi h => hmin' i hi ((hls i).symm.trans h))
  refine ⟨g1, g2, ?_, fun a => N^[a] s.x, j, rfl, fun a => ?_, hit, hjk, f1, f2⟩
  · rw [f1]
    simp only [hnrm, nrmN] at hmet
    refine fit_error_of_met cfg.stop tag _ cfg.tol β Λ _ _ _ _ _ _ _ _ ‖ι (r s.x)‖ ‖ι (r (N^[j] s.x))‖ _ _ hrec hb hΛ htol (norm_nonneg _) he0 (hms j).2.1 hms0.2.1 hms0.2.2.1 ?_ ?_ ?_
      (fun h => (hrs j h).1) (fun h => (hrs0 h).1) (fun h => (hrs0 h).2) (norm_nonneg _) (norm_nonneg _) (hmin.obj _) (hmin.obj _) (fun h => ⟨hres _ h, hres _ h⟩) hmet
    · rw [hN]; exact (hms j).2.2.2.1
    · rw [hN]; exact hms0.2.2.2.1
    · rw [hN]; exact hms0.2.2.2.2
  · show ‖eu n (N^[a + 1] s.x - x')‖ ≤ _
    rw [Function.iterate_succ_apply']
    have := H.step _ _ (hst a) (hD _ (hst a))
    rwa [sub_eq_add_neg (N^[a] s.x)] at this

/-- **C86.** Gauss-Newton with normal equations (plain, weighted, compact weighted), standard updates and an inner solver that solves systems with positive definite matrix exactly, started within the distance `ρ` of a regular
    solution `x'` of the least-squares problem.  If `k < maxIters` updates reduce the error enough for the tolerance, then `solve` returns normally after at most `k + 1` evaluations with an error of at most `fitError`.
    The error recursion is quadratic plus a linear term proportional to the residual at the solution. -/
theorem C86_gauss_newton_converges (ι : (m → ℝ) →ₗ[ℝ] E) (env : Env ℝ m n p L) (hM : ∀ v, env.normM v = ‖eu m v‖) (hN : ∀ v, env.normN v = ‖eu n v‖) (tag : Tag) (htag : tag = .gn ∨ tag = .wgn ∨ tag = .cwgn)
    (hmin : Minimises env tag ι) (cfg : Cfg ℝ) (r : (n → ℝ) → m → ℝ) (J : (n → ℝ) → Matrix m n ℝ) (sol : Matrix n n ℝ → (n → ℝ) → n → ℝ) (tick : L → L)
    (hlin : ∀ A b c l, env.lin A b (c, l) = .ok () (sol A b, tick l)) (hsol : ∀ A b, A.PosDef → A *ᵥ sol A b = b) (hupd : cfg.update = .Standard) (hmax : cfg.maxIters < int32Max) (s : Reg ℝ m n p L) (hs : LsObj s)
    (x' : n → ℝ) (β Λ γ ρ : ℝ) (H : RegularFit ι r J x' β Λ γ ρ) (hstart : ‖eu n (s.x - x')‖ ≤ ρ) (hrec : recognises cfg.stop tag ‖ι (r x')‖) (hrel : relative cfg.stop = true → s.x ≠ x')
    (k : Nat) (hk : (k : Int) < cfg.maxIters) (hen : Enough cfg.stop cfg.tol β Λ ρ (reduction ‖ι (r x')‖ k)) :
    ConvergesTo ι cfg r J x' β Λ γ k s (runLs env cfg (Sys.ofFun r J) tag s) := by
  obtain ⟨g1, g2, g3, -⟩ := C36_least_squares_iterates env cfg tag htag r J sol tick hlin hupd hmax s hs
  refine fit_converges ι env hM hN tag hmin cfg r J s x' β Λ γ ρ H hstart hrec hrel k hk hen (fun x => sol (hessOf env tag (J x) s.damp) (gradOf env tag (r x) (J x))) (fun x hx w => ?_) _
    ⟨g1, g2, fun k h1 h2 h3 => ⟨(g3 k h1 h2 h3).1, (g3 k h1 h2 h3).2.1⟩⟩
  rw [← hmin.hess (J x) s.damp, hsol _ _ (H.posDef hmin x hx s.damp), hmin.grad]

/-- **C86, QR.** The same for Gauss-Newton with a QR solver object which keeps the thin factorisation `A = Q R` of the last matrix it was given and, when that matrix has full column rank, computes `Qᵀ v` and solves with `R`. -/
theorem C86_gauss_newton_qr_converges [DecidableEq m] (env : Env ℝ m n p L) (hM : ∀ v, env.normM v = ‖eu m v‖) (hN : ∀ v, env.normN v = ‖eu n v‖)
    (cfg : Cfg ℝ) (r : (n → ℝ) → m → ℝ) (J : (n → ℝ) → Matrix m n ℝ) (fact : Matrix m n ℝ → L) (qt : Matrix m n ℝ → (m → ℝ) → n → ℝ)
    (back : Matrix m n ℝ → (n → ℝ) → n → ℝ) (hthin : ∀ A l, env.qrThin A l = .ok () (fact A)) (hqt : ∀ A v b, env.qrApplyQT v (b, fact A) = .ok () (qt A v, fact A))
    (hback : ∀ A b c, env.qrSolve b (c, fact A) = .ok () (back A b, fact A))
    (hqr : ∀ A : Matrix m n ℝ, (∀ v, A *ᵥ v = 0 → v = 0) → ∃ (Q : Matrix m n ℝ) (R : Matrix n n ℝ), A = Q * R ∧ Qᵀ * Q = 1 ∧ (∀ v, qt A v = Qᵀ *ᵥ v) ∧ ∀ b, R *ᵥ back A b = b)
    (hupd : cfg.update = .Standard) (hmax : cfg.maxIters < int32Max) (s : Reg ℝ m n p L) (hs : LsObj s)
    (x' : n → ℝ) (β Λ γ ρ : ℝ) (H : RegularFit (eu m) r J x' β Λ γ ρ) (hstart : ‖eu n (s.x - x')‖ ≤ ρ) (hrec : recognises cfg.stop .gnQr ‖eu m (r x')‖) (hrel : relative cfg.stop = true → s.x ≠ x')
    (k : Nat) (hk : (k : Int) < cfg.maxIters) (hen : Enough cfg.stop cfg.tol β Λ ρ (reduction ‖eu m (r x')‖ k)) :
    ConvergesTo (eu m) cfg r J x' β Λ γ k s (runLs env cfg (Sys.ofFun r J) .gnQr s) := by
  obtain ⟨g1, g2, g3, -⟩ := C36_qr_iterates env cfg r J fact qt back hthin hqt hback hupd hmax s hs
  refine fit_converges (eu m) env hM hN .gnQr (C86_minimises_plain env hM _ (.inr rfl)) cfg r J s x' β Λ γ ρ H hstart hrec hrel k hk hen (fun x => back (J x) (qt (J x) (r x))) (fun x hx w => ?_) _
    ⟨g1, g2, fun k h1 h2 h3 => ⟨(g3 k h1 h2 h3).1, (g3 k h1 h2 h3).2.1⟩⟩
  have hinj : ∀ v, J x *ᵥ v = 0 → v = 0 := fun v hv => by
    have := H.inv_near x hx v
    rw [hv, map_zero, norm_zero, mul_zero] at this
    exact eu_inj (by rw [map_zero]; exact norm_le_zero_iff.1 this)
  obtain ⟨Q, R, e1, e2, e3, e4⟩ := hqr (J x) hinj
  beta_reduce
  set d := back (J x) (qt (J x) (r x)) with hd
  have hJd : J x *ᵥ d = Q *ᵥ (Qᵀ *ᵥ r x) := by
    rw [show J x *ᵥ d = Q *ᵥ (R *ᵥ d) by rw [Matrix.mulVec_mulVec, ← e1], hd, e4, e3]
  rw [eu_in, eu_in, hJd, show J x *ᵥ w = Q *ᵥ (R *ᵥ w) by rw [Matrix.mulVec_mulVec, ← e1]]
  rw [Matrix.dotProduct_mulVec, ← Matrix.mulVec_transpose, Matrix.mulVec_mulVec, e2, Matrix.one_mulVec, Matrix.dotProduct_mulVec (R *ᵥ w), Matrix.vecMul_transpose]

/-! ### Smooth problems -/

/-- Every perfect fit with full column rank of a twice continuously differentiable residual is a regular solution, with some constants. -/
theorem C86_smooth_fits_are_regular (ι : (m → ℝ) →ₗ[ℝ] E) (r : (n → ℝ) → m → ℝ) (J : (n → ℝ) → Matrix m n ℝ) (hr : ContDiff ℝ 2 r) (hJ : ∀ x, IsJacobian r J x)
    (x' : n → ℝ) (hfit : ι (r x') = 0) (hrank : ∀ v, ι (J x' *ᵥ v) = 0 → v = 0) : ∃ β Λ γ ρ, 0 < ρ ∧ RegularFit ι r J x' β Λ γ ρ := by
  obtain ⟨K, hK0, hK⟩ := LinearMap.exists_antilipschitzWith (eu n) (LinearMap.ker_eq_bot.2 eu_inj)
  have hι1 : ∀ v, ‖v‖ ≤ K * ‖eu n v‖ := fun v => by
    have := hK.le_mul_dist v 0
    simpa using this
  -- the Jacobian at the solution, as a map between the normed spaces
  set A : (n → ℝ) →ₗ[ℝ] E := ι ∘ₗ (J x').mulVecLin with hA
  have hAv : ∀ v, A v = ι (J x' *ᵥ v) := fun v => rfl
  obtain ⟨B, hB0, hB⟩ := LinearMap.exists_antilipschitzWith A (LinearMap.ker_eq_bot.2 (by
    rw [injective_iff_map_eq_zero]; exact fun v hv => hrank v hv))
  have hB1 : ∀ v, ‖v‖ ≤ B * ‖ι (J x' *ᵥ v)‖ := fun v => by
    have := hB.le_mul_dist v 0
    simpa [hAv] using this
  set C := ‖(eu n).toContinuousLinearMap‖ with hC
  have hι2 : ∀ v, ‖eu n v‖ ≤ C * ‖v‖ := fun v => by
    have := (eu n).toContinuousLinearMap.le_opNorm v
    simpa using this
  set D := ‖ι.toContinuousLinearMap‖ with hD
  have hι3 : ∀ v, ‖ι v‖ ≤ D * ‖v‖ := fun v => by
    have := ι.toContinuousLinearMap.le_opNorm v
    simpa using this
  have hC0 : 0 ≤ C := norm_nonneg _
  have hD0 : 0 ≤ D := norm_nonneg _
  have hfd : ∀ x, fderiv ℝ r x = (Matrix.toLin' (J x)).toContinuousLinearMap := fun x => HasFDerivAt.fderiv (hJ x)
  have hc : ContDiff ℝ 1 (fderiv ℝ r) := hr.fderiv_right (by norm_num)
  obtain ⟨G, t, ht, hG⟩ := hc.contDiffAt (x := x') |>.exists_lipschitzOnWith
  obtain ⟨ε, hε, hball⟩ := Metric.mem_nhds_iff.1 ht
  have hKr : (0:ℝ) < K := hK0
  set β := C * B + 1 with hβ
  have hβ0 : 0 < β := by positivity
  set γ := D * G * K * K with hγ
  have hγ0 : 0 ≤ γ := by positivity
  set ρ := min (ε / (2 * K)) (1 / (2 * (β * γ + 1))) with hρ
  have hρ0 : 0 < ρ := by positivity
  have hin : ∀ x, ‖eu n (x - x')‖ ≤ ρ → x ∈ t := fun x hx => by
    refine hball ?_
    rw [Metric.mem_ball, dist_eq_norm]
    have h1 : ρ ≤ ε / (2 * K) := min_le_left _ _
    have h2 := hι1 (x - x')
    have h3 : (K:ℝ) * ‖eu n (x - x')‖ ≤ K * (ε / (2 * K)) := by gcongr; exact hx.trans h1
    have h4 : (K:ℝ) * (ε / (2 * K)) = ε / 2 := by field_simp
    linarith
  refine ⟨β, ‖A.toContinuousLinearMap‖ * K, γ, ρ, hρ0, fun v => by rw [hfit, inner_zero_left], fun x _ => hJ x, fun v => ?_, fun v => ?_, fun x y v hx hy => ?_, hβ0, by positivity, hγ0, ?_⟩
  · calc ‖eu n v‖ ≤ C * (B * ‖ι (J x' *ᵥ v)‖) := (hι2 v).trans (by gcongr; exact hB1 v)
      _ = C * B * ‖ι (J x' *ᵥ v)‖ := by ring
      _ ≤ β * ‖ι (J x' *ᵥ v)‖ := by gcongr; rw [hβ]; linarith
  · have h1 := A.toContinuousLinearMap.le_opNorm v
    calc ‖ι (J x' *ᵥ v)‖ ≤ ‖A.toContinuousLinearMap‖ * (K * ‖eu n v‖) := h1.trans (by gcongr; exact hι1 v)
      _ = _ := by ring
  · have h1 : J x *ᵥ v - J y *ᵥ v = (fderiv ℝ r x - fderiv ℝ r y) v := by rw [hfd, hfd]; simp
    have h2 : ‖fderiv ℝ r x - fderiv ℝ r y‖ ≤ G * ‖x - y‖ := by
      have := hG.dist_le_mul x (hin x hx) y (hin y hy)
      rwa [dist_eq_norm, dist_eq_norm] at this
    calc ‖ι (J x *ᵥ v - J y *ᵥ v)‖ ≤ D * ‖(fderiv ℝ r x - fderiv ℝ r y) v‖ := by rw [h1]; exact hι3 _
      _ ≤ D * ((G * (K * ‖eu n (x - y)‖)) * (K * ‖eu n v‖)) := by
          gcongr
          exact (ContinuousLinearMap.le_opNorm _ _).trans (mul_le_mul (h2.trans (by gcongr; exact hι1 _)) (hι1 v) (norm_nonneg _) (by positivity))
      _ = _ := by rw [hγ]; ring
  · rw [hfit, norm_zero, mul_zero, add_zero]
    have h1 : ρ ≤ 1 / (2 * (β * γ + 1)) := min_le_right _ _
    have h2 : 0 ≤ β * γ := by positivity
    calc β * γ * ρ ≤ β * γ * (1 / (2 * (β * γ + 1))) := by gcongr
      _ ≤ 1 / 2 := by
          rw [mul_one_div, div_le_div_iff₀ (by positivity) (by norm_num)]
          linarith

/-- constants that serve for all criteria -/
noncomputable def fitFactor (β Λ ρ : ℝ) : ℝ := 3 / 2 * ρ + 3 + 27 / 8 * Λ ^ 2 * ρ + 27 * Λ ^ 2 * β ^ 2 + 5 / 4 * Λ * ρ + 5 / 3 * Λ * β + 25 / 32 * Λ ^ 2 * ρ ^ 2 + 25 / 9 * Λ ^ 2 * β ^ 2
noncomputable def fitConst (β Λ ρ : ℝ) : ℝ := 2 + 3 * ρ + 8 * β ^ 2 + 27 * Λ ^ 2 * β ^ 2 * ρ + 4 / 3 * β + 5 / 3 * Λ * β * ρ + 4 / 3 * β * Real.sqrt 2

theorem enough_of_factor (stop : StopCrit) (tag : Tag) (hrec : recognises stop tag 0) (tol β Λ ρ q : ℝ) (hβ : 0 < β) (hΛ : 0 ≤ Λ) (hρ : 0 < ρ) (hq0 : 0 ≤ q) (hq1 : q ≤ 1) (hq : fitFactor β Λ ρ * q < tol) :
    Enough stop tol β Λ ρ q := by
  have hqq : q ^ 2 ≤ q := by nlinarith
  have p1 : 0 ≤ 3 / 2 * ρ * q := by positivity
  have p2 : 0 ≤ 27 / 8 * Λ ^ 2 * ρ * q := by positivity
  have p3 : 0 ≤ 27 * Λ ^ 2 * β ^ 2 * q := by positivity
  have p4 : 0 ≤ 5 / 4 * Λ * ρ * q := by positivity
  have p5 : 0 ≤ 5 / 3 * Λ * β * q := by positivity
  have p6 : 25 / 32 * Λ ^ 2 * ρ ^ 2 * q ^ 2 ≤ 25 / 32 * Λ ^ 2 * ρ ^ 2 * q := by gcongr
  have p7 : 25 / 9 * Λ ^ 2 * β ^ 2 * q ^ 2 ≤ 25 / 9 * Λ ^ 2 * β ^ 2 * q := by gcongr
  have p8 : 0 ≤ 25 / 32 * Λ ^ 2 * ρ ^ 2 * q := by positivity
  have p9 : 0 ≤ 25 / 9 * Λ ^ 2 * β ^ 2 * q := by positivity
  have hDq : fitFactor β Λ ρ * q = 3 / 2 * ρ * q + 3 * q + 27 / 8 * Λ ^ 2 * ρ * q + 27 * Λ ^ 2 * β ^ 2 * q + 5 / 4 * Λ * ρ * q + 5 / 3 * Λ * β * q + 25 / 32 * Λ ^ 2 * ρ ^ 2 * q + 25 / 9 * Λ ^ 2 * β ^ 2 * q := by rw [fitFactor]; ring
  rw [hDq] at hq
  clear hDq
  cases stop <;> simp only [recognises] at hrec <;> simp only [Enough] <;> linarith

theorem fitError_le (stop : StopCrit) (tag : Tag) (hrec : recognises stop tag 0) (tol β Λ ρ e : ℝ) (hβ : 0 < β) (hΛ : 0 ≤ Λ) (hρ : 0 < ρ) (htol : 0 < tol) (he0 : 0 ≤ e) (he : e ≤ ρ) :
    fitError stop tol β Λ e ≤ fitConst β Λ ρ * (tol + Real.sqrt tol) := by
  have w0 := Real.sqrt_nonneg tol
  have hs2 : Real.sqrt (2 * tol) = Real.sqrt 2 * Real.sqrt tol := Real.sqrt_mul (by norm_num) _
  obtain ⟨w, hw⟩ : ∃ w, Real.sqrt tol = w := ⟨_, rfl⟩
  rw [hw] at w0 hs2 ⊢
  have s2 := Real.sqrt_nonneg 2
  have q1 : 3 * tol * e ≤ 3 * ρ * tol := by nlinarith
  have q2 : 27 * Λ ^ 2 * β ^ 2 * tol * e ≤ 27 * Λ ^ 2 * β ^ 2 * tol * ρ := by gcongr
  have q3 : 5 / 3 * Λ * β * tol * e ≤ 5 / 3 * Λ * β * tol * ρ := by gcongr
  have q4 : 5 / 3 * Λ * β * w * e ≤ 5 / 3 * Λ * β * w * ρ := by gcongr
  have v1 : 0 ≤ 3 * ρ * w := by positivity
  have v2 : 0 ≤ 8 * β ^ 2 * w := by positivity
  have v3 : 0 ≤ 27 * Λ ^ 2 * β ^ 2 * tol * ρ := by positivity
  have v3' : 0 ≤ 27 * Λ ^ 2 * β ^ 2 * ρ * w := by positivity
  have v4 : 0 ≤ 4 / 3 * β * w := by positivity
  have v5 : 0 ≤ 5 / 3 * Λ * β * w * ρ := by positivity
  have v6 : 0 ≤ 5 / 3 * Λ * β * tol * ρ := by positivity
  have v7 : 0 ≤ 4 / 3 * β * (Real.sqrt 2 * tol) := by positivity
  have v8 : 0 ≤ 4 / 3 * β * (Real.sqrt 2 * w) := by positivity
  have v9 : 0 ≤ 3 * ρ * tol := by positivity
  have v10 : 0 ≤ 8 * β ^ 2 * tol := by positivity
  have v11 : 0 ≤ 4 / 3 * β * tol := by positivity
  have hsum : fitConst β Λ ρ * (tol + w) = 2 * tol + 2 * w + 3 * ρ * tol + 3 * ρ * w + 8 * β ^ 2 * tol + 8 * β ^ 2 * w +
      27 * Λ ^ 2 * β ^ 2 * tol * ρ + 27 * Λ ^ 2 * β ^ 2 * ρ * w + 4 / 3 * β * tol + 4 / 3 * β * w + 5 / 3 * Λ * β * tol * ρ + 5 / 3 * Λ * β * w * ρ + 4 / 3 * β * (Real.sqrt 2 * tol) + 4 / 3 * β * (Real.sqrt 2 * w) := by
    rw [fitConst]; ring
  rw [hsum]
  clear hsum
  cases stop <;> simp only [recognises] at hrec <;> simp only [fitError]
  case WhenAbsoluteObjectiveBelowTolerance => rw [hs2]; linarith
  case WhenRelativeObjectiveBelowTolerance => rw [hw]; linarith
  all_goals linarith

/-- **C86, local convergence.** For every perfect fit with full column rank of a twice continuously differentiable residual there are a distance `δ` and a constant `C` so that, for every positive tolerance, every criterion
    that can recognise the solution and every solver object of the three kinds that minimises this function with an inner solver that is exact for positive definite matrices: from every initial guess within `δ` (for the
    relative criteria: other than the solution itself) `solve` returns normally, without writing the termination file, with an error of at most `C * (tol + √tol)`, provided that the iteration limit exceeds a number that
    depends on the tolerance only. -/
theorem C86_local_convergence (ι : (m → ℝ) →ₗ[ℝ] E) (r : (n → ℝ) → m → ℝ) (J : (n → ℝ) → Matrix m n ℝ) (hr : ContDiff ℝ 2 r) (hJ : ∀ x, IsJacobian r J x)
    (x' : n → ℝ) (hfit : ι (r x') = 0) (hrank : ∀ v, ι (J x' *ᵥ v) = 0 → v = 0) :
    ∃ δ C : ℝ, 0 < δ ∧ ∀ tol : ℝ, 0 < tol → ∃ k : Nat, ∀ (env : Env ℝ m n p L) (tag : Tag) (cfg : Cfg ℝ) (sol : Matrix n n ℝ → (n → ℝ) → n → ℝ) (tick : L → L) (s : Reg ℝ m n p L),
      (∀ v, env.normM v = ‖eu m v‖) → (∀ v, env.normN v = ‖eu n v‖) → (tag = .gn ∨ tag = .wgn ∨ tag = .cwgn) → Minimises env tag ι → (∀ A b c l, env.lin A b (c, l) = .ok () (sol A b, tick l)) →
      (∀ A b, A.PosDef → A *ᵥ sol A b = b) → recognises cfg.stop tag 0 → cfg.update = .Standard → cfg.tol = tol → (k : Int) < cfg.maxIters → cfg.maxIters < int32Max → LsObj s →
      ‖eu n (s.x - x')‖ ≤ δ → (relative cfg.stop = true → s.x ≠ x') →
      let res := runLs env cfg (Sys.ofFun r J) tag s
      res.stop? = none ∧ res.state.files = s.files ∧ ‖eu n (res.state.x - x')‖ ≤ C * (tol + Real.sqrt tol) ∧ res.state.log.length ≤ s.log.length + k + 1 := by
  obtain ⟨β, Λ, γ, ρ, hρ, H⟩ := C86_smooth_fits_are_regular ι r J hr hJ x' hfit hrank
  have hβ := H.β0
  have hΛ := H.Λ0
  have hσ : ‖ι (r x')‖ = 0 := by rw [hfit, norm_zero]
  refine ⟨ρ, fitConst β Λ ρ, hρ, fun tol htol => ?_⟩
  have hD0 : 0 < fitFactor β Λ ρ := by unfold fitFactor; positivity
  obtain ⟨i, hi⟩ := exists_pow_lt_of_lt_one (show 0 < tol / fitFactor β Λ ρ by positivity) (show (1 / 2 : ℝ) < 1 by norm_num)
  have hq : fitFactor β Λ ρ * reduction 0 i < tol := by
    calc fitFactor β Λ ρ * reduction 0 i ≤ fitFactor β Λ ρ * (1 / 2) ^ i := by gcongr; exact reduction_le _ _
      _ < fitFactor β Λ ρ * (tol / fitFactor β Λ ρ) := by gcongr
      _ = tol := by field_simp
  refine ⟨i, fun env tag cfg sol tick s hM hN htag hmin hlin hsol hrec hupd ht hk hmax hs hstart hrel => ?_⟩
  subst ht
  have hen : Enough cfg.stop cfg.tol β Λ ρ (reduction 0 i) := enough_of_factor cfg.stop tag hrec _ _ _ _ _ hβ hΛ hρ (reduction_nonneg _ _) (reduction_le_one _ _) hq
  obtain ⟨g1, g2, g3, it, j, -, -, -, hj, -, hlog⟩ := C86_gauss_newton_converges ι env hM hN tag htag hmin cfg r J sol tick hlin hsol hupd hmax s hs x' β Λ γ ρ H hstart (by rw [hσ]; exact hrec) hrel i hk (by rw [hσ]; exact hen)
  exact ⟨g1, g2, g3.trans (fitError_le cfg.stop tag hrec _ _ _ _ _ hβ hΛ hρ htol (norm_nonneg _) hstart), by rw [hlog]; simp; omega⟩

/-! ### Concrete cases, and why the residual at the solution must be small -/
section Examples

/-- residual `(x, 1 + a x²)`: the fit is best at 0, where the residual is `(0, 1)` -/
def bowlRes (a : ℝ) (x : Unit → ℝ) : Fin 2 → ℝ := ![x (), 1 + a * x () ^ 2]
def bowlJac (a : ℝ) (x : Unit → ℝ) : Matrix (Fin 2) Unit ℝ := Matrix.of fun i _ => ![1, 2 * a * x ()] i

/-- residual `(x - 1, x² - 1)`: perfect fit at 1 -/
def pairRes (x : Unit → ℝ) : Fin 2 → ℝ := ![x () - 1, x () ^ 2 - 1]
def pairJac (x : Unit → ℝ) : Matrix (Fin 2) Unit ℝ := Matrix.of fun i _ => ![1, 2 * x ()] i

/-- a solver with division as linear solver -/
noncomputable def envF : Env ℝ (Fin 2) Unit Unit Unit where
  normM := fun v => ‖eu (Fin 2) v‖
  normN := fun v => ‖eu Unit v‖
  lin := fun A b (_, l) => .ok () (fun _ => b () / A () (), l)
  linJ := fun _ _ (c, l) => .ok () (c, l)
  applyJac := fun _ _ b => b
  krylov := fun _ _ c => .ok () c
  qrThin := fun _ _ => .ok () ()
  qrApplyQT := fun _ (b, l) => .ok () (b, l)
  qrSolve := fun _ (c, l) => .ok () (c, l)
  wR := id
  wJ := id
  cwR := fun _ => 0
  cwJ := fun _ => 0
  createState := 0

noncomputable def regF : Reg ℝ (Fin 2) Unit Unit Unit where
  x := 0
  trial := 0
  c := 0
  r := 0
  J := 0
  g := 0
  H := 0
  H0 := 0
  damp := 7
  Wr := 0
  WJ := 0
  cWr := 0
  cWJ := 0
  QTr := 0
  nu := 7
  cDiagH := 0
  lin := ()
  diag := Model.Nonlinear.newContainer Model.Nonlinear.leastSquaresDiagnostics
  files := []
  log := []

theorem eu_unit (v : Unit → ℝ) : ‖eu Unit v‖ = |v ()| := by
  have h := eu_sq v
  rw [← abs_of_nonneg (norm_nonneg (eu Unit v)), ← sq_eq_sq_iff_abs_eq_abs, h]
  simp [dotProduct, sq]

theorem envF_exact (A : Matrix Unit Unit ℝ) (b : Unit → ℝ) (hA : A.PosDef) : A *ᵥ (fun _ => b () / A () ()) = b := by
  have h : A () () ≠ 0 := by
    have := hA.diag_pos (i := ())
    exact this.ne'
  funext u
  simp [Matrix.mulVec, dotProduct]
  field_simp

theorem comp2_isJacobian (f g f' g' : ℝ → ℝ) (hf : ∀ t, HasDerivAt f (f' t) t) (hg : ∀ t, HasDerivAt g (g' t) t) (x : Unit → ℝ) :
    IsJacobian (fun x : Unit → ℝ => ![f (x ()), g (x ())]) (fun x => Matrix.of fun i _ => ![f' (x ()), g' (x ())] i) x := by
  unfold IsJacobian
  rw [hasFDerivAt_pi']
  have h1 : HasFDerivAt (fun x : Unit → ℝ => x ()) (ContinuousLinearMap.proj (R := ℝ) (φ := fun _ : Unit => ℝ) ()) x :=
    (ContinuousLinearMap.proj (R := ℝ) (φ := fun _ : Unit => ℝ) ()).hasFDerivAt
  intro i
  fin_cases i
  · refine (HasDerivAt.comp_hasFDerivAt (h₂ := f) x (hf (x ())) h1).congr_fderiv ?_
    ext v
    simp [Matrix.mulVec, dotProduct]
  · refine (HasDerivAt.comp_hasFDerivAt (h₂ := g) x (hg (x ())) h1).congr_fderiv ?_
    ext v
    simp [Matrix.mulVec, dotProduct]

theorem bowl_isJacobian (a : ℝ) (x : Unit → ℝ) : IsJacobian (bowlRes a) (bowlJac a) x := by
  refine comp2_isJacobian (fun t => t) (fun t => 1 + a * t ^ 2) (fun _ => 1) (fun t => 2 * a * t) (fun t => hasDerivAt_id t) (fun t => ?_) x
  have := ((hasDerivAt_pow 2 t).const_mul a).const_add 1
  refine this.congr_deriv ?_
  simp; ring

theorem pair_isJacobian (x : Unit → ℝ) : IsJacobian pairRes pairJac x := by
  refine comp2_isJacobian (fun t => t - 1) (fun t => t ^ 2 - 1) (fun _ => 1) (fun t => 2 * t) (fun t => (hasDerivAt_id t).sub_const 1) (fun t => ?_) x
  refine ((hasDerivAt_pow 2 t).sub_const 1).congr_deriv ?_
  simp

theorem eu_two (a b : ℝ) : ‖eu (Fin 2) ![a, b]‖ ^ 2 = a ^ 2 + b ^ 2 := by rw [eu_sq]; simp [dotProduct, Fin.sum_univ_two, sq]

theorem le_eu_two (a b c : ℝ) (hc : 0 ≤ c) (h : c ^ 2 ≤ a ^ 2 + b ^ 2) : c ≤ ‖eu (Fin 2) ![a, b]‖ := by
  rw [← eu_two] at h
  exact (pow_le_pow_iff_left₀ hc (norm_nonneg _) two_ne_zero).1 h

theorem eu_two_le (a b c : ℝ) (hc : 0 ≤ c) (h : a ^ 2 + b ^ 2 ≤ c ^ 2) : ‖eu (Fin 2) ![a, b]‖ ≤ c := by
  rw [← eu_two] at h
  exact (pow_le_pow_iff_left₀ (norm_nonneg _) hc two_ne_zero).1 h

theorem bowl_mulVec (a : ℝ) (x v : Unit → ℝ) : bowlJac a x *ᵥ v = ![v (), 2 * a * x () * v ()] := by
  funext i; fin_cases i <;> simp [bowlJac, Matrix.mulVec, dotProduct]

theorem pair_mulVec (x v : Unit → ℝ) : pairJac x *ᵥ v = ![v (), 2 * x () * v ()] := by
  funext i; fin_cases i <;> simp [pairJac, Matrix.mulVec, dotProduct]

/-- A small residual at the solution (`a = 1/20`): from 1, with the default tolerance 1e-6 and the default criterion, at most 22 evaluations -/
example : let res := runLs envF (⟨100, .WhenAbsolutel2NormOfCorrectionBelowTolerance, 1 / 10 ^ 6, .Standard, none⟩ : Cfg ℝ) (Sys.ofFun (bowlRes (1 / 20)) (bowlJac (1 / 20))) .gn { regF with x := fun _ => 1 }
    res.stop? = none ∧ |res.state.x ()| ≤ 2 / 10 ^ 6 ∧ res.state.log.length ≤ 22 := by
  have hσ : ‖eu (Fin 2) (bowlRes (1 / 20) 0)‖ = 1 := by
    have : bowlRes (1 / 20) 0 = ![0, 1] := by simp [bowlRes]
    rw [this]
    exact le_antisymm (eu_two_le _ _ _ (by norm_num) (by norm_num)) (le_eu_two _ _ _ (by norm_num) (by norm_num))
  have H : RegularFit (eu (Fin 2)) (bowlRes (1 / 20)) (bowlJac (1 / 20)) 0 1 1 (1 / 10) 1 := by
    refine ⟨fun v => ?_, fun x _ => bowl_isJacobian _ x, fun v => ?_, fun v => ?_, fun x y v _ _ => ?_, by norm_num, by norm_num, by norm_num, ?_⟩
    · rw [eu_in, bowl_mulVec]; simp [bowlRes, dotProduct, Fin.sum_univ_two]
    · rw [bowl_mulVec, eu_unit, one_mul]
      exact le_eu_two _ _ _ (abs_nonneg _) (by rw [sq_abs]; simp)
    · rw [bowl_mulVec, eu_unit, one_mul]
      exact eu_two_le _ _ _ (abs_nonneg _) (by rw [sq_abs]; simp)
    · have e : bowlJac (1 / 20) x *ᵥ v - bowlJac (1 / 20) y *ᵥ v = ![0, 1 / 10 * ((x () - y ()) * v ())] := by
        rw [bowl_mulVec, bowl_mulVec]
        funext i; fin_cases i
        · simp
        · simp; ring
      rw [e, eu_unit, eu_unit]
      refine eu_two_le _ _ _ (by positivity) (le_of_eq ?_)
      rw [mul_pow, mul_pow, mul_pow, mul_pow, sq_abs, sq_abs]; simp; ring
    · rw [hσ]; norm_num
  obtain ⟨g1, -, g3, it, j, -, -, -, hj, -, hlog⟩ := C86_gauss_newton_converges (eu (Fin 2)) envF (fun v => rfl) (fun v => rfl) .gn (.inl rfl) (C86_minimises_plain envF (fun _ => rfl) .gn (.inl rfl))
    ⟨100, .WhenAbsolutel2NormOfCorrectionBelowTolerance, 1 / 10 ^ 6, .Standard, none⟩ (bowlRes (1 / 20)) (bowlJac (1 / 20)) (fun A b _ => b () / A () ()) id (fun _ _ _ _ => rfl) envF_exact rfl (by simp [int32Max])
    { regF with x := fun _ => 1 } (.created _ rfl) 0 1 1 (1 / 10) 1 H (by rw [eu_unit]; simp) (by simp [recognises]) (by simp [relative]) 21 (by norm_num) (by rw [hσ]; norm_num [Enough, reduction])
  refine ⟨g1, ?_, ?_⟩
  · rw [eu_unit] at g3
    simp only [fitError, Pi.sub_apply, Pi.zero_apply, sub_zero] at g3
    refine g3.trans (by norm_num)
  · rw [hlog]; simp [regF]; omega

/-- a QR solver for matrices with one column: it keeps the matrix; `Q` is the column divided by its length, `R` the length -/
noncomputable def colLen (A : Matrix (Fin 2) Unit ℝ) : ℝ := ‖eu (Fin 2) (fun i => A i ())‖

noncomputable def envQ : Env ℝ (Fin 2) Unit Unit (Matrix (Fin 2) Unit ℝ) where
  normM := fun v => ‖eu (Fin 2) v‖
  normN := fun v => ‖eu Unit v‖
  lin := fun _ _ (c, l) => .ok () (c, l)
  linJ := fun _ _ (c, l) => .ok () (c, l)
  applyJac := fun _ _ b => b
  krylov := fun _ _ c => .ok () c
  qrThin := fun A _ => .ok () A
  qrApplyQT := fun v (_, A) => .ok () (fun _ => (∑ i, A i () * v i) / colLen A, A)
  qrSolve := fun b (_, A) => .ok () (fun _ => b () / colLen A, A)
  wR := id
  wJ := id
  cwR := fun _ => 0
  cwJ := fun _ => 0
  createState := 0

noncomputable def regQ : Reg ℝ (Fin 2) Unit Unit (Matrix (Fin 2) Unit ℝ) where
  x := 0
  trial := 0
  c := 0
  r := 0
  J := 0
  g := 0
  H := 0
  H0 := 0
  damp := 7
  Wr := 0
  WJ := 0
  cWr := 0
  cWJ := 0
  QTr := 0
  nu := 7
  cDiagH := 0
  lin := 0
  diag := Model.Nonlinear.newContainer Model.Nonlinear.leastSquaresDiagnostics
  files := []
  log := []

theorem envQ_exact (A : Matrix (Fin 2) Unit ℝ) (hA : ∀ v, A *ᵥ v = 0 → v = 0) : ∃ (Q : Matrix (Fin 2) Unit ℝ) (R : Matrix Unit Unit ℝ), A = Q * R ∧ Qᵀ * Q = 1 ∧
    (∀ v : Fin 2 → ℝ, (fun _ => (∑ i, A i () * v i) / colLen A) = Qᵀ *ᵥ v) ∧ ∀ b : Unit → ℝ, R *ᵥ (fun _ => b () / colLen A) = b := by
  have h0 : colLen A ≠ 0 := by
    intro h
    have h1 : (fun i => A i ()) = 0 := eu_inj (by rw [map_zero]; exact norm_eq_zero.1 h)
    have h2 := hA 1 (by funext i; simpa [Matrix.mulVec, dotProduct] using congrFun h1 i)
    simpa using congrFun h2 ()
  have hsq : colLen A ^ 2 = ∑ i, A i () * A i () := by rw [colLen, eu_sq]; rfl
  refine ⟨Matrix.of fun i _ => A i () / colLen A, Matrix.of fun _ _ => colLen A, ?_, ?_, fun v => ?_, fun b => ?_⟩
  · ext i j
    simp [Matrix.mul_apply]
    field_simp
  · ext i j
    simp only [Matrix.mul_apply, Matrix.transpose_apply, Matrix.of_apply, Matrix.one_apply_eq, div_mul_div_comm, ← Finset.sum_div, ← hsq]
    field_simp
  · funext u
    simp only [Matrix.mulVec, dotProduct, Matrix.transpose_apply, Matrix.of_apply, Finset.sum_div]
    exact Finset.sum_congr rfl fun i _ => by ring
  · funext u
    simp [Matrix.mulVec, dotProduct]
    field_simp

theorem pair_regular : RegularFit (eu (Fin 2)) pairRes pairJac 1 (1 / 2) (9 / 4) 2 (1 / 2) := by
  have hσ : ‖eu (Fin 2) (pairRes 1)‖ = 0 := by
    have : pairRes 1 = 0 := by funext i; fin_cases i <;> simp [pairRes]
    rw [this, map_zero, norm_zero]
  refine ⟨fun v => ?_, fun x _ => pair_isJacobian x, fun v => ?_, fun v => ?_, fun x y v _ _ => ?_, by norm_num, by norm_num, by norm_num, ?_⟩
  · rw [norm_eq_zero.1 hσ, inner_zero_left]
  · rw [pair_mulVec, eu_unit]
    have := le_eu_two (v ()) (2 * (1 : Unit → ℝ) () * v ()) (2 * |v ()|) (by positivity) (by rw [mul_pow, sq_abs]; simp; nlinarith [sq_nonneg (v ())])
    linarith
  · rw [pair_mulVec, eu_unit]
    exact eu_two_le _ _ _ (by positivity) (by rw [mul_pow (9 / 4 : ℝ), sq_abs]; simp; nlinarith [sq_nonneg (v ())])
  · have e : pairJac x *ᵥ v - pairJac y *ᵥ v = ![0, 2 * ((x () - y ()) * v ())] := by
      rw [pair_mulVec, pair_mulVec]
      funext i; fin_cases i
      · simp
      · simp; ring
    rw [e, eu_unit, eu_unit]
    refine eu_two_le _ _ _ (by positivity) (le_of_eq ?_)
    rw [mul_pow, mul_pow, mul_pow, mul_pow, sq_abs, sq_abs]; simp; ring
  · rw [hσ]; norm_num

/-- A perfect fit: from 3/2, at most 6 evaluations -/
example : let res := runLs envF (⟨100, .WhenAbsolutel2NormOfCorrectionBelowTolerance, 1 / 10 ^ 6, .Standard, none⟩ : Cfg ℝ) (Sys.ofFun pairRes pairJac) .gn { regF with x := fun _ => 3 / 2 }
    res.stop? = none ∧ |res.state.x () - 1| ≤ 2 / 10 ^ 6 ∧ res.state.log.length ≤ 6 := by
  have hσ : ‖eu (Fin 2) (pairRes 1)‖ = 0 := by
    have : pairRes 1 = 0 := by funext i; fin_cases i <;> simp [pairRes]
    rw [this, map_zero, norm_zero]
  obtain ⟨g1, -, g3, it, j, -, -, -, hj, -, hlog⟩ := C86_gauss_newton_converges (eu (Fin 2)) envF (fun v => rfl) (fun v => rfl) .gn (.inl rfl) (C86_minimises_plain envF (fun _ => rfl) .gn (.inl rfl))
    ⟨100, .WhenAbsolutel2NormOfCorrectionBelowTolerance, 1 / 10 ^ 6, .Standard, none⟩ pairRes pairJac (fun A b _ => b () / A () ()) id (fun _ _ _ _ => rfl) envF_exact rfl (by simp [int32Max])
    { regF with x := fun _ => 3 / 2 } (.created _ rfl) 1 _ _ _ _ pair_regular (by rw [eu_unit]; norm_num [abs_of_nonneg]) (by simp [recognises]) (by simp [relative]) 5 (by norm_num) (by rw [hσ]; norm_num [Enough, reduction])
  refine ⟨g1, ?_, ?_⟩
  · rw [eu_unit] at g3
    simp only [fitError, Pi.sub_apply, Pi.one_apply] at g3
    refine g3.trans (by norm_num)
  · rw [hlog]; simp [regF]; omega

/-- The same with QR -/
example : let res := runLs envQ (⟨100, .WhenAbsolutel2NormOfCorrectionBelowTolerance, 1 / 10 ^ 6, .Standard, none⟩ : Cfg ℝ) (Sys.ofFun pairRes pairJac) .gnQr { regQ with x := fun _ => 3 / 2 }
    res.stop? = none ∧ |res.state.x () - 1| ≤ 2 / 10 ^ 6 ∧ res.state.log.length ≤ 6 := by
  have hσ : ‖eu (Fin 2) (pairRes 1)‖ = 0 := by
    have : pairRes 1 = 0 := by funext i; fin_cases i <;> simp [pairRes]
    rw [this, map_zero, norm_zero]
  obtain ⟨g1, -, g3, it, j, -, -, -, hj, -, hlog⟩ := C86_gauss_newton_qr_converges envQ (fun v => rfl) (fun v => rfl)
    ⟨100, .WhenAbsolutel2NormOfCorrectionBelowTolerance, 1 / 10 ^ 6, .Standard, none⟩ pairRes pairJac id (fun A v _ => (∑ i, A i () * v i) / colLen A) (fun A b _ => b () / colLen A) (fun _ _ => rfl) (fun _ _ _ => rfl) (fun _ _ _ => rfl)
    envQ_exact rfl (by simp [int32Max])
    { regQ with x := fun _ => 3 / 2 } (.created _ rfl) 1 _ _ _ _ pair_regular (by rw [eu_unit]; norm_num [abs_of_nonneg]) (by simp [recognises]) (by simp [relative]) 5 (by norm_num) (by rw [hσ]; norm_num [Enough, reduction])
  refine ⟨g1, ?_, ?_⟩
  · rw [eu_unit] at g3
    simp only [fitError, Pi.sub_apply, Pi.one_apply] at g3
    refine g3.trans (by norm_num)
  · rw [hlog]; simp [regQ]; omega

/-- **C86, large residuals.** Near a best fit with large residual Gauss-Newton with standard updates need not converge, although the solution is the only minimum and the Jacobian has full rank everywhere.  For the residual
    `(x, 1 + 5/4 x²)` it jumps from 2/5 to -2/5 and back; with every iteration limit and every tolerance up to 4/5 of the default criterion `solve` returns normally, without a termination file, with an error of 2/5. -/
theorem C86_large_residual_cycles (maxIters : Int) (hmax : maxIters < int32Max) (tol : ℝ) (htol : tol ≤ 4 / 5) :
    (∀ x : Unit → ℝ, x ≠ 0 → objOf envF .gn (bowlRes (5 / 4) 0) < objOf envF .gn (bowlRes (5 / 4) x)) ∧ (∀ x, IsJacobian (bowlRes (5 / 4)) (bowlJac (5 / 4)) x) ∧
    (∀ x v, ‖eu Unit v‖ ≤ ‖eu (Fin 2) (bowlJac (5 / 4) x *ᵥ v)‖) ∧
    let res := runLs envF (⟨maxIters, .WhenAbsolutel2NormOfCorrectionBelowTolerance, tol, .Standard, none⟩ : Cfg ℝ) (Sys.ofFun (bowlRes (5 / 4)) (bowlJac (5 / 4))) .gn { regF with x := fun _ => 2 / 5 }
    res.stop? = none ∧ res.state.files = [] ∧ |res.state.x ()| = 2 / 5 ∧ res.state.log.length = maxIters.toNat := by
  refine ⟨fun x hx => ?_, bowl_isJacobian _, fun x v => ?_, ?_⟩
  · show ‖eu (Fin 2) (bowlRes (5 / 4) 0)‖ ^ 2 / 2 < ‖eu (Fin 2) (bowlRes (5 / 4) x)‖ ^ 2 / 2
    simp only [bowlRes, eu_two]
    have : x () ≠ 0 := fun h => hx (by funext u; exact h)
    have : 0 < x () ^ 2 := by positivity
    simp
    nlinarith
  · rw [bowl_mulVec, eu_unit]
    exact le_eu_two _ _ _ (abs_nonneg _) (by rw [sq_abs]; nlinarith [sq_nonneg (2 * (5 / 4) * x () * v ())])
  · intro res
    obtain ⟨g1, g2, -, g4⟩ := C36_least_squares_iterates envF ⟨maxIters, .WhenAbsolutel2NormOfCorrectionBelowTolerance, tol, .Standard, none⟩ .gn (.inl rfl) (bowlRes (5 / 4)) (bowlJac (5 / 4)) (fun A b _ => b () / A () ()) id
      (fun _ _ _ _ => rfl) rfl hmax { regF with x := fun _ => 2 / 5 } (.created _ rfl)
    have hcorr : ∀ t : ℝ, t ^ 2 = 4 / 25 → -(((bowlJac (5 / 4) (fun _ => t))ᵀ *ᵥ bowlRes (5 / 4) (fun _ => t)) () / ((bowlJac (5 / 4) (fun _ => t))ᵀ * bowlJac (5 / 4) (fun _ => t)) () ()) = -(2 * t) := by
      intro t ht
      simp [Matrix.mulVec, Matrix.mul_apply, dotProduct, Fin.sum_univ_two, bowlJac, bowlRes]
      have e : 1 + 2 * (5 / 4) * t * (2 * (5 / 4) * t) = 2 := by nlinarith
      rw [e, ht]
      ring
    set N : (Unit → ℝ) → Unit → ℝ := fun x => x + -(fun _ => gradOf envF .gn (bowlRes (5 / 4) x) (bowlJac (5 / 4) x) () / hessOf envF .gn (bowlJac (5 / 4) x) 7 () ()) with hN
    have hstep : ∀ t : ℝ, t ^ 2 = 4 / 25 → N (fun _ => t) = fun _ => -t := by
      intro t ht
      funext u
      have := hcorr t ht
      show t + -(((bowlJac (5 / 4) (fun _ => t))ᵀ *ᵥ bowlRes (5 / 4) (fun _ => t)) () / ((bowlJac (5 / 4) (fun _ => t))ᵀ * bowlJac (5 / 4) (fun _ => t)) () ()) = -t
      rw [this]; ring
    have hit : ∀ k : Nat, ∃ t : ℝ, t ^ 2 = 4 / 25 ∧ N^[k] (fun _ => 2 / 5) = fun _ => t := by
      intro k
      induction k with
      | zero => exact ⟨2 / 5, by norm_num, rfl⟩
      | succ k ih =>
        obtain ⟨t, h1, h2⟩ := ih
        exact ⟨-t, by rw [neg_sq, h1], by rw [Function.iterate_succ_apply', h2, hstep t h1]⟩
    have habs : ∀ t : ℝ, t ^ 2 = 4 / 25 → |t| = 2 / 5 := fun t ht => by
      rw [show (4 / 25 : ℝ) = (2 / 5) ^ 2 by norm_num, sq_eq_sq_iff_abs_eq_abs] at ht
      rw [ht]; norm_num [abs_of_nonneg]
    have hlim := g4 (fun k _ => by
      obtain ⟨t, h1, h2⟩ := hit k
      intro hmet
      have hmet' : decide (‖eu Unit (-(fun _ => gradOf envF .gn (bowlRes (5 / 4) (N^[k] (fun _ => 2 / 5))) (bowlJac (5 / 4) (N^[k] (fun _ => 2 / 5))) () / hessOf envF .gn (bowlJac (5 / 4) (N^[k] (fun _ => 2 / 5))) 7 () ()))‖ < tol) = true := hmet
      rw [decide_eq_true_eq, h2, eu_unit] at hmet'
      have h3 : |-(((bowlJac (5 / 4) (fun _ => t))ᵀ *ᵥ bowlRes (5 / 4) (fun _ => t)) () / ((bowlJac (5 / 4) (fun _ => t))ᵀ * bowlJac (5 / 4) (fun _ => t)) () ())| < tol := hmet'
      rw [hcorr t h1, abs_neg, abs_mul, habs t h1] at h3
      norm_num [abs_of_nonneg] at h3
      linarith)
    refine ⟨g1, g2, ?_, ?_⟩
    · obtain ⟨t, h1, h2⟩ := hit maxIters.toNat
      have h3 : res.state.x = N^[maxIters.toNat] (fun _ => 2 / 5) := hlim.1
      rw [h3, h2]
      exact habs t h1
    · refine (congrArg List.length hlim.2.1).trans ?_
      simp [regF]

/-- the perfect fit of `(x - 1, x² - 1)` at 1 is regular -/
example := C86_smooth_fits_are_regular (eu (Fin 2)) pairRes pairJac (by unfold pairRes; refine contDiff_pi.2 fun i => ?_; fin_cases i <;> simp <;> fun_prop) pair_isJacobian 1
  (by rw [show pairRes 1 = 0 by funext i; fin_cases i <;> simp [pairRes], map_zero]) (fun v h => by
    rw [pair_mulVec] at h
    have := le_eu_two (v ()) (2 * (1 : Unit → ℝ) () * v ()) |v ()| (abs_nonneg _) (by rw [sq_abs]; nlinarith [sq_nonneg (v ())])
    rw [h, norm_zero] at this
    funext u
    exact abs_eq_zero.1 (le_antisymm this (abs_nonneg _)))
/-- weights: the second equation counts double; the compact weighting keeps one combination of the equations -/
example := C86_minimises_weighted { envF with wR := fun r => ((!![1, 0; 0, 2] : Matrix (Fin 2) (Fin 2) ℝ)ᵀ * !![1, 0; 0, 2]) *ᵥ r, wJ := fun J => ((!![1, 0; 0, 2] : Matrix (Fin 2) (Fin 2) ℝ)ᵀ * !![1, 0; 0, 2]) * J } !![1, 0; 0, 2]
  (fun _ => rfl) (fun _ => rfl)
example := C86_minimises_compact { envF with cwR := fun r => (Matrix.of fun _ i => ![3, -1] i : Matrix Unit (Fin 2) ℝ) *ᵥ r, cwJ := fun J => (Matrix.of fun _ i => ![3, -1] i : Matrix Unit (Fin 2) ℝ) * J } (Matrix.of fun _ i => ![3, -1] i)
  (fun _ => rfl) (fun _ => rfl)


end Examples

end Pressio.Props
