import Verif.Props.GalerkinStability
import Verif.Spec.MassMatrix
import Mathlib.Analysis.Matrix.Order
import Mathlib.Topology.Algebra.Module.FiniteDimension

/-
  C84: stability and convergence of implicit runs with mass matrix (BDF1, BDF2; the code has no others).
-/
namespace Pressio.Props
set_option autoImplicit false
set_option linter.unusedSectionVars false
open Pressio Matrix Pressio.Model.Implicit Pressio.Spec.Implicit Pressio.Lemmas.Implicit Pressio.Spec.MassMatrix Pressio.Model.Galerkin Pressio.Spec.Galerkin Pressio.Spec.Reduced
open Pressio.Model.Explicit (Scheme)

local notation "⟪" x ", " y "⟫" => @inner ℝ _ _ x y

section Generic
variable {E E' Y J Mt : Type} [NormedAddCommGroup E] [InnerProductSpace ℝ E] [NormedAddCommGroup E'] [InnerProductSpace ℝ E'] [AddCommGroup Y] [Module ℝ Y] [AddCommGroup J] [Module ℝ J] [One J]

/-- the system computes the mass matrix `Mf` and the right-hand side `f` whenever it returns (it may throw instead) -/
def EvaluatesMM (sys : IMMSystem ℝ Y J Mt) (Mf : Y → ℝ → Mt) (f : Y → ℝ → Y) : Prop := ∀ y t w M g j, sys.eval y t w = .ok (M, g, j) → M = Mf y t ∧ g = f y t

/-- a run of an implicit stepper with mass matrix in which every accepted step has converged; systems and solvers may fail, in any step and any number of times -/
structure ConvergedRunMM (κ : Y →ₗ[ℝ] E') (tol : ℝ) (act : Mt → Y → Y) (asJac : Mt → J) (name : Scheme) (sys : IMMSystem ℝ Y J Mt) (Mf : Y → ℝ → Mt) (f : Y → ℝ → Y) (mem : SMem ℝ Y Y (MMMem Y Mt))
    (atts : List (Attempt ℝ Y (Y × Option J))) (t0 : ℝ) (y0 : Y) : Prop where
  noTSF : NoTSFMM sys
  evaluates : EvaluatesMM sys Mf f
  ready : ReadyMM name mem
  honest : ∀ a ∈ atts, ∀ y, Honest (a.solver y)
  converged : ∀ r ∈ drive (mmStep act asJac name sys) atts t0 [y0] y0 mem, r.stop = none → Converged κ tol r

/-- the mass matrix is invertible, and the inverse is bounded by `c` from the norm in which the solver measures residuals to the norm in which errors are measured -/
structure Invertible (ι : Y →ₗ[ℝ] E) (κ : Y →ₗ[ℝ] E') (c : ℝ) (act : Mt → Y → Y) (Mf : Y → ℝ → Mt) (inv : Y → ℝ → Y →ₗ[ℝ] Y) : Prop where
  left : ∀ y t v, inv y t (act (Mf y t) v) = v
  nonneg : 0 ≤ c
  bound : ∀ y t v, ‖ι (inv y t v)‖ ≤ c * ‖κ v‖

variable {act : Mt → Y → Y} {asJac : Mt → J} {name : Scheme} {sys : IMMSystem ℝ Y J Mt} {Mf : Y → ℝ → Mt} {f : Y → ℝ → Y} {mem : SMem ℝ Y Y (MMMem Y Mt)} {atts : List (Attempt ℝ Y (Y × Option J))} {t0 : ℝ} {y0 : Y}
  {ι : Y →ₗ[ℝ] E} {κ : Y →ₗ[ℝ] E'} {c tol : ℝ} {inv : Y → ℝ → Y →ₗ[ℝ] Y}

theorem textbookMM_residualOf (hf : EvaluatesMM sys Mf f) (hi : Invertible ι κ c act Mf inv) (hname : name = .BDF1 ∨ name = .BDF2) (hist : List Y) (h0 : hist ≠ []) (t dt : ℝ) (x : Y) (w : Bool) (R : Y) (j : Option J)
    (h : textbookMM act asJac name sys hist t dt x w = .ok (R, j)) : inv x (t + dt) R = residualOf name (fun y t => inv y t (f y t)) hist t dt x := by
  rcases hname with rfl | rfl
  · match hist, h0 with
    | yn :: l, _ =>
      simp only [textbookMM] at h
      rcases he : sys.eval x (t + dt) w with ⟨e, junk⟩ | ⟨M, g, j'⟩
      · rw [he] at h; simp at h
      · rw [he] at h; simp only [Except.ok.injEq, Prod.mk.injEq] at h
        obtain ⟨rfl, rfl⟩ := hf _ _ _ _ _ _ he
        rw [← h.1, map_sub, hi.left, map_smul]; rfl
  · match hist, h0 with
    | [yn], _ =>
      simp only [textbookMM] at h
      rcases he : sys.eval x (t + dt) w with ⟨e, junk⟩ | ⟨M, g, j'⟩
      · rw [he] at h; simp at h
      · rw [he] at h; simp only [Except.ok.injEq, Prod.mk.injEq] at h
        obtain ⟨rfl, rfl⟩ := hf _ _ _ _ _ _ he
        rw [← h.1, map_sub, hi.left, map_smul]; rfl
    | yn :: ynm1 :: l, _ =>
      simp only [textbookMM] at h
      rcases he : sys.eval x (t + dt) w with ⟨e, junk⟩ | ⟨M, g, j'⟩
      · rw [he] at h; simp at h
      · rw [he] at h; simp only [Except.ok.injEq, Prod.mk.injEq] at h
        obtain ⟨rfl, rfl⟩ := hf _ _ _ _ _ _ he
        rw [← h.1, map_sub, hi.left, map_smul]; rfl

theorem readyMM_name (hmem : ReadyMM name mem) : name = .BDF1 ∨ name = .BDF2 := by
  cases name <;> simp_all [ReadyMM]

theorem ConvergedRunMM.record (R : ConvergedRunMM κ tol act asJac name sys Mf f mem atts t0 y0) {pre post : List (Record ℝ Y (Y × Option J))} {r : Record ℝ Y (Y × Option J)}
    (h : drive (mmStep act asJac name sys) atts t0 [y0] y0 mem = pre ++ r :: post) :
    r.t = timeAfter t0 pre ∧ ∀ q ∈ r.queries, q.ans = textbookMM act asJac name sys (accepted y0 pre) (timeAfter t0 pre) r.dt q.x q.wantJ := by
  obtain ⟨h1, h2⟩ := drive_split _ _ _ _ _ _ _ _ _ h
  have h1' : r.hist = accepted y0 pre := h1
  refine ⟨h2, fun q hq => ?_⟩
  rw [C26_run_is_ideal act asJac name sys R.noTSF mem R.ready atts R.honest] at h
  obtain ⟨b, -, yn, pv, -, -, e, -⟩ := ideal_record _ _ _ _ _ r (by rw [h]; simp)
  rw [e] at hq
  rw [outcome_query _ _ q hq, h1', h2]

/-- the accepted states satisfy the equation of the scheme for `M⁻¹ f`, up to `c tol` -/
theorem ConvergedRunMM.residuals (R : ConvergedRunMM κ tol act asJac name sys Mf f mem atts t0 y0) (hi : Invertible ι κ c act Mf inv) :
    ResidualRun ι (c * tol) 0 name (fun y t => inv y t (f y t)) (drive (mmStep act asJac name sys) atts t0 [y0] y0 mem) t0 y0 := by
  have key : ∀ {pre post r}, drive (mmStep act asJac name sys) atts t0 [y0] y0 mem = pre ++ r :: post → r.stop = none →
      ‖ι (residualOf name (fun y t => inv y t (f y t)) (accepted y0 pre) (timeAfter t0 pre) r.dt r.y)‖ ≤ c * tol := by
    intro pre post r h hr
    obtain ⟨q, hq, Q, j, hx, ha, hQ⟩ := R.converged r (by rw [h]; simp) hr
    have := (R.record h).2 q hq
    rw [ha, hx] at this
    rw [← textbookMM_residualOf R.evaluates hi (readyMM_name R.ready) _ (accepted_ne_nil _ _) _ _ _ _ Q j this.symm]
    exact (hi.bound _ _ _).trans (mul_le_mul_of_nonneg_left hQ hi.nonneg)
  exact ⟨fun h hr => by rw [mul_zero, add_zero]; exact key h hr, fun h => (R.record h).1, fun h hr => (norm_nonneg _).trans (key h hr)⟩

theorem ConvergedRunMM.nonneg (R : ConvergedRunMM κ tol act asJac name sys Mf f mem atts t0 y0) (hdt : ∀ a ∈ atts, 0 ≤ a.dt) : ∀ r ∈ drive (mmStep act asJac name sys) atts t0 [y0] y0 mem, 0 ≤ r.dt := by
  intro r hr
  rw [C26_run_is_ideal act asJac name sys R.noTSF mem R.ready atts R.honest] at hr
  obtain ⟨a, ha, yn, pv, -, e, -⟩ := ideal_record _ _ _ _ _ r hr
  rw [e]; exact hdt a ha

theorem ConvergedRunMM.steps (R : ConvergedRunMM κ tol act asJac name sys Mf f mem atts t0 y0) (P : ℝ → Prop) (hdt : ∀ a ∈ atts, P a.dt ∧ 0 ≤ a.dt) : ∃ T, StepsIn P T (drive (mmStep act asJac name sys) atts t0 [y0] y0 mem) := by
  obtain ⟨T, hT⟩ := exists_end (drive (mmStep act asJac name sys) atts t0 [y0] y0 mem)
  refine ⟨T, fun r hr _ => ?_⟩
  have hr' := hr
  rw [C26_run_is_ideal act asJac name sys R.noTSF mem R.ready atts R.honest] at hr'
  obtain ⟨a, ha, yn, pv, -, e, -⟩ := ideal_record _ _ _ _ _ r hr'
  have := hdt a ha
  rw [← e] at this
  exact ⟨this.1, this.2, hT r hr⟩

/-- runs with solvers that check the residual have converged -/
theorem checked_run_mm (κ : Y →ₗ[ℝ] E') (tol : ℝ) (act : Mt → Y → Y) (asJac : Mt → J) (name : Scheme) (sys : IMMSystem ℝ Y J Mt) (hsys : NoTSFMM sys) (Mf : Y → ℝ → Mt) (f : Y → ℝ → Y) (hf : EvaluatesMM sys Mf f)
    (mem : SMem ℝ Y Y (MMMem Y Mt)) (hmem : ReadyMM name mem) (atts : List (Attempt ℝ Y (Y × Option J))) (hon : ∀ a ∈ atts, ∀ y, Honest (a.solver y)) (hch : ∀ a ∈ atts, ∀ y, Checks κ tol (fun _ => False) (a.solver y)) (t0 : ℝ) (y0 : Y) :
    ConvergedRunMM κ tol act asJac name sys Mf f mem atts t0 y0 := by
  refine ⟨hsys, hf, hmem, hon, ?_⟩
  intro r hr hs
  rw [C26_run_is_ideal act asJac name sys hsys mem hmem atts hon] at hr
  obtain ⟨a, ha, yn, pv, e1, e2, e3, e4, e5⟩ := ideal_record _ _ _ _ _ r hr
  have hst : (outcome (textbookMM act asJac name sys r.hist r.t r.dt) (a.solver yn)).stop = none := by
    rw [e4] at hs
    split at hs
    · simp at hs
    · exact hs
  rw [hst] at e5
  rcases checks_converged κ tol (textbookMM act asJac name sys r.hist r.t r.dt) (a.solver yn) _ (hch a ha yn) hst with h | h
  · exact h.elim
  · unfold Converged
    rw [e3, e5]
    exact h

end Generic

/-! ### Constant symmetric positive definite mass matrix -/
section Const
variable {E n : Type} [NormedAddCommGroup E] [InnerProductSpace ℝ E] [Fintype n] [DecidableEq n] {M : Matrix n n ℝ} {μ : ℝ}

theorem _root_.Pressio.Spec.MassMatrix.SPD.dot_comm (h : SPD M μ) (x y : n → ℝ) : x ⬝ᵥ (M *ᵥ y) = (M *ᵥ x) ⬝ᵥ y := by
  rw [Matrix.dotProduct_mulVec, ← Matrix.mulVec_transpose, h.symm]

theorem _root_.Pressio.Spec.MassMatrix.SPD.inv_mul (h : SPD M μ) (v : n → ℝ) : M⁻¹ *ᵥ (M *ᵥ v) = v := by
  have hinj : Function.Injective M.mulVec := by
    intro x y hxy
    have h1 : M *ᵥ (x - y) = 0 := by rw [Matrix.mulVec_sub]; exact sub_eq_zero.2 hxy
    have h2 := h.coercive (x - y)
    rw [h1, dotProduct_zero] at h2
    have h3 : (x - y) ⬝ᵥ (x - y) ≤ 0 := by nlinarith [h.pos]
    have h4 : 0 ≤ (x - y) ⬝ᵥ (x - y) := Finset.sum_nonneg (fun i _ => mul_self_nonneg _)
    exact sub_eq_zero.1 (dotProduct_self_eq_zero.1 (le_antisymm h3 h4))
  have hu : IsUnit M := Matrix.mulVec_injective_iff_isUnit.1 hinj
  rw [Matrix.mulVec_mulVec, Matrix.nonsing_inv_mul _ ((Matrix.isUnit_iff_isUnit_det _).1 hu), Matrix.one_mulVec]

theorem _root_.Pressio.Spec.MassMatrix.SPD.mul_inv (h : SPD M μ) (v : n → ℝ) : M *ᵥ (M⁻¹ *ᵥ v) = v := by
  have hinj : Function.Injective M.mulVec := fun x y hxy => by rw [← h.inv_mul x, ← h.inv_mul y]; exact congrArg _ hxy
  have hu : IsUnit M := Matrix.mulVec_injective_iff_isUnit.1 hinj
  rw [Matrix.mulVec_mulVec, Matrix.mul_nonsing_inv _ ((Matrix.isUnit_iff_isUnit_det _).1 hu), Matrix.one_mulVec]

open scoped MatrixOrder in
/-- the energy inner product comes from a linear map into Euclidean space -/
theorem _root_.Pressio.Spec.MassMatrix.SPD.exists_map (h : SPD M μ) : ∃ ι : (n → ℝ) →ₗ[ℝ] EuclideanSpace ℝ n, ∀ x y, ⟪ι x, ι y⟫ = x ⬝ᵥ (M *ᵥ y) := by
  have hp : M.PosSemidef := Matrix.PosSemidef.of_dotProduct_mulVec_nonneg (by rw [Matrix.IsHermitian, Matrix.conjTranspose_eq_transpose_of_trivial, h.symm]) (fun x => by
    rw [star_trivial]
    exact (mul_nonneg h.pos.le (Finset.sum_nonneg (fun i _ => mul_self_nonneg _))).trans (h.coercive x))
  obtain ⟨B, hB⟩ := CStarAlgebra.nonneg_iff_eq_star_mul_self.mp hp.nonneg
  refine ⟨eu n ∘ₗ B.mulVecLin, fun x y => ?_⟩
  simp only [LinearMap.comp_apply, Matrix.mulVecLin_apply]
  rw [eu_inner, hB, ← Matrix.mulVec_mulVec, star_eq_conjTranspose, Matrix.conjTranspose_eq_transpose_of_trivial, Matrix.dotProduct_mulVec x, Matrix.vecMul_transpose]

theorem energy_of_map {ι : (n → ℝ) →ₗ[ℝ] E} (hι : ∀ x y, ⟪ι x, ι y⟫ = x ⬝ᵥ (M *ᵥ y)) (x : n → ℝ) : ‖ι x‖ = energy M x := by
  rw [energy, ← hι, real_inner_self_eq_norm_mul_norm, Real.sqrt_mul_self (norm_nonneg _)]

theorem _root_.Pressio.Spec.MassMatrix.SPD.invertible (h : SPD M μ) {ι : (n → ℝ) →ₗ[ℝ] E} (hι : ∀ x y, ⟪ι x, ι y⟫ = x ⬝ᵥ (M *ᵥ y)) :
    Invertible ι (eu n) (1 / Real.sqrt μ) Matrix.mulVec (fun _ _ => M) (fun _ _ => Matrix.mulVecLin M⁻¹) := by
  have hs := Real.sqrt_pos.2 h.pos
  refine ⟨fun _ _ v => h.inv_mul v, by positivity, fun _ _ v => ?_⟩
  simp only [Matrix.mulVecLin_apply]
  generalize hw : M⁻¹ *ᵥ v = w
  have hv : M *ᵥ w = v := by rw [← hw, h.mul_inv]
  have h1 : ‖ι w‖ * ‖ι w‖ ≤ ‖eu n w‖ * ‖eu n v‖ := by
    rw [← real_inner_self_eq_norm_mul_norm, hι, hv, ← eu_inner]
    exact real_inner_le_norm _ _
  have h2 : Real.sqrt μ * ‖eu n w‖ ≤ ‖ι w‖ := by
    refine (mul_self_le_mul_self_iff (by positivity) (norm_nonneg _)).2 ?_
    rw [← real_inner_self_eq_norm_mul_norm (ι w), hι]
    calc Real.sqrt μ * ‖eu n w‖ * (Real.sqrt μ * ‖eu n w‖) = (Real.sqrt μ * Real.sqrt μ) * (‖eu n w‖ * ‖eu n w‖) := by ring
      _ = μ * (w ⬝ᵥ w) := by rw [Real.mul_self_sqrt h.pos.le, eu_norm_mul]
      _ ≤ _ := h.coercive w
  rw [div_mul_eq_mul_div, one_mul, le_div_iff₀ hs]
  rcases (norm_nonneg (ι w)).eq_or_lt with h0 | h0
  · rw [← h0, zero_mul]; exact norm_nonneg _
  · refine le_of_mul_le_mul_right ?_ h0
    calc ‖ι w‖ * Real.sqrt μ * ‖ι w‖ = Real.sqrt μ * (‖ι w‖ * ‖ι w‖) := by ring
      _ ≤ Real.sqrt μ * (‖eu n w‖ * ‖eu n v‖) := mul_le_mul_of_nonneg_left h1 hs.le
      _ = ‖eu n v‖ * (Real.sqrt μ * ‖eu n w‖) := by ring
      _ ≤ ‖eu n v‖ * ‖ι w‖ := mul_le_mul_of_nonneg_left h2 (norm_nonneg _)

theorem _root_.Pressio.Spec.MassMatrix.SPD.inner_inv (h : SPD M μ) {ι : (n → ℝ) →ₗ[ℝ] E} (hι : ∀ x y, ⟪ι x, ι y⟫ = x ⬝ᵥ (M *ᵥ y)) (v y : n → ℝ) : ⟪ι (M⁻¹ *ᵥ v), ι y⟫ = v ⬝ᵥ y := by
  rw [hι, h.dot_comm, h.mul_inv]

variable {J : Type} [AddCommGroup J] [Module ℝ J] [One J] (asJac : Matrix n n ℝ → J) (sys : IMMSystem ℝ (n → ℝ) J (Matrix n n ℝ)) (f : (n → ℝ) → ℝ → n → ℝ) (mem : SMem ℝ (n → ℝ) (n → ℝ) (MMMem (n → ℝ) (Matrix n n ℝ)))
  (atts : List (Attempt ℝ (n → ℝ) ((n → ℝ) × Option J))) (t0 : ℝ) (y0 : n → ℝ) (tol : ℝ)

/-- **C84, BDF1, stability.** Problems `M y' = f(y,t)` with symmetric positive definite `M` and `f(y,t)·y ≤ 0` (as `M y' = -K y` of a diffusion problem). Whatever the step sizes and however many attempts failed: if each accepted step
    has converged to a residual of Euclidean norm at most `tol`, the energy norm `√(y·My)` of the latest accepted state is at most the initial one plus `tol/√μ` for every step. -/
theorem C84_bdf1 (hM : SPD M μ) (R : ConvergedRunMM (eu n) tol Matrix.mulVec asJac .BDF1 sys (fun _ _ => M) f mem atts t0 y0) (hdt : ∀ a ∈ atts, 0 ≤ a.dt) (hdiss : ∀ y t, f y t ⬝ᵥ y ≤ 0) :
    ∀ pre post, drive (mmStep Matrix.mulVec asJac .BDF1 sys) atts t0 [y0] y0 mem = pre ++ post → ∃ y l, accepted y0 pre = y :: l ∧ energy M y ≤ energy M y0 + l.length * (tol / Real.sqrt μ) := by
  obtain ⟨ι, hι⟩ := hM.exists_map
  intro pre post e
  have := residuals_bdf1 ι _ 0 _ _ t0 y0 (R.residuals (hM.invertible hι)) le_rfl (R.nonneg hdt) (fun y t => by
    simp only [Matrix.mulVecLin_apply]; rw [hM.inner_inv hι]; exact hdiss y t) pre post e
  simpa [energy_of_map hι, div_eq_inv_mul] using this

/-- **C84, BDF2, stability.** -/
theorem C84_bdf2 (hM : SPD M μ) (R : ConvergedRunMM (eu n) tol Matrix.mulVec asJac .BDF2 sys (fun _ _ => M) f mem atts t0 y0) (hdt : ∀ a ∈ atts, 0 ≤ a.dt) (hdiss : ∀ y t, f y t ⬝ᵥ y ≤ 0) :
    ∀ pre post, drive (mmStep Matrix.mulVec asJac .BDF2 sys) atts t0 [y0] y0 mem = pre ++ post → ∃ y l, accepted y0 pre = y :: l ∧ energy M y ≤ Real.sqrt 2 * energy M y0 + 6 * (l.length * (tol / Real.sqrt μ)) := by
  obtain ⟨ι, hι⟩ := hM.exists_map
  intro pre post e
  have := residuals_bdf2 ι _ 0 _ _ t0 y0 (R.residuals (hM.invertible hι)) le_rfl (R.nonneg hdt) (fun y t => by
    simp only [Matrix.mulVecLin_apply]; rw [hM.inner_inv hι]; exact hdiss y t) pre post e
  simpa [energy_of_map hι, div_eq_inv_mul] using this

theorem _root_.Pressio.Spec.MassMatrix.SPD.solvesIn (hM : SPD M μ) {f : (n → ℝ) → ℝ → n → ℝ} {ψ ψ' : ℝ → n → ℝ} {a b : ℝ} (hψ : Solves M f ψ ψ' a b) (ι : (n → ℝ) →ₗ[ℝ] EuclideanSpace ℝ n) :
    SolvesIn ι (fun y t => Matrix.mulVecLin M⁻¹ (f y t)) ψ a b := by
  intro s hs
  have := (LinearMap.toContinuousLinearMap ι).hasFDerivAt.comp_hasDerivAt s (hψ.deriv s hs)
  simp only [Matrix.mulVecLin_apply]
  rw [← hψ.equation s hs, hM.inv_mul]
  exact this

theorem _root_.Pressio.Spec.MassMatrix.SPD.smooth1In (hM : SPD M μ) {f : (n → ℝ) → ℝ → n → ℝ} {ψ ψ' : ℝ → n → ℝ} {a b C : ℝ} (hψ : Solves M f ψ ψ' a b) (hC : Smooth1 M ψ' C a b) {ι : (n → ℝ) →ₗ[ℝ] EuclideanSpace ℝ n} (hι : ∀ x y, ⟪ι x, ι y⟫ = x ⬝ᵥ (M *ᵥ y)) :
    Smooth1In ι (fun y t => Matrix.mulVecLin M⁻¹ (f y t)) ψ C a b := by
  intro s hs u hu
  simp only [Matrix.mulVecLin_apply]
  rw [← hψ.equation s hs, ← hψ.equation u hu, hM.inv_mul, hM.inv_mul, ← map_sub, energy_of_map hι]
  exact hC s hs u hu

theorem smooth2In_of {f : (n → ℝ) → ℝ → n → ℝ} {ψ ψ'' : ℝ → n → ℝ} {a b C2 C3 : ℝ} (hC : Smooth2 M f ψ ψ'' C2 C3 a b) {ι : (n → ℝ) →ₗ[ℝ] EuclideanSpace ℝ n} (hι : ∀ x y, ⟪ι x, ι y⟫ = x ⬝ᵥ (M *ᵥ y)) :
    Smooth2In ι (fun y t => Matrix.mulVecLin M⁻¹ (f y t)) ψ (fun s => ι (ψ'' s)) C2 C3 a b := by
  refine ⟨fun s hs => ⟨(LinearMap.toContinuousLinearMap ι).hasFDerivAt.comp_hasDerivAt s (hC.deriv s hs), ?_⟩, fun s hs u hu => ?_⟩
  · rw [energy_of_map hι]; exact hC.bound s hs
  · rw [← map_sub, energy_of_map hι]; exact hC.lip s hs u hu

theorem _root_.Pressio.Spec.MassMatrix.SPD.monotone (hM : SPD M μ) {f : (n → ℝ) → ℝ → n → ℝ} (hmono : ∀ y z t, (f y t - f z t) ⬝ᵥ (y - z) ≤ 0) {ι : (n → ℝ) →ₗ[ℝ] EuclideanSpace ℝ n} (hι : ∀ x y, ⟪ι x, ι y⟫ = x ⬝ᵥ (M *ᵥ y)) (y z : n → ℝ) (t : ℝ) :
    ⟪ι (Matrix.mulVecLin M⁻¹ (f y t)) - ι (Matrix.mulVecLin M⁻¹ (f z t)), ι y - ι z⟫ ≤ 0 := by
  rw [← map_sub, ← map_sub, ← map_sub, Matrix.mulVecLin_apply, hM.inner_inv hι]; exact hmono y z t

/-- **C84, BDF1, convergence.** Monotone right-hand side (any stiffness), steps at most `H`: in the energy norm, the distance of the latest accepted state to the solution of `M ψ' = f(ψ,t)` is at most the initial one, plus
    `tol/√μ` for every step, plus `(t - t0) C H / 2`. -/
theorem C84_bdf1_converges (hM : SPD M μ) (R : ConvergedRunMM (eu n) tol Matrix.mulVec asJac .BDF1 sys (fun _ _ => M) f mem atts t0 y0) (H T : ℝ) (hH : 0 ≤ H)
    (hS : StepsIn (fun h => h ≤ H) T (drive (mmStep Matrix.mulVec asJac .BDF1 sys) atts t0 [y0] y0 mem)) (hmono : ∀ y z t, (f y t - f z t) ⬝ᵥ (y - z) ≤ 0)
    (ψ ψ' : ℝ → n → ℝ) (C : ℝ) (hC : 0 ≤ C) (hψ : Solves M f ψ ψ' t0 T) (hs : Smooth1 M ψ' C t0 T) :
    ∀ pre post, drive (mmStep Matrix.mulVec asJac .BDF1 sys) atts t0 [y0] y0 mem = pre ++ post → ∃ y l, accepted y0 pre = y :: l ∧
      energy M (y - ψ (timeAfter t0 pre)) ≤ energy M (y0 - ψ t0) + (l.length * (tol / Real.sqrt μ) + (timeAfter t0 pre - t0) * (C * H / 2)) := by
  obtain ⟨ι, hι⟩ := hM.exists_map
  intro pre post e
  have := residuals_bdf1_monotone ι _ 0 _ _ t0 y0 (R.residuals (hM.invertible hι)) le_rfl H T hS (hM.monotone hmono hι) ψ C hC hH (hM.solvesIn hψ ι) (hM.smooth1In hψ hs hι) pre post e
  simpa [energy_of_map hι, ← map_sub, div_eq_inv_mul] using this

/-- **C84, BDF2, convergence.** Second order with constant steps. -/
theorem C84_bdf2_converges (hM : SPD M μ) (R : ConvergedRunMM (eu n) tol Matrix.mulVec asJac .BDF2 sys (fun _ _ => M) f mem atts t0 y0) (η T : ℝ)
    (hS : StepsIn (fun h => h = η) T (drive (mmStep Matrix.mulVec asJac .BDF2 sys) atts t0 [y0] y0 mem)) (hmono : ∀ y z t, (f y t - f z t) ⬝ᵥ (y - z) ≤ 0)
    (ψ ψ' ψ'' : ℝ → n → ℝ) (C2 C3 : ℝ) (hC2 : 0 ≤ C2) (hC3 : 0 ≤ C3) (hψ : Solves M f ψ ψ' t0 T) (hs : Smooth2 M f ψ ψ'' C2 C3 t0 T) :
    ∀ pre post, drive (mmStep Matrix.mulVec asJac .BDF2 sys) atts t0 [y0] y0 mem = pre ++ post → ∃ y l, accepted y0 pre = y :: l ∧
      energy M (y - ψ (timeAfter t0 pre)) ≤ Real.sqrt 2 * energy M (y0 - ψ t0) + 3 * C2 * η ^ 2 + 6 * (l.length * (tol / Real.sqrt μ)) + (timeAfter t0 pre - t0) * (4 * C3 * η ^ 2) := by
  obtain ⟨ι, hι⟩ := hM.exists_map
  intro pre post e
  have := residuals_bdf2_monotone ι _ 0 _ _ t0 y0 (R.residuals (hM.invertible hι)) le_rfl η T hS (hM.monotone hmono hι) ψ _ C2 C3 hC2 hC3 (hM.solvesIn hψ ι) (smooth2In_of hs hι) pre post e
  simpa [energy_of_map hι, ← map_sub, div_eq_inv_mul] using this

end Const

/-! ### Mass matrices that depend on state and time, Lipschitz problems -/
section Lipschitz
variable {E E' Y J Mt : Type} [NormedAddCommGroup E] [InnerProductSpace ℝ E] [NormedAddCommGroup E'] [InnerProductSpace ℝ E'] [AddCommGroup Y] [Module ℝ Y] [AddCommGroup J] [Module ℝ J] [One J]
variable (act : Mt → Y → Y) (asJac : Mt → J) (sys : IMMSystem ℝ Y J Mt) (Mf : Y → ℝ → Mt) (f : Y → ℝ → Y) (mem : SMem ℝ Y Y (MMMem Y Mt)) (atts : List (Attempt ℝ Y (Y × Option J))) (t0 : ℝ) (y0 : Y)
  (ι : Y →ₗ[ℝ] E) (κ : Y →ₗ[ℝ] E') (c tol : ℝ) (inv : Y → ℝ → Y →ₗ[ℝ] Y)

/-- **C84, BDF1, mass matrix `M(y,t)`.** The mass matrix may depend on state and time; it is invertible, the inverse is bounded by `c`, and `M⁻¹ f` is Lipschitz. First order. -/
theorem C84_bdf1_lipschitz (hi : Invertible ι κ c act Mf inv) (R : ConvergedRunMM κ tol act asJac .BDF1 sys Mf f mem atts t0 y0) (H T : ℝ) (hS : StepsIn (fun h => h ≤ H) T (drive (mmStep act asJac .BDF1 sys) atts t0 [y0] y0 mem))
    (L : ℝ) (hL : 0 ≤ L) (hHL : H * L ≤ 1 / 2) (hlip : ∀ y z t, ‖ι (inv y t (f y t)) - ι (inv z t (f z t))‖ ≤ L * ‖ι y - ι z‖) (ψ : ℝ → Y) (C : ℝ) (hC : 0 ≤ C) (hH : 0 ≤ H)
    (hψ : SolvesIn ι (fun y t => inv y t (f y t)) ψ t0 T) (hs : Smooth1In ι (fun y t => inv y t (f y t)) ψ C t0 T) :
    ∀ pre post, drive (mmStep act asJac .BDF1 sys) atts t0 [y0] y0 mem = pre ++ post → ∃ y l, accepted y0 pre = y :: l ∧
      ‖ι y - ι (ψ (timeAfter t0 pre))‖ ≤ Real.exp (2 * L * (timeAfter t0 pre - t0)) * (‖ι y0 - ι (ψ t0)‖ + (l.length * (c * tol) + (timeAfter t0 pre - t0) * (C * H / 2))) := by
  intro pre post e
  simpa using residuals_bdf1_lipschitz ι _ 0 _ _ t0 y0 (R.residuals hi) le_rfl H T hS L hL hHL hlip ψ C hC hH hψ hs pre post e

/-- **C84, BDF2, mass matrix `M(y,t)`, constant steps.** Second order. -/
theorem C84_bdf2_lipschitz (hi : Invertible ι κ c act Mf inv) (R : ConvergedRunMM κ tol act asJac .BDF2 sys Mf f mem atts t0 y0) (η T : ℝ) (hS : StepsIn (fun h => h = η) T (drive (mmStep act asJac .BDF2 sys) atts t0 [y0] y0 mem))
    (L : ℝ) (hL : 0 ≤ L) (hHL : 6 * (η * L) ≤ 1 / 2) (hlip : ∀ y z t, ‖ι (inv y t (f y t)) - ι (inv z t (f z t))‖ ≤ L * ‖ι y - ι z‖) (ψ : ℝ → Y) (ψ2 : ℝ → E) (C2 C3 : ℝ) (hC2 : 0 ≤ C2) (hC3 : 0 ≤ C3)
    (hψ : SolvesIn ι (fun y t => inv y t (f y t)) ψ t0 T) (hs : Smooth2In ι (fun y t => inv y t (f y t)) ψ ψ2 C2 C3 t0 T) :
    ∀ pre post, drive (mmStep act asJac .BDF2 sys) atts t0 [y0] y0 mem = pre ++ post → ∃ y l, accepted y0 pre = y :: l ∧
      ‖ι y - ι (ψ (timeAfter t0 pre))‖ ≤ Real.exp (12 * L * (timeAfter t0 pre - t0)) * (Real.sqrt 2 * ‖ι y0 - ι (ψ t0)‖ + 3 * C2 * η ^ 2 + 6 * (l.length * (c * tol)) + (timeAfter t0 pre - t0) * (4 * C3 * η ^ 2)) := by
  intro pre post e
  simpa using residuals_bdf2_lipschitz ι _ 0 _ _ t0 y0 (R.residuals hi) le_rfl η T hS L hL hHL hlip ψ ψ2 C2 C3 hC2 hC3 hψ hs pre post e

end Lipschitz

/-! ### Galerkin problems with mass matrix -/
section Galerkin
variable {m p q n : Type} [Fintype m] [Fintype p] [Fintype q] [Fintype n] [DecidableEq n] [DecidableEq m]
variable {F : Fom ℝ m m n} {fe : (m → ℝ) → ℝ → Except Exc (m → ℝ)} {De Me : (m → ℝ) → ℝ → Except Exc (Matrix m m ℝ)}

/-- a default Galerkin object with mass matrix evaluates `Φᵀ M Φ` and `Φᵀ f` at the lifted state -/
theorem galerkin_evaluates_mm (hF : FomIs F fe De Me) (S : Trial ℝ m n) (s0 : GSt ℝ m m q n) (f : (m → ℝ) → ℝ → m → ℝ) (hf : ∀ y t v, fe y t = .ok v → v = f y t) (Mf : (m → ℝ) → ℝ → Matrix m m ℝ) (hM : ∀ y t A, Me y t = .ok A → A = Mf y t) :
    EvaluatesMM (asIMMSystem (defaultMMRhsJac S F) s0) (fun x t => S.basisᵀ * Mf (lift S x) t * S.basis) (fun x t => S.basisᵀ *ᵥ f (lift S x) t) := by
  intro x t w A g j h
  have hg := galerkin_eval_mm hF S s0 x t w
  rw [h] at hg
  unfold fomSystemMM at hg
  simp only [Except.mapError] at hg
  rcases h1 : fe (lift S x) t with e | v
  · simp [h1, Except.map] at hg
  rcases h2 : Me (lift S x) t with e | B
  · simp [h1, h2, Except.map] at hg
  beta_reduce
  rw [← hf _ _ _ h1, ← hM _ _ _ h2]
  cases w
  · simp only [h1, h2, Except.map, project, Except.ok.injEq, Prod.mk.injEq, Bool.false_eq_true, if_false] at hg
    exact ⟨hg.1, hg.2.1⟩
  · rcases h3 : De (lift S x) t with e | D
    · simp [h1, h2, h3, Except.map] at hg
    · simp only [h1, h2, h3, Except.map, project, Except.ok.injEq, Prod.mk.injEq, if_true] at hg
      exact ⟨hg.1, hg.2.1⟩

/-- the basis is independent: `σ x·x ≤ Φx·Φx` (`σ = 1` for an orthonormal one) -/
def Independent (S : Trial ℝ m n) (σ : ℝ) : Prop := 0 < σ ∧ ∀ x : n → ℝ, σ * (x ⬝ᵥ x) ≤ (S.basis *ᵥ x) ⬝ᵥ (S.basis *ᵥ x)

theorem reduced_dot (S : Trial ℝ m n) (M : Matrix m m ℝ) (x y : n → ℝ) : x ⬝ᵥ ((S.basisᵀ * M * S.basis) *ᵥ y) = (S.basis *ᵥ x) ⬝ᵥ (M *ᵥ (S.basis *ᵥ y)) := by
  rw [Matrix.mul_assoc, ← Matrix.mulVec_mulVec, dotProduct_comm, basis_dot, dotProduct_comm, Matrix.mulVec_mulVec]

theorem reduced_energy (S : Trial ℝ m n) (M : Matrix m m ℝ) (x : n → ℝ) : energy (S.basisᵀ * M * S.basis) x = energy M (S.basis *ᵥ x) := by
  rw [energy, energy, reduced_dot]

/-- the reduced mass matrix is symmetric and positive definite -/
theorem reduced_spd (S : Trial ℝ m n) (σ : ℝ) (hS : Independent S σ) (M : Matrix m m ℝ) (μ : ℝ) (hM : SPD M μ) : SPD (S.basisᵀ * M * S.basis) (μ * σ) where
  symm := by rw [Matrix.transpose_mul, Matrix.transpose_mul, Matrix.transpose_transpose, hM.symm, Matrix.mul_assoc]
  pos := mul_pos hM.pos hS.1
  coercive x := by
    rw [reduced_dot]
    refine le_trans ?_ (hM.coercive _)
    rw [mul_assoc]
    exact mul_le_mul_of_nonneg_left (hS.2 x) hM.pos.le

theorem galerkin_converged_run_mm (hF : FomIs F fe De Me) (hn : FomNoTSF fe De) (hn' : ∀ y t, Me y t ≠ .error .timeStepFailure) (f : (m → ℝ) → ℝ → m → ℝ) (hf : ∀ y t v, fe y t = .ok v → v = f y t)
    (M : Matrix m m ℝ) (hM : ∀ y t A, Me y t = .ok A → A = M) (S : Trial ℝ m n) (s0 : GSt ℝ m m q n) (name : Scheme) (tol : ℝ)
    (mem : SMem ℝ (n → ℝ) (n → ℝ) (MMMem (n → ℝ) (Matrix n n ℝ))) (hmem : ReadyMM name mem) (atts : List (Attempt ℝ (n → ℝ) ((n → ℝ) × Option (Matrix n n ℝ)))) (hon : ∀ a ∈ atts, ∀ y, Honest (a.solver y)) (t0 : ℝ) (x0 : n → ℝ)
    (hconv : ∀ r ∈ drive (mmStep Matrix.mulVec id name (asIMMSystem (defaultMMRhsJac S F) s0)) atts t0 [x0] x0 mem, r.stop = none → Converged (eu n) tol r) :
    ConvergedRunMM (eu n) tol Matrix.mulVec id name (asIMMSystem (defaultMMRhsJac S F) s0) (fun _ _ => S.basisᵀ * M * S.basis) (fun x t => S.basisᵀ *ᵥ f (lift S x) t) mem atts t0 x0 :=
  ⟨galerkin_noTSFMM hF hn hn' S s0, galerkin_evaluates_mm hF S s0 f hf (fun _ _ => M) hM, hmem, hon, hconv⟩

/-- **C80, mass matrix, BDF1.** Full-order model `M y' = f(y,t)` with symmetric positive definite `M` and `f` dissipative on the trial space; any independent basis. In a run of the default Galerkin problem with mass matrix, each
    accepted step of which has converged, the energy norm `√(Φx·MΦx)` grows by at most `tol/√(μσ)` per step. -/
theorem C80_mass_matrix_bdf1 (hF : FomIs F fe De Me) (hn : FomNoTSF fe De) (hn' : ∀ y t, Me y t ≠ .error .timeStepFailure) (f : (m → ℝ) → ℝ → m → ℝ) (hf : ∀ y t v, fe y t = .ok v → v = f y t)
    (M : Matrix m m ℝ) (hM : ∀ y t A, Me y t = .ok A → A = M) (μ : ℝ) (hspd : SPD M μ) (S : Trial ℝ m n) (σ : ℝ) (hS : Independent S σ) (s0 : GSt ℝ m m q n) (tol : ℝ)
    (mem : SMem ℝ (n → ℝ) (n → ℝ) (MMMem (n → ℝ) (Matrix n n ℝ))) (hmem : ReadyMM .BDF1 mem) (atts : List (Attempt ℝ (n → ℝ) ((n → ℝ) × Option (Matrix n n ℝ)))) (hon : ∀ a ∈ atts, ∀ y, Honest (a.solver y)) (t0 : ℝ) (x0 : n → ℝ)
    (hconv : ∀ r ∈ drive (mmStep Matrix.mulVec id .BDF1 (asIMMSystem (defaultMMRhsJac S F) s0)) atts t0 [x0] x0 mem, r.stop = none → Converged (eu n) tol r) (hdt : ∀ a ∈ atts, 0 ≤ a.dt)
    (hdiss : ∀ x t, f (lift S x) t ⬝ᵥ (S.basis *ᵥ x) ≤ 0) :
    ∀ pre post, drive (mmStep Matrix.mulVec id .BDF1 (asIMMSystem (defaultMMRhsJac S F) s0)) atts t0 [x0] x0 mem = pre ++ post → ∃ x l, accepted x0 pre = x :: l ∧
      energy M (S.basis *ᵥ x) ≤ energy M (S.basis *ᵥ x0) + l.length * (tol / Real.sqrt (μ * σ)) := by
  intro pre post e
  have := C84_bdf1 id _ _ mem atts t0 x0 tol (reduced_spd S σ hS M μ hspd) (galerkin_converged_run_mm hF hn hn' f hf M hM S s0 .BDF1 tol mem hmem atts hon t0 x0 hconv) hdt
    (fun x t => by rw [basis_dot]; exact hdiss x t) pre post e
  simpa only [reduced_energy] using this

/-- **C80, mass matrix, BDF2.** -/
theorem C80_mass_matrix_bdf2 (hF : FomIs F fe De Me) (hn : FomNoTSF fe De) (hn' : ∀ y t, Me y t ≠ .error .timeStepFailure) (f : (m → ℝ) → ℝ → m → ℝ) (hf : ∀ y t v, fe y t = .ok v → v = f y t)
    (M : Matrix m m ℝ) (hM : ∀ y t A, Me y t = .ok A → A = M) (μ : ℝ) (hspd : SPD M μ) (S : Trial ℝ m n) (σ : ℝ) (hS : Independent S σ) (s0 : GSt ℝ m m q n) (tol : ℝ)
    (mem : SMem ℝ (n → ℝ) (n → ℝ) (MMMem (n → ℝ) (Matrix n n ℝ))) (hmem : ReadyMM .BDF2 mem) (atts : List (Attempt ℝ (n → ℝ) ((n → ℝ) × Option (Matrix n n ℝ)))) (hon : ∀ a ∈ atts, ∀ y, Honest (a.solver y)) (t0 : ℝ) (x0 : n → ℝ)
    (hconv : ∀ r ∈ drive (mmStep Matrix.mulVec id .BDF2 (asIMMSystem (defaultMMRhsJac S F) s0)) atts t0 [x0] x0 mem, r.stop = none → Converged (eu n) tol r) (hdt : ∀ a ∈ atts, 0 ≤ a.dt)
    (hdiss : ∀ x t, f (lift S x) t ⬝ᵥ (S.basis *ᵥ x) ≤ 0) :
    ∀ pre post, drive (mmStep Matrix.mulVec id .BDF2 (asIMMSystem (defaultMMRhsJac S F) s0)) atts t0 [x0] x0 mem = pre ++ post → ∃ x l, accepted x0 pre = x :: l ∧
      energy M (S.basis *ᵥ x) ≤ Real.sqrt 2 * energy M (S.basis *ᵥ x0) + 6 * (l.length * (tol / Real.sqrt (μ * σ))) := by
  intro pre post e
  have := C84_bdf2 id _ _ mem atts t0 x0 tol (reduced_spd S σ hS M μ hspd) (galerkin_converged_run_mm hF hn hn' f hf M hM S s0 .BDF2 tol mem hmem atts hon t0 x0 hconv) hdt
    (fun x t => by rw [basis_dot]; exact hdiss x t) pre post e
  simpa only [reduced_energy] using this

/-- distance, in the energy norm, of the time derivative of the lifted state of the default Galerkin model with mass matrix to the one of the full-order model, `M⁻¹ f` -/
noncomputable def massDefect (S : Trial ℝ m n) (M : Matrix m m ℝ) (f : (m → ℝ) → ℝ → m → ℝ) (x : n → ℝ) (t : ℝ) : ℝ :=
  energy M (M⁻¹ *ᵥ f (lift S x) t - S.basis *ᵥ ((S.basisᵀ * M * S.basis)⁻¹ *ᵥ (S.basisᵀ *ᵥ f (lift S x) t)))

/-- **C80, mass matrix, optimality.** In the energy norm no velocity in the trial space is closer to the one of the full-order model, for any independent basis. -/
theorem C80_mass_matrix_velocity_optimal (M : Matrix m m ℝ) (μ : ℝ) (hspd : SPD M μ) (S : Trial ℝ m n) (σ : ℝ) (hS : Independent S σ) (f : (m → ℝ) → ℝ → m → ℝ) (x : n → ℝ) (t : ℝ) (z : n → ℝ) :
    massDefect S M f x t ≤ energy M (M⁻¹ *ᵥ f (lift S x) t - S.basis *ᵥ z) := by
  unfold massDefect
  generalize f (lift S x) t = v
  have hr := reduced_spd S σ hS M μ hspd
  obtain ⟨ι, hι⟩ := hspd.exists_map
  generalize hw : (S.basisᵀ * M * S.basis)⁻¹ *ᵥ (S.basisᵀ *ᵥ v) = w
  have hw' : (S.basisᵀ * M * S.basis) *ᵥ w = S.basisᵀ *ᵥ v := by rw [← hw, hr.mul_inv]
  have horth : ∀ u : n → ℝ, ⟪ι (M⁻¹ *ᵥ v - S.basis *ᵥ w), ι (S.basis *ᵥ u)⟫ = 0 := by
    intro u
    rw [map_sub, inner_sub_left, hspd.inner_inv hι, hι, ← reduced_dot, hr.dot_comm, hw', basis_dot, sub_self]
  have hsplit : M⁻¹ *ᵥ v - S.basis *ᵥ z = (M⁻¹ *ᵥ v - S.basis *ᵥ w) + S.basis *ᵥ (w - z) := by rw [Matrix.mulVec_sub]; abel
  rw [← energy_of_map hι, ← energy_of_map hι]
  refine (mul_self_le_mul_self_iff (norm_nonneg _) (norm_nonneg _)).2 ?_
  rw [hsplit, map_add ι, norm_add_mul_self_real, horth]
  nlinarith [mul_self_nonneg ‖ι (S.basis *ᵥ (w - z))‖]

/-- lifted states of reduced runs with small residuals -/
theorem lifted_residuals_of {E A : Type} [NormedAddCommGroup E] [InnerProductSpace ℝ E] (ι : (m → ℝ) →ₗ[ℝ] E) (S : Trial ℝ m n) (f : (m → ℝ) → ℝ → m → ℝ) (g : (n → ℝ) → ℝ → n → ℝ) (ε tol : ℝ) (name : Scheme)
    (rs : List (Record ℝ (n → ℝ) A)) (t0 : ℝ) (x0 : n → ℝ) (R : ResidualRun (ι ∘ₗ Matrix.mulVecLin S.basis) tol 0 name g rs t0 x0) (hdt : ∀ r ∈ rs, 0 ≤ r.dt) (hε : DefectOn ι S f g ε x0 t0 rs) :
    ResidualRun (A := Unit) ι tol ε name f (rs.map (liftRecord S)) t0 (lift S x0) := by
  have split : ∀ {pre post : List (Record ℝ (m → ℝ) Unit)} {r}, rs.map (liftRecord S) = pre ++ r :: post →
      ∃ pre' post' r', rs = pre' ++ r' :: post' ∧ pre = pre'.map (liftRecord S) ∧ r = liftRecord S r' := by
    intro pre post r h
    obtain ⟨l1, l2, e1, e2, e3⟩ := List.map_eq_append_iff.1 h
    obtain ⟨r', l3, f1, f2, f3⟩ := List.map_eq_cons_iff.1 e3
    exact ⟨l1, l3, r', by rw [e1, f1], e2.symm, f2.symm⟩
  refine ⟨fun {pre post r} h hr => ?_, fun {pre post r} h => ?_, fun {pre post r} h hr => ?_⟩
  · obtain ⟨pre', post', r', e1, rfl, rfl⟩ := split h
    have hres := R.residual e1 hr
    rw [mul_zero, add_zero] at hres
    rw [accepted_lift, timeAfter_lift]
    have h0 : 0 ≤ r'.dt := hdt r' (by rw [e1]; simp)
    refine (residual_lift ι S f g ε name (accepted x0 pre') _ r'.dt h0 r'.y ?_ (fun yn l hl => hε pre' (r' :: post') yn l e1 hl)).trans (add_le_add hres le_rfl)
    have hn : r'.stop.isNone = true := by rw [show r'.stop = none from hr]; rfl
    have := hε (pre' ++ [r']) post' r'.y (accepted x0 pre') (by rw [e1]; simp) (by rw [accepted_snoc, if_pos hn])
    rwa [timeAfter_snoc, if_pos hn] at this
  · obtain ⟨pre', post', r', e1, rfl, rfl⟩ := split h
    rw [timeAfter_lift]; exact R.time e1
  · obtain ⟨pre', post', r', e1, rfl, rfl⟩ := split h
    exact R.tol_nonneg e1 hr

/-- **C81, mass matrix, BDF1.** Error of the reconstructed states of a default Galerkin run with mass matrix against the solution of `M ψ' = f(ψ,t)`, in the energy norm: initial error, tolerances, and elapsed time times
    (the largest defect of the model at the accepted states + first-order error). Monotone full-order model. -/
theorem C81_mass_matrix_bdf1 (hF : FomIs F fe De Me) (hn : FomNoTSF fe De) (hn' : ∀ y t, Me y t ≠ .error .timeStepFailure) (f : (m → ℝ) → ℝ → m → ℝ) (hf : ∀ y t v, fe y t = .ok v → v = f y t)
    (M : Matrix m m ℝ) (hM : ∀ y t A, Me y t = .ok A → A = M) (μ : ℝ) (hspd : SPD M μ) (S : Trial ℝ m n) (σ : ℝ) (hS : Independent S σ) (s0 : GSt ℝ m m q n) (tol : ℝ)
    (mem : SMem ℝ (n → ℝ) (n → ℝ) (MMMem (n → ℝ) (Matrix n n ℝ))) (hmem : ReadyMM .BDF1 mem) (atts : List (Attempt ℝ (n → ℝ) ((n → ℝ) × Option (Matrix n n ℝ)))) (hon : ∀ a ∈ atts, ∀ y, Honest (a.solver y)) (t0 : ℝ) (x0 : n → ℝ)
    (hconv : ∀ r ∈ drive (mmStep Matrix.mulVec id .BDF1 (asIMMSystem (defaultMMRhsJac S F) s0)) atts t0 [x0] x0 mem, r.stop = none → Converged (eu n) tol r) (hdt : ∀ a ∈ atts, 0 ≤ a.dt)
    (hmono : ∀ y z t, (f y t - f z t) ⬝ᵥ (y - z) ≤ 0) (ε : ℝ) (h0 : 0 ≤ ε)
    (hε : ∀ pre post x l, drive (mmStep Matrix.mulVec id .BDF1 (asIMMSystem (defaultMMRhsJac S F) s0)) atts t0 [x0] x0 mem = pre ++ post → accepted x0 pre = x :: l → massDefect S M f x (timeAfter t0 pre) ≤ ε)
    (H T : ℝ) (hH : 0 ≤ H) (hSt : StepsIn (fun h => h ≤ H) T (drive (mmStep Matrix.mulVec id .BDF1 (asIMMSystem (defaultMMRhsJac S F) s0)) atts t0 [x0] x0 mem))
    (ψ ψ' : ℝ → m → ℝ) (C : ℝ) (hC : 0 ≤ C) (hψ : Solves M f ψ ψ' t0 T) (hs : Smooth1 M ψ' C t0 T) :
    ∀ pre post, drive (mmStep Matrix.mulVec id .BDF1 (asIMMSystem (defaultMMRhsJac S F) s0)) atts t0 [x0] x0 mem = pre ++ post → ∃ x l, accepted x0 pre = x :: l ∧
      energy M (lift S x - ψ (timeAfter t0 pre)) ≤ energy M (lift S x0 - ψ t0) + (l.length * (tol / Real.sqrt (μ * σ)) + (timeAfter t0 pre - t0) * (ε + C * H / 2)) := by
  obtain ⟨ι, hι⟩ := hspd.exists_map
  have R := galerkin_converged_run_mm hF hn hn' f hf M hM S s0 .BDF1 tol mem hmem atts hon t0 x0 hconv
  have hr := reduced_spd S σ hS M μ hspd
  have hι' : ∀ x y, ⟪(ι ∘ₗ Matrix.mulVecLin S.basis) x, (ι ∘ₗ Matrix.mulVecLin S.basis) y⟫ = x ⬝ᵥ ((S.basisᵀ * M * S.basis) *ᵥ y) := by
    intro x y
    rw [reduced_dot, LinearMap.comp_apply, LinearMap.comp_apply, hι]; rfl
  have RR := lifted_residuals_of ι S (fun y t => Matrix.mulVecLin M⁻¹ (f y t)) (fun x t => Matrix.mulVecLin (S.basisᵀ * M * S.basis)⁻¹ (S.basisᵀ *ᵥ f (lift S x) t)) ε _ .BDF1 _ t0 x0 (R.residuals (hr.invertible hι')) (R.nonneg hdt)
    (fun pre post x l e1 e2 => by
      have := hε pre post x l e1 e2
      rw [massDefect, ← energy_of_map hι, map_sub] at this
      exact this)
  have := bound_of_lifted S x0 t0 _ (fun y k t => ‖ι y - ι (ψ t)‖ ≤ ‖ι (lift S x0) - ι (ψ t0)‖ + (k * (1 / Real.sqrt (μ * σ) * tol) + (t - t0) * (ε + C * H / 2)))
    (residuals_bdf1_monotone ι _ ε _ _ t0 (lift S x0) RR h0 H T (stepsIn_lift S _ T _ hSt) (hspd.monotone hmono hι) ψ C hC hH (hspd.solvesIn hψ ι) (hspd.smooth1In hψ hs hι))
  intro pre post e
  obtain ⟨x, l, h1, h2⟩ := this pre post e
  refine ⟨x, l, h1, ?_⟩
  rw [← map_sub, ← map_sub, energy_of_map hι, energy_of_map hι, one_div_mul_eq_div] at h2
  exact h2

/-- **C81, mass matrix, BDF2, constant steps**: second order up to the defect. -/
theorem C81_mass_matrix_bdf2 (hF : FomIs F fe De Me) (hn : FomNoTSF fe De) (hn' : ∀ y t, Me y t ≠ .error .timeStepFailure) (f : (m → ℝ) → ℝ → m → ℝ) (hf : ∀ y t v, fe y t = .ok v → v = f y t)
    (M : Matrix m m ℝ) (hM : ∀ y t A, Me y t = .ok A → A = M) (μ : ℝ) (hspd : SPD M μ) (S : Trial ℝ m n) (σ : ℝ) (hS : Independent S σ) (s0 : GSt ℝ m m q n) (tol : ℝ)
    (mem : SMem ℝ (n → ℝ) (n → ℝ) (MMMem (n → ℝ) (Matrix n n ℝ))) (hmem : ReadyMM .BDF2 mem) (atts : List (Attempt ℝ (n → ℝ) ((n → ℝ) × Option (Matrix n n ℝ)))) (hon : ∀ a ∈ atts, ∀ y, Honest (a.solver y)) (t0 : ℝ) (x0 : n → ℝ)
    (hconv : ∀ r ∈ drive (mmStep Matrix.mulVec id .BDF2 (asIMMSystem (defaultMMRhsJac S F) s0)) atts t0 [x0] x0 mem, r.stop = none → Converged (eu n) tol r) (hdt : ∀ a ∈ atts, 0 ≤ a.dt)
    (hmono : ∀ y z t, (f y t - f z t) ⬝ᵥ (y - z) ≤ 0) (ε : ℝ) (h0 : 0 ≤ ε)
    (hε : ∀ pre post x l, drive (mmStep Matrix.mulVec id .BDF2 (asIMMSystem (defaultMMRhsJac S F) s0)) atts t0 [x0] x0 mem = pre ++ post → accepted x0 pre = x :: l → massDefect S M f x (timeAfter t0 pre) ≤ ε)
    (η T : ℝ) (hSt : StepsIn (fun h => h = η) T (drive (mmStep Matrix.mulVec id .BDF2 (asIMMSystem (defaultMMRhsJac S F) s0)) atts t0 [x0] x0 mem))
    (ψ ψ' ψ'' : ℝ → m → ℝ) (C2 C3 : ℝ) (hC2 : 0 ≤ C2) (hC3 : 0 ≤ C3) (hψ : Solves M f ψ ψ' t0 T) (hs : Smooth2 M f ψ ψ'' C2 C3 t0 T) :
    ∀ pre post, drive (mmStep Matrix.mulVec id .BDF2 (asIMMSystem (defaultMMRhsJac S F) s0)) atts t0 [x0] x0 mem = pre ++ post → ∃ x l, accepted x0 pre = x :: l ∧
      energy M (lift S x - ψ (timeAfter t0 pre)) ≤ Real.sqrt 2 * energy M (lift S x0 - ψ t0) + 3 * C2 * η ^ 2 + 6 * (l.length * (tol / Real.sqrt (μ * σ))) + (timeAfter t0 pre - t0) * (6 * ε + 4 * C3 * η ^ 2) := by
  obtain ⟨ι, hι⟩ := hspd.exists_map
  have R := galerkin_converged_run_mm hF hn hn' f hf M hM S s0 .BDF2 tol mem hmem atts hon t0 x0 hconv
  have hr := reduced_spd S σ hS M μ hspd
  have hι' : ∀ x y, ⟪(ι ∘ₗ Matrix.mulVecLin S.basis) x, (ι ∘ₗ Matrix.mulVecLin S.basis) y⟫ = x ⬝ᵥ ((S.basisᵀ * M * S.basis) *ᵥ y) := by
    intro x y
    rw [reduced_dot, LinearMap.comp_apply, LinearMap.comp_apply, hι]; rfl
  have RR := lifted_residuals_of ι S (fun y t => Matrix.mulVecLin M⁻¹ (f y t)) (fun x t => Matrix.mulVecLin (S.basisᵀ * M * S.basis)⁻¹ (S.basisᵀ *ᵥ f (lift S x) t)) ε _ .BDF2 _ t0 x0 (R.residuals (hr.invertible hι')) (R.nonneg hdt)
    (fun pre post x l e1 e2 => by
      have := hε pre post x l e1 e2
      rw [massDefect, ← energy_of_map hι, map_sub] at this
      exact this)
  have := bound_of_lifted S x0 t0 _ (fun y k t => ‖ι y - ι (ψ t)‖ ≤ Real.sqrt 2 * ‖ι (lift S x0) - ι (ψ t0)‖ + 3 * C2 * η ^ 2 + 6 * (k * (1 / Real.sqrt (μ * σ) * tol)) + (t - t0) * (6 * ε + 4 * C3 * η ^ 2))
    (residuals_bdf2_monotone ι _ ε _ _ t0 (lift S x0) RR h0 η T (stepsIn_lift S _ T _ hSt) (hspd.monotone hmono hι) ψ _ C2 C3 hC2 hC3 (hspd.solvesIn hψ ι) (smooth2In_of hs hι))
  intro pre post e
  obtain ⟨x, l, h1, h2⟩ := this pre post e
  refine ⟨x, l, h1, ?_⟩
  rw [← map_sub, ← map_sub, energy_of_map hι, energy_of_map hι, one_div_mul_eq_div] at h2
  exact h2

end Galerkin
/-! ### A run that meets the hypotheses: `M y' = -M y` with `M = (2 1; 1 2)` -/
section Examples
section Solver
variable {Y E J : Type} [NormedAddCommGroup E] [InnerProductSpace ℝ E] [AddCommGroup Y] [Module ℝ Y]
open Classical in
/-- a solver that tries `c y` and checks the residual -/
noncomputable def scaleSolver (κ : Y →ₗ[ℝ] E) (c tol : ℝ) : Y → SolveTree Y (Y × Option J) := fun y =>
  .ask (c • y) false (fun a => match a with
    | .ok (r, _) => if ‖κ r‖ ≤ tol then .ret (c • y) else .stop (.exc .nonlinearSolveFailure) y
    | .error e => .stop (.exc e) y)

theorem scaleSolver_honest (κ : Y →ₗ[ℝ] E) (c tol : ℝ) (y : Y) : Honest (scaleSolver (J := J) κ c tol y) := by
  intro a ha
  rcases a with e | ⟨r, j⟩
  · have := ha e rfl; simpa [Honest] using this
  · simp only; split_ifs <;> simp [Honest]

theorem scaleSolver_checks (κ : Y →ₗ[ℝ] E) (c tol : ℝ) (y : Y) : Checks κ tol (fun _ => False) (scaleSolver (J := J) κ c tol y) := by
  intro a
  rcases a with e | ⟨r, j⟩
  · simp [Checks]
  · simp only
    split_ifs with h
    · exact Or.inr ⟨rfl, r, j, rfl, h⟩
    · simp [Checks]

/-- attempts with the exact factor of BDF1 -/
noncomputable def shrinks (κ : Y →ₗ[ℝ] E) (tol : ℝ) (dts : List ℝ) : List (Attempt ℝ Y (Y × Option J)) := dts.map (fun h => ⟨h, scaleSolver κ (1 / (1 + h)) tol⟩)

variable {Mt : Type} [AddCommGroup J] [Module ℝ J] [One J]
theorem shrinks_run (κ : Y →ₗ[ℝ] E) (act : Mt → Y → Y) (asJac : Mt → J) (name : Scheme) (sys : IMMSystem ℝ Y J Mt) (hsys : NoTSFMM sys) (Mf : Y → ℝ → Mt) (f : Y → ℝ → Y) (hf : EvaluatesMM sys Mf f)
    (mem : SMem ℝ Y Y (MMMem Y Mt)) (hmem : ReadyMM name mem) (tol : ℝ) (dts : List ℝ) (t0 : ℝ) (y0 : Y) :
    ConvergedRunMM κ tol act asJac name sys Mf f mem (shrinks κ tol dts) t0 y0 := by
  refine checked_run_mm _ _ _ _ _ _ hsys _ _ hf _ hmem _ ?_ ?_ _ _
  · intro a ha y
    obtain ⟨h, -, rfl⟩ := List.mem_map.1 ha
    exact scaleSolver_honest _ _ _ _
  · intro a ha y
    obtain ⟨h, -, rfl⟩ := List.mem_map.1 ha
    exact scaleSolver_checks _ _ _ _

theorem shrinks_dt (κ : Y →ₗ[ℝ] E) (tol : ℝ) (dts : List ℝ) (P : ℝ → Prop) (h : ∀ h ∈ dts, P h) : ∀ a ∈ shrinks (J := J) κ tol dts, P a.dt := by
  intro a ha
  obtain ⟨h', hh, rfl⟩ := List.mem_map.1 ha
  exact h h' hh
end Solver

noncomputable def mass2 : Matrix (Fin 2) (Fin 2) ℝ := !![2, 1; 1, 2]

theorem mass2_spd : SPD mass2 1 where
  symm := by ext i j; fin_cases i <;> fin_cases j <;> simp [mass2]
  pos := one_pos
  coercive x := by
    simp only [mass2, dotProduct, Matrix.mulVec, Fin.sum_univ_two, Matrix.of_apply, Matrix.cons_val_zero, Matrix.cons_val_one, Matrix.cons_val_fin_one]
    nlinarith [mul_self_nonneg (x 0 + x 1)]

/-- full-order system, as an object for the stepper -/
noncomputable def massSys : IMMSystem ℝ (Fin 2 → ℝ) (Matrix (Fin 2) (Fin 2) ℝ) (Matrix (Fin 2) (Fin 2) ℝ) := ⟨fun y _ w => .ok (mass2, -(mass2 *ᵥ y), if w then some (-mass2) else none)⟩

theorem massSys_noTSF : NoTSFMM massSys := by intro y t w e junk h; simp [massSys] at h
theorem massSys_evaluates : EvaluatesMM massSys (fun _ _ => mass2) (fun y _ => -(mass2 *ᵥ y)) := by
  intro y t w M g j h; simp only [massSys, Except.ok.injEq, Prod.mk.injEq] at h; exact ⟨h.1.symm, h.2.1.symm⟩

theorem massSys_dissipative (y : Fin 2 → ℝ) : (-(mass2 *ᵥ y)) ⬝ᵥ y ≤ 0 := by
  rw [neg_dotProduct, dotProduct_comm]
  have := mass2_spd.coercive y
  have h : 0 ≤ y ⬝ᵥ y := Finset.sum_nonneg (fun i _ => mul_self_nonneg _)
  linarith

theorem massSys_monotone (y z : Fin 2 → ℝ) : (-(mass2 *ᵥ y) - -(mass2 *ᵥ z)) ⬝ᵥ (y - z) ≤ 0 := by
  rw [show -(mass2 *ᵥ y) - -(mass2 *ᵥ z) = -(mass2 *ᵥ (y - z)) by rw [Matrix.mulVec_sub]; abel]
  exact massSys_dissipative _

noncomputable def massMem (k : Nat) (n : Type) : SMem ℝ (n → ℝ) (n → ℝ) (MMMem (n → ℝ) (Matrix n n ℝ)) := ⟨7, 7, 7, fun _ => 7, List.replicate k (fun _ => 7), [], ⟨7, fun _ => 7, fun _ _ => 7, fun _ => 7⟩⟩

theorem massSys_run (name : Scheme) (k : Nat) (hk : ReadyMM name (massMem k (Fin 2))) (tol : ℝ) (dts : List ℝ) (t0 : ℝ) (y0 : Fin 2 → ℝ) :
    ConvergedRunMM (eu (Fin 2)) tol Matrix.mulVec id name massSys (fun _ _ => mass2) (fun y _ => -(mass2 *ᵥ y)) (massMem k (Fin 2)) (shrinks (eu (Fin 2)) tol dts) t0 y0 :=
  shrinks_run _ _ _ _ _ massSys_noTSF _ _ massSys_evaluates _ hk _ _ _ _

theorem shrinks_step (tol : ℝ) (htol : 0 ≤ tol) (h : ℝ) (hh : 0 ≤ h) (t : ℝ) (y : Fin 2 → ℝ) (l : List (Fin 2 → ℝ)) :
    outcome (textbookMM Matrix.mulVec id .BDF1 massSys (y :: l) t h) (scaleSolver (eu (Fin 2)) (1 / (1 + h)) tol y) = ⟨none, (1 / (1 + h)) • y, [⟨(1 / (1 + h)) • y, false, .ok (0, none)⟩]⟩ := by
  have hne : 1 + h ≠ 0 := by positivity
  have h0 : textbookMM Matrix.mulVec id .BDF1 massSys (y :: l) t h ((1 / (1 + h)) • y) false = .ok (0, none) := by
    simp only [textbookMM, massSys]
    refine congrArg Except.ok (Prod.ext ?_ rfl)
    simp only [Matrix.mulVec_sub, Matrix.mulVec_smul]
    ext i
    simp only [Pi.sub_apply, Pi.smul_apply, Pi.neg_apply, smul_eq_mul, Pi.zero_apply]
    field_simp
    ring
  rw [scaleSolver, outcome, h0]
  simp [outcome, htol]

/-- all steps are accepted, whatever their sizes: the state is divided by `1 + h` in each -/
theorem massSys_accepts (tol : ℝ) (htol : 0 ≤ tol) (dts : List ℝ) (hdt : ∀ h ∈ dts, 0 ≤ h) (t0 : ℝ) (y0 : Fin 2 → ℝ) :
    (drive (mmStep Matrix.mulVec id .BDF1 massSys) (shrinks (eu (Fin 2)) tol dts) t0 [y0] y0 (massMem 1 (Fin 2))).map (fun r => (r.dt, r.stop)) = dts.map (fun h => (h, none)) := by
  have R := massSys_run .BDF1 1 rfl tol dts t0 y0
  rw [C26_run_is_ideal _ _ _ _ R.noTSF _ R.ready _ R.honest]
  clear R
  suffices hs : ∀ l, (ideal (textbookMM Matrix.mulVec id .BDF1 massSys) (shrinks (eu (Fin 2)) tol dts) t0 y0 l).map (fun r => (r.dt, r.stop)) = dts.map (fun h => (h, none)) from hs []
  induction dts generalizing t0 y0 with
  | nil => intro l; rfl
  | cons h dts ih =>
    intro l
    rw [show shrinks (eu (Fin 2)) tol (h :: dts) = ⟨h, scaleSolver (eu (Fin 2)) (1 / (1 + h)) tol⟩ :: shrinks (eu (Fin 2)) tol dts from rfl, ideal]
    simp only [shrinks_step tol htol h (hdt h (by simp)) t0 y0 l, List.map_cons]
    exact congrArg _ (ih (fun h' hh => hdt h' (by simp [hh])) _ _ _)

/-- C84 for that run: the energy never grows by more than the tolerance per step -/
example (tol : ℝ) (dts : List ℝ) (hdt : ∀ h ∈ dts, 0 ≤ h) (y0 : Fin 2 → ℝ) :=
  C84_bdf1 id _ _ _ _ 0 y0 tol mass2_spd (massSys_run .BDF1 1 rfl tol dts 0 y0) (shrinks_dt _ _ _ _ hdt) (fun y _ => massSys_dissipative y)

example (tol : ℝ) (dts : List ℝ) (hdt : ∀ h ∈ dts, 0 ≤ h) (y0 : Fin 2 → ℝ) :=
  C84_bdf2 id _ _ _ _ 0 y0 tol mass2_spd (massSys_run .BDF2 2 rfl tol dts 0 y0) (shrinks_dt _ _ _ _ hdt) (fun y _ => massSys_dissipative y)

theorem energy_smul {n : Type} [Fintype n] [DecidableEq n] (M : Matrix n n ℝ) (c : ℝ) (x : n → ℝ) : energy M (c • x) = |c| * energy M x := by
  rw [energy, energy, Matrix.mulVec_smul, smul_dotProduct, dotProduct_smul, smul_eq_mul, smul_eq_mul, ← mul_assoc, Real.sqrt_mul (mul_self_nonneg c), Real.sqrt_mul_self_eq_abs]

theorem exp_neg_lip {s u : ℝ} (hs : 0 ≤ s) (hu : 0 ≤ u) : |Real.exp (-s) - Real.exp (-u)| ≤ |s - u| := by
  have key : ∀ a b : ℝ, 0 ≤ a → a ≤ b → Real.exp (-a) - Real.exp (-b) ≤ b - a := by
    intro a b ha hab
    have h1 : Real.exp (-a) ≤ 1 := Real.exp_le_one_iff.2 (by linarith)
    have h2 : Real.exp (-b) = Real.exp (-a) * Real.exp (-(b - a)) := by rw [← Real.exp_add]; congr 1; ring
    have h3 := Real.add_one_le_exp (-(b - a))
    have h4 := Real.exp_pos (-a)
    rw [h2]
    nlinarith
  have mono : ∀ a b : ℝ, a ≤ b → Real.exp (-b) ≤ Real.exp (-a) := fun a b h => Real.exp_le_exp.2 (by linarith)
  rcases le_total s u with h | h
  · rw [abs_of_nonneg (by linarith [mono s u h]), abs_of_nonpos (by linarith)]
    linarith [key s u hs h]
  · rw [abs_of_nonpos (by linarith [mono u s h]), abs_of_nonneg (by linarith)]
    linarith [key u s hu h]

theorem hasDerivAt_exp_neg_smul {n : Type} [Fintype n] (y : n → ℝ) (s : ℝ) : HasDerivAt (fun s : ℝ => Real.exp (-s) • y) (-(Real.exp (-s) • y)) s := by
  have hexp : HasDerivAt (fun t : ℝ => Real.exp (-t)) (-Real.exp (-s)) s := (hasDerivAt_neg s).exp.congr_deriv (by ring)
  exact (hexp.smul_const y).congr_deriv (neg_smul _ _)

/-- the exact solution is `e^-t y0`, for every mass matrix -/
theorem decay_solves {n : Type} [Fintype n] [DecidableEq n] (M : Matrix n n ℝ) (y0 : n → ℝ) (a b : ℝ) : Solves M (fun y _ => -(M *ᵥ y)) (fun s => Real.exp (-s) • y0) (fun s => -(Real.exp (-s) • y0)) a b where
  deriv s _ := hasDerivAt_exp_neg_smul y0 s
  equation s _ := by simp [Matrix.mulVec_neg]

theorem decay_smooth1 {n : Type} [Fintype n] [DecidableEq n] (M : Matrix n n ℝ) (y0 : n → ℝ) (b : ℝ) : Smooth1 M (fun s => -(Real.exp (-s) • y0)) (energy M y0) 0 b := by
  intro s hs u hu
  rw [show -(Real.exp (-s) • y0) - -(Real.exp (-u) • y0) = (Real.exp (-u) - Real.exp (-s)) • y0 by rw [sub_smul]; abel, energy_smul, mul_comm]
  refine mul_le_mul_of_nonneg_left ?_ (Real.sqrt_nonneg _)
  rw [abs_sub_comm s u]
  exact exp_neg_lip hu.1 hs.1

theorem decay_smooth2 {n : Type} [Fintype n] [DecidableEq n] {M : Matrix n n ℝ} {μ : ℝ} (hM : SPD M μ) (y0 : n → ℝ) (b : ℝ) : Smooth2 M (fun y _ => -(M *ᵥ y)) (fun s => Real.exp (-s) • y0) (fun s => Real.exp (-s) • y0) (energy M y0) (energy M y0) 0 b where
  deriv s _ := by
    simp only [Matrix.mulVec_neg, hM.inv_mul]
    exact (hasDerivAt_exp_neg_smul y0 s).neg.congr_deriv (neg_neg _)
  bound s hs := by
    rw [energy_smul, abs_of_pos (Real.exp_pos _)]
    exact mul_le_of_le_one_left (Real.sqrt_nonneg _) (Real.exp_le_one_iff.2 (by linarith [hs.1]))
  lip s hs u hu := by
    rw [← sub_smul, energy_smul, mul_comm]
    exact mul_le_mul_of_nonneg_left (exp_neg_lip hs.1 hu.1) (Real.sqrt_nonneg _)

/-- C84 against the exact solution `e^-t y0`: BDF1, steps of any sizes up to `H` -/
example (tol H : ℝ) (hH : 0 ≤ H) (dts : List ℝ) (hdt : ∀ h ∈ dts, h ≤ H ∧ 0 ≤ h) (y0 : Fin 2 → ℝ) :
    ∀ pre post, drive (mmStep Matrix.mulVec id .BDF1 massSys) (shrinks (eu (Fin 2)) tol dts) 0 [y0] y0 (massMem 1 (Fin 2)) = pre ++ post → ∃ y l, accepted y0 pre = y :: l ∧
      energy mass2 (y - Real.exp (-timeAfter 0 pre) • y0) ≤ energy mass2 (y0 - Real.exp (-0) • y0) + (l.length * (tol / Real.sqrt 1) + (timeAfter 0 pre - 0) * (energy mass2 y0 * H / 2)) := by
  have R := massSys_run .BDF1 1 rfl tol dts 0 y0
  obtain ⟨T, hT⟩ := R.steps (fun h => h ≤ H) (shrinks_dt _ _ _ _ hdt)
  exact C84_bdf1_converges id _ _ _ _ 0 y0 tol mass2_spd R H T hH hT (fun y z _ => massSys_monotone y z) _ _ _ (Real.sqrt_nonneg _) (decay_solves mass2 y0 0 T) (decay_smooth1 mass2 y0 T)

/-- BDF2, steps of size `η` -/
example (tol η : ℝ) (hη : 0 ≤ η) (k : Nat) (y0 : Fin 2 → ℝ) :
    ∀ pre post, drive (mmStep Matrix.mulVec id .BDF2 massSys) (shrinks (eu (Fin 2)) tol (List.replicate k η)) 0 [y0] y0 (massMem 2 (Fin 2)) = pre ++ post → ∃ y l, accepted y0 pre = y :: l ∧
      energy mass2 (y - Real.exp (-timeAfter 0 pre) • y0) ≤ Real.sqrt 2 * energy mass2 (y0 - Real.exp (-0) • y0) + 3 * energy mass2 y0 * η ^ 2 + 6 * (l.length * (tol / Real.sqrt 1)) + (timeAfter 0 pre - 0) * (4 * energy mass2 y0 * η ^ 2) := by
  have R := massSys_run .BDF2 2 rfl tol (List.replicate k η) 0 y0
  obtain ⟨T, hT⟩ := R.steps (fun h => h = η) (shrinks_dt _ _ _ (fun h => h = η ∧ 0 ≤ h) (by intro h hh; rw [List.eq_of_mem_replicate hh]; exact ⟨rfl, hη⟩))
  exact C84_bdf2_converges id _ _ _ _ 0 y0 tol mass2_spd R η T hT (fun y z _ => massSys_monotone y z) _ _ _ _ _ (Real.sqrt_nonneg _) (Real.sqrt_nonneg _) (decay_solves mass2 y0 0 T) (decay_smooth2 mass2_spd y0 T)

/-! `(1 + y²) y' = -(1 + y²) y`: the mass matrix depends on the state -/

noncomputable def varSys : IMMSystem ℝ ℝ ℝ ℝ := ⟨fun y _ w => .ok (1 + y * y, -((1 + y * y) * y), if w then some (-(1 + 3 * (y * y))) else none)⟩
theorem varSys_noTSF : NoTSFMM varSys := by intro y t w e junk h; simp [varSys] at h
theorem varSys_evaluates : EvaluatesMM varSys (fun y _ => 1 + y * y) (fun y _ => -((1 + y * y) * y)) := by
  intro y t w M g j h; simp only [varSys, Except.ok.injEq, Prod.mk.injEq] at h; exact ⟨h.1.symm, h.2.1.symm⟩
noncomputable def varMem (k : Nat) : SMem ℝ ℝ ℝ (MMMem ℝ ℝ) := ⟨7, 7, 7, 7, List.replicate k 7, [], ⟨7, 7, 7, 7⟩⟩
theorem varSys_invertible : Invertible (LinearMap.id : ℝ →ₗ[ℝ] ℝ) (LinearMap.id : ℝ →ₗ[ℝ] ℝ) 1 (· * ·) (fun y (_ : ℝ) => 1 + y * y) (fun y _ => (1 + y * y)⁻¹ • LinearMap.id) where
  left y t v := by
    have : 1 + y * y ≠ 0 := by nlinarith [mul_self_nonneg y]
    simp only [LinearMap.smul_apply, LinearMap.id_apply, smul_eq_mul]
    field_simp
  nonneg := zero_le_one
  bound y t v := by
    have : 1 ≤ 1 + y * y := by nlinarith [mul_self_nonneg y]
    simp only [LinearMap.smul_apply, LinearMap.id_apply, smul_eq_mul, norm_mul, norm_inv]
    refine mul_le_mul_of_nonneg_right (inv_le_one_of_one_le₀ ?_) (norm_nonneg _)
    rw [Real.norm_eq_abs]; exact this.trans (le_abs_self _)

theorem varSys_velocity (y : ℝ) : ((1 + y * y)⁻¹ • (LinearMap.id : ℝ →ₗ[ℝ] ℝ)) (-((1 + y * y) * y)) = -y := by
  have : 1 + y * y ≠ 0 := by nlinarith [mul_self_nonneg y]
  simp only [LinearMap.smul_apply, LinearMap.id_apply, smul_eq_mul]
  field_simp

/-- C84 for it, steps up to 1/2 -/
example (tol : ℝ) (dts : List ℝ) (hdt : ∀ h ∈ dts, h ≤ 1/2 ∧ 0 ≤ h) (y0 : ℝ) :
    ∀ pre post, drive (mmStep (· * ·) id .BDF1 varSys) (shrinks LinearMap.id tol dts) 0 [y0] y0 (varMem 1) = pre ++ post → ∃ y l, accepted y0 pre = y :: l ∧
      ‖y - Real.exp (-timeAfter 0 pre) * y0‖ ≤ Real.exp (2 * 1 * (timeAfter 0 pre - 0)) * (‖y0 - Real.exp (-0) * y0‖ + (l.length * (1 * tol) + (timeAfter 0 pre - 0) * (|y0| * (1/2) / 2))) := by
  have R := shrinks_run (LinearMap.id : ℝ →ₗ[ℝ] ℝ) (· * ·) id .BDF1 varSys varSys_noTSF _ _ varSys_evaluates (varMem 1) rfl tol dts 0 y0
  obtain ⟨T, hT⟩ := R.steps (fun h => h ≤ 1/2) (shrinks_dt _ _ _ _ hdt)
  have hexp : ∀ s : ℝ, HasDerivAt (fun t : ℝ => Real.exp (-t) * y0) (-(Real.exp (-s) * y0)) s := fun s => ((hasDerivAt_neg s).exp.mul_const y0).congr_deriv (by ring)
  refine C84_bdf1_lipschitz (· * ·) id varSys _ _ (varMem 1) (shrinks LinearMap.id tol dts) 0 y0 LinearMap.id LinearMap.id 1 tol _ varSys_invertible R (1/2) T hT 1 zero_le_one (by norm_num) ?_ (fun s => Real.exp (-s) * y0) |y0| (abs_nonneg _) (by norm_num) ?_ ?_
  · intro y z t
    rw [varSys_velocity, varSys_velocity]
    simp only [LinearMap.id_apply, one_mul]
    rw [show -y - -z = -(y - z) by ring, norm_neg]
  · intro s _
    beta_reduce
    rw [varSys_velocity]
    exact hexp s
  · intro s hs u hu
    beta_reduce
    rw [varSys_velocity, varSys_velocity]
    simp only [LinearMap.id_apply]
    rw [show -(Real.exp (-s) * y0) - -(Real.exp (-u) * y0) = y0 * (Real.exp (-u) - Real.exp (-s)) by ring, norm_mul, Real.norm_eq_abs, Real.norm_eq_abs, abs_sub_comm s u]
    exact mul_le_mul_of_nonneg_left (exp_neg_lip hu.1 hs.1) (abs_nonneg _)

/-- BDF2 with steps of size `1/12` -/
example (tol : ℝ) (k : Nat) (y0 : ℝ) :
    ∀ pre post, drive (mmStep (· * ·) id .BDF2 varSys) (shrinks LinearMap.id tol (List.replicate k (1/12))) 0 [y0] y0 (varMem 2) = pre ++ post → ∃ y l, accepted y0 pre = y :: l ∧
      ‖y - Real.exp (-timeAfter 0 pre) * y0‖ ≤ Real.exp (12 * 1 * (timeAfter 0 pre - 0)) * (Real.sqrt 2 * ‖y0 - Real.exp (-0) * y0‖ + 3 * |y0| * (1/12) ^ 2 + 6 * (l.length * (1 * tol)) + (timeAfter 0 pre - 0) * (4 * |y0| * (1/12) ^ 2)) := by
  have R := shrinks_run (LinearMap.id : ℝ →ₗ[ℝ] ℝ) (· * ·) id .BDF2 varSys varSys_noTSF _ _ varSys_evaluates (varMem 2) rfl tol (List.replicate k (1/12)) 0 y0
  obtain ⟨T, hT⟩ := R.steps (fun h => h = 1/12) (shrinks_dt _ _ _ (fun h => h = 1/12 ∧ 0 ≤ h) (by intro h hh; rw [List.eq_of_mem_replicate hh]; norm_num))
  have hexp : ∀ s : ℝ, HasDerivAt (fun t : ℝ => Real.exp (-t) * y0) (-(Real.exp (-s) * y0)) s := fun s => ((hasDerivAt_neg s).exp.mul_const y0).congr_deriv (by ring)
  refine C84_bdf2_lipschitz (· * ·) id varSys _ _ (varMem 2) (shrinks LinearMap.id tol _) 0 y0 LinearMap.id LinearMap.id 1 tol _ varSys_invertible R (1/12) T hT 1 zero_le_one (by norm_num) ?_ (fun s => Real.exp (-s) * y0)
    (fun s => Real.exp (-s) * y0) |y0| |y0| (abs_nonneg _) (abs_nonneg _) ?_ ?_
  · intro y z t
    rw [varSys_velocity, varSys_velocity]
    simp only [LinearMap.id_apply, one_mul]
    rw [show -y - -z = -(y - z) by ring, norm_neg]
  · intro s _
    beta_reduce
    rw [varSys_velocity]
    exact hexp s
  · refine ⟨fun s hs => ⟨?_, ?_⟩, fun s hs u hu => ?_⟩ <;> beta_reduce
    · simp only [varSys_velocity, LinearMap.id_apply]
      exact (hexp s).neg.congr_deriv (neg_neg _)
    · rw [norm_mul, Real.norm_eq_abs, Real.norm_eq_abs, abs_of_pos (Real.exp_pos _)]
      exact mul_le_of_le_one_left (abs_nonneg _) (Real.exp_le_one_iff.2 (by linarith [hs.1]))
    · rw [← sub_mul, norm_mul, Real.norm_eq_abs, Real.norm_eq_abs, mul_comm]
      exact mul_le_mul_of_nonneg_left (exp_neg_lip hs.1 hu.1) (abs_nonneg _)

/-! Default Galerkin for `M y' = -M y` with the basis `(3/5, 4/5)` -/

noncomputable def massFom : Fom ℝ (Fin 2) (Fin 2) Unit := ⟨fun y _ _ => .ok (-(mass2 *ᵥ y)), fun _ B _ _ => .ok (-(mass2) * B), fun _ B _ _ => .ok (mass2 * B)⟩
theorem massFom_is : FomIs massFom (fun y _ => .ok (-(mass2 *ᵥ y))) (fun _ _ => .ok (-mass2)) (fun _ _ => .ok mass2) := by
  constructor <;> intros <;> simp [massFom, Gives, Except.map, Except.mapError]
theorem lineR_independent : Independent lineR 1 := by
  refine ⟨one_pos, fun x => le_of_eq ?_⟩
  simp [lineR, Matrix.mulVec, dotProduct, Fin.sum_univ_two]
  ring

theorem massGalerkin_run (name : Scheme) (k : Nat) (hk : ReadyMM name (massMem k Unit)) (tol : ℝ) (dts : List ℝ) (t0 : ℝ) (x0 : Unit → ℝ) :
    ConvergedRunMM (eu Unit) tol Matrix.mulVec id name (asIMMSystem (defaultMMRhsJac lineR massFom) (gst0 _)) (fun _ _ => lineR.basisᵀ * mass2 * lineR.basis) (fun x _ => lineR.basisᵀ *ᵥ (-(mass2 *ᵥ lift lineR x))) (massMem k Unit)
      (shrinks (eu Unit) tol dts) t0 x0 :=
  shrinks_run _ _ _ _ _ (galerkin_noTSFMM massFom_is ⟨by simp, by simp⟩ (by simp) lineR (gst0 _)) _ _
    (galerkin_evaluates_mm massFom_is lineR (gst0 _) (fun y _ => -(mass2 *ᵥ y)) (by simp [eq_comm]) (fun _ _ => mass2) (by simp [eq_comm])) _ hk _ _ _ _

theorem lineR_lift_mul (x : Unit → ℝ) : lift lineR x = lineR.basis *ᵥ x := by simp [lift, lineR]

/-- C80 for it -/
example (tol : ℝ) (dts : List ℝ) (hdt : ∀ h ∈ dts, 0 ≤ h) (x0 : Unit → ℝ) :=
  C80_mass_matrix_bdf1 massFom_is ⟨by simp, by simp⟩ (by simp) (fun y _ => -(mass2 *ᵥ y)) (by simp [eq_comm]) mass2 (by simp [eq_comm]) 1 mass2_spd lineR 1 lineR_independent (gst0 _) tol (massMem 1 Unit) rfl (shrinks (eu Unit) tol dts)
    (massGalerkin_run .BDF1 1 rfl tol dts 0 x0).honest 0 x0 (massGalerkin_run .BDF1 1 rfl tol dts 0 x0).converged (shrinks_dt _ _ _ _ hdt) (fun x _ => by rw [lineR_lift_mul]; exact massSys_dissipative _)

example (tol : ℝ) (dts : List ℝ) (hdt : ∀ h ∈ dts, 0 ≤ h) (x0 : Unit → ℝ) :=
  C80_mass_matrix_bdf2 massFom_is ⟨by simp, by simp⟩ (by simp) (fun y _ => -(mass2 *ᵥ y)) (by simp [eq_comm]) mass2 (by simp [eq_comm]) 1 mass2_spd lineR 1 lineR_independent (gst0 _) tol (massMem 2 Unit) rfl (shrinks (eu Unit) tol dts)
    (massGalerkin_run .BDF2 2 rfl tol dts 0 x0).honest 0 x0 (massGalerkin_run .BDF2 2 rfl tol dts 0 x0).converged (shrinks_dt _ _ _ _ hdt) (fun x _ => by rw [lineR_lift_mul]; exact massSys_dissipative _)

/-- the trial space is invariant: no model error -/
theorem massDefect_line (x : Unit → ℝ) (t : ℝ) : massDefect lineR mass2 (fun y _ => -(mass2 *ᵥ y)) x t = 0 := by
  refine le_antisymm ((C80_mass_matrix_velocity_optimal mass2 1 mass2_spd lineR 1 lineR_independent _ x t (-x)).trans ?_) (Real.sqrt_nonneg _)
  rw [Matrix.mulVec_neg, mass2_spd.inv_mul, lineR_lift_mul, Matrix.mulVec_neg, sub_self]
  simp [energy]

/-- C81 for it, against the exact solution of the full-order model -/
example (tol H : ℝ) (hH : 0 ≤ H) (dts : List ℝ) (hdt : ∀ h ∈ dts, h ≤ H ∧ 0 ≤ h) (x0 : Unit → ℝ) :
    ∀ pre post, drive (mmStep Matrix.mulVec id .BDF1 (asIMMSystem (defaultMMRhsJac lineR massFom) (gst0 _))) (shrinks (eu Unit) tol dts) 0 [x0] x0 (massMem 1 Unit) = pre ++ post → ∃ x l, accepted x0 pre = x :: l ∧
      energy mass2 (lift lineR x - Real.exp (-timeAfter 0 pre) • lift lineR x0) ≤ energy mass2 (lift lineR x0 - Real.exp (-0) • lift lineR x0) + (l.length * (tol / Real.sqrt (1 * 1)) + (timeAfter 0 pre - 0) * (0 + energy mass2 (lift lineR x0) * H / 2)) := by
  have R := massGalerkin_run .BDF1 1 rfl tol dts 0 x0
  obtain ⟨T, hT⟩ := R.steps (fun h => h ≤ H) (shrinks_dt _ _ _ _ hdt)
  exact C81_mass_matrix_bdf1 massFom_is ⟨by simp, by simp⟩ (by simp) (fun y _ => -(mass2 *ᵥ y)) (by simp [eq_comm]) mass2 (by simp [eq_comm]) 1 mass2_spd lineR 1 lineR_independent (gst0 _) tol (massMem 1 Unit) rfl (shrinks (eu Unit) tol dts)
    R.honest 0 x0 R.converged (shrinks_dt _ _ _ _ (fun h hh => (hdt h hh).2)) (fun y z _ => massSys_monotone y z) 0 le_rfl (fun _ _ x _ _ _ => (massDefect_line x _).le) H T hH hT _ _ _ (Real.sqrt_nonneg _)
    (decay_solves mass2 _ 0 T) (decay_smooth1 mass2 _ T)

example (tol η : ℝ) (hη : 0 ≤ η) (k : Nat) (x0 : Unit → ℝ) :
    ∀ pre post, drive (mmStep Matrix.mulVec id .BDF2 (asIMMSystem (defaultMMRhsJac lineR massFom) (gst0 _))) (shrinks (eu Unit) tol (List.replicate k η)) 0 [x0] x0 (massMem 2 Unit) = pre ++ post → ∃ x l, accepted x0 pre = x :: l ∧
      energy mass2 (lift lineR x - Real.exp (-timeAfter 0 pre) • lift lineR x0) ≤ Real.sqrt 2 * energy mass2 (lift lineR x0 - Real.exp (-0) • lift lineR x0) + 3 * energy mass2 (lift lineR x0) * η ^ 2 + 6 * (l.length * (tol / Real.sqrt (1 * 1))) +
        (timeAfter 0 pre - 0) * (6 * 0 + 4 * energy mass2 (lift lineR x0) * η ^ 2) := by
  have hd : ∀ h ∈ List.replicate k η, h = η ∧ 0 ≤ h := by intro h hh; rw [List.eq_of_mem_replicate hh]; exact ⟨rfl, hη⟩
  have R := massGalerkin_run .BDF2 2 rfl tol (List.replicate k η) 0 x0
  obtain ⟨T, hT⟩ := R.steps (fun h => h = η) (shrinks_dt _ _ _ _ hd)
  exact C81_mass_matrix_bdf2 massFom_is ⟨by simp, by simp⟩ (by simp) (fun y _ => -(mass2 *ᵥ y)) (by simp [eq_comm]) mass2 (by simp [eq_comm]) 1 mass2_spd lineR 1 lineR_independent (gst0 _) tol (massMem 2 Unit) rfl (shrinks (eu Unit) tol _)
    R.honest 0 x0 R.converged (shrinks_dt _ _ _ _ (fun h hh => (hd h hh).2)) (fun y z _ => massSys_monotone y z) 0 le_rfl (fun _ _ x _ _ _ => (massDefect_line x _).le) η T hT _ _ _ _ _ (Real.sqrt_nonneg _) (Real.sqrt_nonneg _)
    (decay_solves mass2 _ 0 T) (decay_smooth2 mass2_spd _ T)

/-- the velocity of the reduced model is the best one in the energy norm, also for a right-hand side that leaves the subspace -/
example (x : Unit → ℝ) (t : ℝ) (z : Unit → ℝ) := C80_mass_matrix_velocity_optimal mass2 1 mass2_spd lineR 1 lineR_independent (fun y t => ![t, -y 0]) x t z


end Examples
end Pressio.Props
