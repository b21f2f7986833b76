import Verif.Props.GalerkinStability
import Verif.Props.AdvanceImplicit
import Verif.Props.LspgRuns
import Verif.Spec.GalerkinRuns
import Verif.Lemmas.NewtonConvergence
import Mathlib.Analysis.InnerProductSpace.Calculus

/-
  C95: implicit Galerkin problems on nonlinear full-order models, with a Newton object: runs complete, and the reconstructed states are as near to the exact solution as the trial space allows, up to constants.
-/
namespace Pressio.Props
set_option autoImplicit false
set_option linter.unusedSectionVars false
open Pressio Matrix Pressio.Model.Galerkin Pressio.Spec.Galerkin Pressio.Model.Implicit Pressio.Spec.Implicit Pressio.Lemmas.Implicit Pressio.Spec.Reduced Pressio.Spec.SolverRun Pressio.Spec.GalerkinRuns
open Pressio.Model.Explicit (Scheme)
open Pressio.Model.Nonlinear (Env Cfg Reg Ans SP StopCrit Update newtonSolve)
open Pressio.Spec.Nonlinear Pressio.Spec.NewtonConvergence Pressio.Spec.ImplicitNewtonRuns
open Pressio.Model.Advance (DtVars advanceT advanceN)
open Pressio.Spec.AdvanceTarget (observations)
open Pressio.Spec.AdvanceDrive (userObjects objStepper Obliging Patient)

local notation "⟪" x ", " y "⟫" => @inner ℝ _ _ x y

section
variable {E n : Type} [NormedAddCommGroup E] [InnerProductSpace ℝ E] [Fintype n] [DecidableEq n]

/-- the Jacobian of a monotone function has a non-positive symmetric part -/
theorem jacobian_monotone (ι : (n → ℝ) →ₗ[ℝ] E) (r : (n → ℝ) → n → ℝ) (J : (n → ℝ) → Matrix n n ℝ) (x v : n → ℝ) (h : IsJacobian r J x) (hm : ∀ y z, ⟪ι (r y) - ι (r z), ι y - ι z⟫ ≤ 0) : ⟪ι (J x *ᵥ v), ι v⟫ ≤ 0 := by
  have h1 := Lemmas.NewtonConvergence.along_line (ι := ι) (r := r) (J := J) x v 0 (by simpa using h)
  have h2 : HasDerivAt (fun s : ℝ => ⟪ι (r (x + s • v)), ι v⟫) ⟪ι (J x *ᵥ v), ι v⟫ 0 := by
    have := h1.inner ℝ (hasDerivAt_const (0:ℝ) (ι v))
    simpa using this
  refine le_of_tendsto (hasDerivAt_iff_tendsto_slope.1 h2) ?_
  filter_upwards [self_mem_nhdsWithin] with s hs
  have h3 := hm (x + s • v) x
  rw [← map_sub ι (x + s • v) x, add_sub_cancel_left, map_smul, real_inner_smul_right, inner_sub_left] at h3
  rw [slope_def_field, zero_smul, add_zero, sub_zero]
  have hs0 : s ≠ 0 := hs
  rcases lt_or_gt_of_ne hs0 with h0 | h0
  · exact div_nonpos_of_nonneg_of_nonpos (by nlinarith) h0.le
  · exact div_nonpos_of_nonpos_of_nonneg (by nlinarith) h0.le

/-- the Jacobian of a function with Lipschitz constant `L` is bounded by `L` -/
theorem jacobian_lipschitz (ι : (n → ℝ) →ₗ[ℝ] E) (r : (n → ℝ) → n → ℝ) (J : (n → ℝ) → Matrix n n ℝ) (x v : n → ℝ) (h : IsJacobian r J x) (L : ℝ) (hL : 0 ≤ L) (hl : ∀ y z, ‖ι (r y) - ι (r z)‖ ≤ L * ‖ι y - ι z‖) :
    ‖ι (J x *ᵥ v)‖ ≤ L * ‖ι v‖ := by
  have h1 := Lemmas.NewtonConvergence.along_line (ι := ι) (r := r) (J := J) x v 0 (by simpa using h)
  have h2 := h1.le_of_lip' (C := L * ‖ι v‖) (by positivity) (Filter.Eventually.of_forall (fun s => by
    refine (hl _ _).trans ?_
    rw [← map_sub, zero_smul, add_zero, add_sub_cancel_left, map_smul, norm_smul, sub_zero]
    exact le_of_eq (by ring)))
  simpa using h2
end

section
variable {m p q n L : Type} [Fintype m] [Fintype p] [Fintype q] [Fintype n] [DecidableEq m] [DecidableEq n]

/-- **C95, best approximation**: no state of the trial space is nearer to `y` than its projection. -/
theorem C95_best (S : Trial ℝ m n) (hS : Orthonormal S) (y : m → ℝ) (z : n → ℝ) : ‖eu m y - eu m (best S y)‖ ≤ ‖eu m y - eu m (lift S z)‖ := by
  have h := C80_velocity_optimal S hS (y - lift S 0) z
  have e : ∀ x, y - lift S 0 - S.basis *ᵥ x = y - lift S x := fun x => by
    have := lift_affine S x 0
    rw [sub_zero] at this
    rw [← this]; abel
  rw [← map_sub, ← map_sub, e, e] at h
  rwa [← map_sub, ← map_sub]

/-- projection of vectors, as a map between Euclidean spaces -/
noncomputable def projE (S : Trial ℝ m n) : EuclideanSpace ℝ m →L[ℝ] EuclideanSpace ℝ n :=
  ((eu n) ∘ₗ (Matrix.mulVecLin S.basisᵀ) ∘ₗ (WithLp.linearEquiv 2 ℝ (m → ℝ)).toLinearMap).toContinuousLinearMap

theorem projE_eu (S : Trial ℝ m n) (v : m → ℝ) : projE S (eu m v) = eu n (S.basisᵀ *ᵥ v) := rfl
theorem projE_le (S : Trial ℝ m n) (hS : Orthonormal S) (u : EuclideanSpace ℝ m) : ‖projE S u‖ ≤ ‖u‖ := eu_basis_transpose S hS (WithLp.linearEquiv 2 ℝ (m → ℝ) u)

variable (S : Trial ℝ m n) (f : (m → ℝ) → ℝ → m → ℝ) (Df : (m → ℝ) → ℝ → Matrix m m ℝ)

/-- right-hand side of the reduced model -/
noncomputable def gRhs (x : n → ℝ) (t : ℝ) : n → ℝ := S.basisᵀ *ᵥ f (lift S x) t
/-- its Jacobian -/
noncomputable def gJac (x : n → ℝ) (t : ℝ) : Matrix n n ℝ := S.basisᵀ * (Df (lift S x) t * S.basis)
/-- what the reduced model misses along the exact solution -/
noncomputable def gMiss (ψ : ℝ → m → ℝ) (t : ℝ) : n → ℝ := S.basisᵀ *ᵥ (f (ψ t) t - f (best S (ψ t)) t)
/-- the reduced model with this term added: the projected exact solution solves it -/
noncomputable def gFull (ψ : ℝ → m → ℝ) (x : n → ℝ) (t : ℝ) : n → ℝ := gRhs S f x t + gMiss S f ψ t

theorem gFull_along (ψ : ℝ → m → ℝ) (t : ℝ) : gFull S f ψ (coords S (ψ t)) t = S.basisᵀ *ᵥ f (ψ t) t := by
  rw [gFull, gRhs, gMiss, ← Matrix.mulVec_add]
  congr 1
  unfold best
  abel

variable {S f Df}

theorem gFull_solves (ψ : ℝ → m → ℝ) (a b : ℝ) (h : SolvesIn (eu m) f ψ a b) : SolvesIn (eu n) (gFull S f ψ) (fun t => coords S (ψ t)) a b := by
  intro s hs
  have h1 := (projE S).hasFDerivAt.comp_hasDerivAt s ((h s hs).sub_const (eu m (lift S 0)))
  rw [gFull_along]
  refine h1.congr_of_eventuallyEq (Filter.Eventually.of_forall (fun u => ?_))
  simp only [Function.comp, ← map_sub (eu m), projE_eu]
  rfl

theorem gFull_smooth1 (hS : Orthonormal S) (ψ : ℝ → m → ℝ) (M a b : ℝ) (h : Smooth1In (eu m) f ψ M a b) : Smooth1In (eu n) (gFull S f ψ) (fun t => coords S (ψ t)) M a b := by
  intro s hs u hu
  rw [gFull_along, gFull_along, ← map_sub, ← Matrix.mulVec_sub]
  refine (eu_basis_transpose S hS _).trans ?_
  rw [map_sub]
  exact h s hs u hu

theorem gFull_smooth2 (hS : Orthonormal S) (ψ : ℝ → m → ℝ) (ψ2 : ℝ → EuclideanSpace ℝ m) (M2 M3 a b : ℝ) (h : Smooth2In (eu m) f ψ ψ2 M2 M3 a b) :
    Smooth2In (eu n) (gFull S f ψ) (fun t => coords S (ψ t)) (fun t => projE S (ψ2 t)) M2 M3 a b := by
  refine ⟨fun s hs => ⟨?_, (projE_le S hS _).trans (h.1 s hs).2⟩, fun s hs u hu => ?_⟩
  · have h1 := (projE S).hasFDerivAt.comp_hasDerivAt s (h.1 s hs).1
    refine h1.congr_of_eventuallyEq (Filter.Eventually.of_forall (fun u => ?_))
    show eu n (gFull S f ψ (coords S (ψ u)) u) = _
    rw [gFull_along]
    rfl
  · rw [← map_sub]
    exact (projE_le S hS _).trans (h.2 s hs u hu)

theorem gFull_monotone (ψ : ℝ → m → ℝ) (hmono : ∀ y z t, (f y t - f z t) ⬝ᵥ (y - z) ≤ 0) (x z : n → ℝ) (t : ℝ) : ⟪eu n (gFull S f ψ x t) - eu n (gFull S f ψ z t), eu n x - eu n z⟫ ≤ 0 := by
  rw [← map_sub, gFull, gFull, add_sub_add_right_eq_sub, map_sub]
  exact C80_monotone S f hmono x z t

theorem gFull_lipschitz (hS : Orthonormal S) (ψ : ℝ → m → ℝ) (Λ : ℝ) (hlip : ∀ y z t, ‖eu m (f y t) - eu m (f z t)‖ ≤ Λ * ‖eu m y - eu m z‖) (x z : n → ℝ) (t : ℝ) :
    ‖eu n (gFull S f ψ x t) - eu n (gFull S f ψ z t)‖ ≤ Λ * ‖eu n x - eu n z‖ := by
  rw [← map_sub, gFull, gFull, add_sub_add_right_eq_sub, map_sub]
  exact C80_lipschitz S hS f Λ hlip x z t

theorem gRhs_jacobian (x : n → ℝ) (t : ℝ) (h : IsJacobian (fun y => f y t) (fun y => Df y t) (lift S x)) : IsJacobian (fun x => gRhs S f x t) (fun x => gJac S Df x t) x := by
  unfold IsJacobian at h ⊢
  have h1 : HasFDerivAt (lift S) (Matrix.toLin' S.basis).toContinuousLinearMap x := by
    have := ((Matrix.toLin' S.basis).toContinuousLinearMap.hasFDerivAt (x := x)).add_const (if S.isAffine then S.translation else 0)
    exact this
  have h2 := ((Matrix.toLin' S.basisᵀ).toContinuousLinearMap.hasFDerivAt (x := f (lift S x) t)).comp x (h.comp x h1)
  refine h2.congr_fderiv ?_
  ext1 v
  simp [gJac, Matrix.toLin'_apply, Matrix.mulVec_mulVec]

theorem gRhs_lip (hS : Orthonormal S) {V : Set (m → ℝ)} {a b γ F : ℝ} (H : TrialTame S f Df V a b γ F) (t : ℝ) (ht : t ∈ Set.Icc a b) (x z : n → ℝ) (hx : lift S x ∈ V) (hz : lift S z ∈ V) (v : n → ℝ) :
    ‖eu n (gJac S Df x t *ᵥ v - gJac S Df z t *ᵥ v)‖ ≤ γ * ‖eu n (x - z)‖ * ‖eu n v‖ := by
  have h1 := H.lip t ht x z hx hz (S.basis *ᵥ v)
  rw [lift_affine, eu_basis S hS, eu_basis S hS] at h1
  refine le_trans ?_ h1
  have e : gJac S Df x t *ᵥ v - gJac S Df z t *ᵥ v = S.basisᵀ *ᵥ (Df (lift S x) t *ᵥ (S.basis *ᵥ v) - Df (lift S z) t *ᵥ (S.basis *ᵥ v)) := by
    simp only [gJac, Matrix.mulVec_sub, Matrix.mulVec_mulVec]
  rw [e]
  exact eu_basis_transpose S hS _

theorem gRhs_bound (hS : Orthonormal S) {V : Set (m → ℝ)} {a b γ F : ℝ} (H : TrialTame S f Df V a b γ F) (t : ℝ) (ht : t ∈ Set.Icc a b) (x : n → ℝ) (hx : lift S x ∈ V) : ‖eu n (gRhs S f x t)‖ ≤ F :=
  (eu_basis_transpose S hS _).trans (H.bound t ht x hx)

theorem gRhs_tame_monotone (hS : Orthonormal S) {V : Set (m → ℝ)} {a b γ F : ℝ} (H : TrialTame S f Df V a b γ F) (hmono : ∀ y z t, (f y t - f z t) ⬝ᵥ (y - z) ≤ 0) (h : ℝ) :
    Tame (eu n) (gRhs S f) (gJac S Df) {x | lift S x ∈ V} a b h 1 γ F :=
  tame_of_monotone (eu n) _ _ _ a b h γ F H.γ0 H.F0 (fun t ht x hx => gRhs_jacobian x t (H.jac t ht x hx)) (fun t ht x hx z hz v => gRhs_lip hS H t ht x z hx hz v) (fun t ht x hx => gRhs_bound hS H t ht x hx)
    (fun t ht x hx v => jacobian_monotone (eu n) (fun x => gRhs S f x t) (fun x => gJac S Df x t) x v (gRhs_jacobian x t (H.jac t ht x hx)) (fun y z => C80_monotone S f hmono y z t))

theorem gRhs_tame_lipschitz (hS : Orthonormal S) {V : Set (m → ℝ)} {a b γ F : ℝ} (H : TrialTame S f Df V a b γ F) (Λ : ℝ) (hΛ : 0 ≤ Λ) (hlip : ∀ y z t, ‖eu m (f y t) - eu m (f z t)‖ ≤ Λ * ‖eu m y - eu m z‖) (h : ℝ) (hh : h * Λ ≤ 1 / 2) :
    Tame (eu n) (gRhs S f) (gJac S Df) {x | lift S x ∈ V} a b h 2 γ F :=
  tame_of_bounded (eu n) _ _ _ a b h γ F Λ H.γ0 H.F0 hh hΛ (fun t ht x hx => gRhs_jacobian x t (H.jac t ht x hx)) (fun t ht x hx z hz v => gRhs_lip hS H t ht x z hx hz v) (fun t ht x hx => gRhs_bound hS H t ht x hx)
    (fun t ht x hx v => jacobian_lipschitz (eu n) (fun x => gRhs S f x t) (fun x => gJac S Df x t) x v (gRhs_jacobian x t (H.jac t ht x hx)) Λ hΛ (fun y z => C80_lipschitz S hS f Λ hlip y z t))

/-- the equation of a step changes little if a small term is added to the right-hand side -/
theorem residual_shift (name : Scheme) (g : (n → ℝ) → ℝ → n → ℝ) (d : ℝ → n → ℝ) (ε : ℝ) (h0 : 0 ≤ ε) (hist : List (n → ℝ)) (t dt : ℝ) (hdt : 0 ≤ dt) (y : n → ℝ) (h1 : ‖eu n (d t)‖ ≤ ε) (h2 : ‖eu n (d (t + dt))‖ ≤ ε) :
    ‖eu n (residualOf name (fun x t => g x t + d t) hist t dt y)‖ ≤ ‖eu n (residualOf name g hist t dt y)‖ + dt * ε := by
  have key : ∀ (A B : n → ℝ) (c : ℝ) (w : n → ℝ), 0 ≤ c → c ≤ dt → ‖eu n w‖ ≤ ε → B = A - c • w → ‖eu n B‖ ≤ ‖eu n A‖ + dt * ε := by
    rintro A B c w hc hcd hw rfl
    rw [map_sub, map_smul]
    refine (norm_sub_le _ _).trans ?_
    rw [norm_smul, Real.norm_of_nonneg hc]
    gcongr
  have hz : ‖eu n (0 : n → ℝ)‖ ≤ ‖eu n (0 : n → ℝ)‖ + dt * ε := le_add_of_nonneg_right (by positivity)
  unfold residualOf
  split
  · exact key _ _ dt (d (t + dt)) hdt le_rfl h2 (by rw [smul_add]; abel)
  · exact key _ _ dt (d (t + dt)) hdt le_rfl h2 (by rw [smul_add]; abel)
  · exact key _ _ ((2:ℝ)/3 * dt) (d (t + dt)) (by positivity) (by linarith) h2 (by rw [smul_add]; abel)
  · refine key _ _ dt ((1/2 : ℝ) • (d (t + dt) + d t)) hdt le_rfl ?_ ?_
    · rw [map_smul, map_add, norm_smul, Real.norm_of_nonneg (by norm_num)]
      have := norm_add_le (eu n (d (t + dt))) (eu n (d t))
      linarith
    · module
  · exact hz

theorem time_ge {A : Type} (S' : ℝ → Prop) (T t0 : ℝ) (y0 : n → ℝ) (rs : List (Record ℝ (n → ℝ) A)) (hS : StepsIn S' T rs) : ∀ pre post, rs = pre ++ post → t0 ≤ timeAfter t0 pre :=
  accepted_induction (fun _ t => t0 ≤ t) y0 t0 le_rfl rs (fun pre r post e hr h => h.trans (le_add_of_nonneg_right (hS r (by rw [e]; simp) hr).2.1))

/-- a converged run of the reduced model leaves small residuals in the model that the projected exact solution solves -/
theorem galerkin_residuals (name : Scheme) (tol ε : ℝ) (h0 : 0 ≤ ε) (ψ : ℝ → m → ℝ) {A : Type} (rs : List (Record ℝ (n → ℝ) A)) (t0 T : ℝ) (x0 : n → ℝ) (R : ResidualRun (eu n) tol 0 name (gRhs S f) rs t0 x0)
    (S' : ℝ → Prop) (hS' : StepsIn S' T rs) (hS : Orthonormal S) (hε : ∀ t ∈ Set.Icc t0 T, ‖eu m (f (ψ t) t) - eu m (f (best S (ψ t)) t)‖ ≤ ε) : ResidualRun (eu n) tol ε name (gFull S f ψ) rs t0 x0 := by
  have hd : ∀ t ∈ Set.Icc t0 T, ‖eu n (gMiss S f ψ t)‖ ≤ ε := fun t ht => by
    refine (eu_basis_transpose S hS _).trans ?_
    rw [map_sub]; exact hε t ht
  refine ⟨fun {pre post r} e hr => ?_, R.time, R.tol_nonneg⟩
  have h1 := R.residual e hr
  have h2 := hS' r (by rw [e]; simp) hr
  have h3 := time_ge S' T t0 x0 rs hS' pre (r :: post) e
  rw [R.time e] at h2
  rw [mul_zero, add_zero] at h1
  exact (residual_shift name (gRhs S f) (gMiss S f ψ) ε h0 _ _ r.dt h2.2.1 r.y (hd _ ⟨h3, by linarith [h2.2.1, h2.2.2]⟩) (hd _ ⟨by linarith [h2.2.1], h2.2.2⟩)).trans (add_le_add h1 le_rfl)

variable {F : Fom ℝ m m n} {Me : (m → ℝ) → ℝ → Except Exc (Matrix m m ℝ)} (hF : FomIs F (fun y t => .ok (f y t)) (fun y t => .ok (Df y t)) Me) (hS : Orthonormal S) (s0 : GSt ℝ m m q n)
  (mem : SMem ℝ (n → ℝ) (n → ℝ) PMem) (env : Env ℝ n n p L) (cfg : Cfg ℝ) (sol : Matrix n n ℝ → (n → ℝ) → n → ℝ) (tick : L → L) (hN : ExactNewton (eu n) env cfg sol tick) (reg : Reg ℝ n n p L) (hreg : NewtonIdle reg)

include hF hS hN hreg

/-- **C95, core.** -/
theorem galerkin_run_core (name : Scheme) (hmem : Ready name mem) (dts : List ℝ) (t0 : ℝ) (x0 : n → ℝ) (H T : ℝ) (hdt : ∀ h ∈ dts, 0 ≤ h ∧ h ≤ H) (hT : t0 + dts.sum ≤ T) (V : Set (m → ℝ)) (β γ Fb : ℝ)
    (hf : Tame (eu n) (gRhs S f) (gJac S Df) {x | lift S x ∈ V} t0 T H β γ Fb) (k : Nat) (hA : Affords cfg H β γ Fb k) (ψ : ℝ → m → ℝ) (ε d : ℝ) (h0 : 0 ≤ ε)
    (hε : ∀ t ∈ Set.Icc t0 T, ‖eu m (f (ψ t) t) - eu m (f (best S (ψ t)) t)‖ ≤ ε) (hd : ∀ t ∈ Set.Icc t0 T, ∃ z, ‖eu m (ψ t) - eu m (lift S z)‖ ≤ d) (err : ℝ → ℝ → ℝ) (B : ℝ)
    (hB : ∀ t ∈ Set.Icc t0 T, ∀ l : Nat, l ≤ dts.length → err t l ≤ B) (hV : Tube S ψ t0 T (B + 2 * β * (H * Fb + cfg.tol / 2)) ⊆ V) (P : ℝ → Prop) (hP : ∀ h ∈ dts, P h)
    (hC : ∀ rs : List (Record ℝ (n → ℝ) (Ans ℝ n n)), ResidualRun (eu n) cfg.tol ε name (gFull S f ψ) rs t0 x0 → StepsIn P T rs →
      ∀ pre post, rs = pre ++ post → ∃ x l, accepted x0 pre = x :: l ∧ ‖eu n x - eu n (coords S (ψ (timeAfter t0 pre)))‖ ≤ err (timeAfter t0 pre) l.length) :
    let run := driveObj (stdStep name (asISystem (defaultRhsJac S F) s0)) (newtonSolve env cfg) dts t0 [x0] x0 mem reg
    run.map (·.dt) = dts ∧ (∀ r ∈ run, r.stop = none ∧ r.queries.length ≤ k + 1) ∧ ∀ pre post, run = pre ++ post → ∃ x l, accepted x0 pre = x :: l ∧
      ‖eu m (lift S x) - eu m (ψ (timeAfter t0 pre))‖ ≤ d + err (timeAfter t0 pre) l.length := by
  intro run
  have hrun : run = driveObj (stdStep name (odeSystem (gRhs S f) (gJac S Df))) (newtonSolve env cfg) dts t0 [x0] x0 mem reg := by
    show driveObj _ _ _ _ _ _ _ _ = _
    rw [galerkin_ode hF S s0]
    rfl
  have h := newton_run_convergence name (eu n) (gRhs S f) (gJac S Df) mem hmem env cfg sol tick hN reg hreg dts t0 x0 H T hdt hT {x | lift S x ∈ V} β γ Fb hf k hA (fun t => coords S (ψ t)) err B hB
    (by
      rintro x ⟨_, ⟨t, ht, rfl⟩, hx⟩
      exact hV ⟨t, ht, x, rfl, by rw [best, C80_isometry S hS]; exact hx⟩) P hP
    (fun atts R hs => hC _ (galerkin_residuals name cfg.tol ε h0 ψ _ t0 T x0 R.residuals P hs hS hε) hs)
  simp only [← hrun] at h
  refine ⟨h.1, h.2.1, fun pre post e => ?_⟩
  obtain ⟨x, l, e1, e2⟩ := h.2.2 pre post e
  refine ⟨x, l, e1, ?_⟩
  have ht : timeAfter t0 pre ∈ Set.Icc t0 T := by
    have h1 : run = pre ++ post := e
    have hst : ∀ r ∈ run, r.stop = none := fun r hr => (h.2.1 r hr).1
    have hsum : ∀ l : List (Record ℝ (n → ℝ) (Ans ℝ n n)), (∀ r ∈ l, r.stop = none) → timeAfter t0 l = t0 + (l.map (·.dt)).sum := by
      intro l
      induction l using List.reverseRecOn with
      | nil => intro _; simp [timeAfter]
      | append_singleton l r ih =>
        intro hl
        have hr : r.stop.isNone = true := by rw [hl r (by simp)]; rfl
        rw [timeAfter_snoc, if_pos hr, ih (fun r' hr' => hl r' (by simp [hr']))]
        simp [add_assoc]
    have hpre := hsum pre (fun r hr => hst r (by rw [h1]; simp [hr]))
    have hall : dts = pre.map (·.dt) ++ post.map (·.dt) := by rw [← h.1, h1, List.map_append]
    have hp1 : 0 ≤ (pre.map (·.dt)).sum := List.sum_nonneg (fun y hy => (hdt y (by rw [hall]; exact List.mem_append_left _ hy)).1)
    have hp2 : 0 ≤ (post.map (·.dt)).sum := List.sum_nonneg (fun y hy => (hdt y (by rw [hall]; exact List.mem_append_right _ hy)).1)
    rw [hall, List.sum_append] at hT
    rw [hpre]
    exact ⟨by linarith, by linarith⟩
  obtain ⟨z, hz⟩ := hd _ ht
  have h1 := (C95_best S hS _ z).trans hz
  rw [← C80_isometry S hS] at e2
  calc ‖eu m (lift S x) - eu m (ψ (timeAfter t0 pre))‖ ≤ ‖eu m (lift S x) - eu m (best S (ψ (timeAfter t0 pre)))‖ + ‖eu m (best S (ψ (timeAfter t0 pre))) - eu m (ψ (timeAfter t0 pre))‖ := norm_sub_le_norm_sub_add_norm_sub _ _ _
    _ ≤ _ := by rw [norm_sub_rev (eu m (best S _))]; unfold best at *; linarith

/-- **C95, BDF1 on monotone full-order models.** Default Galerkin problem with an orthonormal basis, implicit in time, one Newton object for all steps; `ψ` is the exact solution of the full-order model. Let the trial space contain, at every
    time, a state within `d` of `ψ(t)`, and let `f` change by at most `ε` from `ψ(t)` to its best approximation. Then the run completes, each step after `k + 1` evaluations at most, and every reconstructed state is near `ψ`. -/
theorem C95_bdf1_monotone (hmem : Ready .BDF1 mem) (dts : List ℝ) (t0 : ℝ) (x0 : n → ℝ) (H T : ℝ) (hH : 0 ≤ H) (hdt : ∀ h ∈ dts, 0 ≤ h ∧ h ≤ H) (hT : t0 + dts.sum ≤ T) (V : Set (m → ℝ)) (γ Fb : ℝ)
    (hf : TrialTame S f Df V t0 T γ Fb) (k : Nat) (hA : Affords cfg H 1 γ Fb k) (hmono : ∀ y z t, (f y t - f z t) ⬝ᵥ (y - z) ≤ 0) (ψ : ℝ → m → ℝ) (M ε d : ℝ) (hM0 : 0 ≤ M) (h0 : 0 ≤ ε) (hψ : SolvesIn (eu m) f ψ t0 T)
    (hM : Smooth1In (eu m) f ψ M t0 T) (hε : ∀ t ∈ Set.Icc t0 T, ‖eu m (f (ψ t) t) - eu m (f (best S (ψ t)) t)‖ ≤ ε) (hd : ∀ t ∈ Set.Icc t0 T, ∃ z, ‖eu m (ψ t) - eu m (lift S z)‖ ≤ d)
    (hV : Tube S ψ t0 T (‖eu m (lift S x0) - eu m (best S (ψ t0))‖ + (dts.length * cfg.tol + (T - t0) * (ε + M * H / 2)) + 2 * 1 * (H * Fb + cfg.tol / 2)) ⊆ V) :
    let run := driveObj (stdStep .BDF1 (asISystem (defaultRhsJac S F) s0)) (newtonSolve env cfg) dts t0 [x0] x0 mem reg
    run.map (·.dt) = dts ∧ (∀ r ∈ run, r.stop = none ∧ r.queries.length ≤ k + 1) ∧ ∀ pre post, run = pre ++ post → ∃ x l, accepted x0 pre = x :: l ∧
      ‖eu m (lift S x) - eu m (ψ (timeAfter t0 pre))‖ ≤ d + (‖eu m (lift S x0) - eu m (best S (ψ t0))‖ + (l.length * cfg.tol + (timeAfter t0 pre - t0) * (ε + M * H / 2))) := by
  rw [best, C80_isometry S hS] at hV ⊢
  refine galerkin_run_core hF hS s0 mem env cfg sol tick hN reg hreg .BDF1 hmem dts t0 x0 H T hdt hT V 1 γ Fb (gRhs_tame_monotone hS hf hmono H) k hA ψ ε d h0 hε hd
    (fun t l => ‖eu n x0 - eu n (coords S (ψ t0))‖ + (l * cfg.tol + (t - t0) * (ε + M * H / 2))) _ (fun t ht l hl => ?_) hV (fun h => h ≤ H) (fun h hh => (hdt h hh).2) (fun rs R hs => ?_)
  · have h1 : (l:ℝ) ≤ dts.length := by exact_mod_cast hl
    have h2 := hA.tol0
    have h3 := ht.2
    gcongr
  · exact residuals_bdf1_monotone (eu n) cfg.tol ε _ rs t0 x0 R h0 H T hs (gFull_monotone ψ hmono) (fun t => coords S (ψ t)) M hM0 hH (gFull_solves ψ t0 T hψ) (gFull_smooth1 hS ψ M t0 T hM)

/-- **C95, BDF2 on monotone full-order models**, constant steps, order two. -/
theorem C95_bdf2_monotone (hmem : Ready .BDF2 mem) (N : Nat) (t0 : ℝ) (x0 : n → ℝ) (η T : ℝ) (hη : 0 ≤ η) (hT : t0 + N * η ≤ T) (V : Set (m → ℝ)) (γ Fb : ℝ)
    (hf : TrialTame S f Df V t0 T γ Fb) (k : Nat) (hA : Affords cfg η 1 γ Fb k) (hmono : ∀ y z t, (f y t - f z t) ⬝ᵥ (y - z) ≤ 0) (ψ : ℝ → m → ℝ) (ψ2 : ℝ → EuclideanSpace ℝ m) (M2 M3 ε d : ℝ) (hM20 : 0 ≤ M2) (hM30 : 0 ≤ M3)
    (h0 : 0 ≤ ε) (hψ : SolvesIn (eu m) f ψ t0 T) (hM : Smooth2In (eu m) f ψ ψ2 M2 M3 t0 T) (hε : ∀ t ∈ Set.Icc t0 T, ‖eu m (f (ψ t) t) - eu m (f (best S (ψ t)) t)‖ ≤ ε)
    (hd : ∀ t ∈ Set.Icc t0 T, ∃ z, ‖eu m (ψ t) - eu m (lift S z)‖ ≤ d)
    (hV : Tube S ψ t0 T (Real.sqrt 2 * ‖eu m (lift S x0) - eu m (best S (ψ t0))‖ + 3 * M2 * η ^ 2 + 6 * (N * cfg.tol) + (T - t0) * (6 * ε + 4 * M3 * η ^ 2) + 2 * 1 * (η * Fb + cfg.tol / 2)) ⊆ V) :
    let run := driveObj (stdStep .BDF2 (asISystem (defaultRhsJac S F) s0)) (newtonSolve env cfg) (List.replicate N η) t0 [x0] x0 mem reg
    run.map (·.dt) = List.replicate N η ∧ (∀ r ∈ run, r.stop = none ∧ r.queries.length ≤ k + 1) ∧ ∀ pre post, run = pre ++ post → ∃ x l, accepted x0 pre = x :: l ∧
      ‖eu m (lift S x) - eu m (ψ (timeAfter t0 pre))‖ ≤
        d + (Real.sqrt 2 * ‖eu m (lift S x0) - eu m (best S (ψ t0))‖ + 3 * M2 * η ^ 2 + 6 * (l.length * cfg.tol) + (timeAfter t0 pre - t0) * (6 * ε + 4 * M3 * η ^ 2)) := by
  rw [best, C80_isometry S hS] at hV ⊢
  refine galerkin_run_core hF hS s0 mem env cfg sol tick hN reg hreg .BDF2 hmem (List.replicate N η) t0 x0 η T (fun h hh => by rw [List.eq_of_mem_replicate hh]; exact ⟨hη, le_rfl⟩) (by simpa using hT) V 1 γ Fb
    (gRhs_tame_monotone hS hf hmono η) k hA ψ ε d h0 hε hd
    (fun t l => Real.sqrt 2 * ‖eu n x0 - eu n (coords S (ψ t0))‖ + 3 * M2 * η ^ 2 + 6 * (l * cfg.tol) + (t - t0) * (6 * ε + 4 * M3 * η ^ 2)) _ (fun t ht l hl => ?_) hV (fun h => h = η)
    (fun h hh => List.eq_of_mem_replicate hh) (fun rs R hs => ?_)
  · have h1 : (l:ℝ) ≤ N := by rw [List.length_replicate] at hl; exact_mod_cast hl
    have h2 := hA.tol0
    have h3 := ht.2
    gcongr
  · exact residuals_bdf2_monotone (eu n) cfg.tol ε _ rs t0 x0 R h0 η T hs (gFull_monotone ψ hmono) (fun t => coords S (ψ t)) _ M2 M3 hM20 hM30 (gFull_solves ψ t0 T hψ) (gFull_smooth2 hS ψ ψ2 M2 M3 t0 T hM)

omit hF hN hreg in
/-- what the reduced model misses of a model with a Lipschitz constant -/
theorem miss_of_lipschitz (Λ : ℝ) (hΛ : 0 ≤ Λ) (hlip : ∀ y z t, ‖eu m (f y t) - eu m (f z t)‖ ≤ Λ * ‖eu m y - eu m z‖) (ψ : ℝ → m → ℝ) (d a b : ℝ) (hd : ∀ t ∈ Set.Icc a b, ∃ z, ‖eu m (ψ t) - eu m (lift S z)‖ ≤ d) (t : ℝ)
    (ht : t ∈ Set.Icc a b) : ‖eu m (f (ψ t) t) - eu m (f (best S (ψ t)) t)‖ ≤ Λ * d := by
  obtain ⟨z, hz⟩ := hd t ht
  exact (hlip _ _ _).trans (mul_le_mul_of_nonneg_left ((C95_best S hS _ z).trans hz) hΛ)

/-- **C95, BDF1 on Lipschitz full-order models**: up to constants the reconstructed states are as near to the exact solution as the trial space allows (`d`: how well it approximates the solution). -/
theorem C95_bdf1 (hmem : Ready .BDF1 mem) (dts : List ℝ) (t0 : ℝ) (x0 : n → ℝ) (H T : ℝ) (hH : 0 ≤ H) (hdt : ∀ h ∈ dts, 0 ≤ h ∧ h ≤ H) (hT : t0 + dts.sum ≤ T) (V : Set (m → ℝ)) (γ Fb : ℝ)
    (hf : TrialTame S f Df V t0 T γ Fb) (k : Nat) (hA : Affords cfg H 2 γ Fb k) (Λ : ℝ) (hΛ : 0 ≤ Λ) (hHL : H * Λ ≤ 1 / 2) (hlip : ∀ y z t, ‖eu m (f y t) - eu m (f z t)‖ ≤ Λ * ‖eu m y - eu m z‖)
    (ψ : ℝ → m → ℝ) (M d : ℝ) (hM0 : 0 ≤ M) (hd0 : 0 ≤ d) (hψ : SolvesIn (eu m) f ψ t0 T) (hM : Smooth1In (eu m) f ψ M t0 T) (hd : ∀ t ∈ Set.Icc t0 T, ∃ z, ‖eu m (ψ t) - eu m (lift S z)‖ ≤ d)
    (hV : Tube S ψ t0 T (Real.exp (2 * Λ * (T - t0)) * (‖eu m (lift S x0) - eu m (best S (ψ t0))‖ + (dts.length * cfg.tol + (T - t0) * (Λ * d + M * H / 2))) + 2 * 2 * (H * Fb + cfg.tol / 2)) ⊆ V) :
    let run := driveObj (stdStep .BDF1 (asISystem (defaultRhsJac S F) s0)) (newtonSolve env cfg) dts t0 [x0] x0 mem reg
    run.map (·.dt) = dts ∧ (∀ r ∈ run, r.stop = none ∧ r.queries.length ≤ k + 1) ∧ ∀ pre post, run = pre ++ post → ∃ x l, accepted x0 pre = x :: l ∧
      ‖eu m (lift S x) - eu m (ψ (timeAfter t0 pre))‖ ≤
        d + Real.exp (2 * Λ * (timeAfter t0 pre - t0)) * (‖eu m (lift S x0) - eu m (best S (ψ t0))‖ + (l.length * cfg.tol + (timeAfter t0 pre - t0) * (Λ * d + M * H / 2))) := by
  rw [best, C80_isometry S hS] at hV ⊢
  refine galerkin_run_core hF hS s0 mem env cfg sol tick hN reg hreg .BDF1 hmem dts t0 x0 H T hdt hT V 2 γ Fb (gRhs_tame_lipschitz hS hf Λ hΛ hlip H hHL) k hA ψ (Λ * d) d (by positivity) (miss_of_lipschitz hS Λ hΛ hlip ψ d t0 T hd) hd
    (fun t l => Real.exp (2 * Λ * (t - t0)) * (‖eu n x0 - eu n (coords S (ψ t0))‖ + (l * cfg.tol + (t - t0) * (Λ * d + M * H / 2)))) _ (fun t ht l hl => ?_) hV (fun h => h ≤ H) (fun h hh => (hdt h hh).2) (fun rs R hs => ?_)
  · have h1 : (l:ℝ) ≤ dts.length := by exact_mod_cast hl
    have h2 := hA.tol0
    have h3 := ht.2
    have h4 : 0 ≤ t - t0 := sub_nonneg.2 ht.1
    gcongr
  · exact residuals_bdf1_lipschitz (eu n) cfg.tol (Λ * d) _ rs t0 x0 R (by positivity) H T hs Λ hΛ hHL (gFull_lipschitz hS ψ Λ hlip) (fun t => coords S (ψ t)) M hM0 hH (gFull_solves ψ t0 T hψ) (gFull_smooth1 hS ψ M t0 T hM)

/-- **C95, CrankNicolson on Lipschitz full-order models**, any steps, order two. -/
theorem C95_crank_nicolson (hmem : Ready .CrankNicolson mem) (dts : List ℝ) (t0 : ℝ) (x0 : n → ℝ) (H T : ℝ) (hdt : ∀ h ∈ dts, 0 ≤ h ∧ h ≤ H) (hT : t0 + dts.sum ≤ T) (V : Set (m → ℝ)) (γ Fb : ℝ)
    (hf : TrialTame S f Df V t0 T γ Fb) (k : Nat) (hA : Affords cfg H 2 γ Fb k) (Λ : ℝ) (hΛ : 0 ≤ Λ) (hHL : H * Λ ≤ 1 / 2) (hlip : ∀ y z t, ‖eu m (f y t) - eu m (f z t)‖ ≤ Λ * ‖eu m y - eu m z‖)
    (ψ : ℝ → m → ℝ) (ψ2 : ℝ → EuclideanSpace ℝ m) (M2 M3 d : ℝ) (hM30 : 0 ≤ M3) (hd0 : 0 ≤ d) (hψ : SolvesIn (eu m) f ψ t0 T) (hM : Smooth2In (eu m) f ψ ψ2 M2 M3 t0 T) (hd : ∀ t ∈ Set.Icc t0 T, ∃ z, ‖eu m (ψ t) - eu m (lift S z)‖ ≤ d)
    (hV : Tube S ψ t0 T (Real.exp (3 / 2 * Λ * (T - t0)) * (‖eu m (lift S x0) - eu m (best S (ψ t0))‖ + (dts.length * cfg.tol + (T - t0) * (Λ * d + 5 / 12 * M3 * H ^ 2))) + 2 * 2 * (H * Fb + cfg.tol / 2)) ⊆ V) :
    let run := driveObj (stdStep .CrankNicolson (asISystem (defaultRhsJac S F) s0)) (newtonSolve env cfg) dts t0 [x0] x0 mem reg
    run.map (·.dt) = dts ∧ (∀ r ∈ run, r.stop = none ∧ r.queries.length ≤ k + 1) ∧ ∀ pre post, run = pre ++ post → ∃ x l, accepted x0 pre = x :: l ∧
      ‖eu m (lift S x) - eu m (ψ (timeAfter t0 pre))‖ ≤
        d + Real.exp (3 / 2 * Λ * (timeAfter t0 pre - t0)) * (‖eu m (lift S x0) - eu m (best S (ψ t0))‖ + (l.length * cfg.tol + (timeAfter t0 pre - t0) * (Λ * d + 5 / 12 * M3 * H ^ 2))) := by
  rw [best, C80_isometry S hS] at hV ⊢
  refine galerkin_run_core hF hS s0 mem env cfg sol tick hN reg hreg .CrankNicolson hmem dts t0 x0 H T hdt hT V 2 γ Fb (gRhs_tame_lipschitz hS hf Λ hΛ hlip H hHL) k hA ψ (Λ * d) d (by positivity) (miss_of_lipschitz hS Λ hΛ hlip ψ d t0 T hd) hd
    (fun t l => Real.exp (3 / 2 * Λ * (t - t0)) * (‖eu n x0 - eu n (coords S (ψ t0))‖ + (l * cfg.tol + (t - t0) * (Λ * d + 5 / 12 * M3 * H ^ 2)))) _ (fun t ht l hl => ?_) hV (fun h => h ≤ H) (fun h hh => (hdt h hh).2) (fun rs R hs => ?_)
  · have h1 : (l:ℝ) ≤ dts.length := by exact_mod_cast hl
    have h2 := hA.tol0
    have h3 := ht.2
    have h4 : 0 ≤ t - t0 := sub_nonneg.2 ht.1
    gcongr
  · exact residuals_crank_nicolson_lipschitz (eu n) cfg.tol (Λ * d) _ rs t0 x0 R (by positivity) H T hs Λ hΛ (by linarith) (gFull_lipschitz hS ψ Λ hlip) (fun t => coords S (ψ t)) _ M2 M3 hM30 (gFull_solves ψ t0 T hψ)
      (gFull_smooth2 hS ψ ψ2 M2 M3 t0 T hM)

/-- **C95, BDF2 on Lipschitz full-order models**, constant steps, order two. -/
theorem C95_bdf2 (hmem : Ready .BDF2 mem) (N : Nat) (t0 : ℝ) (x0 : n → ℝ) (η T : ℝ) (hη : 0 ≤ η) (hT : t0 + N * η ≤ T) (V : Set (m → ℝ)) (γ Fb : ℝ)
    (hf : TrialTame S f Df V t0 T γ Fb) (k : Nat) (hA : Affords cfg η 2 γ Fb k) (Λ : ℝ) (hΛ : 0 ≤ Λ) (hHL : 6 * (η * Λ) ≤ 1 / 2) (hlip : ∀ y z t, ‖eu m (f y t) - eu m (f z t)‖ ≤ Λ * ‖eu m y - eu m z‖)
    (ψ : ℝ → m → ℝ) (ψ2 : ℝ → EuclideanSpace ℝ m) (M2 M3 d : ℝ) (hM20 : 0 ≤ M2) (hM30 : 0 ≤ M3) (hd0 : 0 ≤ d) (hψ : SolvesIn (eu m) f ψ t0 T) (hM : Smooth2In (eu m) f ψ ψ2 M2 M3 t0 T)
    (hd : ∀ t ∈ Set.Icc t0 T, ∃ z, ‖eu m (ψ t) - eu m (lift S z)‖ ≤ d)
    (hV : Tube S ψ t0 T (Real.exp (12 * Λ * (T - t0)) * (Real.sqrt 2 * ‖eu m (lift S x0) - eu m (best S (ψ t0))‖ + 3 * M2 * η ^ 2 + 6 * (N * cfg.tol) + (T - t0) * (6 * (Λ * d) + 4 * M3 * η ^ 2)) + 2 * 2 * (η * Fb + cfg.tol / 2)) ⊆ V) :
    let run := driveObj (stdStep .BDF2 (asISystem (defaultRhsJac S F) s0)) (newtonSolve env cfg) (List.replicate N η) t0 [x0] x0 mem reg
    run.map (·.dt) = List.replicate N η ∧ (∀ r ∈ run, r.stop = none ∧ r.queries.length ≤ k + 1) ∧ ∀ pre post, run = pre ++ post → ∃ x l, accepted x0 pre = x :: l ∧
      ‖eu m (lift S x) - eu m (ψ (timeAfter t0 pre))‖ ≤ d + Real.exp (12 * Λ * (timeAfter t0 pre - t0)) *
        (Real.sqrt 2 * ‖eu m (lift S x0) - eu m (best S (ψ t0))‖ + 3 * M2 * η ^ 2 + 6 * (l.length * cfg.tol) + (timeAfter t0 pre - t0) * (6 * (Λ * d) + 4 * M3 * η ^ 2)) := by
  rw [best, C80_isometry S hS] at hV ⊢
  have hp : 0 ≤ η * Λ := by positivity
  refine galerkin_run_core hF hS s0 mem env cfg sol tick hN reg hreg .BDF2 hmem (List.replicate N η) t0 x0 η T (fun h hh => by rw [List.eq_of_mem_replicate hh]; exact ⟨hη, le_rfl⟩) (by simpa using hT) V 2 γ Fb
    (gRhs_tame_lipschitz hS hf Λ hΛ hlip η (by linarith)) k hA ψ (Λ * d) d (by positivity) (miss_of_lipschitz hS Λ hΛ hlip ψ d t0 T hd) hd
    (fun t l => Real.exp (12 * Λ * (t - t0)) * (Real.sqrt 2 * ‖eu n x0 - eu n (coords S (ψ t0))‖ + 3 * M2 * η ^ 2 + 6 * (l * cfg.tol) + (t - t0) * (6 * (Λ * d) + 4 * M3 * η ^ 2))) _ (fun t ht l hl => ?_) hV (fun h => h = η)
    (fun h hh => List.eq_of_mem_replicate hh) (fun rs R hs => ?_)
  · have h1 : (l:ℝ) ≤ N := by rw [List.length_replicate] at hl; exact_mod_cast hl
    have h2 := hA.tol0
    have h3 := ht.2
    have h4 : 0 ≤ t - t0 := sub_nonneg.2 ht.1
    gcongr
  · exact residuals_bdf2_lipschitz (eu n) cfg.tol (Λ * d) _ rs t0 x0 R (by positivity) η T hs Λ hΛ hHL (gFull_lipschitz hS ψ Λ hlip) (fun t => coords S (ψ t)) _ M2 M3 hM20 hM30 (gFull_solves ψ t0 T hψ) (gFull_smooth2 hS ψ ψ2 M2 M3 t0 T hM)

/-- **C95, advance_to_target**, CrankNicolson on Lipschitz full-order models: with any step-size policy that answers between `δ` and `H`, with or without recovery, the call returns, and every observed reduced state stands for a full-order state
    near the exact solution. -/
theorem C95_target {W : Type} (hmem : Ready .CrankNicolson mem) (rec : Bool) (eps δ H : ℝ) (heps : 0 ≤ eps) (hδ : 0 < δ) (pol3 : Int → ℝ → ℝ → Prog W ℝ) (pol5 : Int → ℝ → DtVars ℝ → Prog W (DtVars ℝ))
    (obs : Int → ℝ → (n → ℝ) → Prog W Unit) (hpol : Obliging pol3 pol5 rec (fun d => δ ≤ d ∧ d ≤ H)) (hobs : Patient obs) (t0 final : ℝ) (hlt : t0 < final) (N fuel : Nat) (hNδ : final - t0 ≤ N * δ) (hNi : (N : Int) < int32Max)
    (hfuel : N ≤ fuel) (x0 : n → ℝ) (u : W) (V : Set (m → ℝ)) (γ Fb : ℝ)
    (hf : TrialTame S f Df V t0 (final + H) γ Fb) (k : Nat) (hA : Affords cfg H 2 γ Fb k) (Λ : ℝ) (hΛ : 0 ≤ Λ) (hHL : H * Λ ≤ 1 / 2) (hlip : ∀ y z t, ‖eu m (f y t) - eu m (f z t)‖ ≤ Λ * ‖eu m y - eu m z‖)
    (ψ : ℝ → m → ℝ) (ψ2 : ℝ → EuclideanSpace ℝ m) (M2 M3 d : ℝ) (hM30 : 0 ≤ M3) (hd0 : 0 ≤ d) (hψ : SolvesIn (eu m) f ψ t0 (final + H)) (hM : Smooth2In (eu m) f ψ ψ2 M2 M3 t0 (final + H))
    (hd : ∀ t ∈ Set.Icc t0 (final + H), ∃ z, ‖eu m (ψ t) - eu m (lift S z)‖ ≤ d)
    (hV : Tube S ψ t0 (final + H) (Real.exp (3 / 2 * Λ * (final + H - t0)) * (‖eu m (lift S x0) - eu m (best S (ψ t0))‖ + (N * cfg.tol + (final + H - t0) * (Λ * d + 5 / 12 * M3 * H ^ 2))) + 2 * 2 * (H * Fb + cfg.tol / 2)) ⊆ V) :
    let r := advanceT rec eps (userObjects (objStepper (stdStep .CrankNicolson (asISystem (defaultRhsJac S F) s0)) (newtonSolve env cfg)) pol3 pol5 obs) fuel t0 final ⟨((mem, reg), u), x0, []⟩
    (∃ t, r = .ok t r.state ∧ final - eps ≤ t ∧ t ≤ final + H) ∧ (observations r.state.log).length ≤ N + 1 ∧ (observations r.state.log).getLast?.map (·.2.2) = some r.state.y ∧
      ∀ i t x, (i, t, x) ∈ observations r.state.log → ‖eu m (lift S x) - eu m (ψ t)‖ ≤
        d + Real.exp (3 / 2 * Λ * (t - t0)) * (‖eu m (lift S x0) - eu m (best S (ψ t0))‖ + (i * cfg.tol + (t - t0) * (Λ * d + 5 / 12 * M3 * H ^ 2))) := by
  have g := C92_target_returns rec eps δ H heps hδ (stdStep .CrankNicolson (asISystem (defaultRhsJac S F) s0)) (newtonSolve env cfg) pol3 pol5 obs hpol hobs t0 final hlt N fuel hNδ hNi hfuel x0 mem reg u
    (fun l t => ∃ x l', l = x :: l' ∧ ‖eu m (lift S x) - eu m (ψ t)‖ ≤
      d + Real.exp (3 / 2 * Λ * (t - t0)) * (‖eu m (lift S x0) - eu m (best S (ψ t0))‖ + (l'.length * cfg.tol + (t - t0) * (Λ * d + 5 / 12 * M3 * H ^ 2)))) (fun dts g0 g1 g2 => by
      have hpos : 0 ≤ dts.sum := List.sum_nonneg (fun y hy => hδ.le.trans (g1 y hy).1)
      have c := C95_crank_nicolson hF hS s0 mem env cfg sol tick hN reg hreg hmem dts t0 x0 H (final + H) (fun d hd => ⟨hδ.le.trans (g1 d hd).1, (g1 d hd).2⟩) g2 V γ Fb hf k hA Λ hΛ hHL hlip ψ ψ2 M2 M3 d hM30 hd0 hψ hM hd
        (fun x ⟨t, ht, z, hz, hr⟩ => hV ⟨t, ht, z, hz, hr.trans (by
          have h1 : (dts.length : ℝ) ≤ N := by exact_mod_cast g0
          have h2 := hA.tol0
          gcongr)⟩)
      exact ⟨fun r hr => (c.2.1 r hr).1, c.2.2⟩)
  refine ⟨g.1, g.2.1, g.2.2.1, fun i t x he => ?_⟩
  obtain ⟨l, ⟨x', l', e, hb⟩, hl⟩ := g.2.2.2 i t x he
  cases e
  rw [← hl]
  exact_mod_cast hb

/-- **C95, advance_n_steps** with a constant size, BDF2 on monotone full-order models. -/
theorem C95_n_steps {W : Type} (hmem : Ready .BDF2 mem) (zero η : ℝ) (hη : 0 ≤ η) (pol3 : Int → ℝ → ℝ → Prog W ℝ) (pol5 : Int → ℝ → DtVars ℝ → Prog W (DtVars ℝ))
    (obs : Int → ℝ → (n → ℝ) → Prog W Unit) (hpol : Obliging pol3 pol5 false (fun d => d = η)) (hobs : Patient obs) (N : Nat) (hNi : (N : Int) < int32Max) (t0 : ℝ) (x0 : n → ℝ) (u : W) (V : Set (m → ℝ)) (γ Fb : ℝ)
    (hf : TrialTame S f Df V t0 (t0 + N * η) γ Fb) (k : Nat) (hA : Affords cfg η 1 γ Fb k) (hmono : ∀ y z t, (f y t - f z t) ⬝ᵥ (y - z) ≤ 0) (ψ : ℝ → m → ℝ) (ψ2 : ℝ → EuclideanSpace ℝ m) (M2 M3 ε d : ℝ) (hM20 : 0 ≤ M2)
    (hM30 : 0 ≤ M3) (h0 : 0 ≤ ε) (hψ : SolvesIn (eu m) f ψ t0 (t0 + N * η)) (hM : Smooth2In (eu m) f ψ ψ2 M2 M3 t0 (t0 + N * η)) (hε : ∀ t ∈ Set.Icc t0 (t0 + N * η), ‖eu m (f (ψ t) t) - eu m (f (best S (ψ t)) t)‖ ≤ ε)
    (hd : ∀ t ∈ Set.Icc t0 (t0 + N * η), ∃ z, ‖eu m (ψ t) - eu m (lift S z)‖ ≤ d)
    (hV : Tube S ψ t0 (t0 + N * η) (Real.sqrt 2 * ‖eu m (lift S x0) - eu m (best S (ψ t0))‖ + 3 * M2 * η ^ 2 + 6 * (N * cfg.tol) + (t0 + N * η - t0) * (6 * ε + 4 * M3 * η ^ 2) + 2 * 1 * (η * Fb + cfg.tol / 2)) ⊆ V) :
    let r := advanceN zero (userObjects (objStepper (stdStep .BDF2 (asISystem (defaultRhsJac S F) s0)) (newtonSolve env cfg)) pol3 pol5 obs) N t0 ⟨((mem, reg), u), x0, []⟩
    r.stop? = none ∧ (observations r.state.log).length = (N : Int) + 1 ∧ (observations r.state.log).getLast?.map (·.2.2) = some r.state.y ∧
      ∀ i t x, (i, t, x) ∈ observations r.state.log → ‖eu m (lift S x) - eu m (ψ t)‖ ≤
        d + (Real.sqrt 2 * ‖eu m (lift S x0) - eu m (best S (ψ t0))‖ + 3 * M2 * η ^ 2 + 6 * (i * cfg.tol) + (t - t0) * (6 * ε + 4 * M3 * η ^ 2)) := by
  have g := C92_n_steps_returns zero (stdStep .BDF2 (asISystem (defaultRhsJac S F) s0)) (newtonSolve env cfg) pol3 pol5 obs _ hpol hobs N (by omega) hNi t0 x0 mem reg u
    (fun l t => ∃ x l', l = x :: l' ∧ ‖eu m (lift S x) - eu m (ψ t)‖ ≤
      d + (Real.sqrt 2 * ‖eu m (lift S x0) - eu m (best S (ψ t0))‖ + 3 * M2 * η ^ 2 + 6 * (l'.length * cfg.tol) + (t - t0) * (6 * ε + 4 * M3 * η ^ 2))) (fun dts g0 g1 => by
      have h1 : (dts.length : ℝ) ≤ N := by exact_mod_cast (by simpa using g0 : dts.length ≤ N)
      have c := C95_bdf2_monotone hF hS s0 mem env cfg sol tick hN reg hreg hmem dts.length t0 x0 η (t0 + N * η) hη (by gcongr) V γ Fb hf k hA hmono ψ ψ2 M2 M3 ε d hM20 hM30 h0 hψ hM hε hd
        (fun x ⟨t, ht, z, hz, hr⟩ => hV ⟨t, ht, z, hz, hr.trans (by
          have h2 := hA.tol0
          gcongr)⟩)
      rw [← List.eq_replicate_of_mem g1] at c
      exact ⟨fun r hr => (c.2.1 r hr).1, c.2.2⟩)
  refine ⟨g.1, g.2.1, g.2.2.1, fun i t x he => ?_⟩
  obtain ⟨l, ⟨x', l', e, hb⟩, hl⟩ := g.2.2.2 i t x he
  cases e
  rw [← hl]
  exact_mod_cast hb
end

/-! ### Concrete runs: the model `chaseF` on the span of the first unit vector, which misses the solution `(t, t/10)` by `t/10` -/
section Examples

theorem exactNewton_eu (tol : ℝ) : ExactNewton (eu Unit) envR (cfgR tol) (fun A b _ => b () / A () ()) id :=
  ⟨(WithLp.linearEquiv 2 ℝ (Unit → ℝ)).symm.injective, fun v => (eu_unit v).symm, fun _ _ _ _ => rfl, fun A b hA => by
      funext u
      have : A () () ≠ 0 := by simpa [isUnit_iff_ne_zero] using hA
      simp [Matrix.mulVec, dotProduct]
      field_simp, rfl, rfl, by simp [cfgR, int32Max]⟩

theorem chase_trial : TrialTame firstR chaseF chaseD {y | |y 0| ≤ 2} 0 1 (1 / 2) 6 where
  jac := by
    intro t _ x _
    refine hasFDerivAt_pi'' fun i => ?_
    have h0 : HasFDerivAt (fun y : Fin 2 → ℝ => y 0 - t) (ContinuousLinearMap.proj (R := ℝ) (φ := fun _ : Fin 2 => ℝ) 0) (lift firstR x) := (hasFDerivAt_apply 0 _).sub_const t
    fin_cases i
    · have := (h0.const_sub 1).sub ((HasFDerivAt.sin h0).mul_const (1 / 2))
      refine (this.congr_fderiv ?_).congr_of_eventuallyEq (Filter.Eventually.of_forall fun y => ?_)
      · ext v
        simp [chaseD, Matrix.mulVec, dotProduct, Fin.sum_univ_two]
        ring
      · simp [chaseF]; ring
    · have : HasFDerivAt (fun _ : Fin 2 → ℝ => (1 / 10 : ℝ)) (0 : (Fin 2 → ℝ) →L[ℝ] ℝ) (lift firstR x) := hasFDerivAt_const _ _
      refine (this.congr_fderiv ?_).congr_of_eventuallyEq (Filter.Eventually.of_forall fun y => ?_)
      · ext v
        simp [chaseD, Matrix.mulVec, dotProduct, Fin.sum_univ_two]
      · simp [chaseF]
  lip := by
    intro t _ x z _ _ v
    have e : chaseD (lift firstR x) t *ᵥ v - chaseD (lift firstR z) t *ᵥ v = ![(Real.cos (z () - t) - Real.cos (x () - t)) / 2 * v 0, 0] := by
      rw [firstR_lift, firstR_lift]; funext i; fin_cases i <;> simp [chaseD, Matrix.mulVec, dotProduct, Fin.sum_univ_two]; ring
    have e2 : lift firstR x - lift firstR z = ![x () - z (), 0] := by rw [firstR_lift, firstR_lift]; funext i; fin_cases i <;> simp
    have h1 : |v 0| ≤ ‖eu (Fin 2) v‖ := by
      rw [show v = ![v 0, v 1] by funext i; fin_cases i <;> simp]
      exact le_eu_two _ _ _ (abs_nonneg _) (by rw [sq_abs]; simp; positivity)
    have h2 : |x () - z ()| ≤ ‖eu (Fin 2) ![x () - z (), 0]‖ := le_eu_two _ _ _ (abs_nonneg _) (by rw [sq_abs]; simp)
    rw [e, e2]
    refine le_trans (eu_two_le _ _ (1 / 2 * |x () - z ()| * |v 0|) (by positivity) ?_) (by gcongr)
    have h : (Real.cos (z () - t) - Real.cos (x () - t)) ^ 2 ≤ (x () - z ()) ^ 2 := sq_le_sq.2 ((cos_lip _ _).trans (by rw [show z () - t - (x () - t) = -(x () - z ()) by ring, abs_neg]))
    simp only [mul_pow, sq_abs]
    nlinarith [mul_le_mul_of_nonneg_right h (sq_nonneg (v 0))]
  bound := by
    intro t ht x hx
    rw [firstR_lift] at hx ⊢
    have h1 := abs_le.1 (show |x ()| ≤ 2 from hx)
    have h2 := ht.1
    have h3 := ht.2
    have h5 := Real.neg_one_le_sin (x () - t)
    have h6 := Real.sin_le_one (x () - t)
    refine eu_two_le _ _ _ (by norm_num) ?_
    simp only [Matrix.cons_val_zero]
    have h7 : |1 - (x () - t) - Real.sin (x () - t) / 2| ≤ 5 := abs_le.2 ⟨by linarith, by linarith⟩
    have := pow_le_pow_left₀ (abs_nonneg _) h7 2
    rw [sq_abs] at this
    linarith
  γ0 := by norm_num
  F0 := by norm_num

theorem chase_best (t : ℝ) : best firstR (chaseExact t) = ![t, 0] := by
  rw [best, firstR_lift]
  funext i; fin_cases i <;> simp [coords, firstR_lift, chaseExact, firstR, Matrix.mulVec, dotProduct, Fin.sum_univ_two, lift]

theorem chase_near (T : ℝ) (hT : T ≤ 1) : ∀ t ∈ Set.Icc (0:ℝ) T, ∃ z, ‖eu (Fin 2) (chaseExact t) - eu (Fin 2) (lift firstR z)‖ ≤ 1 / 10 := by
  intro t ht
  refine ⟨fun _ => t, ?_⟩
  rw [← map_sub, show chaseExact t - lift firstR (fun _ => t) = ![0, t / 10] by rw [firstR_lift]; funext i; fin_cases i <;> simp [chaseExact]]
  have h1 := ht.1
  have h2 := ht.2
  exact eu_two_le _ _ _ (by norm_num) (by nlinarith)

theorem chase_same (T : ℝ) : ∀ t ∈ Set.Icc (0:ℝ) T, ‖eu (Fin 2) (chaseF (chaseExact t) t) - eu (Fin 2) (chaseF (best firstR (chaseExact t)) t)‖ ≤ 0 := by
  intro t _
  rw [chase_best, ← map_sub, chase_sub]
  refine eu_two_le _ _ _ le_rfl (by simp [chaseExact])

theorem chase_tube (T d : ℝ) (hT : T ≤ 1) (hd : d ≤ 1) : Tube firstR chaseExact 0 T d ⊆ {y | |y 0| ≤ 2} := by
  rintro y ⟨t, ht, x, rfl, h⟩
  have h1 := ht.1
  have h2 := ht.2
  rw [chase_best, firstR_lift, ← map_sub, show (![x (), 0] : Fin 2 → ℝ) - ![t, 0] = ![x () - t, 0] by funext i; fin_cases i <;> simp] at h
  have h3 : |x () - t| ≤ 1 := (le_eu_two (x () - t) 0 _ (abs_nonneg _) (by rw [sq_abs]; simp)).trans (h.trans hd)
  have h4 := abs_le.1 h3
  rw [firstR_lift]
  exact abs_le.2 ⟨by show -2 ≤ x (); linarith, by show x () ≤ 2; linarith⟩

theorem chase_start : ‖eu (Fin 2) (lift firstR 0) - eu (Fin 2) (best firstR (chaseExact 0))‖ = 0 := by
  rw [chase_best, firstR_lift]; simp

theorem chase_dot (y z : Fin 2 → ℝ) (t : ℝ) : (chaseF y t - chaseF z t) ⬝ᵥ (y - z) ≤ 0 := by
  have h := chase_monotone y z t
  rwa [← map_sub, ← map_sub, Lemmas.GaussNewtonConvergence.eu_in, dotProduct_comm] at h

theorem chase_affords1 : Affords (cfgR (1 / 10 ^ 6)) (1 / 100) 1 (1 / 2) 6 5 := by
  constructor <;> norm_num [cfgR]
theorem chase_affords2 : Affords (cfgR (1 / 10 ^ 6)) (1 / 100) 2 (1 / 2) 6 5 := by
  constructor <;> norm_num [cfgR]

theorem trial_until {T : ℝ} (hT : T ≤ 1) : TrialTame firstR chaseF chaseD {y | |y 0| ≤ 2} 0 T (1 / 2) 6 :=
  have h : ∀ {t : ℝ}, t ∈ Set.Icc 0 T → t ∈ Set.Icc (0:ℝ) 1 := fun ht => ⟨ht.1, ht.2.trans hT⟩
  ⟨fun t ht => chase_trial.jac t (h ht), fun t ht => chase_trial.lip t (h ht), fun t ht => chase_trial.bound t (h ht), chase_trial.γ0, chase_trial.F0⟩

theorem exp_small {x : ℝ} (h : x ≤ 1) : Real.exp x ≤ 3 := (Real.exp_le_exp.2 h).trans (by have := Real.exp_one_lt_d9; linarith)

example (y : Fin 2 → ℝ) (z : Unit → ℝ) := C95_best firstR firstR_orthonormal y z
/-- the projection moves states, and the bound is not trivial -/
example : best firstR ![1, 1] = ![1, 0] := by
  rw [best, firstR_lift]
  funext i; fin_cases i <;> simp [coords, firstR, Matrix.mulVec, dotProduct, Fin.sum_univ_two, lift]

/-- any hundred steps of at most 1/100 -/
example (dts : List ℝ) (hN : dts.length ≤ 100) (hdt : ∀ d ∈ dts, 0 ≤ d ∧ d ≤ 1 / 100) (hT : 0 + dts.sum ≤ 1) :=
  C95_bdf1_monotone chaseR_is firstR_orthonormal (gst0 (Fin 2)) (newStepperR .BDF1) envR (cfgR (1 / 10 ^ 6)) _ id (exactNewton_eu _) regR (fun _ => .created _ rfl) (by simp [Ready, newStepperR, freshPMem]) dts 0 0 (1 / 100) 1 (by norm_num) hdt hT
    {y | |y 0| ≤ 2} (1 / 2) 6 chase_trial 5 chase_affords1 chase_dot chaseExact 0 0 (1 / 10) le_rfl le_rfl (chase_solves _) (chase_smooth _) (chase_same _) (chase_near _ le_rfl)
    (chase_tube _ _ le_rfl (by
      rw [chase_start]
      have : (dts.length : ℝ) ≤ 100 := by exact_mod_cast hN
      simp only [cfgR]; nlinarith))

/-- a hundred steps of 1/100 -/
example :=
  C95_bdf2_monotone chaseR_is firstR_orthonormal (gst0 (Fin 2)) (newStepperR .BDF2) envR (cfgR (1 / 10 ^ 6)) _ id (exactNewton_eu _) regR (fun _ => .created _ rfl) (by simp [Ready, newStepperR, freshPMem]) 100 0 0 (1 / 100) 1 (by norm_num) (by norm_num)
    {y | |y 0| ≤ 2} (1 / 2) 6 chase_trial 5 chase_affords1 chase_dot chaseExact _ 0 0 0 (1 / 10) le_rfl le_rfl le_rfl (chase_solves _) (chase_smooth2 _) (chase_same _) (chase_near _ le_rfl)
    (chase_tube _ _ le_rfl (by rw [chase_start]; norm_num [cfgR]))

/-- any twenty-five steps of at most 1/100 -/
example (dts : List ℝ) (hN : dts.length ≤ 25) (hdt : ∀ d ∈ dts, 0 ≤ d ∧ d ≤ 1 / 100) (hT : 0 + dts.sum ≤ 1 / 4) :=
  C95_bdf1 chaseR_is firstR_orthonormal (gst0 (Fin 2)) (newStepperR .BDF1) envR (cfgR (1 / 10 ^ 6)) _ id (exactNewton_eu _) regR (fun _ => .created _ rfl) (by simp [Ready, newStepperR, freshPMem]) dts 0 0 (1 / 100) (1 / 4) (by norm_num) hdt hT
    {y | |y 0| ≤ 2} (1 / 2) 6 (trial_until (by norm_num)) 5 chase_affords2 (3 / 2) (by norm_num) (by norm_num) chase_lip chaseExact 0 (1 / 10) le_rfl (by norm_num) (chase_solves _) (chase_smooth _) (chase_near _ (by norm_num))
    (chase_tube _ _ (by norm_num) (by
      rw [chase_start]
      have : (dts.length : ℝ) ≤ 25 := by exact_mod_cast hN
      have h := exp_small (show 2 * (3 / 2) * (1 / 4 - 0 : ℝ) ≤ 1 by norm_num)
      have h2 := Real.exp_pos (2 * (3 / 2) * (1 / 4 - 0))
      have h3 : (0:ℝ) + ((dts.length : ℝ) * (cfgR (1 / 10 ^ 6)).tol + (1 / 4 - 0) * (3 / 2 * (1 / 10) + 0 * (1 / 100) / 2)) ≤ 1 / 10 := by simp only [cfgR]; linarith
      have h4 := mul_le_mul h h3 (by simp only [cfgR]; positivity) (by norm_num)
      simp only [cfgR] at h4 ⊢
      linarith))
example (dts : List ℝ) (hN : dts.length ≤ 25) (hdt : ∀ d ∈ dts, 0 ≤ d ∧ d ≤ 1 / 100) (hT : 0 + dts.sum ≤ 1 / 4) :=
  C95_crank_nicolson chaseR_is firstR_orthonormal (gst0 (Fin 2)) (newStepperR .CrankNicolson) envR (cfgR (1 / 10 ^ 6)) _ id (exactNewton_eu _) regR (fun _ => .created _ rfl) (by simp [Ready, newStepperR, freshPMem]) dts 0 0 (1 / 100) (1 / 4) hdt hT
    {y | |y 0| ≤ 2} (1 / 2) 6 (trial_until (by norm_num)) 5 chase_affords2 (3 / 2) (by norm_num) (by norm_num) chase_lip chaseExact _ 0 0 (1 / 10) le_rfl (by norm_num) (chase_solves _) (chase_smooth2 _) (chase_near _ (by norm_num))
    (chase_tube _ _ (by norm_num) (by
      rw [chase_start]
      have : (dts.length : ℝ) ≤ 25 := by exact_mod_cast hN
      have h := exp_small (show 3 / 2 * (3 / 2) * (1 / 4 - 0 : ℝ) ≤ 1 by norm_num)
      have h3 : (0:ℝ) + ((dts.length : ℝ) * (cfgR (1 / 10 ^ 6)).tol + (1 / 4 - 0) * (3 / 2 * (1 / 10) + 5 / 12 * 0 * (1 / 100) ^ 2)) ≤ 1 / 10 := by simp only [cfgR]; linarith
      have h4 := mul_le_mul h h3 (by simp only [cfgR]; positivity) (by norm_num)
      simp only [cfgR] at h4 ⊢
      linarith))
example :=
  C95_bdf2 chaseR_is firstR_orthonormal (gst0 (Fin 2)) (newStepperR .BDF2) envR (cfgR (1 / 10 ^ 6)) _ id (exactNewton_eu _) regR (fun _ => .created _ rfl) (by simp [Ready, newStepperR, freshPMem]) 5 0 0 (1 / 100) (1 / 20) (by norm_num) (by norm_num)
    {y | |y 0| ≤ 2} (1 / 2) 6 (trial_until (by norm_num)) 5 chase_affords2 (3 / 2) (by norm_num) (by norm_num) chase_lip chaseExact _ 0 0 (1 / 10) le_rfl le_rfl (by norm_num) (chase_solves _) (chase_smooth2 _) (chase_near _ (by norm_num))
    (chase_tube _ _ (by norm_num) (by
      rw [chase_start]
      have h := exp_small (show 12 * (3 / 2) * (1 / 20 - 0 : ℝ) ≤ 1 by norm_num)
      norm_num [cfgR] at h ⊢
      linarith))

/-- to 24/100 in steps of 1/100, with and without recovery -/
example (rec : Bool) :=
  C95_target chaseR_is firstR_orthonormal (gst0 (Fin 2)) (newStepperR .CrankNicolson) envR (cfgR (1 / 10 ^ 6)) _ id (exactNewton_eu _) regR (fun _ => .created _ rfl) (by simp [Ready, newStepperR, freshPMem]) rec 0 (1 / 100) (1 / 100) le_rfl (by norm_num)
    hundredth3 hundredth5 silent (hundredth_obliging rec) silent_patient 0 (24 / 100) (by norm_num) 25 100 (by norm_num) (by norm_num [int32Max]) (by norm_num) 0 ()
    {y | |y 0| ≤ 2} (1 / 2) 6 (trial_until (by norm_num)) 5 chase_affords2 (3 / 2) (by norm_num) (by norm_num) chase_lip chaseExact _ 0 0 (1 / 10) le_rfl (by norm_num) (chase_solves _) (chase_smooth2 _) (chase_near _ (by norm_num))
    (chase_tube _ _ (by norm_num) (by
      rw [chase_start]
      have h := exp_small (show 3 / 2 * (3 / 2) * (24 / 100 + 1 / 100 - 0 : ℝ) ≤ 1 by norm_num)
      norm_num [cfgR] at h ⊢
      linarith))
example :=
  C95_n_steps chaseR_is firstR_orthonormal (gst0 (Fin 2)) (newStepperR .BDF2) envR (cfgR (1 / 10 ^ 6)) _ id (exactNewton_eu _) regR (fun _ => .created _ rfl) (by simp [Ready, newStepperR, freshPMem]) 0 (1 / 100) (by norm_num)
    hundredth3 hundredth5 silent (by simp only [Obliging, Bool.false_eq_true, if_false]; exact fun i t d u => ⟨1 / 100, u, rfl, rfl⟩) silent_patient 100 (by norm_num [int32Max]) 0 0 ()
    {y | |y 0| ≤ 2} (1 / 2) 6 (trial_until (by norm_num)) 5 chase_affords1 chase_dot chaseExact _ 0 0 0 (1 / 10) le_rfl le_rfl le_rfl (chase_solves _) (chase_smooth2 _) (chase_same _) (chase_near _ (by norm_num))
    (chase_tube _ _ (by norm_num) (by rw [chase_start]; norm_num [cfgR]))

end Examples
end Pressio.Props
