import Verif.Spec.ReducedModel
import Verif.Props.GalerkinRun
import Verif.Props.ImplicitStability

/-
  C81: error of implicit runs of reduced models against the exact solution of the full-order model.
-/
namespace Pressio.Props
set_option autoImplicit false
set_option linter.unusedSectionVars false
open Pressio Matrix Pressio.Model.Galerkin Pressio.Spec.Galerkin Pressio.Model.Implicit Pressio.Spec.Implicit Pressio.Lemmas.Implicit Pressio.Spec.Reduced
open Pressio.Model.Explicit (Scheme)

section
variable {E m n A B J : Type} [NormedAddCommGroup E] [InnerProductSpace ℝ E] [Fintype m] [Fintype n] [AddCommGroup J] [Module ℝ J] [One J]
local notation "⟪" x ", " y "⟫" => @inner ℝ _ _ x y

theorem lift_affine (S : Trial ℝ m n) (x y : n → ℝ) : lift S x - lift S y = S.basis *ᵥ (x - y) := by
  unfold lift; rw [Matrix.mulVec_sub]; abel

theorem accepted_lift (S : Trial ℝ m n) (x0 : n → ℝ) (rs : List (Record ℝ (n → ℝ) A)) :
    accepted (lift S x0) (rs.map (liftRecord (B := B) S)) = (accepted x0 rs).map (lift S) := by
  unfold accepted
  rw [List.filter_map, List.map_append, List.map_map, List.map_reverse, List.map_map]
  rfl

theorem timeAfter_lift (S : Trial ℝ m n) (t0 : ℝ) (rs : List (Record ℝ (n → ℝ) A)) : timeAfter t0 (rs.map (liftRecord (B := B) S)) = timeAfter t0 rs := by
  unfold timeAfter
  rw [List.filter_map, List.foldl_map]
  rfl

/-- the equations of the schemes at lifted states: those of the reduced model, lifted, and the defect -/
theorem residual_lift (ι : (m → ℝ) →ₗ[ℝ] E) (S : Trial ℝ m n) (f : (m → ℝ) → ℝ → m → ℝ) (g : (n → ℝ) → ℝ → n → ℝ) (ε : ℝ) (name : Scheme) (hist : List (n → ℝ)) (t dt : ℝ) (hdt : 0 ≤ dt) (x : n → ℝ)
    (h1 : defect ι S f g x (t + dt) ≤ ε) (h2 : ∀ yn l, hist = yn :: l → defect ι S f g yn t ≤ ε) :
    ‖ι (residualOf name f (hist.map (lift S)) t dt (lift S x))‖ ≤ ‖ι (S.basis *ᵥ residualOf name g hist t dt x)‖ + dt * ε := by
  have h0 : 0 ≤ ε := (norm_nonneg _).trans h1
  have key : ∀ (c : ℝ) (u : m → ℝ) (w : n → ℝ), 0 ≤ c → c ≤ dt → u = S.basis *ᵥ w →
      ‖ι (u - c • f (lift S x) (t + dt))‖ ≤ ‖ι (S.basis *ᵥ (w - c • g x (t + dt)))‖ + dt * ε := by
    intro c u w hc hcd hu
    have e : ι (u - c • f (lift S x) (t + dt)) = ι (S.basis *ᵥ (w - c • g x (t + dt))) - c • (ι (f (lift S x) (t + dt)) - ι (S.basis *ᵥ g x (t + dt))) := by
      rw [hu, Matrix.mulVec_sub, Matrix.mulVec_smul, map_sub, map_sub, map_smul, map_smul]; module
    rw [e]
    refine (norm_sub_le _ _).trans (add_le_add le_rfl ?_)
    rw [norm_smul, Real.norm_of_nonneg hc]
    exact mul_le_mul hcd h1 (norm_nonneg _) hdt
  have one : ∀ yn : n → ℝ, ‖ι (lift S x - lift S yn - dt • f (lift S x) (t + dt))‖ ≤ ‖ι (S.basis *ᵥ (x - yn - dt • g x (t + dt)))‖ + dt * ε :=
    fun yn => key dt _ _ hdt le_rfl (lift_affine S x yn)
  have two : ∀ yn ynm1 : n → ℝ, ‖ι (lift S x - ((4:ℝ)/3) • lift S yn + ((1:ℝ)/3) • lift S ynm1 - ((2:ℝ)/3 * dt) • f (lift S x) (t + dt))‖ ≤
      ‖ι (S.basis *ᵥ (x - ((4:ℝ)/3) • yn + ((1:ℝ)/3) • ynm1 - ((2:ℝ)/3 * dt) • g x (t + dt)))‖ + dt * ε := by
    intro yn ynm1
    refine key _ _ _ (by positivity) (by linarith) ?_
    simp only [lift, Matrix.mulVec_add, Matrix.mulVec_sub, Matrix.mulVec_smul]
    module
  have cn : ∀ yn : n → ℝ, defect ι S f g yn t ≤ ε → ‖ι (lift S x - lift S yn - (dt / 2) • (f (lift S x) (t + dt) + f (lift S yn) t))‖ ≤ ‖ι (S.basis *ᵥ (x - yn - (dt / 2) • (g x (t + dt) + g yn t)))‖ + dt * ε := by
    intro yn h2
    have e : ι (lift S x - lift S yn - (dt / 2) • (f (lift S x) (t + dt) + f (lift S yn) t)) = ι (S.basis *ᵥ (x - yn - (dt / 2) • (g x (t + dt) + g yn t))) -
        (dt / 2) • ((ι (f (lift S x) (t + dt)) - ι (S.basis *ᵥ g x (t + dt))) + (ι (f (lift S yn) t) - ι (S.basis *ᵥ g yn t))) := by
      rw [lift_affine]
      simp only [Matrix.mulVec_sub, Matrix.mulVec_smul, Matrix.mulVec_add, map_sub, map_smul, map_add]
      module
    rw [e]
    refine (norm_sub_le _ _).trans (add_le_add le_rfl ?_)
    rw [norm_smul, Real.norm_of_nonneg (by positivity)]
    have := (norm_add_le (ι (f (lift S x) (t + dt)) - ι (S.basis *ᵥ g x (t + dt))) (ι (f (lift S yn) t) - ι (S.basis *ᵥ g yn t))).trans (add_le_add h1 h2)
    have := mul_le_mul_of_nonneg_left this (by positivity : 0 ≤ dt / 2)
    linarith
  have zero : (0:ℝ) ≤ 0 + dt * ε := by positivity
  cases name <;> rcases hist with _ | ⟨a, _ | ⟨b, l⟩⟩ <;>
    simp only [residualOf, List.map_cons, List.map_nil, Matrix.mulVec_zero, map_zero, norm_zero] <;>
    first | exact zero | exact one _ | exact two _ _ | exact cn _ (h2 _ _ rfl)

/-- **The lifted states of a converged reduced run satisfy the time-discrete equations of the full-order model up to the tolerance and the defect.** -/
theorem lifted_residuals (ι : (m → ℝ) →ₗ[ℝ] E) (S : Trial ℝ m n) (f : (m → ℝ) → ℝ → m → ℝ) (g : (n → ℝ) → ℝ → n → ℝ) (ε tol : ℝ) (name : Scheme) (sys : ISystem ℝ (n → ℝ) J)
    (mem : SMem ℝ (n → ℝ) (n → ℝ) PMem) (atts : List (Attempt ℝ (n → ℝ) ((n → ℝ) × Option J))) (t0 : ℝ) (x0 : n → ℝ)
    (R : ConvergedRun (ι ∘ₗ Matrix.mulVecLin S.basis) tol name sys g mem atts t0 x0) (hdt : ∀ a ∈ atts, 0 ≤ a.dt) (hε : DefectOn ι S f g ε x0 t0 (drive (stdStep name sys) atts t0 [x0] x0 mem)) :
    ResidualRun (A := Unit) ι tol ε name f ((drive (stdStep name sys) atts t0 [x0] x0 mem).map (liftRecord S)) t0 (lift S x0) := by
  have split : ∀ {pre post : List (Record ℝ (m → ℝ) Unit)} {r}, (drive (stdStep name sys) atts t0 [x0] x0 mem).map (liftRecord S) = pre ++ r :: post →
      ∃ pre' post' r', drive (stdStep name sys) atts t0 [x0] x0 mem = pre' ++ r' :: post' ∧ pre = pre'.map (liftRecord S) ∧ r = liftRecord S r' := by
    intro pre post r h
    obtain ⟨l1, l2, e1, e2, e3⟩ := List.map_eq_append_iff.1 h
    obtain ⟨r', l3, f1, f2, f3⟩ := List.map_eq_cons_iff.1 e3
    exact ⟨l1, l3, r', by rw [e1, f1], e2.symm, f2.symm⟩
  refine ⟨fun {pre post r} h hr => ?_, fun {pre post r} h => ?_, fun {pre post r} h hr => ?_⟩
  · obtain ⟨pre', post', r', e1, rfl, rfl⟩ := split h
    have hres := R.residual e1 hr
    rw [accepted_lift, timeAfter_lift]
    have h0 : 0 ≤ r'.dt := drive_nonneg name _ tol sys g mem atts t0 x0 R hdt r' (by rw [e1]; simp)
    refine (residual_lift ι S f g ε name (accepted x0 pre') _ r'.dt h0 r'.y ?_ (fun yn l hl => hε pre' (r' :: post') yn l e1 hl)).trans (add_le_add hres le_rfl)
    have hn : r'.stop.isNone = true := by rw [show r'.stop = none from hr]; rfl
    have := hε (pre' ++ [r']) post' r'.y (accepted x0 pre') (by rw [e1]; simp) (by rw [accepted_snoc, if_pos hn])
    rwa [timeAfter_snoc, if_pos hn] at this
  · obtain ⟨pre', post', r', e1, rfl, rfl⟩ := split h
    rw [timeAfter_lift]; exact R.time e1
  · obtain ⟨pre', post', r', e1, rfl, rfl⟩ := split h
    exact R.tol_nonneg e1 hr

/-- bounds for the lifted records are bounds for the run -/
theorem bound_of_lifted (S : Trial ℝ m n) (x0 : n → ℝ) (t0 : ℝ) (rs : List (Record ℝ (n → ℝ) A)) (P : (m → ℝ) → Nat → ℝ → Prop)
    (h : ∀ pre post, rs.map (liftRecord (B := Unit) S) = pre ++ post → ∃ y l, accepted (lift S x0) pre = y :: l ∧ P y l.length (timeAfter t0 pre)) :
    ∀ pre post, rs = pre ++ post → ∃ x l, accepted x0 pre = x :: l ∧ P (lift S x) l.length (timeAfter t0 pre) := by
  intro pre post e
  obtain ⟨y, l, h1, h2⟩ := h (pre.map (liftRecord S)) (post.map (liftRecord S)) (by rw [e, List.map_append])
  rw [accepted_lift] at h1
  rw [timeAfter_lift] at h2
  obtain ⟨x, l', e1, e2, e3⟩ := List.map_eq_cons_iff.1 h1
  refine ⟨x, l', e1, ?_⟩
  rw [← e3, List.length_map, ← e2] at h2
  exact h2

theorem stepsIn_lift (S : Trial ℝ m n) (P : ℝ → Prop) (T : ℝ) (rs : List (Record ℝ (n → ℝ) A)) (h : StepsIn P T rs) : StepsIn P T (rs.map (liftRecord (B := Unit) S)) := by
  intro r hr hs
  obtain ⟨r', h1, rfl⟩ := List.mem_map.1 hr
  exact h r' h1 hs

/-- **C81, BDF1, monotone full-order model** (`⟪f(y,t) - f(z,t), y - z⟫ ≤ 0`, any stiffness). Implicit run of a reduced model whose defect with respect to the FOM is at most `ε` at the accepted states, with any solvers that converge to the tolerance: at every point of
    the run the reconstructed state differs from the exact solution of the FOM at that time by at most the initial error, plus the tolerance for every step, plus the elapsed time times (`ε` + the first-order error). -/
theorem C81_bdf1_monotone (ι : (m → ℝ) →ₗ[ℝ] E) (S : Trial ℝ m n) (f : (m → ℝ) → ℝ → m → ℝ) (g : (n → ℝ) → ℝ → n → ℝ) (ε : ℝ) (h0 : 0 ≤ ε) (tol : ℝ) (sys : ISystem ℝ (n → ℝ) J)
    (mem : SMem ℝ (n → ℝ) (n → ℝ) PMem) (atts : List (Attempt ℝ (n → ℝ) ((n → ℝ) × Option J))) (t0 : ℝ) (x0 : n → ℝ)
    (R : ConvergedRun (ι ∘ₗ Matrix.mulVecLin S.basis) tol .BDF1 sys g mem atts t0 x0) (hε : DefectOn ι S f g ε x0 t0 (drive (stdStep .BDF1 sys) atts t0 [x0] x0 mem)) (hdt : ∀ a ∈ atts, 0 ≤ a.dt) (H T : ℝ) (hS : StepsIn (fun h => h ≤ H) T (drive (stdStep .BDF1 sys) atts t0 [x0] x0 mem))
    (hmono : ∀ y z t, ⟪ι (f y t) - ι (f z t), ι y - ι z⟫ ≤ 0) (ψ : ℝ → m → ℝ) (M : ℝ) (hM0 : 0 ≤ M) (hH : 0 ≤ H) (hψ : SolvesIn ι f ψ t0 T) (hM : Smooth1In ι f ψ M t0 T) :
    ∀ pre post, drive (stdStep .BDF1 sys) atts t0 [x0] x0 mem = pre ++ post → ∃ x l, accepted x0 pre = x :: l ∧
      ‖ι (lift S x) - ι (ψ (timeAfter t0 pre))‖ ≤ ‖ι (lift S x0) - ι (ψ t0)‖ + (l.length * tol + (timeAfter t0 pre - t0) * (ε + M * H / 2)) :=
  bound_of_lifted S x0 t0 _ (fun y k t => ‖ι y - ι (ψ t)‖ ≤ ‖ι (lift S x0) - ι (ψ t0)‖ + (k * tol + (t - t0) * (ε + M * H / 2)))
    (residuals_bdf1_monotone ι tol ε f _ t0 (lift S x0) (lifted_residuals ι S f g ε tol .BDF1 sys mem atts t0 x0 R hdt hε) h0 H T (stepsIn_lift S _ T _ hS) hmono ψ M hM0 hH hψ hM)

/-- **C81, BDF2, monotone full-order model, constant steps**: second order up to the defect. -/
theorem C81_bdf2_monotone (ι : (m → ℝ) →ₗ[ℝ] E) (S : Trial ℝ m n) (f : (m → ℝ) → ℝ → m → ℝ) (g : (n → ℝ) → ℝ → n → ℝ) (ε : ℝ) (h0 : 0 ≤ ε) (tol : ℝ) (sys : ISystem ℝ (n → ℝ) J)
    (mem : SMem ℝ (n → ℝ) (n → ℝ) PMem) (atts : List (Attempt ℝ (n → ℝ) ((n → ℝ) × Option J))) (t0 : ℝ) (x0 : n → ℝ)
    (R : ConvergedRun (ι ∘ₗ Matrix.mulVecLin S.basis) tol .BDF2 sys g mem atts t0 x0) (hε : DefectOn ι S f g ε x0 t0 (drive (stdStep .BDF2 sys) atts t0 [x0] x0 mem)) (hdt : ∀ a ∈ atts, 0 ≤ a.dt) (η T : ℝ) (hS : StepsIn (fun h => h = η) T (drive (stdStep .BDF2 sys) atts t0 [x0] x0 mem))
    (hmono : ∀ y z t, ⟪ι (f y t) - ι (f z t), ι y - ι z⟫ ≤ 0) (ψ : ℝ → m → ℝ) (ψ2 : ℝ → E) (M2 M3 : ℝ) (hM20 : 0 ≤ M2) (hM30 : 0 ≤ M3) (hψ : SolvesIn ι f ψ t0 T) (hM : Smooth2In ι f ψ ψ2 M2 M3 t0 T) :
    ∀ pre post, drive (stdStep .BDF2 sys) atts t0 [x0] x0 mem = pre ++ post → ∃ x l, accepted x0 pre = x :: l ∧
      ‖ι (lift S x) - ι (ψ (timeAfter t0 pre))‖ ≤ Real.sqrt 2 * ‖ι (lift S x0) - ι (ψ t0)‖ + 3 * M2 * η ^ 2 + 6 * (l.length * tol) + (timeAfter t0 pre - t0) * (6 * ε + 4 * M3 * η ^ 2) :=
  bound_of_lifted S x0 t0 _ (fun y k t => ‖ι y - ι (ψ t)‖ ≤ Real.sqrt 2 * ‖ι (lift S x0) - ι (ψ t0)‖ + 3 * M2 * η ^ 2 + 6 * (k * tol) + (t - t0) * (6 * ε + 4 * M3 * η ^ 2))
    (residuals_bdf2_monotone ι tol ε f _ t0 (lift S x0) (lifted_residuals ι S f g ε tol .BDF2 sys mem atts t0 x0 R hdt hε) h0 η T (stepsIn_lift S _ T _ hS) hmono ψ ψ2 M2 M3 hM20 hM30 hψ hM)

/-- **C81, BDF1, Lipschitz full-order model.** -/
theorem C81_bdf1_lipschitz (ι : (m → ℝ) →ₗ[ℝ] E) (S : Trial ℝ m n) (f : (m → ℝ) → ℝ → m → ℝ) (g : (n → ℝ) → ℝ → n → ℝ) (ε : ℝ) (h0 : 0 ≤ ε) (tol : ℝ) (sys : ISystem ℝ (n → ℝ) J)
    (mem : SMem ℝ (n → ℝ) (n → ℝ) PMem) (atts : List (Attempt ℝ (n → ℝ) ((n → ℝ) × Option J))) (t0 : ℝ) (x0 : n → ℝ)
    (R : ConvergedRun (ι ∘ₗ Matrix.mulVecLin S.basis) tol .BDF1 sys g mem atts t0 x0) (hε : DefectOn ι S f g ε x0 t0 (drive (stdStep .BDF1 sys) atts t0 [x0] x0 mem)) (hdt : ∀ a ∈ atts, 0 ≤ a.dt) (H T : ℝ) (hS : StepsIn (fun h => h ≤ H) T (drive (stdStep .BDF1 sys) atts t0 [x0] x0 mem))
    (L : ℝ) (hL : 0 ≤ L) (hHL : H * L ≤ 1 / 2) (hlip : ∀ y z t, ‖ι (f y t) - ι (f z t)‖ ≤ L * ‖ι y - ι z‖) (ψ : ℝ → m → ℝ) (M : ℝ) (hM0 : 0 ≤ M) (hH : 0 ≤ H) (hψ : SolvesIn ι f ψ t0 T) (hM : Smooth1In ι f ψ M t0 T) :
    ∀ pre post, drive (stdStep .BDF1 sys) atts t0 [x0] x0 mem = pre ++ post → ∃ x l, accepted x0 pre = x :: l ∧
      ‖ι (lift S x) - ι (ψ (timeAfter t0 pre))‖ ≤ Real.exp (2 * L * (timeAfter t0 pre - t0)) * (‖ι (lift S x0) - ι (ψ t0)‖ + (l.length * tol + (timeAfter t0 pre - t0) * (ε + M * H / 2))) :=
  bound_of_lifted S x0 t0 _ (fun y k t => ‖ι y - ι (ψ t)‖ ≤ Real.exp (2 * L * (t - t0)) * (‖ι (lift S x0) - ι (ψ t0)‖ + (k * tol + (t - t0) * (ε + M * H / 2))))
    (residuals_bdf1_lipschitz ι tol ε f _ t0 (lift S x0) (lifted_residuals ι S f g ε tol .BDF1 sys mem atts t0 x0 R hdt hε) h0 H T (stepsIn_lift S _ T _ hS) L hL hHL hlip ψ M hM0 hH hψ hM)

/-- **C81, CrankNicolson, Lipschitz full-order model**: second order up to the defect. -/
theorem C81_crank_nicolson_lipschitz (ι : (m → ℝ) →ₗ[ℝ] E) (S : Trial ℝ m n) (f : (m → ℝ) → ℝ → m → ℝ) (g : (n → ℝ) → ℝ → n → ℝ) (ε : ℝ) (h0 : 0 ≤ ε) (tol : ℝ) (sys : ISystem ℝ (n → ℝ) J)
    (mem : SMem ℝ (n → ℝ) (n → ℝ) PMem) (atts : List (Attempt ℝ (n → ℝ) ((n → ℝ) × Option J))) (t0 : ℝ) (x0 : n → ℝ)
    (R : ConvergedRun (ι ∘ₗ Matrix.mulVecLin S.basis) tol .CrankNicolson sys g mem atts t0 x0) (hε : DefectOn ι S f g ε x0 t0 (drive (stdStep .CrankNicolson sys) atts t0 [x0] x0 mem)) (hdt : ∀ a ∈ atts, 0 ≤ a.dt) (H T : ℝ)
    (hS : StepsIn (fun h => h ≤ H) T (drive (stdStep .CrankNicolson sys) atts t0 [x0] x0 mem)) (L : ℝ) (hL : 0 ≤ L) (hHL : H * L ≤ 1)
    (hlip : ∀ y z t, ‖ι (f y t) - ι (f z t)‖ ≤ L * ‖ι y - ι z‖) (ψ : ℝ → m → ℝ) (ψ2 : ℝ → E) (M2 M3 : ℝ) (hM30 : 0 ≤ M3) (hψ : SolvesIn ι f ψ t0 T) (hM : Smooth2In ι f ψ ψ2 M2 M3 t0 T) :
    ∀ pre post, drive (stdStep .CrankNicolson sys) atts t0 [x0] x0 mem = pre ++ post → ∃ x l, accepted x0 pre = x :: l ∧
      ‖ι (lift S x) - ι (ψ (timeAfter t0 pre))‖ ≤ Real.exp (3 / 2 * L * (timeAfter t0 pre - t0)) * (‖ι (lift S x0) - ι (ψ t0)‖ + (l.length * tol + (timeAfter t0 pre - t0) * (ε + 5 / 12 * M3 * H ^ 2))) :=
  bound_of_lifted S x0 t0 _ (fun y k t => ‖ι y - ι (ψ t)‖ ≤ Real.exp (3 / 2 * L * (t - t0)) * (‖ι (lift S x0) - ι (ψ t0)‖ + (k * tol + (t - t0) * (ε + 5 / 12 * M3 * H ^ 2))))
    (residuals_crank_nicolson_lipschitz ι tol ε f _ t0 (lift S x0) (lifted_residuals ι S f g ε tol .CrankNicolson sys mem atts t0 x0 R hdt hε) h0 H T (stepsIn_lift S _ T _ hS) L hL hHL hlip ψ ψ2 M2 M3 hM30 hψ hM)

/-- **C81, BDF2, Lipschitz full-order model, constant steps**: second order up to the defect. -/
theorem C81_bdf2_lipschitz (ι : (m → ℝ) →ₗ[ℝ] E) (S : Trial ℝ m n) (f : (m → ℝ) → ℝ → m → ℝ) (g : (n → ℝ) → ℝ → n → ℝ) (ε : ℝ) (h0 : 0 ≤ ε) (tol : ℝ) (sys : ISystem ℝ (n → ℝ) J)
    (mem : SMem ℝ (n → ℝ) (n → ℝ) PMem) (atts : List (Attempt ℝ (n → ℝ) ((n → ℝ) × Option J))) (t0 : ℝ) (x0 : n → ℝ)
    (R : ConvergedRun (ι ∘ₗ Matrix.mulVecLin S.basis) tol .BDF2 sys g mem atts t0 x0) (hε : DefectOn ι S f g ε x0 t0 (drive (stdStep .BDF2 sys) atts t0 [x0] x0 mem)) (hdt : ∀ a ∈ atts, 0 ≤ a.dt) (η T : ℝ) (hS : StepsIn (fun h => h = η) T (drive (stdStep .BDF2 sys) atts t0 [x0] x0 mem))
    (L : ℝ) (hL : 0 ≤ L) (hHL : 6 * (η * L) ≤ 1 / 2) (hlip : ∀ y z t, ‖ι (f y t) - ι (f z t)‖ ≤ L * ‖ι y - ι z‖) (ψ : ℝ → m → ℝ) (ψ2 : ℝ → E) (M2 M3 : ℝ) (hM20 : 0 ≤ M2) (hM30 : 0 ≤ M3) (hψ : SolvesIn ι f ψ t0 T)
    (hM : Smooth2In ι f ψ ψ2 M2 M3 t0 T) :
    ∀ pre post, drive (stdStep .BDF2 sys) atts t0 [x0] x0 mem = pre ++ post → ∃ x l, accepted x0 pre = x :: l ∧
      ‖ι (lift S x) - ι (ψ (timeAfter t0 pre))‖ ≤ Real.exp (12 * L * (timeAfter t0 pre - t0)) * (Real.sqrt 2 * ‖ι (lift S x0) - ι (ψ t0)‖ + 3 * M2 * η ^ 2 + 6 * (l.length * tol) + (timeAfter t0 pre - t0) * (6 * ε + 4 * M3 * η ^ 2)) :=
  bound_of_lifted S x0 t0 _ (fun y k t => ‖ι y - ι (ψ t)‖ ≤ Real.exp (12 * L * (t - t0)) * (Real.sqrt 2 * ‖ι (lift S x0) - ι (ψ t0)‖ + 3 * M2 * η ^ 2 + 6 * (k * tol) + (t - t0) * (6 * ε + 4 * M3 * η ^ 2)))
    (residuals_bdf2_lipschitz ι tol ε f _ t0 (lift S x0) (lifted_residuals ι S f g ε tol .BDF2 sys mem atts t0 x0 R hdt hε) h0 η T (stepsIn_lift S _ T _ hS) L hL hHL hlip ψ ψ2 M2 M3 hM20 hM30 hψ hM)

end

/-! ### The reduced models of pressio -/
section
variable {m p q n : Type} [Fintype m] [Fintype p] [Fintype q] [Fintype n]

/-- a Galerkin object that computes the reduced operators, used by an implicit stepper -/
theorem reduced_system {G : (n → ℝ) → ℝ → Bool → Prog (GSt ℝ m p q n) Unit} {S : Trial ℝ m n} {fe : (m → ℝ) → ℝ → Except Exc (p → ℝ)} {De Me : (m → ℝ) → ℝ → Except Exc (Matrix p m ℝ)}
    {pv : ℝ → (p → ℝ) → n → ℝ} {pm : ℝ → Matrix p n ℝ → Matrix n n ℝ} (s0 : GSt ℝ m p q n) (hG : ∀ x t w s, Ends (G x t w s) (reduced S fe De Me (pv t) (pm t) x t false w s.J s.M)) :
    (∀ f : (m → ℝ) → ℝ → p → ℝ, (∀ y t v, fe y t = .ok v → v = f y t) → Evaluates (asISystem G s0) (fun x t => pv t (f (lift S x) t))) ∧
    ((∀ y t, fe y t ≠ .error .timeStepFailure) → (∀ y t, De y t ≠ .error .timeStepFailure) → NoTSF (asISystem G s0)) := by
  constructor
  · intro f hf x t w g j h
    have hE := hG x t w s0
    unfold asISystem at h
    unfold reduced at hE
    rcases hfe : fe (lift S x) t with e | v
    · rw [hfe] at hE
      obtain ⟨s, hs⟩ := hE
      simp [hs] at h
    · rw [hfe] at hE
      cases w with
      | false =>
        obtain ⟨s, hs, hv⟩ := hE
        simp only [Prod.mk.injEq] at hv
        simp only [hs, Except.ok.injEq, Prod.mk.injEq] at h
        rw [← h.1, hv.1, hf _ _ _ hfe]
      | true =>
        rcases hD : De (lift S x) t with e | D
        · rw [hD] at hE
          obtain ⟨s, hs⟩ := hE
          simp [hs] at h
        · rw [hD] at hE
          obtain ⟨s, hs, hv⟩ := hE
          simp only [Prod.mk.injEq] at hv
          simp only [hs, Except.ok.injEq, Prod.mk.injEq] at h
          rw [← h.1, hv.1, hf _ _ _ hfe]
  · intro h1 h2 x t w e junk h
    have hE := hG x t w s0
    unfold asISystem at h
    unfold reduced at hE
    rcases hfe : fe (lift S x) t with e' | v
    · rw [hfe] at hE
      obtain ⟨s, hs⟩ := hE
      simp only [hs, excOf, Except.error.injEq, Prod.mk.injEq] at h
      rw [← h.1]; rintro rfl; exact h1 _ _ hfe
    · rw [hfe] at hE
      cases w with
      | false =>
        obtain ⟨s, hs, hv⟩ := hE
        simp [hs] at h
      | true =>
        rcases hD : De (lift S x) t with e' | D
        · rw [hD] at hE
          obtain ⟨s, hs⟩ := hE
          simp only [hs, excOf, Except.error.injEq, Prod.mk.injEq] at h
          rw [← h.1]; rintro rfl; exact h2 _ _ hD
        · rw [hD] at hE
          obtain ⟨s, hs, hv⟩ := hE
          simp [hs] at h

variable {F : Fom ℝ m m n} {fe : (m → ℝ) → ℝ → Except Exc (m → ℝ)} {De Me : (m → ℝ) → ℝ → Except Exc (Matrix m m ℝ)}

/-- **C81, default Galerkin**: the reduced model is `x' = Phi^T f(lift x, t)`, its defect the part of `f` that is not seen by the projection. The FOM may throw. -/
theorem C81_default_galerkin_model (hF : FomIs F fe De Me) (S : Trial ℝ m n) (s0 : GSt ℝ m m q n) (f : (m → ℝ) → ℝ → m → ℝ) (hf : ∀ y t v, fe y t = .ok v → v = f y t) :
    Evaluates (asISystem (defaultRhsJac S F) s0) (fun x t => S.basisᵀ *ᵥ f (lift S x) t) ∧ (FomNoTSF fe De → NoTSF (asISystem (defaultRhsJac S F) s0)) :=
  have h := reduced_system (pv := fun _ => S.basisᵀ.mulVec) (pm := fun _ B => S.basisᵀ * B) s0 (fun x t w s => C49_default_rhs_jacobian hF S x t w s)
  ⟨h.1 f hf, fun hn => h.2 hn.1 hn.2⟩

variable {Fs : Fom ℝ m p n} {fs : (m → ℝ) → ℝ → Except Exc (p → ℝ)} {Ds Ms : (m → ℝ) → ℝ → Except Exc (Matrix p m ℝ)}

/-- **C81, hyper-reduced Galerkin**: the FOM `f` is evaluated on a sample mesh, `x' = H(f(lift x, t))`. -/
theorem C81_hyperreduced_galerkin_model (hF : FomIs Fs fs Ds Ms) {H : HypRed ℝ p n} {hv : ℝ → (p → ℝ) → n → ℝ} {hm : ℝ → Matrix p n ℝ → Matrix n n ℝ} (hH : HypIs H hv hm) (S : Trial ℝ m n) (s0 : GSt ℝ m p q n)
    (f : (m → ℝ) → ℝ → p → ℝ) (hf : ∀ y t v, fs y t = .ok v → v = f y t) :
    Evaluates (asISystem (hypredRhsJac S Fs H) s0) (fun x t => hv t (f (lift S x) t)) ∧
      ((∀ y t, fs y t ≠ .error .timeStepFailure) → (∀ y t, Ds y t ≠ .error .timeStepFailure) → NoTSF (asISystem (hypredRhsJac S Fs H) s0)) :=
  have h := reduced_system (pv := hv) (pm := hm) s0 (fun x t w s => C49_hypred_rhs_jacobian hF hH S x t w s)
  ⟨h.1 f hf, h.2⟩

/-- **C81, masked Galerkin**: `x' = H(mask(f(lift x, t)))`. -/
theorem C81_masked_galerkin_model (hF : FomIs Fs fs Ds Ms) {Mk : Masker ℝ p q n} {mv : (p → ℝ) → q → ℝ} {mm : Matrix p n ℝ → Matrix q n ℝ} (hM : MaskIs Mk mv mm)
    {H : HypRed ℝ q n} {hv : ℝ → (q → ℝ) → n → ℝ} {hm : ℝ → Matrix q n ℝ → Matrix n n ℝ} (hH : HypIs H hv hm) (S : Trial ℝ m n) (s0 : GSt ℝ m p q n)
    (f : (m → ℝ) → ℝ → p → ℝ) (hf : ∀ y t v, fs y t = .ok v → v = f y t) :
    Evaluates (asISystem (maskedRhsJac S Fs Mk H) s0) (fun x t => hv t (mv (f (lift S x) t))) ∧
      ((∀ y t, fs y t ≠ .error .timeStepFailure) → (∀ y t, Ds y t ≠ .error .timeStepFailure) → NoTSF (asISystem (maskedRhsJac S Fs Mk H) s0)) :=
  have h := reduced_system (pv := fun t v => hv t (mv v)) (pm := fun t B => hm t (mm B)) s0 (fun x t w s => C49_masked_rhs_jacobian hF hM hH S x t w s)
  ⟨h.1 f hf, h.2⟩

end
end Pressio.Props
