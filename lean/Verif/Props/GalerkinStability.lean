import Verif.Props.GalerkinError
import Verif.Props.GalerkinErrorExplicit
import Verif.Props.ImplicitNewtonRuns

/-
  C80: default Galerkin reduced models inherit stability of the full-order model; hyper-reduced ones do not.
-/
namespace Pressio.Props
set_option autoImplicit false
set_option linter.unusedSectionVars false
open Pressio Matrix Pressio.Model.Galerkin Pressio.Spec.Galerkin Pressio.Model.Implicit Pressio.Spec.Implicit Pressio.Lemmas.Implicit Pressio.Spec.Reduced Pressio.Model.Nonlinear Pressio.Spec.Nonlinear Pressio.Spec.SolverRun
open Pressio.Model.Explicit (Scheme)

local notation "⟪" x ", " y "⟫" => @inner ℝ _ _ x y

section
variable {m p q n L : Type} [Fintype m] [Fintype p] [Fintype q] [Fintype n] [DecidableEq n]

theorem eu_inner (u v : m → ℝ) : ⟪eu m u, eu m v⟫ = u ⬝ᵥ v := by
  simp only [eu, PiLp.inner_apply, dotProduct, LinearEquiv.coe_coe]
  refine Finset.sum_congr rfl (fun i _ => ?_)
  simp [mul_comm]

theorem eu_norm_mul (u : m → ℝ) : ‖eu m u‖ * ‖eu m u‖ = u ⬝ᵥ u := by rw [← real_inner_self_eq_norm_mul_norm, eu_inner]

theorem basis_dot (S : Trial ℝ m n) (v : m → ℝ) (x : n → ℝ) : (S.basisᵀ *ᵥ v) ⬝ᵥ x = v ⬝ᵥ (S.basis *ᵥ x) := by
  rw [Matrix.mulVec_transpose, Matrix.dotProduct_mulVec]

theorem eu_basis (S : Trial ℝ m n) (hS : Orthonormal S) (x : n → ℝ) : ‖eu m (S.basis *ᵥ x)‖ = ‖eu n x‖ := by
  have h : (S.basis *ᵥ x) ⬝ᵥ (S.basis *ᵥ x) = x ⬝ᵥ x := by
    rw [← basis_dot, Matrix.mulVec_mulVec, hS, Matrix.one_mulVec]
  rw [← eu_norm_mul, ← eu_norm_mul] at h
  exact (mul_self_inj_of_nonneg (norm_nonneg _) (norm_nonneg _)).1 h

theorem eu_basis_transpose (S : Trial ℝ m n) (hS : Orthonormal S) (v : m → ℝ) : ‖eu n (S.basisᵀ *ᵥ v)‖ ≤ ‖eu m v‖ := by
  have h : ‖eu n (S.basisᵀ *ᵥ v)‖ * ‖eu n (S.basisᵀ *ᵥ v)‖ ≤ ‖eu m v‖ * ‖eu n (S.basisᵀ *ᵥ v)‖ := by
    rw [eu_norm_mul, basis_dot, ← eu_inner, ← eu_basis S hS (S.basisᵀ *ᵥ v)]
    exact real_inner_le_norm _ _
  rcases (norm_nonneg (eu n (S.basisᵀ *ᵥ v))).eq_or_lt with h0 | h0
  · rw [← h0]; exact norm_nonneg _
  · exact le_of_mul_le_mul_right h h0

/-- the distance of two reconstructed states is the distance of the reduced states -/
theorem C80_isometry (S : Trial ℝ m n) (hS : Orthonormal S) (x z : n → ℝ) : ‖eu m (lift S x) - eu m (lift S z)‖ = ‖eu n x - eu n z‖ := by
  rw [← map_sub, ← map_sub, lift_affine, eu_basis S hS]

/-- **C80, optimality.** With orthonormal columns the velocity `Phi Phi^T v` of the default Galerkin model is the best approximation of the full-order velocity `v` in the trial space. -/
theorem C80_velocity_optimal (S : Trial ℝ m n) (hS : Orthonormal S) (v : m → ℝ) (z : n → ℝ) : ‖eu m v - eu m (S.basis *ᵥ (S.basisᵀ *ᵥ v))‖ ≤ ‖eu m v - eu m (S.basis *ᵥ z)‖ := by
  have h0 : S.basisᵀ *ᵥ (v - S.basis *ᵥ (S.basisᵀ *ᵥ v)) = 0 := by
    rw [Matrix.mulVec_sub, Matrix.mulVec_mulVec _ S.basisᵀ S.basis, hS, Matrix.one_mulVec, sub_self]
  have e : v - S.basis *ᵥ z = (v - S.basis *ᵥ (S.basisᵀ *ᵥ v)) + S.basis *ᵥ (S.basisᵀ *ᵥ v - z) := by rw [Matrix.mulVec_sub]; abel
  have hz : (v - S.basis *ᵥ (S.basisᵀ *ᵥ v)) ⬝ᵥ (S.basis *ᵥ (S.basisᵀ *ᵥ v - z)) = 0 := by rw [← basis_dot, h0, zero_dotProduct]
  rw [← map_sub, ← map_sub]
  refine (mul_self_le_mul_self_iff (norm_nonneg _) (norm_nonneg _)).2 ?_
  rw [eu_norm_mul, eu_norm_mul, e, add_dotProduct, dotProduct_add, dotProduct_add, hz, dotProduct_comm (S.basis *ᵥ _) (v - _), hz]
  have : 0 ≤ (S.basis *ᵥ (S.basisᵀ *ᵥ v - z)) ⬝ᵥ (S.basis *ᵥ (S.basisᵀ *ᵥ v - z)) := Finset.sum_nonneg (fun i _ => mul_self_nonneg _)
  linarith

/-- **C80, optimality of the model**: whatever the time derivative `g` of a reduced model at a reduced state, the default Galerkin model has no larger defect there (so the bounds of C81 are best for it). -/
theorem C80_defect_optimal (S : Trial ℝ m n) (hS : Orthonormal S) (f : (m → ℝ) → ℝ → m → ℝ) (g : (n → ℝ) → ℝ → n → ℝ) (x : n → ℝ) (t : ℝ) :
    defect (eu m) S f (fun x t => S.basisᵀ *ᵥ f (lift S x) t) x t ≤ defect (eu m) S f g x t :=
  C80_velocity_optimal S hS _ _

/-- **C80.** The reduced right-hand side is dissipative if the full-order one is on the trial space (any basis). -/
theorem C80_dissipative (S : Trial ℝ m n) (f : (m → ℝ) → ℝ → m → ℝ) (hdiss : ∀ x t, f (lift S x) t ⬝ᵥ (S.basis *ᵥ x) ≤ 0) (x : n → ℝ) (t : ℝ) : ⟪eu n (S.basisᵀ *ᵥ f (lift S x) t), eu n x⟫ ≤ 0 := by
  rw [eu_inner, basis_dot]; exact hdiss x t

/-- **C80.** The reduced right-hand side is monotone if the full-order one is (any basis). -/
theorem C80_monotone (S : Trial ℝ m n) (f : (m → ℝ) → ℝ → m → ℝ) (hmono : ∀ y z t, (f y t - f z t) ⬝ᵥ (y - z) ≤ 0) (x z : n → ℝ) (t : ℝ) :
    ⟪eu n (S.basisᵀ *ᵥ f (lift S x) t) - eu n (S.basisᵀ *ᵥ f (lift S z) t), eu n x - eu n z⟫ ≤ 0 := by
  rw [← map_sub, ← map_sub, ← Matrix.mulVec_sub, eu_inner, basis_dot, ← lift_affine]; exact hmono _ _ _

/-- **C80.** The reduced right-hand side has the Lipschitz constant of the full-order one (orthonormal basis). -/
theorem C80_lipschitz (S : Trial ℝ m n) (hS : Orthonormal S) (f : (m → ℝ) → ℝ → m → ℝ) (Λ : ℝ) (hlip : ∀ y z t, ‖eu m (f y t) - eu m (f z t)‖ ≤ Λ * ‖eu m y - eu m z‖) (x z : n → ℝ) (t : ℝ) :
    ‖eu n (S.basisᵀ *ᵥ f (lift S x) t) - eu n (S.basisᵀ *ᵥ f (lift S z) t)‖ ≤ Λ * ‖eu n x - eu n z‖ := by
  rw [← map_sub, ← Matrix.mulVec_sub]
  refine (eu_basis_transpose S hS _).trans ?_
  rw [map_sub, ← C80_isometry S hS x z]
  exact hlip _ _ _

variable {F : Fom ℝ m m n} {fe : (m → ℝ) → ℝ → Except Exc (m → ℝ)} {De Me : (m → ℝ) → ℝ → Except Exc (Matrix m m ℝ)}

/-- a run of a stepper on a default Galerkin object: converged with respect to the reduced right-hand side -/
theorem galerkin_converged_run (hF : FomIs F fe De Me) (hn : FomNoTSF fe De) (f : (m → ℝ) → ℝ → m → ℝ) (hf : ∀ y t v, fe y t = .ok v → v = f y t) (S : Trial ℝ m n) (s0 : GSt ℝ m m q n) (name : Scheme) (tol : ℝ)
    (mem : SMem ℝ (n → ℝ) (n → ℝ) PMem) (hmem : Ready name mem) (atts : List (Attempt ℝ (n → ℝ) ((n → ℝ) × Option (Matrix n n ℝ)))) (hon : ∀ a ∈ atts, ∀ y, Honest (a.solver y)) (t0 : ℝ) (x0 : n → ℝ)
    (hconv : ∀ r ∈ drive (stdStep name (asISystem (defaultRhsJac S F) s0)) atts t0 [x0] x0 mem, r.stop = none → Converged (eu n) tol r) :
    ConvergedRun (eu n) tol name (asISystem (defaultRhsJac S F) s0) (fun x t => S.basisᵀ *ᵥ f (lift S x) t) mem atts t0 x0 :=
  ⟨(C81_default_galerkin_model hF S s0 f hf).2 hn, (C81_default_galerkin_model hF S s0 f hf).1, hmem, hon, hconv⟩

/-- **C80, BDF1.** Full-order right-hand side `f`, dissipative on the trial space; the FOM and the solvers may throw. A run of the BDF1 stepper on the default Galerkin object, with any step sizes and any solvers, every accepted
    step of which has converged to the tolerance: the norm of the reduced state grows by at most the tolerance per step. -/
theorem C80_bdf1 (hF : FomIs F fe De Me) (hn : FomNoTSF fe De) (f : (m → ℝ) → ℝ → m → ℝ) (hf : ∀ y t v, fe y t = .ok v → v = f y t) (S : Trial ℝ m n) (s0 : GSt ℝ m m q n) (tol : ℝ)
    (mem : SMem ℝ (n → ℝ) (n → ℝ) PMem) (hmem : Ready .BDF1 mem) (atts : List (Attempt ℝ (n → ℝ) ((n → ℝ) × Option (Matrix n n ℝ)))) (hon : ∀ a ∈ atts, ∀ y, Honest (a.solver y)) (t0 : ℝ) (x0 : n → ℝ)
    (hconv : ∀ r ∈ drive (stdStep .BDF1 (asISystem (defaultRhsJac S F) s0)) atts t0 [x0] x0 mem, r.stop = none → Converged (eu n) tol r) (hdt : ∀ a ∈ atts, 0 ≤ a.dt)
    (hdiss : ∀ x t, f (lift S x) t ⬝ᵥ (S.basis *ᵥ x) ≤ 0) :
    ∀ pre post, drive (stdStep .BDF1 (asISystem (defaultRhsJac S F) s0)) atts t0 [x0] x0 mem = pre ++ post → ∃ x l, accepted x0 pre = x :: l ∧ ‖eu n x‖ ≤ ‖eu n x0‖ + l.length * tol :=
  C75_bdf1 (eu n) tol _ _ mem atts t0 x0 (galerkin_converged_run hF hn f hf S s0 .BDF1 tol mem hmem atts hon t0 x0 hconv) hdt (C80_dissipative S f hdiss)

/-- **C80, BDF2.** -/
theorem C80_bdf2 (hF : FomIs F fe De Me) (hn : FomNoTSF fe De) (f : (m → ℝ) → ℝ → m → ℝ) (hf : ∀ y t v, fe y t = .ok v → v = f y t) (S : Trial ℝ m n) (s0 : GSt ℝ m m q n) (tol : ℝ)
    (mem : SMem ℝ (n → ℝ) (n → ℝ) PMem) (hmem : Ready .BDF2 mem) (atts : List (Attempt ℝ (n → ℝ) ((n → ℝ) × Option (Matrix n n ℝ)))) (hon : ∀ a ∈ atts, ∀ y, Honest (a.solver y)) (t0 : ℝ) (x0 : n → ℝ)
    (hconv : ∀ r ∈ drive (stdStep .BDF2 (asISystem (defaultRhsJac S F) s0)) atts t0 [x0] x0 mem, r.stop = none → Converged (eu n) tol r) (hdt : ∀ a ∈ atts, 0 ≤ a.dt)
    (hdiss : ∀ x t, f (lift S x) t ⬝ᵥ (S.basis *ᵥ x) ≤ 0) :
    ∀ pre post, drive (stdStep .BDF2 (asISystem (defaultRhsJac S F) s0)) atts t0 [x0] x0 mem = pre ++ post → ∃ x l, accepted x0 pre = x :: l ∧ ‖eu n x‖ ≤ Real.sqrt 2 * ‖eu n x0‖ + 6 * (l.length * tol) :=
  C75_bdf2 (eu n) tol _ _ mem atts t0 x0 (galerkin_converged_run hF hn f hf S s0 .BDF2 tol mem hmem atts hon t0 x0 hconv) hdt (C80_dissipative S f hdiss)

/-- **C80, CrankNicolson**, linear full-order model `y' = A y` on a linear trial space: dissipation and conservation of the Euclidean norm are inherited. -/
theorem C80_crank_nicolson (hF : FomIs F fe De Me) (hn : FomNoTSF fe De) (A : Matrix m m ℝ) (hf : ∀ y t v, fe y t = .ok v → v = A *ᵥ y) (S : Trial ℝ m n) (hlin : S.isAffine = false) (s0 : GSt ℝ m m q n) (tol : ℝ)
    (mem : SMem ℝ (n → ℝ) (n → ℝ) PMem) (hmem : Ready .CrankNicolson mem) (atts : List (Attempt ℝ (n → ℝ) ((n → ℝ) × Option (Matrix n n ℝ)))) (hon : ∀ a ∈ atts, ∀ y, Honest (a.solver y)) (t0 : ℝ) (x0 : n → ℝ)
    (hconv : ∀ r ∈ drive (stdStep .CrankNicolson (asISystem (defaultRhsJac S F) s0)) atts t0 [x0] x0 mem, r.stop = none → Converged (eu n) tol r) (hdt : ∀ a ∈ atts, 0 ≤ a.dt)
    (hdiss : ∀ y, (A *ᵥ y) ⬝ᵥ y ≤ 0) :
    ∀ pre post, drive (stdStep .CrankNicolson (asISystem (defaultRhsJac S F) s0)) atts t0 [x0] x0 mem = pre ++ post → ∃ x l, accepted x0 pre = x :: l ∧ ‖eu n x‖ ≤ ‖eu n x0‖ + l.length * tol ∧
      ((∀ y, (A *ᵥ y) ⬝ᵥ y = 0) → |‖eu n x‖ - ‖eu n x0‖| ≤ l.length * tol) := by
  have hl : ∀ x, lift S x = S.basis *ᵥ x := fun x => by simp [lift, hlin]
  let B : (n → ℝ) →ₗ[ℝ] (n → ℝ) := Matrix.mulVecLin (S.basisᵀ * A * S.basis)
  have R := galerkin_converged_run hF hn (fun y _ => A *ᵥ y) hf S s0 .CrankNicolson tol mem hmem atts hon t0 x0 hconv
  have hB : (fun x (_ : ℝ) => S.basisᵀ *ᵥ (A *ᵥ lift S x)) = fun x (_ : ℝ) => B x := by
    funext x _
    simp only [B, Matrix.mulVecLin_apply, hl, ← Matrix.mulVec_mulVec]
  rw [hB] at R
  have hin : ∀ x, ⟪eu n (B x), eu n x⟫ = (A *ᵥ (S.basis *ᵥ x)) ⬝ᵥ (S.basis *ᵥ x) := by
    intro x
    rw [eu_inner]
    simp only [B, Matrix.mulVecLin_apply, ← Matrix.mulVec_mulVec]
    rw [basis_dot]
  intro pre post e
  obtain ⟨x, l, h1, h2⟩ := C75_crank_nicolson (eu n) tol _ B mem atts t0 x0 R hdt (fun x => by rw [hin]; exact hdiss _) pre post e
  refine ⟨x, l, h1, h2, fun hc => ?_⟩
  obtain ⟨x', l', h1', h2'⟩ := C75_crank_nicolson_conserves (eu n) tol _ B mem atts t0 x0 R (fun x => by rw [hin]; exact hc _) pre post e
  rw [h1] at h1'
  obtain ⟨rfl, rfl⟩ := List.cons.inj h1'
  exact h2'

/-- a Galerkin object of a FOM that does not throw, as an object that evaluates functions -/
theorem galerkin_ode {f : (m → ℝ) → ℝ → m → ℝ} {Df : (m → ℝ) → ℝ → Matrix m m ℝ} (hF : FomIs F (fun y t => .ok (f y t)) (fun y t => .ok (Df y t)) Me) (S : Trial ℝ m n) (s0 : GSt ℝ m m q n) :
    asISystem (defaultRhsJac S F) s0 = odeSystem (fun x t => S.basisᵀ *ᵥ f (lift S x) t) (fun x t => S.basisᵀ * (Df (lift S x) t * S.basis)) := by
  refine congrArg ISystem.mk ?_
  funext x t w
  have h := C49_default_rhs_jacobian hF S x t w s0
  cases w with
  | false =>
    obtain ⟨s, hs, hv⟩ := h
    simp only [Prod.mk.injEq] at hv
    simp only [hs, hv.1]
    rfl
  | true =>
    obtain ⟨s, hs, hv⟩ := h
    simp only [Prod.mk.injEq] at hv
    simp only [hs, hv.1, hv.2.1]

/-- **C80 with a Newton object** (one object for all steps, criterion on the residual norm, no step that uses up the iterations): default Galerkin, dissipative FOM. -/
theorem C80_newton_object {f : (m → ℝ) → ℝ → m → ℝ} {Df : (m → ℝ) → ℝ → Matrix m m ℝ} (hF : FomIs F (fun y t => .ok (f y t)) (fun y t => .ok (Df y t)) Me) (S : Trial ℝ m n) (s0 : GSt ℝ m m q n)
    (name : Scheme) (hname : name = .BDF1 ∨ name = .BDF2) (mem : SMem ℝ (n → ℝ) (n → ℝ) PMem) (hmem : Ready name mem)
    (env : Env ℝ n n p L) (hnorm : ∀ v, env.normM v = ‖eu n v‖) (cfg : Cfg ℝ) (sol : Matrix n n ℝ → (n → ℝ) → n → ℝ) (tick : L → L) (hlin : ∀ A b c l, env.linJ A b (c, l) = .ok () (sol A b, tick l))
    (hcrit : cfg.stop = .WhenAbsolutel2NormOfResidualBelowTolerance) (hupd : cfg.update = .Standard) (hmax : cfg.maxIters < int32Max) (reg : Reg ℝ n n p L) (hreg : NewtonIdle reg) (dts : List ℝ) (t0 : ℝ) (x0 : n → ℝ)
    (hlim : ∀ r ∈ driveObj (stdStep name (asISystem (defaultRhsJac S F) s0)) (newtonSolve env cfg) dts t0 [x0] x0 mem reg, (r.queries.length : Int) < cfg.maxIters)
    (hdt : ∀ h ∈ dts, 0 ≤ h) (hdiss : ∀ x t, f (lift S x) t ⬝ᵥ (S.basis *ᵥ x) ≤ 0) :
    ∀ pre post, driveObj (stdStep name (asISystem (defaultRhsJac S F) s0)) (newtonSolve env cfg) dts t0 [x0] x0 mem reg = pre ++ post → ∃ x l, accepted x0 pre = x :: l ∧
      ‖eu n x‖ ≤ Real.sqrt 2 * ‖eu n x0‖ + 6 * (l.length * cfg.tol) ∧ (name = .BDF1 → ‖eu n x‖ ≤ ‖eu n x0‖ + l.length * cfg.tol) := by
  rw [galerkin_ode hF S s0] at hlim ⊢
  exact C75_newton_object name hname _ _ mem hmem env (eu n) hnorm cfg sol tick hlin hcrit hupd hmax reg hreg dts t0 x0 hlim hdt (C80_dissipative S f hdiss)

end

/-! ### A damped rotation, and a rotation that is sampled -/
section Examples

/-- one column, `(3/5, 4/5)`, linear -/
noncomputable def lineR : Trial ℝ (Fin 2) Unit := ⟨Matrix.of fun i _ => ![3/5, 4/5] i, 0, false⟩

theorem lineR_orthonormal : Orthonormal lineR := by
  ext i j
  simp [lineR, Matrix.mul_apply, Fin.sum_univ_two, Matrix.transpose_apply]
  norm_num

theorem lineR_lift (x : Unit → ℝ) : lift lineR x = ![3/5 * x (), 4/5 * x ()] := by
  funext i
  fin_cases i <;> simp [lift, lineR, Matrix.mulVec, dotProduct]

/-- `y' = A y - c y`, `A` the rotation -/
noncomputable def rotR (c : ℝ) : Fom ℝ (Fin 2) (Fin 2) Unit where
  rhs := fun y _ _ => .ok ![y 1 - c * y 0, - y 0 - c * y 1]
  applyJac := fun _ B _ _ => .ok ((!![-c, 1; -1, -c] : Matrix (Fin 2) (Fin 2) ℝ) * B)
  applyMM := fun _ B _ _ => .ok ((1 : Matrix (Fin 2) (Fin 2) ℝ) * B)

theorem rotR_is (c : ℝ) : FomIs (rotR c) (fun y _ => .ok ![y 1 - c * y 0, - y 0 - c * y 1]) (fun _ _ => .ok !![-c, 1; -1, -c]) (fun _ _ => .ok 1) where
  rhs := fun _ _ _ => rfl
  jac := fun _ _ _ _ => rfl
  mm := fun _ _ _ _ => rfl

/-- its right-hand side is dissipative (conservative for `c = 0`) -/
theorem rotR_dissipative (c : ℝ) (y : Fin 2 → ℝ) : (![y 1 - c * y 0, - y 0 - c * y 1] : Fin 2 → ℝ) ⬝ᵥ y = -c * (y ⬝ᵥ y) := by
  simp [dotProduct, Fin.sum_univ_two]; ring

noncomputable def gst0 (p : Type) : GSt ℝ (Fin 2) p Unit Unit := ⟨7, fun _ => 7, fun _ _ => 7, fun _ _ => 7, fun _ => 7, fun _ _ => 7, 7, 7, 7, 7, 7⟩

theorem norm_unit (v : Unit → ℝ) : |v ()| = ‖eu Unit v‖ := by
  have h := eu_norm_mul v
  simp only [dotProduct, Finset.univ_unique, Finset.sum_singleton, PUnit.default_eq_unit] at h
  rw [← abs_mul_abs_self (v _)] at h
  exact ((mul_self_inj_of_nonneg (norm_nonneg _) (abs_nonneg _)).1 h).symm

/-- C80 for the damped rotation: BDF2, one Newton object, all step sizes and tolerances -/
example (tol : ℝ) (htol : 0 < tol) (dts : List ℝ) (hdt : ∀ h ∈ dts, 0 ≤ h) (x0 : Unit → ℝ) :=
  C80_newton_object (rotR_is 1) lineR (gst0 _) .BDF2 (.inr rfl) (newStepperR .BDF2) rfl envR norm_unit (cfgR tol) (fun A b _ => b () / A () ()) id (fun _ _ _ _ => rfl) rfl rfl (by simp [cfgR, int32Max])
    regR (fun _ => .created _ rfl) dts 0 x0
    (by
      have := decay_within_limit .BDF2 rfl tol htol dts hdt 0 x0
      rw [galerkin_ode (rotR_is 1) lineR (gst0 _)]
      have e1 : (fun (x : Unit → ℝ) (_ : ℝ) => lineR.basisᵀ *ᵥ ![lift lineR x 1 - 1 * lift lineR x 0, - lift lineR x 0 - 1 * lift lineR x 1]) = fun y t => decayR t *ᵥ y + (0 : ℝ → Unit → ℝ) t := by
        funext x t u
        rw [lineR_lift]
        simp [lineR, decayR, Matrix.mulVec, dotProduct, Fin.sum_univ_two]
        ring
      have e2 : (fun (_ : Unit → ℝ) (_ : ℝ) => lineR.basisᵀ * ((!![-1, 1; -1, -1] : Matrix (Fin 2) (Fin 2) ℝ) * lineR.basis)) = fun _ t => decayR t := by
        funext x t i j
        simp only [lineR, decayR, Matrix.mul_apply, Fin.sum_univ_two, Matrix.transpose_apply, Matrix.of_apply]
        simp
        norm_num
      rw [e1, e2]; exact this)
    hdt (by
      intro x t
      rw [show lineR.basis *ᵥ x = lift lineR x by simp [lift, lineR], rotR_dissipative]
      have : 0 ≤ lift lineR x ⬝ᵥ lift lineR x := Finset.sum_nonneg (fun i _ => mul_self_nonneg _)
      linarith)

/-- the first component of the right-hand side of the (undamped) rotation: a sample mesh with one point -/
noncomputable def rotSampled : Fom ℝ (Fin 2) Unit Unit where
  rhs := fun y _ _ => .ok (fun _ => y 1)
  applyJac := fun _ B _ _ => .ok ((Matrix.of fun _ j => ![0, 1] j : Matrix Unit (Fin 2) ℝ) * B)
  applyMM := fun _ B _ _ => .ok ((Matrix.of fun _ j => ![1, 0] j : Matrix Unit (Fin 2) ℝ) * B)

theorem rotSampled_is : FomIs rotSampled (fun y _ => .ok (fun _ => y 1)) (fun _ _ => .ok (Matrix.of fun _ j => ![0, 1] j)) (fun _ _ => .ok (Matrix.of fun _ j => ![1, 0] j)) where
  rhs := fun _ _ _ => rfl
  jac := fun _ _ _ _ => rfl
  mm := fun _ _ _ _ => rfl

/-- collocation at that point: what is in the trial space is reproduced, `(3/5 x)` gives `x` -/
noncomputable def collocate : HypRed ℝ Unit Unit where
  vec := fun v _ _ => .ok (fun _ => 5/3 * v ())
  mat := fun B _ _ => .ok (fun _ _ => 5/3 * B () ())

theorem collocate_is : HypIs collocate (fun _ v _ => 5/3 * v ()) (fun _ B _ _ => 5/3 * B () ()) := ⟨fun _ _ _ => rfl, fun _ _ _ => rfl⟩

/-- collocation reproduces the trial space and is exact for the samples of full-order vectors in it -/
example (x : Unit → ℝ) : (fun _ : Unit => 5/3 * (fun _ : Unit => (lineR.basis *ᵥ x) 0) ()) = x := by
  funext u
  simp [lineR, Matrix.mulVec, dotProduct]
  ring

theorem rotSampled_ode : asISystem (hypredRhsJac lineR rotSampled collocate) (gst0 _) = odeSystem (fun y t => (Matrix.of fun _ _ => 4/3 : Matrix Unit Unit ℝ) *ᵥ y + (0 : ℝ → Unit → ℝ) t) (fun _ _ => Matrix.of fun _ _ => 4/3) := by
  refine congrArg ISystem.mk ?_
  funext x t w
  have h := C49_hypred_rhs_jacobian rotSampled_is collocate_is lineR x t w (gst0 _)
  have e1 : (fun _ : Unit => 5/3 * lift lineR x 1) = (Matrix.of fun _ _ => 4/3 : Matrix Unit Unit ℝ) *ᵥ x + (0 : ℝ → Unit → ℝ) t := by
    funext u
    rw [lineR_lift]
    simp [Matrix.mulVec, dotProduct]
    ring
  have e2 : (fun _ _ => 5/3 * ((Matrix.of fun _ j => ![0, 1] j : Matrix Unit (Fin 2) ℝ) * lineR.basis) () () : Matrix Unit Unit ℝ) = Matrix.of fun _ _ => 4/3 := by
    funext i j
    simp [lineR, Matrix.mul_apply, Fin.sum_univ_two]
  cases w with
  | false =>
    obtain ⟨s, hs, hv⟩ := h
    simp only [Prod.mk.injEq] at hv
    simp only [hs, hv.1, e1]
    first | done | rfl
  | true =>
    obtain ⟨s, hs, hv⟩ := h
    have h1 : s.r = _ := congrArg Prod.fst hv
    have h2 : s.J = _ := congrArg (fun a => a.2.1) hv
    simp only [hs, h1, h2, e1, e2]
    first | done | rfl

/-- **C80 fails for hyper-reduced Galerkin.** The full-order model is the rotation `y' = (y_1, -y_0)`, which conserves the Euclidean norm; the trial space has one orthonormal column; the hyper-reduction collocates at one point and
    reproduces the trial space. BDF1 with steps 1/4, one Newton object, tolerance up to 1/6: all `N` steps are accepted and the reduced state is at least `(5/4)^N`. -/
theorem C80_refuted_hyperreduced (tol : ℝ) (htol : 0 < tol) (h6 : tol ≤ 1/6) (N : Nat) :
    let run := driveObj (stdStep .BDF1 (asISystem (hypredRhsJac lineR rotSampled collocate) (gst0 _))) (newtonSolve envR (cfgR tol)) (List.replicate N (1/4)) 0 [fun _ => 1] (fun _ => 1) (newStepperR .BDF1) regR
    (∀ r ∈ run, r.stop = none) ∧ ∃ x l, accepted (fun _ => 1) run = x :: l ∧ l.length = N ∧ (5/4)^N ≤ x () := by
  intro run
  have hrun : run = driveObj (stdStep .BDF1 (odeSystem (fun y t => (Matrix.of fun _ _ => 4/3 : Matrix Unit Unit ℝ) *ᵥ y + (0 : ℝ → Unit → ℝ) t) (fun _ _ => Matrix.of fun _ _ => 4/3))) (newtonSolve envR (cfgR tol))
      (List.replicate N (1/4)) 0 [fun _ => 1] (fun _ => 1) (newStepperR .BDF1) regR := by
    show driveObj _ _ _ _ _ _ _ _ = _
    rw [rotSampled_ode]
  have hlim : ∀ r ∈ run, (r.queries.length : Int) < (cfgR tol).maxIters := by
    intro r hr
    rw [hrun] at hr
    have := C66_linear_two_evaluations .BDF1 (fun _ => Matrix.of fun _ _ => 4/3) 0 (newStepperR .BDF1) rfl envR (by simp [envR]) (cfgR tol) (fun A b _ => b () / A () ()) id (fun _ _ _ _ => rfl) rfl htol rfl
      (by simp [cfgR, int32Max]) (by simp [cfgR]) regR (fun _ => .created _ rfl) _ 0 (fun _ => 1) (by
        intro h hh t c hc d
        rw [List.eq_of_mem_replicate hh] at hc
        funext u
        simp only [List.mem_cons, List.not_mem_nil, or_false] at hc
        rcases hc with rfl | rfl | rfl <;> simp [Matrix.mulVec, dotProduct] <;> field_simp) r hr
    simp only [cfgR]
    omega
  have hstop : ∀ r ∈ run, r.stop = none := by
    intro r hr
    rw [hrun] at hr
    obtain ⟨pre, post, e⟩ := List.append_of_mem hr
    obtain ⟨yn, older, -, -, h5, -⟩ := C66_newton_iterates .BDF1 _ _ (newStepperR .BDF1) rfl envR (cfgR tol) (fun A b _ => b () / A () ()) id (fun _ _ _ _ => rfl) (by rfl) rfl (by simp [cfgR, int32Max]) regR
      (fun _ => .created _ rfl) _ 0 _ pre post r e
    exact h5
  obtain ⟨atts, h1, h2, R⟩ := newton_converged_run (E := ℝ) .BDF1 _ _ (newStepperR .BDF1) rfl envR (LinearMap.proj ()) (fun v => by simp [envR]) (cfgR tol) (fun A b _ => b () / A () ()) id (fun _ _ _ _ => rfl) rfl rfl
    (by simp [cfgR, int32Max]) regR (fun _ => .created _ rfl) (List.replicate N (1/4)) 0 (fun _ => 1) (by rw [← hrun]; exact hlim)
  have hlen : run.length = N := by
    have := driveObj_all (stdStep .BDF1 (asISystem (hypredRhsJac lineR rotSampled collocate) (gst0 _))) (newtonSolve envR (cfgR tol)) (List.replicate N (1/4)) 0 [fun _ => 1] (fun _ => 1) (newStepperR .BDF1) regR hstop
    have := congrArg List.length this
    rwa [List.length_map, List.length_replicate] at this
  refine ⟨hstop, ?_⟩
  have main := accepted_induction (fun hist _ => ∃ x l, hist = x :: l ∧ (5/4)^l.length ≤ x ()) (fun _ => 1) 0 ⟨_, [], rfl, by simp⟩ run (by
    rintro pre r post e hr ⟨xn, l, hl, hb⟩
    rw [hrun, h2] at e
    have hres := R.residual e hr
    have hdt : r.dt = 1/4 := by
      obtain ⟨a, ha, hda⟩ := drive_dt .BDF1 _ _ _ _ _ atts 0 (fun _ => 1) R r (by rw [e]; simp)
      rw [hda]
      exact List.eq_of_mem_replicate (h1 ▸ List.mem_map.2 ⟨a, ha, rfl⟩)
    refine ⟨r.y, xn :: l, by rw [hl], ?_⟩
    rw [hl, hdt] at hres
    simp only [residualOf, LinearMap.proj_apply, Pi.sub_apply, Pi.smul_apply, Pi.add_apply, smul_eq_mul, Matrix.mulVec, dotProduct, Finset.univ_unique, Finset.sum_singleton, PUnit.default_eq_unit, Matrix.of_apply, Pi.zero_apply,
      Real.norm_eq_abs, cfgR] at hres
    have h3 := (abs_le.1 hres).1
    have h4 : (1:ℝ) ≤ (5/4)^l.length := one_le_pow₀ (by norm_num)
    rw [List.length_cons, pow_succ]
    linarith) run [] (by simp)
  obtain ⟨x, l, g1, g2⟩ := main
  have hl : l.length = N := by
    have : (accepted (fun _ => (1:ℝ)) run).length = run.length + 1 := by
      unfold accepted
      rw [List.filter_eq_self.2 (fun r hr => by simp [hstop r hr])]
      simp
    rw [g1, List.length_cons, hlen] at this
    omega
  exact ⟨x, l, g1, hl, by rw [← hl]; exact g2⟩

/-- the exact solution `(e^-t, (1 - e^-t)/10)` of `y' = (-y_0, 1/10 - y_1)` from `(1, 0)` -/
noncomputable def sagExact : ℝ → Fin 2 → ℝ := fun t => Real.exp (-t) • ![1, -1/10] + ![0, 1/10]

theorem sag_sub (y z : Fin 2 → ℝ) (t : ℝ) : sagF y t - sagF z t = -(y - z) := by
  funext i
  fin_cases i <;> simp [sagF] <;> ring

theorem sagExact_rhs (s : ℝ) : sagF (sagExact s) s = -Real.exp (-s) • ![1, -1/10] := by
  funext i
  fin_cases i <;> simp [sagExact, sagF]

theorem sag_solves (T : ℝ) : SolvesIn (eu (Fin 2)) sagF sagExact 0 T := by
  have hexp : ∀ s : ℝ, HasDerivAt (fun t : ℝ => Real.exp (-t)) (-Real.exp (-s)) s := fun s => (hasDerivAt_neg s).exp.congr_deriv (by ring)
  intro s _
  rw [sagExact_rhs, map_smul]
  have h2 : (fun t => eu (Fin 2) (sagExact t)) = fun t => Real.exp (-t) • eu (Fin 2) ![1, -1/10] + eu (Fin 2) ![0, 1/10] := by
    funext t
    simp only [sagExact, map_add, map_smul]
  rw [h2]
  exact ((hexp s).smul_const _).add_const _

theorem sag_smooth (T : ℝ) : Smooth1In (eu (Fin 2)) sagF sagExact ‖eu (Fin 2) ![1, -1/10]‖ 0 T := by
  intro s hs u hu
  rw [sagExact_rhs, sagExact_rhs, map_smul, map_smul, ← sub_smul, norm_smul, mul_comm]
  refine mul_le_mul_of_nonneg_left ?_ (norm_nonneg _)
  have key : ∀ a b : ℝ, 0 ≤ a → a ≤ b → Real.exp (-a) - Real.exp (-b) ≤ b - a := by
    intro a b ha hab
    have h1 : Real.exp (-a) ≤ 1 := Real.exp_le_one_iff.2 (by linarith)
    have h2 : Real.exp (-b) = Real.exp (-a) * Real.exp (-(b - a)) := by rw [← Real.exp_add]; congr 1; ring
    have h3 := Real.add_one_le_exp (-(b - a))
    have h4 := Real.exp_pos (-a)
    rw [h2]
    nlinarith
  have mono : ∀ a b : ℝ, a ≤ b → Real.exp (-b) ≤ Real.exp (-a) := fun a b h => Real.exp_le_exp.2 (by linarith)
  rw [Real.norm_eq_abs]
  rcases le_total s u with h | h
  · rw [abs_of_nonpos (by linarith [mono s u h]), abs_of_nonpos (by linarith)]
    linarith [key s u hs.1 h]
  · rw [abs_of_nonneg (by linarith [mono u s h]), abs_of_nonneg (by linarith)]
    linarith [key u s hu.1 h]

theorem sag_smooth2 (T : ℝ) : Smooth2In (eu (Fin 2)) sagF sagExact (fun s => Real.exp (-s) • eu (Fin 2) ![1, -1/10]) ‖eu (Fin 2) ![1, -1/10]‖ ‖eu (Fin 2) ![1, -1/10]‖ 0 T := by
  refine ⟨fun s hs => ⟨?_, ?_⟩, fun s hs u hu => ?_⟩
  · have hexp : HasDerivAt (fun t : ℝ => -Real.exp (-t)) (Real.exp (-s)) s := ((hasDerivAt_neg s).exp.neg).congr_deriv (by ring)
    have h2 : (fun t => eu (Fin 2) (sagF (sagExact t) t)) = fun t => (-Real.exp (-t)) • eu (Fin 2) ![1, -1/10] := by
      funext t; rw [sagExact_rhs, map_smul]
    rw [h2]
    exact hexp.smul_const _
  · rw [norm_smul, Real.norm_eq_abs, abs_of_pos (Real.exp_pos _)]
    exact mul_le_of_le_one_left (norm_nonneg _) (Real.exp_le_one_iff.2 (by linarith [hs.1]))
  · have := sag_smooth T s hs u hu
    rw [sagExact_rhs, sagExact_rhs, map_smul, map_smul, ← sub_smul, norm_smul] at this
    rw [← sub_smul, norm_smul, ← norm_neg (Real.exp (-s) - Real.exp (-u)), show -(Real.exp (-s) - Real.exp (-u)) = -Real.exp (-s) - -Real.exp (-u) by ring]
    exact this

theorem sag_monotone (y z : Fin 2 → ℝ) (t : ℝ) : ⟪eu (Fin 2) (sagF y t) - eu (Fin 2) (sagF z t), eu (Fin 2) y - eu (Fin 2) z⟫ ≤ 0 := by
  rw [← map_sub, ← map_sub, sag_sub, eu_inner, neg_dotProduct]
  have : 0 ≤ (y - z) ⬝ᵥ (y - z) := Finset.sum_nonneg (fun i _ => mul_self_nonneg _)
  linarith

theorem sag_lip (y z : Fin 2 → ℝ) (t : ℝ) : ‖eu (Fin 2) (sagF y t) - eu (Fin 2) (sagF z t)‖ ≤ 1 * ‖eu (Fin 2) y - eu (Fin 2) z‖ := by
  rw [← map_sub, sag_sub, map_neg, norm_neg, map_sub, one_mul]

theorem sag_dissipative (x : Unit → ℝ) (t : ℝ) : sagF (lift firstR x) t ⬝ᵥ (firstR.basis *ᵥ x) ≤ 0 := by
  rw [firstR_lift]
  simp [sagF, firstR, Matrix.mulVec, dotProduct]
  exact mul_self_nonneg _

/-- the reduced model: `x' = -x` -/
noncomputable def sagG : (Unit → ℝ) → ℝ → Unit → ℝ := fun x t => firstR.basisᵀ *ᵥ sagF (lift firstR x) t
noncomputable def sagSys : ISystem ℝ (Unit → ℝ) (Matrix Unit Unit ℝ) := asISystem (defaultRhsJac firstR sagR) (gst0 _)

/-- a run of `x' = -x` with one Newton object as a list of attempts, in all of which it converges; norms of reduced residuals measured by `ι` -/
structure SagRun {E : Type} [NormedAddCommGroup E] [InnerProductSpace ℝ E] (name : Scheme) (ι : (Unit → ℝ) →ₗ[ℝ] E) (tol : ℝ) (P : ℝ → Prop) (dts : List ℝ) where
  atts : List (Attempt ℝ (Unit → ℝ) ((Unit → ℝ) × Option (Matrix Unit Unit ℝ)))
  T : ℝ
  sizes : atts.map (·.dt) = dts
  same : driveObj (stdStep name sagSys) (newtonSolve envR (cfgR tol)) dts 0 [fun _ => 1] (fun _ => 1) (newStepperR name) regR = drive (stdStep name sagSys) atts 0 [fun _ => 1] (fun _ => 1) (newStepperR name)
  run : ConvergedRun ι tol name sagSys sagG (newStepperR name) atts 0 (fun _ => 1)
  defect : DefectOn (eu (Fin 2)) firstR sagF sagG (1/10) (fun _ => 1) 0 (drive (stdStep name sagSys) atts 0 [fun _ => 1] (fun _ => 1) (newStepperR name))
  nonneg : ∀ a ∈ atts, 0 ≤ a.dt
  steps : StepsIn P T (drive (stdStep name sagSys) atts 0 [fun _ => 1] (fun _ => 1) (newStepperR name))

theorem firstR_norm (v : Unit → ℝ) : |v ()| = ‖(eu (Fin 2) ∘ₗ Matrix.mulVecLin firstR.basis) v‖ := by
  show |v ()| = ‖eu (Fin 2) (firstR.basis *ᵥ v)‖
  rw [eu_basis firstR firstR_orthonormal, norm_unit]

/-- there is such a run for all step sizes and tolerances -/
noncomputable def sagRun {E : Type} [NormedAddCommGroup E] [InnerProductSpace ℝ E] (name : Scheme) (hmem : Ready name (newStepperR name)) (ι : (Unit → ℝ) →ₗ[ℝ] E) (hι : ∀ v, |v ()| = ‖ι v‖) (tol : ℝ) (htol : 0 < tol)
    (P : ℝ → Prop) (dts : List ℝ) (hdt : ∀ h ∈ dts, 0 ≤ h ∧ P h) : SagRun name ι tol P dts := by
  apply Classical.choice
  have hfirst : sagG = fun y t => decayR t *ᵥ y + (0 : ℝ → Unit → ℝ) t := by
    funext x t u
    unfold sagG
    rw [firstR_lift]
    simp [firstR, decayR, sagF, Matrix.mulVec, dotProduct]
  have hode : sagSys = odeSystem (fun y t => decayR t *ᵥ y + (0 : ℝ → Unit → ℝ) t) (fun _ t => decayR t) := by
    unfold sagSys
    rw [galerkin_ode sagR_is firstR (gst0 _)]
    congr 1
    funext x t i j
    simp [firstR, decayR, Matrix.mul_apply, Fin.sum_univ_two, Matrix.transpose_apply]
  obtain ⟨atts, h1, h2, R⟩ := newton_converged_run name _ _ (newStepperR name) hmem envR ι hι (cfgR tol) (fun A b _ => b () / A () ()) id (fun _ _ _ _ => rfl) rfl rfl (by simp [cfgR, int32Max]) regR (fun _ => .created _ rfl)
    dts 0 (fun _ => 1) (decay_within_limit name hmem tol htol dts (fun h hh => (hdt h hh).1) 0 _)
  rw [← hode] at h2
  rw [← hode, ← hfirst] at R
  have hd : ∀ a ∈ atts, 0 ≤ a.dt ∧ P a.dt := fun a ha => hdt _ (h1 ▸ List.mem_map.2 ⟨a, ha, rfl⟩)
  obtain ⟨T, hT⟩ := exists_end (drive (stdStep name sagSys) atts 0 [fun _ => 1] (fun _ => 1) (newStepperR name))
  refine ⟨⟨atts, T, h1, h2, R, ?_, fun a ha => (hd a ha).1, ?_⟩⟩
  · intro pre post x l _ _
    have := sag_defect x (timeAfter 0 pre)
    unfold Spec.Reduced.defect
    rw [← map_sub]
    unfold sagG
    rw [this]
    refine le_of_eq ?_
    have := eu_norm_mul (![0, 1/10] : Fin 2 → ℝ)
    rw [show (![0, 1/10] : Fin 2 → ℝ) ⬝ᵥ ![0, 1/10] = (1/10) * (1/10) by simp [dotProduct, Fin.sum_univ_two]] at this
    exact (mul_self_inj_of_nonneg (norm_nonneg _) (by norm_num)).1 this
  · intro r hr _
    obtain ⟨a, ha, hda⟩ := drive_dt name _ _ _ _ _ atts 0 (fun _ => 1) R r hr
    rw [hda]
    exact ⟨(hd a ha).2, (hd a ha).1, hda ▸ hT r hr⟩

/-- C81 for `y' = (-y_0, 1/10 - y_1)` reduced to its first component, from `(1, 0)`: BDF1 with one Newton object, all steps and tolerances, against the exact solution `(e^-t, (1 - e^-t)/10)` -/
example (tol : ℝ) (htol : 0 < tol) (H : ℝ) (dts : List ℝ) (hdt : ∀ h ∈ dts, 0 ≤ h ∧ h ≤ H) (hH : 0 ≤ H) :
    let run := driveObj (stdStep .BDF1 (asISystem (defaultRhsJac firstR sagR) (gst0 _))) (newtonSolve envR (cfgR tol)) dts 0 [fun _ => 1] (fun _ => 1) (newStepperR .BDF1) regR
    ∀ pre post, run = pre ++ post → ∃ x l, accepted (fun _ => 1) pre = x :: l ∧
      ‖eu (Fin 2) (lift firstR x) - eu (Fin 2) (sagExact (timeAfter 0 pre))‖ ≤ ‖eu (Fin 2) (lift firstR fun _ => 1) - eu (Fin 2) (sagExact 0)‖ + (l.length * tol + (timeAfter 0 pre - 0) * (1/10 + ‖eu (Fin 2) ![1, -1/10]‖ * H / 2)) := by
  intro run pre post e
  have R := sagRun .BDF1 rfl _ firstR_norm tol htol (· ≤ H) dts hdt
  exact C81_bdf1_monotone (eu (Fin 2)) firstR sagF sagG (1/10) (by norm_num) tol sagSys (newStepperR .BDF1) R.atts 0 (fun _ => 1) R.run R.defect R.nonneg H R.T R.steps sag_monotone sagExact ‖eu (Fin 2) ![1, -1/10]‖ (norm_nonneg _) hH
    (sag_solves R.T) (sag_smooth R.T) pre post (R.same ▸ e)

/-! The other schemes and the bounds for Lipschitz models: the same model, all tolerances; steps of one size for BDF2, at most `1/2` (`1/12` for BDF2) where the bound asks for it -/
section
variable (tol : ℝ) (htol : 0 < tol)
theorem equal_steps (η : ℝ) (k : Nat) (hη : 0 ≤ η) : ∀ h ∈ List.replicate k η, 0 ≤ h ∧ h = η := fun h hh => by rw [List.eq_of_mem_replicate hh]; exact ⟨hη, rfl⟩
example (η : ℝ) (k : Nat) (hη : 0 ≤ η) :=
  let R := sagRun .BDF2 rfl _ firstR_norm tol htol (· = η) (List.replicate k η) (equal_steps η k hη)
  C81_bdf2_monotone (eu (Fin 2)) firstR sagF sagG (1/10) (by norm_num) tol sagSys (newStepperR .BDF2) R.atts 0 (fun _ => 1) R.run R.defect R.nonneg η R.T R.steps sag_monotone sagExact _ _ _ (norm_nonneg _) (norm_nonneg _)
    (sag_solves R.T) (sag_smooth2 R.T)
example (dts : List ℝ) (hdt : ∀ h ∈ dts, 0 ≤ h ∧ h ≤ 1/2) :=
  let R := sagRun .BDF1 rfl _ firstR_norm tol htol (· ≤ 1/2) dts hdt
  C81_bdf1_lipschitz (eu (Fin 2)) firstR sagF sagG (1/10) (by norm_num) tol sagSys (newStepperR .BDF1) R.atts 0 (fun _ => 1) R.run R.defect R.nonneg (1/2) R.T R.steps 1 (by norm_num) (by norm_num) sag_lip sagExact _ (norm_nonneg _)
    (by norm_num) (sag_solves R.T) (sag_smooth R.T)
example (dts : List ℝ) (hdt : ∀ h ∈ dts, 0 ≤ h ∧ h ≤ 1) :=
  let R := sagRun .CrankNicolson ⟨rfl, rfl, by decide⟩ _ firstR_norm tol htol (· ≤ 1) dts hdt
  C81_crank_nicolson_lipschitz (eu (Fin 2)) firstR sagF sagG (1/10) (by norm_num) tol sagSys (newStepperR .CrankNicolson) R.atts 0 (fun _ => 1) R.run R.defect R.nonneg 1 R.T R.steps 1 (by norm_num) (by norm_num) sag_lip sagExact _ _ _
    (norm_nonneg _) (sag_solves R.T) (sag_smooth2 R.T)
example (k : Nat) :=
  let R := sagRun .BDF2 rfl _ firstR_norm tol htol (· = 1/12) (List.replicate k (1/12)) (equal_steps (1/12) k (by norm_num))
  C81_bdf2_lipschitz (eu (Fin 2)) firstR sagF sagG (1/10) (by norm_num) tol sagSys (newStepperR .BDF2) R.atts 0 (fun _ => 1) R.run R.defect R.nonneg (1/12) R.T R.steps 1 (by norm_num) (by norm_num) sag_lip sagExact _ _ _
    (norm_nonneg _) (norm_nonneg _) (sag_solves R.T) (sag_smooth2 R.T)
end

/-- C80: the same model, BDF1 and BDF2 with steps of any sizes -/
theorem sagR_noTSF : FomNoTSF (fun y t => .ok (sagF y t)) (fun (_ : Fin 2 → ℝ) (_ : ℝ) => .ok (-1 : Matrix (Fin 2) (Fin 2) ℝ)) := ⟨fun _ _ => by simp, fun _ _ => by simp⟩
theorem norm_eu_unit (v : Unit → ℝ) : |v ()| = ‖eu Unit v‖ := norm_unit v
example (tol : ℝ) (htol : 0 < tol) (dts : List ℝ) (hdt : ∀ h ∈ dts, 0 ≤ h) :=
  let R := sagRun .BDF1 rfl _ norm_eu_unit tol htol (fun _ => True) dts (fun h hh => ⟨hdt h hh, trivial⟩)
  C80_bdf1 sagR_is sagR_noTSF sagF (fun _ _ _ h => (Except.ok.inj h).symm) firstR (gst0 _) tol (newStepperR .BDF1) rfl R.atts R.run.honest 0 (fun _ => 1) R.run.converged R.nonneg sag_dissipative
example (tol : ℝ) (htol : 0 < tol) (dts : List ℝ) (hdt : ∀ h ∈ dts, 0 ≤ h) :=
  let R := sagRun .BDF2 rfl _ norm_eu_unit tol htol (fun _ => True) dts (fun h hh => ⟨hdt h hh, trivial⟩)
  C80_bdf2 sagR_is sagR_noTSF sagF (fun _ _ _ h => (Except.ok.inj h).symm) firstR (gst0 _) tol (newStepperR .BDF2) rfl R.atts R.run.honest 0 (fun _ => 1) R.run.converged R.nonneg sag_dissipative
example := C80_isometry firstR firstR_orthonormal
example := C80_velocity_optimal firstR firstR_orthonormal ![3, 4]
example (x : Unit → ℝ) (t : ℝ) := C80_defect_optimal firstR firstR_orthonormal sagF (fun _ _ _ => 5) x t
example := C80_dissipative firstR sagF sag_dissipative
example := C80_monotone firstR sagF (fun y z t => by
  rw [sag_sub, neg_dotProduct]
  have : 0 ≤ (y - z) ⬝ᵥ (y - z) := Finset.sum_nonneg (fun i _ => mul_self_nonneg _)
  linarith)
example := C80_lipschitz firstR firstR_orthonormal sagF 1 sag_lip
example := C81_default_galerkin_model (q := Unit) sagR_is firstR (gst0 _) sagF (fun _ _ _ h => (Except.ok.inj h).symm)

/-- the linear model `y' = -y` has the same reduced model -/
noncomputable def relaxR : Fom ℝ (Fin 2) (Fin 2) Unit :=
  ⟨fun y _ _ => .ok ((-1 : Matrix (Fin 2) (Fin 2) ℝ) *ᵥ y), fun _ B _ _ => .ok ((-1 : Matrix (Fin 2) (Fin 2) ℝ) * B), fun _ B _ _ => .ok ((1 : Matrix (Fin 2) (Fin 2) ℝ) * B)⟩
theorem relaxR_is : FomIs relaxR (fun y _ => .ok ((-1 : Matrix (Fin 2) (Fin 2) ℝ) *ᵥ y)) (fun _ _ => .ok (-1)) (fun _ _ => .ok 1) := ⟨fun _ _ _ => rfl, fun _ _ _ _ => rfl, fun _ _ _ _ => rfl⟩
theorem relax_sys : asISystem (defaultRhsJac firstR relaxR) (gst0 _) = sagSys := by
  unfold sagSys
  rw [galerkin_ode sagR_is firstR (gst0 _), galerkin_ode relaxR_is firstR (gst0 _)]
  congr 1
  funext x t u
  rw [firstR_lift]
  simp [firstR, sagF, Matrix.mulVec, dotProduct]
example (tol : ℝ) (htol : 0 < tol) (dts : List ℝ) (hdt : ∀ h ∈ dts, 0 ≤ h) :=
  let R := sagRun .CrankNicolson ⟨rfl, rfl, by decide⟩ _ norm_eu_unit tol htol (fun _ => True) dts (fun h hh => ⟨hdt h hh, trivial⟩)
  C80_crank_nicolson relaxR_is ⟨fun _ _ => by simp, fun _ _ => by simp⟩ (-1) (fun _ _ _ h => (Except.ok.inj h).symm) firstR rfl (gst0 _) tol (newStepperR .CrankNicolson) ⟨rfl, rfl, by decide⟩ R.atts R.run.honest 0 (fun _ => 1)
    (by rw [relax_sys]; exact R.run.converged) R.nonneg (fun y => by
      rw [Matrix.neg_mulVec, Matrix.one_mulVec, neg_dotProduct]
      have : 0 ≤ y ⬝ᵥ y := Finset.sum_nonneg (fun i _ => mul_self_nonneg _)
      linarith)

/-- a hyper-reduction operator with the time in it, and a masker -/
noncomputable def rowHypR : HypRed ℝ (Fin 2) Unit := ⟨fun v t _ => .ok (fun _ => v 0 + t * v 1), fun B t _ => .ok (Matrix.of fun _ j => B 0 j + t * B 1 j)⟩
noncomputable def firstHypR : HypRed ℝ (Fin 1) Unit := ⟨fun v t _ => .ok (fun _ => t * v 0), fun B t _ => .ok (Matrix.of fun _ j => t * B 0 j)⟩
noncomputable def secondMaskR : Masker ℝ (Fin 2) (Fin 1) Unit := ⟨fun v _ => .ok ![v 1], fun B _ => .ok (Matrix.of fun _ j => B 1 j)⟩
example (s0 : GSt ℝ (Fin 2) (Fin 2) Unit Unit) := C81_hyperreduced_galerkin_model sagR_is (H := rowHypR) ⟨fun _ _ _ => rfl, fun _ _ _ => rfl⟩ firstR s0 sagF (fun _ _ _ h => (Except.ok.inj h).symm)
example (s0 : GSt ℝ (Fin 2) (Fin 2) (Fin 1) Unit) :=
  C81_masked_galerkin_model sagR_is (Mk := secondMaskR) ⟨fun _ _ => rfl, fun _ _ => rfl⟩ (H := firstHypR) ⟨fun _ _ _ => rfl, fun _ _ _ => rfl⟩ firstR s0 sagF (fun _ _ _ h => (Except.ok.inj h).symm)
example (s0 : GSt ℝ (Fin 2) (Fin 2) Unit Unit) := C81_explicit_hyperreduced_model sagR_is (H := rowHypR) ⟨fun _ _ _ => rfl, fun _ _ _ => rfl⟩ firstR s0


end Examples
end Pressio.Props
