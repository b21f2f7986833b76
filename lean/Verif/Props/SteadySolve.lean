import Verif.Spec.SteadySolve
import Verif.Lemmas.SolverRun
import Verif.Props.GalerkinStability
import Verif.Props.LspgError
import Verif.Props.FomStates
import Verif.Props.GaussNewtonConvergence
import Verif.Props.ImplicitNewton
import Verif.Props.ExactGuess

/-
  C89: steady Galerkin and LSPG problems, solved by pressio's solvers, give solutions that are as good as the trial space allows.
-/
namespace Pressio.Props
set_option autoImplicit false
set_option linter.unusedSectionVars false
open Pressio Matrix Pressio.Model.Galerkin Pressio.Spec.Galerkin Pressio.Model.SteadySolve Pressio.Spec.SteadySolve Pressio.Model.Nonlinear Pressio.Spec.Nonlinear Pressio.Spec.GaussNewtonConvergence
open Pressio.Spec.Reduced (eu)
open Pressio.Model.Lspg (steadyLspg steadyMaskedLspg SteadyScaler)
open Pressio.Lemmas.Implicit Pressio.Lemmas.SolverRun Pressio.Lemmas.GaussNewtonConvergence

local notation "⟪" x ", " y "⟫" => @inner ℝ _ _ x y

/-! ### The problem objects -/

section
variable {K m p q n L P S : Type} [Field K] [Fintype m] [Fintype p] [Fintype q] [Fintype n]

/-- **C89.** A solve through a problem object with buffers ends like the solve of the equations `r x = 0` with Jacobian `J`: same end, same state left with the caller. -/
theorem C89_solve_is_memoryless (solve : SP K m n P L Unit) (reg : Reg K m n P L) (ans : (n → K) → Bool → Prog S (Ans K m n)) (r : (n → K) → m → K) (J : (n → K) → Matrix m n K) (h : Serves ans r J) (x : n → K) (mem : S) :
    let out := solveSteady solve reg ans x mem
    let res := SM.run (Sys.ofFun r J).toF solve { reg with x := x }
    out.stop? = res.stop? ∧ out.state.y = res.state.x ∧ out.state.log = (solve { reg with x := x }).asked (Sys.ofFun r J).toF := by
  intro out res
  obtain ⟨m', -, e⟩ := run_eq ans (Sys.ofFun r J).toF (fun _ => True) (fun x w s _ => by
    obtain ⟨s', h'⟩ := h x w s
    refine ⟨s', trivial, ?_⟩
    rw [h']
    cases w <;> rfl) (Spec.SolverRun.solverOf solve reg x) ⟨x, mem, []⟩ trivial
  have e : out = _ := e
  rw [outcome_solverOf] at e
  simp only [List.nil_append] at e
  rcases hs : res.stop? with _ | h
  · rw [show (SM.run (Sys.ofFun r J).toF solve { reg with x := x }).stop? = none from hs] at e
    rw [e]; exact ⟨rfl, rfl, rfl⟩
  · rw [show (SM.run (Sys.ofFun r J).toF solve { reg with x := x }).stop? = some h from hs] at e
    rw [e]; exact ⟨rfl, rfl, rfl⟩

theorem serves_of_ends {f : (n → K) → Bool → Prog (GSt K m p q n) Unit} {r : (n → K) → n → K} {J : (n → K) → Matrix n n K}
    (h : ∀ x w s, Ends (f x w s) (.ok (r x, if w then J x else s.J, s.M))) : Serves (galerkinEval f) r J := by
  intro x w s
  obtain ⟨s', e1, e2⟩ := h x w s
  refine ⟨s', ?_⟩
  simp only [Prod.mk.injEq] at e2
  simp only [galerkinEval, e1, e2.1]
  cases w
  · rfl
  · simp [e2.2.1]

/-- **C89, default Galerkin**: residual `Phi^T f(Phi x + s)`, Jacobian `Phi^T Df(Phi x + s) Phi` -/
theorem C89_galerkin_problem {F : SteadyFom K m m n} {f : (m → K) → m → K} {Df : (m → K) → Matrix m m K} (hF : SteadyIs F (fun y => .ok (f y)) (fun y => .ok (Df y))) (S : Trial K m n) :
    Serves (galerkinEval (steadyResidualJac S F : (n → K) → Bool → Prog (GSt K m m q n) Unit)) (fun x => S.basisᵀ *ᵥ f (lift S x)) (fun x => S.basisᵀ * (Df (lift S x) * S.basis)) :=
  serves_of_ends (fun x w s => by
    have := C49_steady_residual_jacobian hF S x w s
    cases w <;> exact this)

/-- **C89, hyper-reduced Galerkin**: `h f(Phi x + s)`, `h (Df(Phi x + s) Phi)` -/
theorem C89_hyperreduced_galerkin_problem {F : SteadyFom K m p n} {f : (m → K) → p → K} {Df : (m → K) → Matrix p m K} (hF : SteadyIs F (fun y => .ok (f y)) (fun y => .ok (Df y))) {H : HypRed K p n}
    {hv : K → (p → K) → n → K} {hm : K → Matrix p n K → Matrix n n K} (hH : HypIs H hv hm) (S : Trial K m n) :
    Serves (galerkinEval (steadyHypredResidualJac S F H : (n → K) → Bool → Prog (GSt K m p q n) Unit)) (fun x => hv 0 (f (lift S x))) (fun x => hm 0 (Df (lift S x) * S.basis)) :=
  serves_of_ends (fun x w s => by
    have := C49_steady_hypred hF hH S x w s
    cases w <;> exact this)

/-- **C89, masked Galerkin** -/
theorem C89_masked_galerkin_problem {F : SteadyFom K m p n} {f : (m → K) → p → K} {Df : (m → K) → Matrix p m K} (hF : SteadyIs F (fun y => .ok (f y)) (fun y => .ok (Df y))) {Mk : Masker K p q n} {mv : (p → K) → q → K}
    {mm : Matrix p n K → Matrix q n K} (hM : MaskIs Mk mv mm) {H : HypRed K q n} {hv : K → (q → K) → n → K} {hm : K → Matrix q n K → Matrix n n K} (hH : HypIs H hv hm) (S : Trial K m n) :
    Serves (galerkinEval (steadyMaskedResidualJac S F Mk H)) (fun x => hv 0 (mv (f (lift S x)))) (fun x => hm 0 (mm (Df (lift S x) * S.basis))) :=
  serves_of_ends (fun x w s => by
    have := C49_steady_masked hF hM hH S x w s
    cases w <;> exact this)

/-- **C89, LSPG** (scaled, or unscaled with `sr = id`, `sJ = id`): residual `f(Phi x + s)`, Jacobian `Df(Phi x + s) Phi`, each scaled at the point of the trial space -/
theorem C89_lspg_problem {F : SteadyFom K m p n} {f : (m → K) → p → K} {Df : (m → K) → Matrix p m K} (hF : SteadyIs F (fun y => .ok (f y)) (fun y => .ok (Df y))) (S : Trial K m n) (sc : SteadyScaler K m p n)
    (sr : (m → K) → (p → K) → p → K) (sJ : (m → K) → Matrix p n K → Matrix p n K) (hsc : ∀ y r J, sc y (r, J) = .ok (sr y r, J.map (sJ y))) :
    Serves (steadyLspg S F sc) (fun x => sr (lift S x) (f (lift S x))) (fun x => sJ (lift S x) (Df (lift S x) * S.basis)) := by
  intro x w s
  obtain ⟨s', h⟩ := C55_steady hF S sc x w s
  refine ⟨s', h.trans ?_⟩
  cases w <;> simp [hsc, Except.map, pure, Except.pure, bind, Except.bind]

/-- **C89, masked LSPG** -/
theorem C89_masked_lspg_problem {F : SteadyFom K m p n} {f : (m → K) → p → K} {Df : (m → K) → Matrix p m K} (hF : SteadyIs F (fun y => .ok (f y)) (fun y => .ok (Df y))) {Mk : Masker K p q n} {mv : (p → K) → q → K}
    {mm : Matrix p n K → Matrix q n K} (hM : MaskIs Mk mv mm) (S : Trial K m n) (sc : SteadyScaler K m q n)
    (sr : (m → K) → (q → K) → q → K) (sJ : (m → K) → Matrix q n K → Matrix q n K) (hsc : ∀ y r J, sc y (r, J) = .ok (sr y r, J.map (sJ y))) :
    Serves (steadyMaskedLspg S F Mk sc) (fun x => sr (lift S x) (mv (f (lift S x)))) (fun x => sJ (lift S x) (mm (Df (lift S x) * S.basis))) := by
  intro x w s
  obtain ⟨s', h⟩ := C55_steady_masked hF hM S sc x w s
  refine ⟨s', h.trans ?_⟩
  cases w <;> simp [hsc, Except.map, pure, Except.pure, bind, Except.bind]
end

/-! ### Galerkin -/

section
variable {m n q P L : Type} [Fintype m] [Fintype n] [DecidableEq n] [Fintype q] [Fintype P]

/-- `α e² ≤ a (e + d) + Λ e d` bounds `e` -/
theorem quasi_optimal_bound {α Λ a e d : ℝ} (hα : 0 < α) (ha : 0 ≤ a) (he : 0 ≤ e) (hd : 0 ≤ d) (hΛ : 0 ≤ Λ * d) (hαΛ : 0 < e → α ≤ Λ) (h : α * e ^ 2 ≤ a * (e + d) + Λ * e * d) : e ≤ Λ / α * d + 2 * (a / α) := by
  have e1 : Λ / α * d + 2 * (a / α) = (Λ * d + 2 * a) / α := by ring
  rw [e1, le_div_iff₀ hα]
  rcases he.eq_or_lt with h0 | h0
  · rw [← h0]; linarith
  · have h1 := hαΛ h0
    by_contra hc
    rw [not_le] at hc
    have h2 : d ≤ e := by
      have : α * d ≤ Λ * d := by gcongr
      by_contra hde
      rw [not_le] at hde
      nlinarith
    nlinarith [mul_le_mul_of_nonneg_left h2 ha]

/-- **C89, Galerkin is quasi-optimal.** `y'` solves the full-order equations, which are elliptic; `x` solves the reduced equations up to `tol`. Then the error of `Phi x + s` is at most `Λ/α` times the error of any other
    point of the trial space, plus a multiple of `tol`. -/
theorem C89_galerkin_quasi_optimal (S : Trial ℝ m n) (σ : ℝ) (hS : FullRank S σ) (f : (m → ℝ) → m → ℝ) (α Λ : ℝ) (hf : Elliptic f α Λ) (y' : m → ℝ) (hy : f y' = 0) (tol : ℝ) (x : n → ℝ)
    (hx : ‖eu n (S.basisᵀ *ᵥ f (lift S x))‖ ≤ tol) (z : n → ℝ) : ‖eu m (lift S x - y')‖ ≤ Λ / α * ‖eu m (lift S z - y')‖ + 2 * tol / (α * σ) := by
  have hα := hf.pos
  have hσ := hS.pos
  have htol : 0 ≤ tol := (norm_nonneg _).trans hx
  set e := ‖eu m (lift S x - y')‖ with he
  set d := ‖eu m (lift S z - y')‖ with hd
  have h1 := hf.mono (lift S x) y'
  have h2 : (f (lift S x) - f y') ⬝ᵥ (lift S x - y') = (S.basisᵀ *ᵥ f (lift S x)) ⬝ᵥ (x - z) + (f (lift S x) - f y') ⬝ᵥ (lift S z - y') := by
    rw [basis_dot, ← lift_affine, hy, sub_zero, ← dotProduct_add, sub_add_sub_cancel]
  have h3 : (S.basisᵀ *ᵥ f (lift S x)) ⬝ᵥ (x - z) ≤ tol / σ * (e + d) := by
    rw [← eu_inner]
    refine (real_inner_le_norm _ _).trans ?_
    have h4 : σ * ‖eu n (x - z)‖ ≤ e + d := by
      refine (hS.below _).trans ?_
      rw [← lift_affine, show lift S x - lift S z = (lift S x - y') - (lift S z - y') by abel, map_sub]
      exact norm_sub_le _ _
    have h5 : ‖eu n (x - z)‖ ≤ (e + d) / σ := by rw [le_div_iff₀ hσ]; linarith
    calc _ ≤ tol * ((e + d) / σ) := mul_le_mul hx h5 (norm_nonneg _) htol
      _ = _ := by ring
  have h6 : (f (lift S x) - f y') ⬝ᵥ (lift S z - y') ≤ Λ * e * d := by
    rw [← eu_inner]
    exact (real_inner_le_norm _ _).trans (mul_le_mul_of_nonneg_right (hf.lip _ _) (norm_nonneg _))
  have h7 : 0 < e → α ≤ Λ := fun h0 => by
    have h8 : (f (lift S x) - f y') ⬝ᵥ (lift S x - y') ≤ Λ * e * e := by
      rw [← eu_inner]
      exact (real_inner_le_norm _ _).trans (mul_le_mul_of_nonneg_right (hf.lip _ _) (norm_nonneg _))
    by_contra hc
    rw [not_le] at hc
    nlinarith [mul_pos h0 h0]
  have h9 : 0 ≤ Λ * d := (norm_nonneg _).trans (hf.lip (lift S z) y')
  have := quasi_optimal_bound hα (div_nonneg htol hσ.le) (norm_nonneg _) (norm_nonneg _) h9 h7 (by rw [← he, ← hd]; linarith)
  refine this.trans (le_of_eq ?_)
  rw [div_div, mul_div_assoc, mul_comm σ]

/-- **C89, exact reproduction**: if the full-order solution lies in the trial space, only the tolerance separates the reduced solution from it. -/
theorem C89_galerkin_exact (S : Trial ℝ m n) (σ : ℝ) (hS : FullRank S σ) (f : (m → ℝ) → m → ℝ) (α Λ : ℝ) (hf : Elliptic f α Λ) (z : n → ℝ) (hz : f (lift S z) = 0) (tol : ℝ) (x : n → ℝ)
    (hx : ‖eu n (S.basisᵀ *ᵥ f (lift S x))‖ ≤ tol) : ‖eu m (lift S x - lift S z)‖ ≤ 2 * tol / (α * σ) := by
  have := C89_galerkin_quasi_optimal S σ hS f α Λ hf _ hz tol x hx z
  simpa using this

/-- a relative criterion with tolerance at most 1 is not met at the initial guess -/
theorem self_quotient (v tol : ℝ) (ht : tol ≤ 1) : (Model.Nonlinear.fdiv v v).lt tol = false := by
  unfold Model.Nonlinear.fdiv
  split
  · rename_i h0
    simp [h0, Model.Nonlinear.Quot'.lt]
  · rename_i h0
    rw [div_self h0]
    simp only [Model.Nonlinear.Quot'.lt, decide_eq_false_iff_not, not_lt]
    exact ht

/-- the reduced matrix of a coercive matrix is regular -/
theorem reduced_regular (S : Trial ℝ m n) (σ : ℝ) (hS : FullRank S σ) (A : Matrix m m ℝ) (b : m → ℝ) (α Λ : ℝ) (hf : Elliptic (fun y => A *ᵥ y + b) α Λ) (v : n → ℝ) (hv : (S.basisᵀ * (A * S.basis)) *ᵥ v = 0) : v = 0 := by
  have h1 := hf.mono (S.basis *ᵥ v) 0
  have h2 : (A *ᵥ (S.basis *ᵥ v) + b - (A *ᵥ 0 + b)) ⬝ᵥ (S.basis *ᵥ v - 0) = 0 := by
    rw [Matrix.mulVec_zero, sub_zero, zero_add, add_sub_cancel_right, ← basis_dot, Matrix.mulVec_mulVec _ A S.basis, Matrix.mulVec_mulVec _ S.basisᵀ, hv, zero_dotProduct]
  rw [h2, sub_zero] at h1
  have h3 : ‖eu m (S.basis *ᵥ v)‖ ^ 2 ≤ 0 := by
    by_contra hc
    rw [not_le] at hc
    nlinarith [mul_pos hf.pos hc]
  have h4 : ‖eu m (S.basis *ᵥ v)‖ = 0 := by
    have := sq_nonneg ‖eu m (S.basis *ᵥ v)‖
    exact pow_eq_zero_iff (two_ne_zero) |>.1 (le_antisymm h3 this)
  have h5 := hS.below v
  rw [h4] at h5
  have h6 : ‖eu n v‖ ≤ 0 := by
    by_contra hc
    rw [not_le] at hc
    nlinarith [mul_pos hS.pos hc]
  exact eu_inj (by rw [map_zero]; exact norm_le_zero_iff.1 h6)

/-- **C89, Galerkin with a Newton solver object on a linear elliptic full-order model** `A y + b = 0`, residual criterion (absolute, or relative with a tolerance of at most 1), at least two iterations allowed, a linear solver that
    solves regular systems: whatever the initial guess and the past of the solver and problem objects, `solve` returns normally with a quasi-optimal state; with the relative criterion the reduced equations hold exactly. -/
theorem C89_galerkin_newton_linear {F : SteadyFom ℝ m m n} {A : Matrix m m ℝ} {b : m → ℝ} (hF : SteadyIs F (fun y => .ok (A *ᵥ y + b)) (fun _ => .ok A)) (S : Trial ℝ m n) (σ : ℝ) (hS : FullRank S σ)
    (α Λ : ℝ) (hf : Elliptic (fun y => A *ᵥ y + b) α Λ) (env : Env ℝ n n P L) (hM : ∀ v, env.normM v = ‖eu n v‖) (hN : env.normN 0 = 0) (cfg : Cfg ℝ) (sol : Matrix n n ℝ → (n → ℝ) → n → ℝ) (tick : L → L)
    (hlin : ∀ A b c l, env.linJ A b (c, l) = .ok () (sol A b, tick l)) (hsol : ∀ A b, IsUnit A.det → A *ᵥ sol A b = b)
    (hstop : cfg.stop = .WhenAbsolutel2NormOfResidualBelowTolerance ∨ (cfg.stop = .WhenRelativel2NormOfResidualBelowTolerance ∧ cfg.tol ≤ 1)) (htol : 0 < cfg.tol) (hupd : cfg.update = .Standard)
    (h2 : 2 ≤ cfg.maxIters) (hmax : cfg.maxIters < int32Max) (reg : Reg ℝ n n P L) (x0 : n → ℝ) (hreg : NewtonIdle reg) (mem : GSt ℝ m m q n) :
    let out := solveSteady (newtonSolve env cfg) reg (galerkinEval (steadyResidualJac S F)) x0 mem
    out.stop? = none ∧ (cfg.stop = .WhenRelativel2NormOfResidualBelowTolerance → S.basisᵀ *ᵥ (A *ᵥ lift S out.state.y + b) = 0) ∧
    ∀ y' z, A *ᵥ y' + b = 0 → ‖eu m (lift S out.state.y - y')‖ ≤ Λ / α * ‖eu m (lift S z - y')‖ + 2 * cfg.tol / (α * σ) := by
  intro out
  have hrel : lift S = fun x => S.basis *ᵥ x + lift S 0 := by funext x; simp [lift]
  set B := S.basisᵀ * (A * S.basis) with hB
  set c := S.basisᵀ *ᵥ (A *ᵥ lift S 0 + b) with hc
  have hr : ∀ x, S.basisᵀ *ᵥ (A *ᵥ lift S x + b) = B *ᵥ x + c := by
    intro x
    rw [hrel, hB, hc]
    beta_reduce
    rw [Matrix.mulVec_add A, add_assoc, Matrix.mulVec_add, Matrix.mulVec_mulVec _ A, Matrix.mulVec_mulVec]
  have hinj := reduced_regular S σ hS A b α Λ hf
  have hdet : IsUnit B.det := (Matrix.isUnit_iff_isUnit_det B).1 (Matrix.mulVec_injective_iff_isUnit.1 (fun v w h => sub_eq_zero.1 (hinj _ (by
    rw [Matrix.mulVec_sub]; exact sub_eq_zero.2 h))))
  have hserve : Serves (galerkinEval (steadyResidualJac S F : (n → ℝ) → Bool → Prog (GSt ℝ m m q n) Unit)) (fun x => B *ᵥ x + c) (fun _ => B) := by
    have := C89_galerkin_problem (q := q) hF S
    simpa only [hr] using this
  obtain ⟨g1, g2, -⟩ := C89_solve_is_memoryless (newtonSolve env cfg) reg _ _ _ hserve x0 mem
  have g1 : out.stop? = _ := g1
  have g2 : out.state.y = _ := g2
  obtain ⟨f1, f2, f3, -⟩ := C31_newton_affine env cfg B c sol tick hlin (fun d => hsol B d hdet) hinj (by rcases hstop with h | ⟨h, -⟩ <;> rw [h] <;> rfl) hupd hmax h2 htol (by rw [hM]; simp) hN { reg with x := x0 } (hreg x0)
  refine ⟨g1.trans f1, fun h => ?_, fun y' z hy => ?_⟩
  · rcases hstop with h' | ⟨-, ht⟩
    · rw [h] at h'; cases h'
    · rw [hr, g2]
      refine f3 (fun hmet => ?_)
      simp only [h, below, self_quotient _ _ ht, Bool.false_eq_true] at hmet
  · refine C89_galerkin_quasi_optimal S σ hS _ α Λ hf y' hy cfg.tol _ ?_ z
    beta_reduce
    rw [hr, g2]
    by_cases hmet : below cfg.stop cfg.tol (⟨env.normM (B *ᵥ x0 + c), env.normN (-sol B (B *ᵥ x0 + c)), 0, 0⟩ : Norms ℝ) ⟨env.normM (B *ᵥ x0 + c), env.normN (-sol B (B *ᵥ x0 + c)), 0, 0⟩ = true
    · rw [show (SM.run (Sys.ofFun (fun x => B *ᵥ x + c) fun _ => B).toF (newtonSolve env cfg) { reg with x := x0 }).state.x = x0 from (f2 hmet).1]
      rcases hstop with h | ⟨h, ht⟩
      · simp only [h, below, decide_eq_true_eq, hM] at hmet
        exact hmet.le
      · simp only [h, below, self_quotient _ _ ht, Bool.false_eq_true] at hmet
    · have : B *ᵥ (SM.run (Sys.ofFun (fun x => B *ᵥ x + c) fun _ => B).toF (newtonSolve env cfg) { reg with x := x0 }).state.x + c = 0 := f3 hmet
      rw [this]
      simpa using htol.le

/-- **C89, Galerkin with a Newton solver object on any elliptic full-order model**, absolute residual criterion, either update: a solve that returns normally and leaves no file behind to say that it did not converge leaves a quasi-optimal
    state, whatever the linear solver, the Jacobian, the initial guess and the past of the solver and problem objects. -/
theorem C89_galerkin_newton {F : SteadyFom ℝ m m n} {f : (m → ℝ) → m → ℝ} {Df : (m → ℝ) → Matrix m m ℝ} (hF : SteadyIs F (fun y => .ok (f y)) (fun y => .ok (Df y))) (S : Trial ℝ m n) (σ : ℝ) (hS : FullRank S σ)
    (α Λ : ℝ) (hf : Elliptic f α Λ) (env : Env ℝ n n P L) (hM : ∀ v, env.normM v = ‖eu n v‖) (cfg : Cfg ℝ) (hopt : NewtonOption cfg) (hstop : cfg.stop = .WhenAbsolutel2NormOfResidualBelowTolerance)
    (h1 : 1 ≤ cfg.maxIters) (reg : Reg ℝ n n P L) (x0 : n → ℝ) (hreg : NewtonIdle reg) (mem : GSt ℝ m m q n) :
    let out := solveSteady (newtonSolve env cfg) reg (galerkinEval (steadyResidualJac S F)) x0 mem
    out.stop? = none → (runNewton env cfg (Sys.ofFun (fun x => S.basisᵀ *ᵥ f (lift S x)) (fun x => S.basisᵀ * (Df (lift S x) * S.basis))) { reg with x := x0 }).state.files = reg.files →
    ∀ y' z, f y' = 0 → ‖eu m (lift S out.state.y - y')‖ ≤ Λ / α * ‖eu m (lift S z - y')‖ + 2 * cfg.tol / (α * σ) := by
  intro out hnone hfiles y' z hy
  obtain ⟨g1, g2, -⟩ := C89_solve_is_memoryless (newtonSolve env cfg) reg _ _ _ (C89_galerkin_problem (q := q) hF S) x0 mem
  have g1 : out.stop? = _ := g1
  have g2 : out.state.y = _ := g2
  obtain ⟨r, J, c, l, c', l', ref, e1, -, -, e4⟩ := C33_newton_no_file_means_converged_partial env cfg _ hopt h1 { reg with x := x0 } (hreg x0) (g1.symm.trans hnone) hfiles
  refine C89_galerkin_quasi_optimal S σ hS f α Λ hf y' hy cfg.tol _ ?_ z
  rw [g2]
  simp only [Sys.ofFun, Except.ok.injEq, Prod.mk.injEq] at e1
  simp only [hstop, below, decide_eq_true_eq, hM, ← e1.1] at e4
  exact e4.le

/-- **C89, energy norm**: on a symmetric positive semidefinite full-order model the exact Galerkin solution is the best point of the trial space in the norm of the energy. -/
theorem C89_galerkin_energy (S : Trial ℝ m n) (A : Matrix m m ℝ) (b : m → ℝ) (hsym : Aᵀ = A) (hpos : ∀ v, 0 ≤ v ⬝ᵥ (A *ᵥ v)) (y' : m → ℝ) (hy : A *ᵥ y' + b = 0) (x : n → ℝ) (hx : S.basisᵀ *ᵥ (A *ᵥ lift S x + b) = 0) (z : n → ℝ) :
    (lift S x - y') ⬝ᵥ (A *ᵥ (lift S x - y')) ≤ (lift S z - y') ⬝ᵥ (A *ᵥ (lift S z - y')) := by
  set e := lift S x - y' with he
  set w := S.basis *ᵥ (z - x) with hw
  have h1 : lift S z - y' = e + w := by simp only [he, hw, lift, Matrix.mulVec_sub]; abel
  have h2 : A *ᵥ e = A *ᵥ lift S x + b := by
    rw [he, Matrix.mulVec_sub, eq_neg_of_add_eq_zero_left hy]; abel
  have h3 : (A *ᵥ e) ⬝ᵥ w = 0 := by rw [h2, hw, ← basis_dot, hx, zero_dotProduct]
  have h4 : e ⬝ᵥ (A *ᵥ w) = 0 := by
    rw [Matrix.dotProduct_mulVec, ← Matrix.mulVec_transpose, hsym, h3]
  rw [h1, Matrix.mulVec_add, dotProduct_add, add_dotProduct, add_dotProduct, h4, dotProduct_comm w (A *ᵥ e), h3]
  linarith [hpos w]
end

/-! ### LSPG -/

section
variable {E m p n q P L : Type} [NormedAddCommGroup E] [InnerProductSpace ℝ E] [Fintype m] [Fintype p] [Fintype n] [DecidableEq n] [Fintype q] [Fintype P]

/-- **C89, LSPG**: a reduced state whose residual is within `δ` of the smallest residual of the trial space is within `Λ/α` of the best approximation of the full-order solution, up to `δ`. -/
theorem C89_lspg_quasi_optimal (S : Trial ℝ m n) (ι : (p → ℝ) →ₗ[ℝ] E) (f : (m → ℝ) → p → ℝ) (α Λ : ℝ) (hf : Conditioned ι f α Λ) (y' : m → ℝ) (hy : f y' = 0) (δ : ℝ) (x z : n → ℝ)
    (hx : ‖ι (f (lift S x))‖ ≤ ‖ι (f (lift S z))‖ + δ) : ‖eu m (lift S x - y')‖ ≤ Λ / α * ‖eu m (lift S z - y')‖ + δ / α := by
  have h1 := hf.below (lift S x) y'
  have h2 := hf.above (lift S z) y'
  rw [hy, sub_zero] at h1 h2
  have h3 : Λ / α * ‖eu m (lift S z - y')‖ + δ / α = (Λ * ‖eu m (lift S z - y')‖ + δ) / α := by ring
  rw [h3, le_div_iff₀ hf.pos]
  linarith

/-- one step of Gauss-Newton on a linear problem: the residual left behind is orthogonal to what can be changed -/
theorem linear_step (ι : (p → ℝ) →ₗ[ℝ] E) (G : Matrix p n ℝ) (c : p → ℝ) (d x : n → ℝ) (hd : ∀ w, ⟪ι (G *ᵥ d), ι (G *ᵥ w)⟫ = ⟪ι (G *ᵥ x + c), ι (G *ᵥ w)⟫) (w : n → ℝ) : ⟪ι (G *ᵥ (x + -d) + c), ι (G *ᵥ w)⟫ = 0 := by
  have : G *ᵥ (x + -d) + c = (G *ᵥ x + c) - G *ᵥ d := by rw [Matrix.mulVec_add, Matrix.mulVec_neg]; abel
  rw [this, map_sub, inner_sub_left, hd, sub_self]

/-- a residual orthogonal to what can be changed is the smallest -/
theorem linear_best (ι : (p → ℝ) →ₗ[ℝ] E) (G : Matrix p n ℝ) (c : p → ℝ) (x : n → ℝ) (h : ∀ w, ⟪ι (G *ᵥ x + c), ι (G *ᵥ w)⟫ = 0) (z : n → ℝ) :
    ‖ι (G *ᵥ z + c)‖ ^ 2 = ‖ι (G *ᵥ x + c)‖ ^ 2 + ‖ι (G *ᵥ (z - x))‖ ^ 2 := by
  have : G *ᵥ z + c = (G *ᵥ x + c) + G *ᵥ (z - x) := by rw [Matrix.mulVec_sub]; abel
  rw [this, map_add, norm_add_sq_real, h]
  ring

/-- what a run of Gauss-Newton on a linear problem leaves: the smallest residual, or a small gradient -/
theorem linear_run (ι : (p → ℝ) →ₗ[ℝ] E) (G : Matrix p n ℝ) (c : p → ℝ) (D : (n → ℝ) → n → ℝ) (hD : ∀ x w, ⟪ι (G *ᵥ D x), ι (G *ᵥ w)⟫ = ⟪ι (G *ᵥ x + c), ι (G *ᵥ w)⟫) (cfg : Cfg ℝ) (h1 : 1 ≤ cfg.maxIters)
    (met : Nat → Prop) (x0 xe : n → ℝ) (k1 : ∀ k : Nat, (k : Int) < cfg.maxIters → met k → (∀ j < k, ¬ met j) → xe = (fun x => x + -D x)^[k] x0)
    (k2 : (∀ k : Nat, (k : Int) < cfg.maxIters → ¬ met k) → xe = (fun x => x + -D x)^[cfg.maxIters.toNat] x0) : (met 0 ∧ xe = x0) ∨ ∀ w, ⟪ι (G *ᵥ xe + c), ι (G *ᵥ w)⟫ = 0 := by
  have key : ∀ k : Nat, 1 ≤ k → ∀ w, ⟪ι (G *ᵥ ((fun x => x + -D x)^[k] x0) + c), ι (G *ᵥ w)⟫ = 0 := by
    intro k hk w
    obtain ⟨j, rfl⟩ := Nat.exists_eq_add_of_le' hk
    rw [Function.iterate_succ_apply']
    exact linear_step ι G c _ _ (hD _) w
  classical
  by_cases h : ∃ k : Nat, (k : Int) < cfg.maxIters ∧ met k
  · have g := Nat.find_spec h
    have e := k1 (Nat.find h) g.1 g.2 (fun j hj hm => Nat.find_min h hj ⟨by have := g.1; omega, hm⟩)
    rcases Nat.eq_zero_or_pos (Nat.find h) with h0 | h0
    · rw [h0] at e g
      exact .inl ⟨g.2, e⟩
    · right; rw [e]; exact key _ h0
  · right
    rw [k2 (fun k hk hm => h ⟨k, hk, hm⟩)]
    exact key _ (by omega)

/-- a small gradient means a residual close to the smallest one -/
theorem small_gradient (ι : (p → ℝ) →ₗ[ℝ] E) (G : Matrix p n ℝ) (c : p → ℝ) (a : ℝ) (ha : 0 < a) (hG : ∀ v, a * ‖eu n v‖ ≤ ‖ι (G *ᵥ v)‖) (d x g : n → ℝ) (hd : ∀ w, ⟪ι (G *ᵥ d), ι (G *ᵥ w)⟫ = ⟪ι (G *ᵥ x + c), ι (G *ᵥ w)⟫)
    (hg : ∀ w, g ⬝ᵥ w = ⟪ι (G *ᵥ x + c), ι (G *ᵥ w)⟫) (tol : ℝ) (ht : ‖eu n g‖ ≤ tol) (z : n → ℝ) : ‖ι (G *ᵥ x + c)‖ ≤ ‖ι (G *ᵥ z + c)‖ + tol / a := by
  have o := linear_step ι G c d x hd
  have b1 := linear_best ι G c _ o z
  have b2 := linear_best ι G c _ o x
  rw [show x - (x + -d) = d by abel] at b2
  set M := ‖ι (G *ᵥ (x + -d) + c)‖
  set T := ‖ι (G *ᵥ d)‖ with hT
  have t1 : T ^ 2 ≤ tol * ‖eu n d‖ := by
    rw [hT, ← real_inner_self_eq_norm_sq, hd, ← hg, dotProduct_comm, ← eu_in]
    exact (real_inner_le_norm _ _).trans (mul_le_mul_of_nonneg_right ht (norm_nonneg _))
  have t2 := hG d
  rw [← hT] at t2
  have ht0 : 0 ≤ tol := (norm_nonneg _).trans ht
  have hT0 : 0 ≤ T := norm_nonneg _
  have hM0 : 0 ≤ M := norm_nonneg _
  have t3 : T ≤ tol / a := by
    rw [le_div_iff₀ ha]
    by_contra hc
    rw [not_le] at hc
    have : 0 < T := by
      rcases hT0.eq_or_lt with h | h
      · rw [← h] at hc; linarith
      · exact h
    nlinarith [mul_le_mul_of_nonneg_left t2 ht0]
  have t4 : ‖ι (G *ᵥ x + c)‖ ≤ M + T := by
    refine abs_le_of_sq_le_sq' ?_ (by positivity) |>.2
    nlinarith
  have t5 : M ≤ ‖ι (G *ᵥ z + c)‖ := by
    refine abs_le_of_sq_le_sq' ?_ (norm_nonneg _) |>.2
    nlinarith [sq_nonneg ‖ι (G *ᵥ (z - (x + -d)))‖]
  linarith

/-- Gauss-Newton on the linear problem `G x + c`, whatever the way the correction is computed -/
theorem linear_fit (ι : (p → ℝ) →ₗ[ℝ] E) (G : Matrix p n ℝ) (c : p → ℝ) (a : ℝ) (ha : 0 < a) (hG : ∀ v, a * ‖eu n v‖ ≤ ‖ι (G *ᵥ v)‖) (D : (n → ℝ) → n → ℝ)
    (hD : ∀ x w, ⟪ι (G *ᵥ D x), ι (G *ᵥ w)⟫ = ⟪ι (G *ᵥ x + c), ι (G *ᵥ w)⟫) (g : (n → ℝ) → n → ℝ) (hg : ∀ x w, g x ⬝ᵥ w = ⟪ι (G *ᵥ x + c), ι (G *ᵥ w)⟫) (cfg : Cfg ℝ) (h1 : 1 ≤ cfg.maxIters)
    (hstop : cfg.stop = .WhenAbsolutel2NormOfGradientBelowTolerance ∧ 0 ≤ cfg.tol ∨ Corrects cfg) (nrm : (n → ℝ) → Norms ℝ) (hnrm : ∀ x, (nrm x).grad = ‖eu n (g x)‖) (x0 xe : n → ℝ)
    (k1 : ∀ k : Nat, (k : Int) < cfg.maxIters → lsMet cfg (nrm x0) (nrm ((fun x => x + -D x)^[k] x0)) k = true → (∀ j < k, ¬ lsMet cfg (nrm x0) (nrm ((fun x => x + -D x)^[j] x0)) j = true) → xe = (fun x => x + -D x)^[k] x0)
    (k2 : (∀ k : Nat, (k : Int) < cfg.maxIters → ¬ lsMet cfg (nrm x0) (nrm ((fun x => x + -D x)^[k] x0)) k = true) → xe = (fun x => x + -D x)^[cfg.maxIters.toNat] x0) (z : n → ℝ) :
    ‖ι (G *ᵥ xe + c)‖ ≤ ‖ι (G *ᵥ z + c)‖ + slack cfg / a := by
  have hs : 0 ≤ slack cfg := by
    unfold slack
    split
    · rcases hstop with h | h
      · exact h.2
      · rcases h with ⟨h, -⟩ | ⟨h, -⟩ <;> simp_all
    · exact le_rfl
  rcases linear_run ι G c D hD cfg h1 (fun k => lsMet cfg (nrm x0) (nrm ((fun x => x + -D x)^[k] x0)) k = true) x0 xe k1 k2 with ⟨hm, rfl⟩ | h
  · rcases hstop with ⟨h, -⟩ | h
    · simp only [lsMet, h, below, Function.iterate_zero, id_eq, decide_eq_true_eq, hnrm, reduceCtorEq, if_false] at hm
      refine small_gradient ι G c a ha hG (D xe) xe (g xe) (hD xe) (hg xe) _ ?_ z
      rw [slack, if_pos h]; exact hm.le
    · simp only [Function.iterate_zero, id_eq] at hm
      rw [never_met_at_start cfg h] at hm
      cases hm
  · have b := linear_best ι G c xe h z
    have : ‖ι (G *ᵥ xe + c)‖ ≤ ‖ι (G *ᵥ z + c)‖ := by
      refine abs_le_of_sq_le_sq' ?_ (norm_nonneg _) |>.2
      nlinarith [sq_nonneg ‖ι (G *ᵥ (z - xe))‖]
    have : 0 ≤ slack cfg / a := div_nonneg hs ha.le
    linarith

/-- an affine full-order residual on the trial space -/
theorem affine_lift (S : Trial ℝ m n) (A : Matrix p m ℝ) (b : p → ℝ) (x : n → ℝ) : A *ᵥ lift S x + b = (A * S.basis) *ᵥ x + (A *ᵥ lift S 0 + b) := by
  simp only [lift, Matrix.mulVec_add, Matrix.mulVec_zero, zero_add, ← Matrix.mulVec_mulVec, add_assoc]

theorem conditioned_reduced (S : Trial ℝ m n) (σ : ℝ) (hS : FullRank S σ) (ι : (p → ℝ) →ₗ[ℝ] E) (A : Matrix p m ℝ) (b : p → ℝ) (α Λ : ℝ) (hf : Conditioned ι (fun y => A *ᵥ y + b) α Λ) (v : n → ℝ) :
    α * σ * ‖eu n v‖ ≤ ‖ι ((A * S.basis) *ᵥ v)‖ := by
  have h := hf.below (S.basis *ᵥ v) 0
  simp only [sub_zero, Matrix.mulVec_zero, zero_add, add_sub_cancel_right, Matrix.mulVec_mulVec] at h
  have h2 := hS.below v
  have := mul_le_mul_of_nonneg_left h2 hf.pos.le
  linarith

/-- **C89, LSPG with a Gauss-Newton solver object** (plain, weighted or compact weighted) **on a linear full-order model** `A y + b`, possibly with more equations than unknowns: whatever the initial guess and the past of the solver and problem
    objects, `solve` returns normally, no point of the trial space has a smaller residual (up to the tolerance, for the absolute gradient criterion), and the state is quasi-optimal. -/
theorem C89_lspg_gauss_newton_linear {F : SteadyFom ℝ m p n} {A : Matrix p m ℝ} {b : p → ℝ} (hF : SteadyIs F (fun y => .ok (A *ᵥ y + b)) (fun _ => .ok A)) (S : Trial ℝ m n) (σ : ℝ) (hS : FullRank S σ)
    (ι : (p → ℝ) →ₗ[ℝ] E) (α Λ : ℝ) (hf : Conditioned ι (fun y => A *ᵥ y + b) α Λ) (env : Env ℝ p n P L) (hN : ∀ v, env.normN v = ‖eu n v‖) (tag : Tag) (htag : tag = .gn ∨ tag = .wgn ∨ tag = .cwgn)
    (hmin : Minimises env tag ι) (cfg : Cfg ℝ) (sol : Matrix n n ℝ → (n → ℝ) → n → ℝ) (tick : L → L)
    (hlin : ∀ A b c l, env.lin A b (c, l) = .ok () (sol A b, tick l)) (hsol : ∀ A b, A.PosDef → A *ᵥ sol A b = b)
    (hstop : cfg.stop = .WhenAbsolutel2NormOfGradientBelowTolerance ∧ 0 ≤ cfg.tol ∨ Corrects cfg) (hupd : cfg.update = .Standard)
    (h1 : 1 ≤ cfg.maxIters) (hmax : cfg.maxIters < int32Max) (reg : Reg ℝ p n P L) (x0 : n → ℝ) (hreg : LsIdle reg) (sc : SteadyScaler ℝ m p n) (hsc : ∀ y r J, sc y (r, J) = .ok (r, J)) (mem : (m → ℝ) × (p → ℝ) × Matrix p n ℝ) :
    let out := solveSteady (lsSolve env cfg tag) reg (steadyLspg S F sc) x0 mem
    out.stop? = none ∧ (∀ z, ‖ι (A *ᵥ lift S out.state.y + b)‖ ≤ ‖ι (A *ᵥ lift S z + b)‖ + slack cfg / (α * σ)) ∧
    ∀ y' z, A *ᵥ y' + b = 0 → ‖eu m (lift S out.state.y - y')‖ ≤ Λ / α * ‖eu m (lift S z - y')‖ + slack cfg / (α * σ) / α := by
  intro out
  set G := A * S.basis with hG
  set c := A *ᵥ lift S 0 + b with hc
  have hr : ∀ x, A *ᵥ lift S x + b = G *ᵥ x + c := affine_lift S A b
  have ha : 0 < α * σ := mul_pos hf.pos hS.pos
  have hlow := conditioned_reduced S σ hS ι A b α Λ hf
  have hserve : Serves (steadyLspg S F sc) (fun x => G *ᵥ x + c) (fun _ => G) := by
    have := C89_lspg_problem hF S sc (fun _ r => r) (fun _ J => J) (fun y r J => by rw [hsc]; cases J <;> rfl)
    simpa only [hr] using this
  obtain ⟨g1, g2, -⟩ := C89_solve_is_memoryless (lsSolve env cfg tag) reg _ _ _ hserve x0 mem
  have g1 : out.stop? = _ := g1
  have g2 : out.state.y = _ := g2
  obtain ⟨f1, -, f3, f4⟩ := C36_least_squares_iterates env cfg tag htag (fun x => G *ᵥ x + c) (fun _ => G) sol tick hlin hupd hmax { reg with x := x0 } (hreg x0)
  have hpd : (hessOf env tag G reg.damp).PosDef := by
    refine Matrix.PosDef.of_dotProduct_mulVec_pos ?_ ?_
    · ext i j
      have h1 := hmin.hess G reg.damp (Pi.single i 1) (Pi.single j 1)
      have h2 := hmin.hess G reg.damp (Pi.single j 1) (Pi.single i 1)
      rw [real_inner_comm, ← h2] at h1
      simpa using h1
    · intro v hv
      have h := hmin.hess G reg.damp v v
      rw [dotProduct_comm] at h
      simp only [star_trivial]
      rw [h, real_inner_self_eq_norm_sq]
      have h2 : 0 < ‖eu n v‖ := by
        rw [norm_pos_iff]
        exact fun h0 => hv (eu_inj (by rw [h0, map_zero]))
      have := hlow v
      have : 0 < ‖ι (G *ᵥ v)‖ := lt_of_lt_of_le (by positivity) this
      positivity
  have hbest : ∀ z, ‖ι (A *ᵥ lift S out.state.y + b)‖ ≤ ‖ι (A *ᵥ lift S z + b)‖ + slack cfg / (α * σ) := by
    intro z
    rw [hr, hr, g2]
    refine linear_fit ι G c (α * σ) ha hlow (fun x => sol (hessOf env tag G reg.damp) (gradOf env tag (G *ᵥ x + c) G)) (fun x w => ?_) (fun x => gradOf env tag (G *ᵥ x + c) G) (fun x w => hmin.grad _ _ _) cfg h1 hstop
      (fun x => ⟨env.normM (G *ᵥ x + c), env.normN (-sol (hessOf env tag G reg.damp) (gradOf env tag (G *ᵥ x + c) G)), env.normN (gradOf env tag (G *ᵥ x + c) G), objOf env tag (G *ᵥ x + c)⟩)
      (fun x => hN _) x0 _ (fun k a b c => (f3 k a b c).1) (fun h => (f4 h).1) z
    rw [← hmin.hess G reg.damp, hsol _ _ hpd, hmin.grad]
  exact ⟨g1.trans f1, hbest, fun y' z hy => C89_lspg_quasi_optimal S ι _ α Λ hf y' hy _ _ z (hbest z)⟩

/-- **C89, QR**: the same with the QR-based Gauss-Newton solver. -/
theorem C89_lspg_gauss_newton_qr_linear [DecidableEq p] {F : SteadyFom ℝ m p n} {A : Matrix p m ℝ} {b : p → ℝ} (hF : SteadyIs F (fun y => .ok (A *ᵥ y + b)) (fun _ => .ok A)) (S : Trial ℝ m n) (σ : ℝ) (hS : FullRank S σ)
    (α Λ : ℝ) (hf : Conditioned (eu p) (fun y => A *ᵥ y + b) α Λ) (env : Env ℝ p n P L) (hM : ∀ v, env.normM v = ‖eu p v‖) (hN : ∀ v, env.normN v = ‖eu n v‖) (cfg : Cfg ℝ) (fact : Matrix p n ℝ → L) (qt : Matrix p n ℝ → (p → ℝ) → n → ℝ)
    (back : Matrix p n ℝ → (n → ℝ) → n → ℝ) (hthin : ∀ A l, env.qrThin A l = .ok () (fact A)) (hqt : ∀ A v b, env.qrApplyQT v (b, fact A) = .ok () (qt A v, fact A))
    (hback : ∀ A b c, env.qrSolve b (c, fact A) = .ok () (back A b, fact A))
    (hqr : ∀ A : Matrix p n ℝ, (∀ v, A *ᵥ v = 0 → v = 0) → ∃ (Q : Matrix p n ℝ) (R : Matrix n n ℝ), A = Q * R ∧ Qᵀ * Q = 1 ∧ (∀ v, qt A v = Qᵀ *ᵥ v) ∧ ∀ b, R *ᵥ back A b = b)
    (hstop : cfg.stop = .WhenAbsolutel2NormOfGradientBelowTolerance ∧ 0 ≤ cfg.tol ∨ Corrects cfg) (hupd : cfg.update = .Standard)
    (h1 : 1 ≤ cfg.maxIters) (hmax : cfg.maxIters < int32Max) (reg : Reg ℝ p n P L) (x0 : n → ℝ) (hreg : LsIdle reg) (sc : SteadyScaler ℝ m p n) (hsc : ∀ y r J, sc y (r, J) = .ok (r, J)) (mem : (m → ℝ) × (p → ℝ) × Matrix p n ℝ) :
    let out := solveSteady (lsSolve env cfg .gnQr) reg (steadyLspg S F sc) x0 mem
    out.stop? = none ∧ (∀ z, ‖eu p (A *ᵥ lift S out.state.y + b)‖ ≤ ‖eu p (A *ᵥ lift S z + b)‖ + slack cfg / (α * σ)) ∧
    ∀ y' z, A *ᵥ y' + b = 0 → ‖eu m (lift S out.state.y - y')‖ ≤ Λ / α * ‖eu m (lift S z - y')‖ + slack cfg / (α * σ) / α := by
  intro out
  set G := A * S.basis with hG
  set c := A *ᵥ lift S 0 + b with hc
  have hr : ∀ x, A *ᵥ lift S x + b = G *ᵥ x + c := affine_lift S A b
  have ha : 0 < α * σ := mul_pos hf.pos hS.pos
  have hlow := conditioned_reduced S σ hS (eu p) A b α Λ hf
  have hserve : Serves (steadyLspg S F sc) (fun x => G *ᵥ x + c) (fun _ => G) := by
    have := C89_lspg_problem hF S sc (fun _ r => r) (fun _ J => J) (fun y r J => by rw [hsc]; cases J <;> rfl)
    simpa only [hr] using this
  obtain ⟨g1, g2, -⟩ := C89_solve_is_memoryless (lsSolve env cfg .gnQr) reg _ _ _ hserve x0 mem
  have g1 : out.stop? = _ := g1
  have g2 : out.state.y = _ := g2
  obtain ⟨f1, -, f3, f4⟩ := C36_qr_iterates env cfg (fun x => G *ᵥ x + c) (fun _ => G) fact qt back hthin hqt hback hupd hmax { reg with x := x0 } (hreg x0)
  have hmin : Minimises env .gnQr (eu p) := C86_minimises_plain env hM _ (.inr rfl)
  obtain ⟨Q, R, e1, e2, e3, e4⟩ := hqr G (fun v hv => by
    have := hlow v
    rw [hv, map_zero, norm_zero] at this
    have h0 : ‖eu n v‖ ≤ 0 := by
      by_contra hc
      rw [not_le] at hc
      nlinarith [mul_pos ha hc]
    exact eu_inj (by rw [map_zero]; exact norm_le_zero_iff.1 h0))
  have hbest : ∀ z, ‖eu p (A *ᵥ lift S out.state.y + b)‖ ≤ ‖eu p (A *ᵥ lift S z + b)‖ + slack cfg / (α * σ) := by
    intro z
    rw [hr, hr, g2]
    refine linear_fit (eu p) G c (α * σ) ha hlow (fun x => back G (qt G (G *ᵥ x + c))) (fun x w => ?_) (fun x => Gᵀ *ᵥ (G *ᵥ x + c)) (fun x w => hmin.grad _ _ _) cfg h1 hstop
      (fun x => ⟨env.normM (G *ᵥ x + c), env.normN (-back G (qt G (G *ᵥ x + c))), env.normN (Gᵀ *ᵥ (G *ᵥ x + c)), env.normM (G *ᵥ x + c) ^ 2 / 2⟩)
      (fun x => hN _) x0 _ (fun k a b c => (f3 k a b c).1) (fun h => (f4 h).1) z
    beta_reduce
    set d := back G (qt G (G *ᵥ x + c)) with hd
    have hJd : G *ᵥ d = Q *ᵥ (Qᵀ *ᵥ (G *ᵥ x + c)) := by
      rw [show G *ᵥ d = Q *ᵥ (R *ᵥ d) by rw [Matrix.mulVec_mulVec, ← e1], hd, e4, e3]
    rw [eu_in, eu_in, hJd, show G *ᵥ w = Q *ᵥ (R *ᵥ w) by rw [Matrix.mulVec_mulVec, ← e1]]
    rw [Matrix.dotProduct_mulVec, ← Matrix.mulVec_transpose, Matrix.mulVec_mulVec, e2, Matrix.one_mulVec, Matrix.dotProduct_mulVec (R *ᵥ w), Matrix.vecMul_transpose]
  exact ⟨g1.trans f1, hbest, fun y' z hy => C89_lspg_quasi_optimal S (eu p) _ α Λ hf y' hy _ _ z (hbest z)⟩
end

/-! ### Concrete cases: two equations, one reduced coordinate -/
section Examples

/-- rotation by a right angle plus `c` times the identity -/
noncomputable def spiral (c : ℝ) : Matrix (Fin 2) (Fin 2) ℝ := !![c, 1; -1, c]

/-- the full-order model `spiral c y + b = 0` -/
noncomputable def spiralFom (c : ℝ) (b : Fin 2 → ℝ) : SteadyFom ℝ (Fin 2) (Fin 2) Unit where
  residual := fun y _ => .ok (spiral c *ᵥ y + b)
  residualAndJac := fun y B w J => .ok (spiral c *ᵥ y + b, if w then spiral c * B else J.2)
  jacAction := fun _ v _ => .ok (spiral c *ᵥ v)

theorem spiralFom_is (c : ℝ) (b : Fin 2 → ℝ) : SteadyIs (spiralFom c b) (fun y => .ok (spiral c *ᵥ y + b)) (fun _ => .ok (spiral c)) where
  residual := fun _ _ => rfl
  residualOnly := fun _ _ _ => rfl
  residualAndJac := fun _ _ _ => rfl

theorem spiral_dot (c : ℝ) (v : Fin 2 → ℝ) : (spiral c *ᵥ v) ⬝ᵥ v = c * ‖eu (Fin 2) v‖ ^ 2 := by
  rw [eu_sq]; simp [spiral, dotProduct, Matrix.mulVec, Fin.sum_univ_two]; ring

theorem spiral_norm (c : ℝ) (v : Fin 2 → ℝ) : ‖eu (Fin 2) (spiral c *ᵥ v)‖ ^ 2 = (c ^ 2 + 1) * ‖eu (Fin 2) v‖ ^ 2 := by
  rw [eu_sq, eu_sq]; simp [spiral, dotProduct, Matrix.mulVec, Fin.sum_univ_two]; ring

theorem spiral_diff (c : ℝ) (b y z : Fin 2 → ℝ) : spiral c *ᵥ y + b - (spiral c *ᵥ z + b) = spiral c *ᵥ (y - z) := by
  rw [Matrix.mulVec_sub]; abel

theorem spiral_conditioned (c : ℝ) (hc : 0 ≤ c) (b : Fin 2 → ℝ) : Conditioned (eu (Fin 2)) (fun y => spiral c *ᵥ y + b) 1 (c + 1) := by
  refine ⟨one_pos, fun y z => ?_, fun y z => ?_⟩ <;> rw [spiral_diff]
  · refine abs_le_of_sq_le_sq' ?_ (norm_nonneg _) |>.2
    rw [spiral_norm]
    nlinarith [mul_nonneg (sq_nonneg c) (sq_nonneg ‖eu (Fin 2) (y - z)‖)]
  · refine abs_le_of_sq_le_sq' ?_ (by positivity) |>.2
    rw [spiral_norm, mul_pow]
    exact mul_le_mul_of_nonneg_right (by nlinarith) (sq_nonneg _)

theorem spiral_elliptic (c : ℝ) (hc : 0 < c) (b : Fin 2 → ℝ) : Elliptic (fun y => spiral c *ᵥ y + b) c (c + 1) :=
  ⟨hc, fun y z => by rw [spiral_diff, spiral_dot], fun y z => (spiral_conditioned c hc.le b).above y z⟩

theorem lineR_fullRank : FullRank lineR 1 := by
  refine ⟨one_pos, fun x => ?_⟩
  have h : lineR.basis *ᵥ x = ![3/5 * x (), 4/5 * x ()] := by
    funext i; fin_cases i <;> simp [lineR, Matrix.mulVec, dotProduct]
  rw [h, eu_unit, one_mul]
  exact le_eu_two _ _ _ (abs_nonneg _) (by rw [sq_abs]; nlinarith)

theorem envR_exact (A : Matrix Unit Unit ℝ) (b : Unit → ℝ) (hA : IsUnit A.det) : A *ᵥ (fun _ => b () / A () ()) = b := by
  have h : A () () ≠ 0 := by
    have := hA.ne_zero
    simpa [Matrix.det_unique] using this
  funext u
  simp [Matrix.mulVec, dotProduct]
  field_simp

/-- Galerkin, Newton: the full-order solution `(1, 0)` is 4/5 away from the trial space; the reduced solution from any guess is at most 8/5 (and the tolerance) away -/
example (tol : ℝ) (htol : 0 < tol) (x0 : Unit → ℝ) :
    let out := solveSteady (newtonSolve envR (cfgR tol)) regR (galerkinEval (steadyResidualJac lineR (spiralFom 1 ![-1, 1]))) x0 (gst0 _)
    out.stop? = none ∧ ‖eu (Fin 2) (lift lineR out.state.y - ![1, 0])‖ ≤ 8 / 5 + 2 * tol := by
  intro out
  obtain ⟨g1, -, g3⟩ := C89_galerkin_newton_linear (q := Unit) (spiralFom_is 1 ![-1, 1]) lineR 1 lineR_fullRank 1 (1 + 1) (spiral_elliptic 1 one_pos _) envR (fun v => norm_unit v) (by simp [envR]) (cfgR tol) (fun A b _ => b () / A () ()) id
    (fun _ _ _ _ => rfl) envR_exact (.inl rfl) htol rfl (by simp [cfgR]) (by simp [cfgR, int32Max]) regR x0 (fun _ => .created _ rfl) (gst0 _)
  refine ⟨g1, ?_⟩
  have h := g3 ![1, 0] (fun _ => 3/5) (by funext i; fin_cases i <;> simp [spiral, Matrix.mulVec, dotProduct, Fin.sum_univ_two])
  have h2 : ‖eu (Fin 2) (lift lineR (fun _ => 3/5) - ![1, 0])‖ ≤ 4/5 := by
    rw [lineR_lift]
    rw [show (![3/5 * (3/5), 4/5 * (3/5)] - ![1, 0] : Fin 2 → ℝ) = ![-16/25, 12/25] by funext i; fin_cases i <;> norm_num]
    exact eu_two_le _ _ _ (by norm_num) (by norm_num)
  refine h.trans ?_
  have : (cfgR tol).tol = tol := rfl
  rw [this, mul_one, div_one, div_one]
  linarith

/-- the hypotheses of `C89_galerkin_newton` on how the solve ended are met from any guess -/
example (tol : ℝ) (htol : 0 < tol) (x0 : Unit → ℝ) :
    let out := solveSteady (newtonSolve envR (cfgR tol)) regR (galerkinEval (steadyResidualJac lineR (spiralFom 1 ![-1, 1]))) x0 (gst0 _)
    Elliptic (fun y => spiral 1 *ᵥ y + ![-1, 1]) 1 (1 + 1) ∧ NewtonOption (cfgR tol) ∧ NewtonIdle regR ∧ out.stop? = none ∧
    (runNewton envR (cfgR tol) (Sys.ofFun (fun x => lineR.basisᵀ *ᵥ (spiral 1 *ᵥ lift lineR x + ![-1, 1])) (fun _ => lineR.basisᵀ * (spiral 1 * lineR.basis))) { regR with x := x0 }).state.files = regR.files := by
  intro out
  have hB : lineR.basisᵀ * (spiral 1 * lineR.basis) = 1 := by
    ext i j
    simp [lineR, spiral, Matrix.mul_apply, Fin.sum_univ_two, Matrix.vecHead, Matrix.vecTail]
    norm_num
  have hr : (fun x : Unit → ℝ => lineR.basisᵀ *ᵥ (spiral 1 *ᵥ lift lineR x + ![-1, 1])) = fun x => (1 : Matrix Unit Unit ℝ) *ᵥ x + fun _ => 1/5 := by
    funext x i
    rw [lineR_lift]
    simp [lineR, spiral, Matrix.mulVec, dotProduct, Fin.sum_univ_two]
    ring
  obtain ⟨g1, g2, -⟩ := C89_solve_is_memoryless (newtonSolve envR (cfgR tol)) regR _ _ _ (C89_galerkin_problem (q := Unit) (spiralFom_is 1 ![-1, 1]) lineR) x0 (gst0 _)
  obtain ⟨f1, f2, -, f4⟩ := C31_newton_affine envR (cfgR tol) (1 : Matrix Unit Unit ℝ) (fun _ => 1/5) (fun A b _ => b () / A () ()) id (fun _ _ _ _ => rfl) (fun d => by funext u; simp) (fun v h => by simpa using h) rfl rfl
    (by simp [cfgR, int32Max]) (by simp [cfgR]) htol (by simp [envR]) (by simp [envR]) { regR with x := x0 } (.created _ rfl)
  simp only [hr, hB] at g1
  refine ⟨spiral_elliptic 1 one_pos _, .inl rfl, fun _ => .created _ rfl, g1.trans f1, ?_⟩
  rw [hr, hB]
  exact (Classical.em _).elim (fun h => (f2 h).2.2) (fun h => (f4 h (.inl rfl)).2.2)

/-- LSPG, Gauss-Newton, the same full-order problem -/
example (x0 : Unit → ℝ) (mem : (Fin 2 → ℝ) × (Fin 2 → ℝ) × Matrix (Fin 2) Unit ℝ) :
    let out := solveSteady (lsSolve envF ⟨100, .WhenRelativel2NormOfGradientBelowTolerance, 1 / 10 ^ 6, .Standard, none⟩ .gn) regF (steadyLspg lineR (spiralFom 1 ![-1, 1]) (fun _ a => .ok a)) x0 mem
    out.stop? = none ∧ ‖eu (Fin 2) (lift lineR out.state.y - ![1, 0])‖ ≤ 8 / 5 := by
  intro out
  obtain ⟨g1, -, g3⟩ := C89_lspg_gauss_newton_linear (spiralFom_is 1 ![-1, 1]) lineR 1 lineR_fullRank (eu (Fin 2)) 1 (1 + 1) (spiral_conditioned 1 zero_le_one _) envF (fun _ => rfl) .gn (.inl rfl)
    (C86_minimises_plain envF (fun _ => rfl) .gn (.inl rfl)) ⟨100, .WhenRelativel2NormOfGradientBelowTolerance, 1 / 10 ^ 6, .Standard, none⟩ (fun A b _ => b () / A () ()) id (fun _ _ _ _ => rfl) envF_exact
    (.inr (.inr ⟨by simp, by norm_num⟩)) rfl (by norm_num) (by simp [int32Max]) regF x0 (fun _ => .created _ rfl) (fun _ a => .ok a) (fun _ _ _ => rfl) mem
  refine ⟨g1, ?_⟩
  have h := g3 ![1, 0] (fun _ => 3/5) (by funext i; fin_cases i <;> simp [spiral, Matrix.mulVec, dotProduct, Fin.sum_univ_two])
  have h2 : ‖eu (Fin 2) (lift lineR (fun _ => 3/5) - ![1, 0])‖ ≤ 4/5 := by
    rw [lineR_lift]
    rw [show (![3/5 * (3/5), 4/5 * (3/5)] - ![1, 0] : Fin 2 → ℝ) = ![-16/25, 12/25] by funext i; fin_cases i <;> norm_num]
    exact eu_two_le _ _ _ (by norm_num) (by norm_num)
  refine h.trans ?_
  simp only [slack, reduceCtorEq, if_false, zero_div, div_one, add_zero]
  linarith

/-- the same with QR and the absolute gradient criterion -/
example (x0 : Unit → ℝ) (mem : (Fin 2 → ℝ) × (Fin 2 → ℝ) × Matrix (Fin 2) Unit ℝ) :
    let out := solveSteady (lsSolve envQ ⟨100, .WhenAbsolutel2NormOfGradientBelowTolerance, 1 / 10 ^ 6, .Standard, none⟩ .gnQr) regQ (steadyLspg lineR (spiralFom 1 ![-1, 1]) (fun _ a => .ok a)) x0 mem
    out.stop? = none ∧ ‖eu (Fin 2) (lift lineR out.state.y - ![1, 0])‖ ≤ 8 / 5 + 1 / 10 ^ 6 := by
  intro out
  obtain ⟨g1, -, g3⟩ := C89_lspg_gauss_newton_qr_linear (spiralFom_is 1 ![-1, 1]) lineR 1 lineR_fullRank 1 (1 + 1) (spiral_conditioned 1 zero_le_one _) envQ (fun _ => rfl) (fun _ => rfl)
    ⟨100, .WhenAbsolutel2NormOfGradientBelowTolerance, 1 / 10 ^ 6, .Standard, none⟩ id (fun A v _ => (∑ i, A i () * v i) / colLen A) (fun A b _ => b () / colLen A) (fun _ _ => rfl) (fun _ _ _ => rfl) (fun _ _ _ => rfl) envQ_exact
    (.inl ⟨rfl, by norm_num⟩) rfl (by norm_num) (by simp [int32Max]) regQ x0 (fun _ => .created _ rfl) (fun _ a => .ok a) (fun _ _ _ => rfl) mem
  refine ⟨g1, ?_⟩
  have h := g3 ![1, 0] (fun _ => 3/5) (by funext i; fin_cases i <;> simp [spiral, Matrix.mulVec, dotProduct, Fin.sum_univ_two])
  have h2 : ‖eu (Fin 2) (lift lineR (fun _ => 3/5) - ![1, 0])‖ ≤ 4/5 := by
    rw [lineR_lift]
    rw [show (![3/5 * (3/5), 4/5 * (3/5)] - ![1, 0] : Fin 2 → ℝ) = ![-16/25, 12/25] by funext i; fin_cases i <;> norm_num]
    exact eu_two_le _ _ _ (by norm_num) (by norm_num)
  refine h.trans ?_
  simp only [slack, if_true, mul_one, div_one]
  linarith

/-- the energy norm of `diag(2, 1)`: full-order solution `(1, 1)`, reduced solution 25/17 -/
example (z : Unit → ℝ) : ((lift lineR fun _ => 25/17) - ![1, 1]) ⬝ᵥ ((!![2, 0; 0, 1] : Matrix (Fin 2) (Fin 2) ℝ) *ᵥ ((lift lineR fun _ => 25/17) - ![1, 1])) ≤
    (lift lineR z - ![1, 1]) ⬝ᵥ ((!![2, 0; 0, 1] : Matrix (Fin 2) (Fin 2) ℝ) *ᵥ (lift lineR z - ![1, 1])) := by
  refine C89_galerkin_energy lineR !![2, 0; 0, 1] ![-2, -1] ?_ (fun v => ?_) ![1, 1] ?_ (fun _ => 25/17) ?_ z
  · ext i j; fin_cases i <;> fin_cases j <;> rfl
  · simp [Matrix.mulVec, dotProduct, Fin.sum_univ_two]; nlinarith [mul_self_nonneg (v 0), mul_self_nonneg (v 1)]
  · funext i; fin_cases i <;> simp [Matrix.mulVec, dotProduct, Fin.sum_univ_two]
  · rw [lineR_lift]
    funext i
    simp [lineR, Matrix.mulVec, dotProduct, Fin.sum_univ_two]
    norm_num

/-- **C89, Galerkin needs ellipticity**: for the rotation by a right angle, which changes no distance, and a full-order solution that lies in the trial space (reduced state 1), the Galerkin problem accepts every guess: Newton with the absolute
    residual criterion returns normally, without a file, with whatever state it was given. LSPG with Gauss-Newton finds the full-order solution from every guess. -/
theorem C89_galerkin_needs_ellipticity (tol : ℝ) (htol : 0 < tol) (x0 : Unit → ℝ) (mem : (Fin 2 → ℝ) × (Fin 2 → ℝ) × Matrix (Fin 2) Unit ℝ) :
    let b : Fin 2 → ℝ := ![-4/5, 3/5]
    let galerkin := solveSteady (newtonSolve envR (cfgR tol)) regR (galerkinEval (steadyResidualJac lineR (spiralFom 0 b))) x0 (gst0 _)
    let lspg := solveSteady (lsSolve envF ⟨100, .WhenRelativel2NormOfGradientBelowTolerance, 1 / 10 ^ 6, .Standard, none⟩ .gn) regF (steadyLspg lineR (spiralFom 0 b) (fun _ a => .ok a)) x0 mem
    spiral 0 *ᵥ lift lineR 1 + b = 0 ∧ (∀ v, ‖eu (Fin 2) (spiral 0 *ᵥ v)‖ = ‖eu (Fin 2) v‖) ∧ galerkin.stop? = none ∧ galerkin.state.y = x0 ∧ lspg.stop? = none ∧ lspg.state.y = 1 := by
  intro b galerkin lspg
  have hb : spiral 0 *ᵥ lift lineR 1 + b = 0 := by
    rw [lineR_lift]
    funext i; fin_cases i <;> simp [b, spiral, Matrix.mulVec, dotProduct, Fin.sum_univ_two] <;> norm_num
  have hz : ∀ x, lineR.basisᵀ *ᵥ (spiral 0 *ᵥ lift lineR x + b) = 0 := by
    intro x
    rw [lineR_lift]
    funext i
    simp [b, lineR, spiral, Matrix.mulVec, dotProduct, Fin.sum_univ_two]
    ring
  refine ⟨hb, fun v => ?_, ?_⟩
  · have := spiral_norm 0 v
    rw [zero_pow two_ne_zero, zero_add, one_mul] at this
    exact (pow_left_inj₀ (norm_nonneg _) (norm_nonneg _) two_ne_zero).1 this
  obtain ⟨g1, g2, -⟩ := C89_solve_is_memoryless (newtonSolve envR (cfgR tol)) regR _ _ _ (C89_galerkin_problem (q := Unit) (spiralFom_is 0 b) lineR) x0 (gst0 _)
  obtain ⟨f1, f2, -⟩ := C87_newton_absolute_partial envR (by simp [envR]) (by simp [envR]) (cfgR tol) (fun x => lineR.basisᵀ *ᵥ (spiral 0 *ᵥ lift lineR x + b)) (fun _ => lineR.basisᵀ * (spiral 0 * lineR.basis)) (fun A b _ => b () / A () ()) id
    (fun _ _ _ _ => rfl) rfl rfl htol rfl (by simp [cfgR, int32Max]) (by simp [cfgR]) { regR with x := x0 } (.created _ rfl) (hz x0) (by funext u; simp)
  obtain ⟨k1, -, k3⟩ := C89_lspg_gauss_newton_linear (spiralFom_is 0 b) lineR 1 lineR_fullRank (eu (Fin 2)) 1 (0 + 1) (spiral_conditioned 0 le_rfl _) envF (fun _ => rfl) .gn (.inl rfl)
    (C86_minimises_plain envF (fun _ => rfl) .gn (.inl rfl)) ⟨100, .WhenRelativel2NormOfGradientBelowTolerance, 1 / 10 ^ 6, .Standard, none⟩ (fun A b _ => b () / A () ()) id (fun _ _ _ _ => rfl) envF_exact
    (.inr (.inr ⟨by simp, by norm_num⟩)) rfl (by norm_num) (by simp [int32Max]) regF x0 (fun _ => .created _ rfl) (fun _ a => .ok a) (fun _ _ _ => rfl) mem
  refine ⟨g1.trans f1, g2.trans f2, k1, ?_⟩
  have k3 := k3 (lift lineR 1) 1 hb
  simp only [sub_self, map_zero, norm_zero, mul_zero, slack, reduceCtorEq, if_false, zero_div, add_zero] at k3
  have k4 := eu_inj ((norm_le_zero_iff.1 k3).trans (map_zero _).symm)
  have k5 : (lift lineR lspg.state.y - lift lineR 1) 0 = 0 := congrFun k4 0
  obtain ⟨e, he⟩ : ∃ e, lspg.state.y = e := ⟨_, rfl⟩
  rw [he] at k5 ⊢
  rw [lineR_lift, lineR_lift] at k5
  funext u
  have : e () = 1 := by
    have k5 : 3/5 * e () - 3/5 = 0 := by simpa using k5
    linarith
  simpa using this

/-! The other problems and bounds on concrete cases: a nonlinear full-order model `(y_0 y_1, y_1 + 1)` over the rationals with hyper-reduction, masking and scaling; the approximation bounds on the spiral -/

def steady3 : SteadyFom ℚ (Fin 2) (Fin 2) (Fin 1) where
  residual := fun y _ => .ok ![y 0 * y 1, y 1 + 1]
  residualAndJac := fun y B w J => .ok (![y 0 * y 1, y 1 + 1], if w then !![y 1, y 0; 0, 1] * B else J.2)
  jacAction := fun y v _ => .ok (!![y 1, y 0; 0, 1] *ᵥ v)
theorem steady3_is : SteadyIs steady3 (fun y => .ok ![y 0 * y 1, y 1 + 1]) (fun y => .ok !![y 1, y 0; 0, 1]) where
  residual := fun _ _ => rfl
  residualOnly := fun _ _ _ => rfl
  residualAndJac := fun _ _ _ => rfl
example := C89_hyperreduced_galerkin_problem (q := Unit) steady3_is hyp2_is trial2
example := C89_masked_galerkin_problem steady3_is mask2_is hyp1_is trial2
example := C89_lspg_problem steady3_is trial2 (fun y a => .ok (y 0 • a.1, a.2.map (fun J => y 0 • J))) (fun y r => y 0 • r) (fun y J => y 0 • J) (fun _ _ _ => rfl)
example := C89_masked_lspg_problem steady3_is mask2_is trial2 (fun y a => .ok (y 0 • a.1, a.2.map (fun J => y 0 • J))) (fun y r => y 0 • r) (fun y J => y 0 • J) (fun _ _ _ => rfl)
/-- the reduced residual at 2/5 is 3/5 -/
example (z : Unit → ℝ) := C89_galerkin_quasi_optimal lineR 1 lineR_fullRank (fun y => spiral 1 *ᵥ y + ![-1, 1]) 1 (1 + 1) (spiral_elliptic 1 one_pos _) ![1, 0]
  (by funext i; fin_cases i <;> simp [spiral, Matrix.mulVec, dotProduct, Fin.sum_univ_two]) (3/5) (fun _ => 2/5)
  (by rw [lineR_lift, eu_unit]; simp [lineR, spiral, Matrix.mulVec, dotProduct, Fin.sum_univ_two]; norm_num [abs_of_pos]) z
example := C89_galerkin_exact lineR 1 lineR_fullRank (fun y => spiral 1 *ᵥ y + ![-7/5, -1/5]) 1 (1 + 1) (spiral_elliptic 1 one_pos _) (fun _ => 1)
  (by rw [lineR_lift]; funext i; fin_cases i <;> simp [spiral, Matrix.mulVec, dotProduct, Fin.sum_univ_two] <;> norm_num) (1/10) (fun _ => 11/10)
  (by rw [lineR_lift, eu_unit]; simp [lineR, spiral, Matrix.mulVec, dotProduct, Fin.sum_univ_two]; norm_num [abs_of_pos])
example (x z : Unit → ℝ) := C89_lspg_quasi_optimal lineR (eu (Fin 2)) (fun y => spiral 1 *ᵥ y + ![-1, 1]) 1 (1 + 1) (spiral_conditioned 1 zero_le_one _) ![1, 0]
  (by funext i; fin_cases i <;> simp [spiral, Matrix.mulVec, dotProduct, Fin.sum_univ_two])
  (‖eu (Fin 2) (spiral 1 *ᵥ lift lineR x + ![-1, 1])‖ - ‖eu (Fin 2) (spiral 1 *ᵥ lift lineR z + ![-1, 1])‖) x z (by simp)


end Examples
end Pressio.Props
