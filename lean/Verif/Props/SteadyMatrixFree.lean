import Verif.Props.MatrixFree
import Verif.Props.SteadySolve

/-
  C91: steady Galerkin problems with the matrix-free Newton-Krylov solver.
-/
namespace Pressio.Props
set_option autoImplicit false
set_option linter.unusedSectionVars false
open Pressio Matrix Pressio.Model.Galerkin Pressio.Spec.Galerkin Pressio.Model.SteadySolve Pressio.Spec.SteadySolve Pressio.Model.Nonlinear Pressio.Spec.Nonlinear
open Pressio.Spec.Reduced (eu)
open Pressio.Lemmas.SolverTree Pressio.Lemmas.SolverRun

section
variable {K m p q n L P : Type} [Field K] [LinearOrder K] [IsStrictOrderedRing K] [Fintype m] [Fintype p] [Fintype q] [Fintype n] [Fintype P]

/-- **C91.** The default Galerkin problem as a matrix-free solver sees it: `residual` gives `Phi^T f(Phi x + s)`, whatever the memory of the problem object (and `residualAndJacobian`, which is never called, would agree), ... -/
theorem C91_residual {F : SteadyFom K m m n} {f : (m → K) → m → K} {Df : (m → K) → Matrix m m K} (hF : SteadyIs F (fun y => .ok (f y)) (fun y => .ok (Df y))) (S : Trial K m n) :
    Serves (matrixFreeEval (steadyResidual S F) (steadyResidualJac S F : (n → K) → Bool → Prog (GSt K m m q n) Unit)) (fun x => S.basisᵀ *ᵥ f (lift S x)) (fun x => S.basisᵀ * (Df (lift S x) * S.basis)) := by
  intro x w s
  cases w with
  | true => exact C89_galerkin_problem hF S x true s
  | false =>
    obtain ⟨s', e1, e2⟩ : Ends (steadyResidual S F x s) (.ok (S.basisᵀ *ᵥ f (lift S x), s.J, s.M)) := C49_steady_residual hF S x s
    refine ⟨s', ?_⟩
    simp only [Prod.mk.injEq] at e2
    simp [matrixFreeEval, galerkinEval, e1, e2.1]

/-- ... and `applyJacobian` the action of `Phi^T Df(Phi x + s) Phi`, the matrix of `residualAndJacobian`. -/
theorem C91_action {F : SteadyFom K m m n} {Df : (m → K) → Matrix m m K} (hD : JacActionIs F (fun y => .ok (Df y))) (S : Trial K m n) (r : (n → K) → n → K) (env : Env K n n P L)
    (hA : ActionOf env (steadyApplyJac S F : (n → K) → (n → K) → Prog (GSt K m m q n) Unit)) (mem : GSt K m m q n) :
    ActsAsJacobian env (Sys.ofFun r (fun x => S.basisᵀ * (Df (lift S x) * S.basis))) := by
  intro x _ _ h v
  cases h
  obtain ⟨s', e1, e2⟩ := hA x v mem
  obtain ⟨s'', e3, e4⟩ : Ends (steadyApplyJac S F x v mem) (.ok ((S.basisᵀ * (Df (lift S x) * S.basis)).mulVec v, mem.J, mem.M)) := C49_steady_apply_jacobian hD S x v mem
  simp only [Prod.mk.injEq] at e4
  have hss : s' = s'' := by
    rw [e3] at e1
    injection e1 with _ h
    exact h.symm
  rw [← e2, hss, e4.1]

/-- **C91, matrix-free or not.** Solving a steady Galerkin problem with the matrix-free solver ends as solving it with Newton's method and the same Krylov method as linear solver: in the same way, with the same state, after evaluations at
    the same points; the memory of the problem objects does not matter. -/
theorem C91_galerkin {F : SteadyFom K m m n} {f : (m → K) → m → K} {Df : (m → K) → Matrix m m K} (hF : SteadyIs F (fun y => .ok (f y)) (fun y => .ok (Df y))) (hD : JacActionIs F (fun y => .ok (Df y))) (S : Trial K m n)
    (env : Env K n n P L) (hA : ActionOf env (steadyApplyJac S F : (n → K) → (n → K) → Prog (GSt K m m q n) Unit)) (hk : ∀ op b c, (env.krylov op b c).stop? ≠ some (.exc .timeStepFailure)) (cfg : Cfg K) (reg : Reg K n n P L) (hreg : NewtonIdle reg) (x0 : n → K) (mem mem' : GSt K m m q n) :
    let a := solveSteady (Model.Nonlinear.matrixFreeSolve env cfg) reg (matrixFreeEval (steadyResidual S F) (steadyResidualJac S F)) x0 mem
    let b := solveSteady (Model.Nonlinear.newtonSolve { env with linJ := krylovLinJ env } { cfg with update := .Standard }) reg (galerkinEval (steadyResidualJac S F)) x0 mem'
    a.stop? = b.stop? ∧ a.state.y = b.state.y ∧ a.state.log = b.state.log.map dropJ := by
  intro a b
  obtain ⟨g1, g2, g3⟩ := C89_solve_is_memoryless (Model.Nonlinear.matrixFreeSolve env cfg) reg _ _ _ (C91_residual (q := q) hF S) x0 mem
  obtain ⟨k1, k2, k3⟩ := C89_solve_is_memoryless (Model.Nonlinear.newtonSolve { env with linJ := krylovLinJ env } { cfg with update := .Standard }) reg _ _ _ (C89_galerkin_problem (q := q) hF S) x0 mem'
  have hact := C91_action hD S (fun x => S.basisᵀ *ᵥ f (lift S x)) env hA mem
  obtain ⟨a1, a2, -, -, -, ⟨ev, a6, a7⟩, -⟩ := C90_is_newton env cfg _ (fun _ => rfl) hact { reg with x := x0 } (hreg x0)
  refine ⟨g1.trans (a1.trans k1.symm), g2.trans (a2.trans k2.symm), ?_⟩
  have hl : ∀ (A : Matrix n n K) (b : n → K) (s : (n → K) × L), (krylovLinJ env A b s).stop? ≠ some (.exc .timeStepFailure) := by
    rintro A b ⟨c, l⟩
    have := hk (fun v out => out + A *ᵥ v) b c
    revert this
    simp only [krylovLinJ]
    rcases env.krylov (fun v out => out + A *ᵥ v) b c with ⟨_, _⟩ | ⟨_, _⟩ <;> exact id
  have h1 := log_run (Model.Nonlinear.matrixFreeSolve env cfg) (fine_newtonLoop env cfg true (fun h => by cases h) (fun _ => hk) _ fineUpd_default _ _)
    (Sys.ofFun (fun x => S.basisᵀ *ᵥ f (lift S x)) (fun x => S.basisᵀ * (Df (lift S x) * S.basis))).toF { reg with x := x0 }
  have h2 := log_run (Model.Nonlinear.newtonSolve { env with linJ := krylovLinJ env } { cfg with update := .Standard }) (fine_newtonSolve { env with linJ := krylovLinJ env } hl _)
    (Sys.ofFun (fun x => S.basisᵀ *ᵥ f (lift S x)) (fun x => S.basisᵀ * (Df (lift S x) * S.basis))).toF { reg with x := x0 }
  rw [g3, k3, ← List.append_cancel_left (a7.symm.trans h1), ← List.append_cancel_left (a6.symm.trans h2)]

/-- **C91, hyper-reduced.** `GalerkinSteadyHypRedSystem` has the functions a matrix-free solver calls, but they throw: whatever the model, the operator, the options and the state, `solve` throws `runtime_error("missing impl")` and leaves
    the state as it was. -/
theorem C91_hyperreduced_unsupported (S : Trial K m n) (F : SteadyFom K m p n) (H : HypRed K p n) (env : Env K n n P L) (cfg : Cfg K) (h1 : 1 ≤ cfg.maxIters) (reg : Reg K n n P L) (x0 : n → K) (mem : GSt K m p q n) :
    let out := solveSteady (Model.Nonlinear.matrixFreeSolve env cfg) reg (matrixFreeEval steadyHypredResidual (steadyHypredResidualJac S F H)) x0 mem
    out.stop? = some (.exc (.runtimeError "missing impl")) ∧ out.state.y = x0 := by
  obtain ⟨k, hk⟩ : ∃ k, cfg.maxIters.toNat = k + 1 := ⟨cfg.maxIters.toNat - 1, by omega⟩
  unfold solveSteady Model.Nonlinear.matrixFreeSolve
  rw [hk]
  exact ⟨rfl, rfl⟩

end

section
variable {m n q P L : Type} [Fintype m] [Fintype n] [DecidableEq n] [Fintype q] [Fintype P]

/-- **C91, linear elliptic full-order models** `A y + b = 0`, absolute residual criterion, a Krylov method that leaves at most the fraction `η` of the right-hand side: from every initial guess, once `η^k` times the initial residual is below
    the tolerance and `k < maxIters`, `solve` returns normally with a quasi-optimal state, after at most `k + 1` evaluations of the residual. -/
theorem C91_galerkin_linear {F : SteadyFom ℝ m m n} {A : Matrix m m ℝ} {b : m → ℝ} (hF : SteadyIs F (fun y => .ok (A *ᵥ y + b)) (fun _ => .ok A)) (hD : JacActionIs F (fun _ => .ok A)) (S : Trial ℝ m n) (σ : ℝ) (hS : FullRank S σ)
    (α Λ : ℝ) (hf : Elliptic (fun y => A *ᵥ y + b) α Λ) (env : Env ℝ n n P L) (hM : ∀ v, env.normM v = ‖eu n v‖)
    (hA : ActionOf env (steadyApplyJac S F : (n → ℝ) → (n → ℝ) → Prog (GSt ℝ m m q n) Unit)) (sol : Matrix n n ℝ → (n → ℝ) → n → ℝ) (η : ℝ) (h0 : 0 ≤ η)
    (hk : ∀ A b c, env.krylov (fun v out => out + A *ᵥ v) b c = .ok () (sol A b)) (hsol : ∀ A b, IsUnit A.det → ‖eu n (b - A *ᵥ sol A b)‖ ≤ η * ‖eu n b‖)
    (cfg : Cfg ℝ) (hstop : cfg.stop = .WhenAbsolutel2NormOfResidualBelowTolerance) (hmax : cfg.maxIters < int32Max) (reg : Reg ℝ n n P L) (hreg : NewtonIdle reg) (x0 : n → ℝ) (mem : GSt ℝ m m q n)
    (k : Nat) (hkm : (k : Int) < cfg.maxIters) (hreach : η ^ k * ‖eu n (S.basisᵀ *ᵥ (A *ᵥ lift S x0 + b))‖ < cfg.tol) :
    let out := solveSteady (Model.Nonlinear.matrixFreeSolve env cfg) reg (matrixFreeEval (steadyResidual S F) (steadyResidualJac S F)) x0 mem
    out.stop? = none ∧ ‖eu n (S.basisᵀ *ᵥ (A *ᵥ lift S out.state.y + b))‖ < cfg.tol ∧
    ∀ y' z, A *ᵥ y' + b = 0 → ‖eu m (lift S out.state.y - y')‖ ≤ Λ / α * ‖eu m (lift S z - y')‖ + 2 * cfg.tol / (α * σ) := by
  intro out
  obtain ⟨c, hc⟩ : ∃ c, ∀ x, S.basisᵀ *ᵥ (A *ᵥ lift S x + b) = (S.basisᵀ * (A * S.basis)) *ᵥ x + c :=
    ⟨S.basisᵀ *ᵥ (A *ᵥ lift S 0 + b), fun x => by
      have hrel : lift S x = S.basis *ᵥ x + lift S 0 := by simp [lift]
      rw [hrel, Matrix.mulVec_add A, add_assoc, Matrix.mulVec_add, Matrix.mulVec_mulVec _ A, Matrix.mulVec_mulVec]⟩
  have hfun : (fun x => S.basisᵀ *ᵥ (A *ᵥ lift S x + b)) = fun x => (S.basisᵀ * (A * S.basis)) *ᵥ x + c := funext hc
  obtain ⟨g1, g2, -⟩ := C89_solve_is_memoryless (Model.Nonlinear.matrixFreeSolve env cfg) reg _ _ _ (C91_residual (q := q) hF S) x0 mem
  have hact := C91_action hD S (fun x => S.basisᵀ *ᵥ (A *ᵥ lift S x + b)) env hA mem
  have hdet : IsUnit (S.basisᵀ * (A * S.basis)).det := (Matrix.isUnit_iff_isUnit_det _).1 (Matrix.mulVec_injective_iff_isUnit.1 (fun v w h => sub_eq_zero.1 (reduced_regular S σ hS A b α Λ hf _ (by
    rw [Matrix.mulVec_sub]; exact sub_eq_zero.2 h))))
  obtain ⟨k1, -, k3, -⟩ := C90_inexact_linear (eu n) env hM cfg (S.basisᵀ * (A * S.basis)) c hdet (fun x v => hact x _ _ rfl v) sol η h0 hk hsol hmax { reg with x := x0 } (hreg x0) k hkm
    (.inl ⟨hstop, by rw [← hc]; exact hreach⟩)
  rw [hfun] at g1 g2
  have hres : ‖eu n (S.basisᵀ *ᵥ (A *ᵥ lift S out.state.y + b))‖ < cfg.tol := by
    rw [hc, show out.state.y = _ from g2]
    rw [if_pos hstop] at k3
    exact k3
  exact ⟨g1.trans k1, hres, fun y' z hy => C89_galerkin_quasi_optimal S σ hS _ α Λ hf y' hy cfg.tol _ hres.le z⟩

end

/-! ### A concrete case: `(x - y + .., x + y + ..)` projected onto a line -/
section Examples

theorem line_spiral : lineR.basisᵀ * (spiral 1 * lineR.basis) = 1 := by
  ext i j
  simp [lineR, spiral, Matrix.mul_apply, Fin.sum_univ_two, Matrix.vecHead, Matrix.vecTail]
  norm_num

theorem spiralFom_action (c : ℝ) (b : Fin 2 → ℝ) : JacActionIs (spiralFom c b) (fun _ => .ok (spiral c)) := fun _ _ _ => rfl

/-- the action of the problem object and a Krylov method that leaves half of the right-hand side -/
noncomputable def envG : Env ℝ Unit Unit Unit Unit :=
  { envR with applyJac := fun _ v _ => v, krylov := fun op b _ => .ok () (fun _ => b () / op (fun _ => 1) (fun _ => 0) () / 2) }

theorem envG_action (b : Fin 2 → ℝ) : ActionOf envG (steadyApplyJac lineR (spiralFom 1 b) : (Unit → ℝ) → (Unit → ℝ) → Prog (GSt ℝ (Fin 2) (Fin 2) Unit Unit) Unit) := by
  intro x v s
  obtain ⟨s', e1, e2⟩ : Ends (steadyApplyJac lineR (spiralFom 1 b) x v s) (.ok ((lineR.basisᵀ * (spiral 1 * lineR.basis)).mulVec v, s.J, s.M)) :=
    C49_steady_apply_jacobian (spiralFom_action 1 b) lineR x v s
  simp only [Prod.mk.injEq] at e2
  exact ⟨s', e1, by rw [e2.1, line_spiral, Matrix.one_mulVec]; rfl⟩

example := C91_residual (q := Unit) (spiralFom_is 1 ![-1, 1]) lineR
example := C91_action (spiralFom_action 1 ![-1, 1]) lineR (fun _ => 0) envG (envG_action _) (gst0 _)
example (tol : ℝ) (x0 : Unit → ℝ) := C91_galerkin (spiralFom_is 1 ![-1, 1]) (spiralFom_action 1 ![-1, 1]) lineR envG (envG_action _) (fun _ _ _ => by simp [envG, Res.stop?]) (cfgR tol) regR (fun _ => .created _ rfl) x0 (gst0 _) (gst0 _)
example (H : HypRed ℝ (Fin 2) Unit) (tol : ℝ) (x0 : Unit → ℝ) := C91_hyperreduced_unsupported lineR (spiralFom 1 ![-1, 1]) H envG (cfgR tol) (by simp [cfgR]) regR x0 (gst0 _)

/-- eight evaluations at most from a reduced state with residual below 1, to an error of less than `8/5 + 1/50` -/
example (x0 : Unit → ℝ) (hx : ‖eu Unit (lineR.basisᵀ *ᵥ (spiral 1 *ᵥ lift lineR x0 + ![-1, 1]))‖ ≤ 1) :
    let out := solveSteady (Model.Nonlinear.matrixFreeSolve envG (cfgR (1/100))) regR (matrixFreeEval (steadyResidual lineR (spiralFom 1 ![-1, 1])) (steadyResidualJac lineR (spiralFom 1 ![-1, 1]))) x0 (gst0 _)
    out.stop? = none ∧ ‖eu (Fin 2) (lift lineR out.state.y - ![1, 0])‖ ≤ 8 / 5 + 1 / 50 := by
  intro out
  obtain ⟨g1, -, g3⟩ := C91_galerkin_linear (spiralFom_is 1 ![-1, 1]) (spiralFom_action 1 ![-1, 1]) lineR 1 lineR_fullRank 1 (1 + 1) (spiral_elliptic 1 one_pos _) envG (fun v => norm_unit v) (envG_action _)
    (fun A b _ => b () / A () () / 2) (1 / 2) (by norm_num) (fun A b c => by simp [envG, Matrix.mulVec, dotProduct]) (fun A b hA => by
      have := envH_half A b hA
      rw [← norm_unit, ← norm_unit]
      simp [Matrix.mulVec, dotProduct, this, abs_div]
      linarith) (cfgR (1/100)) rfl (by simp [cfgR, int32Max]) regR (fun _ => .created _ rfl) x0 (gst0 _) 7 (by simp [cfgR]) (by
      simp only [cfgR]
      nlinarith)
  refine ⟨g1, ?_⟩
  have h := g3 ![1, 0] (fun _ => 3/5) (by funext i; fin_cases i <;> simp [spiral, Matrix.mulVec, dotProduct, Fin.sum_univ_two])
  have h2 : ‖eu (Fin 2) (lift lineR (fun _ => 3/5) - ![1, 0])‖ ≤ 4/5 := by
    rw [lineR_lift]
    rw [show (![3/5 * (3/5), 4/5 * (3/5)] - ![1, 0] : Fin 2 → ℝ) = ![-16/25, 12/25] by funext i; fin_cases i <;> norm_num]
    exact eu_two_le _ _ _ (by norm_num) (by norm_num)
  refine h.trans ?_
  have : (cfgR (1/100)).tol = 1/100 := rfl
  rw [this, mul_one, div_one, div_one]
  linarith

/-- the guess 0 is one -/
example : ‖eu Unit (lineR.basisᵀ *ᵥ (spiral 1 *ᵥ lift lineR 0 + ![-1, 1]))‖ ≤ 1 := by
  rw [← norm_unit, lineR_lift]
  simp [lineR, spiral, Matrix.mulVec, dotProduct, Fin.sum_univ_two]
  norm_num [abs_le]

/-- C90, linear systems: `x - 1 = 0` with the same Krylov method, from every guess within 1 -/
example (x0 : Unit → ℝ) (hx : ‖(LinearMap.proj () : (Unit → ℝ) →ₗ[ℝ] ℝ) ((1 : Matrix Unit Unit ℝ) *ᵥ x0 + fun _ => -1)‖ ≤ 1) :=
  C90_inexact_linear (E := ℝ) (LinearMap.proj ()) envG (fun v => by simp [envG, envR]) (cfgR (1/100)) 1 (fun _ => -1) (by simp) (fun x v => by simp [envG]) (fun A b _ => b () / A () () / 2) (1 / 2) (by norm_num)
    (fun A b c => by simp [envG, Matrix.mulVec, dotProduct]) (fun A b hA => by
      have := envH_half A b hA
      simp [Matrix.mulVec, dotProduct, this]
      linarith) (by simp [cfgR, int32Max]) { regR with x := x0 } (.created _ rfl) 7 (by simp [cfgR]) (.inl ⟨rfl, by
      show (1 / 2 : ℝ) ^ 7 * ‖(LinearMap.proj () : (Unit → ℝ) →ₗ[ℝ] ℝ) ((1 : Matrix Unit Unit ℝ) *ᵥ x0 + fun _ => -1)‖ < 1 / 100
      nlinarith⟩)

end Examples
end Pressio.Props
