import Verif.Lemmas.MatrixFree
import Verif.Props.NewtonConvergence
import Verif.Props.SolverMemory

/-
  C90: the matrix-free Newton-Krylov solver.  `runMatrixFree env cfg sys s` is the call `solver.solve(sys, s.x)`: only `sys.res` and `env.applyJac` are evaluated.
-/
namespace Pressio.Props
set_option autoImplicit false
set_option linter.unusedSectionVars false
open Pressio Matrix
open Pressio.Model.Nonlinear (Env Cfg Reg StopCrit Update Ans fdiv newtonDiagnostics)
open Pressio.Spec.Nonlinear Pressio.Spec.NewtonConvergence Pressio.Lemmas.NewtonConvergence
open Pressio.Lemmas.Nonlinear

section general
variable {K m n p L : Type} [Field K] [LinearOrder K] [IsStrictOrderedRing K] [Fintype m] [Fintype n] [Fintype p]

theorem krylov_corr (env : Env K m n p L) (sys : Sys K m n) (hA : ActsAsJacobian env sys) (x : n → K) (r : m → K) (J : Matrix m n K) (h : sys.resJac x = .ok (r, J))
    (inn : (n → K) × (n → K) × L) : krylovNegated env x r inn = negated (krylovLinJ env J r) inn := by
  obtain ⟨c, b, l⟩ := inn
  have : (fun v out => out + env.applyJac x v 0) = (fun (v : n → K) (out : m → K) => out + J *ᵥ v) := by
    funext v out; rw [hA x r J h v]
  unfold krylovNegated negated krylovLinJ
  rw [this]
  simp only []
  rcases env.krylov (fun v out => out + J *ᵥ v) r c with ⟨⟨⟩, c'⟩ | ⟨h, c'⟩ <;> rfl

/-- **C90.** The matrix-free solver is Newton's method with standard updates whose linear solver is the Krylov method applied to the Jacobian, whatever that method does (it may fail, it may be inexact): same end,
    same state, same correction, same termination file, evaluations at the same points, but of the residual alone, and, if it returns normally, the same diagnostics.  The systems may fail.  All theorems about Newton's
    solver with standard updates therefore hold for the matrix-free one.  The update option of the solver is ignored. -/
theorem C90_is_newton (env : Env K m n p L) (cfg : Cfg K) (sys : Sys K m n) (hc : sys.Consistent) (hA : ActsAsJacobian env sys) (s : Reg K m n p L) (hs : NewtonObj s) :
    let a := runMatrixFree env cfg sys s
    let b := runNewton { env with linJ := krylovLinJ env } { cfg with update := .Standard } sys s
    a.stop? = b.stop? ∧ a.state.x = b.state.x ∧ a.state.c = b.state.c ∧ a.state.lin = b.state.lin ∧ a.state.files = b.state.files ∧
    (∃ evaluated, b.state.log = s.log ++ evaluated ∧ a.state.log = s.log ++ evaluated.map dropJ) ∧
    (1 ≤ cfg.maxIters → a.stop? = none → a.state.diag = b.state.diag) := by
  intro a b
  obtain ⟨g1, g2, g3, g4, -, g6⟩ := matrixFree_run env cfg sys hs
  obtain ⟨k1, k2, k3, k4, -, k6⟩ := newton_run { env with linJ := krylovLinJ env } { cfg with update := .Standard } sys hs
  obtain ⟨i1, i2, i3, i4, i5⟩ := iterate_matrixFree env { env with linJ := krylovLinJ env } cfg { cfg with update := .Standard } rfl rfl rfl rfl rfl hc
    (fun x r J h inn => krylov_corr env sys hA x r J h inn) cfg.maxIters.toNat 1 none (absR s)
  have hN : Spec.Nonlinear.newtonSolve { env with linJ := krylovLinJ env } { cfg with update := .Standard } sys (absR s) =
      iterate sys (newtonProblem { env with linJ := krylovLinJ env } { cfg with update := .Standard } sys false .standard) cfg.maxIters.toNat 1 none (absR s) := rfl
  have hM : Spec.Nonlinear.matrixFreeSolve env cfg sys (absR s) = iterate sys (newtonProblem env cfg sys true .standard) cfg.maxIters.toNat 1 none (absR s) := rfl
  rw [hM] at g1 g2 g3 g4 g6
  rw [hN] at k1 k2 k3 k4 k6
  have hst : absR a.state = absR b.state := g2.trans (i2.trans k2.symm)
  refine ⟨g1.trans (by rw [i1]; exact k1.symm), congrArg St.x hst, congrArg St.c hst, congrArg St.lin hst, g3.trans (by rw [i3]; exact k3.symm), ⟨_, k4, by rw [← i4]; exact g4⟩, fun hm hn => ?_⟩
  have hb : (iterate sys (newtonProblem { env with linJ := krylovLinJ env } { cfg with update := .Standard } sys false .standard) cfg.maxIters.toNat 1 none (absR s)).how.stop? = none := by
    rw [← i1, ← g1]; exact hn
  obtain ⟨_, _, _, _, _, _, _, _, _, _, _, _, _, h⟩ := iterate_last sys (newtonProblem { env with linJ := krylovLinJ env } { cfg with update := .Standard } sys false .standard) rfl cfg.maxIters.toNat 1 none
    (absR s) (by omega) hb
  exact (g6 _ (i5.trans h)).trans (k6 _ h).symm

/-- **C90, iterates.** As C30: a residual function `r` with Jacobian function `J` whose action the user's `applyJacobian` computes, and a Krylov method whose answer is a function `sol` of matrix and right-hand
    side.  With `N x = x - sol (J x) (r x)`: if the criterion is met at iterate `k`, for the first time, solve returns `N^k x₀` after evaluating the residual at the iterates `0, …, k`; otherwise it returns (normally)
    `N^maxIters x₀` and writes the termination file.  No option of the solver about updates has any effect. -/
theorem C90_iterates (env : Env K m n p L) (cfg : Cfg K) (r : (n → K) → m → K) (J : (n → K) → Matrix m n K) (hA : ∀ x v, env.applyJac x v 0 = J x *ᵥ v) (sol : Matrix m n K → (m → K) → n → K)
    (hk : ∀ A b c, env.krylov (fun v out => out + A *ᵥ v) b c = .ok () (sol A b)) (hcrit : rootCriterion cfg.stop = true) (hmax : cfg.maxIters < int32Max) (s : Reg K m n p L) (hs : NewtonObj s) :
    let res := runMatrixFree env cfg (Sys.ofFun r J) s
    let N : (n → K) → n → K := fun x => x + -sol (J x) (r x)
    let nrm : (n → K) → Norms K := fun x => ⟨env.normM (r x), env.normN (-sol (J x) (r x)), 0, 0⟩
    let met := fun k : Nat => below cfg.stop cfg.tol (nrm s.x) (nrm (N^[k] s.x)) = true
    let evaluated := fun k : Nat => (List.range k).map (fun a => (⟨N^[a] s.x, false, .ok (r (N^[a] s.x), none)⟩ : Query (n → K) (Ans K m n)))
    res.stop? = none ∧
    (∀ k : Nat, (k : Int) < cfg.maxIters → met k → (∀ j < k, ¬ met j) →
      res.state.x = N^[k] s.x ∧ res.state.log = s.log ++ evaluated (k + 1) ∧ res.state.lin = s.lin ∧ res.state.files = s.files) ∧
    ((∀ k : Nat, (k : Int) < cfg.maxIters → ¬ met k) →
      res.state.x = N^[cfg.maxIters.toNat] s.x ∧ res.state.log = s.log ++ evaluated cfg.maxIters.toNat ∧ res.state.lin = s.lin ∧
      res.state.files = s.files ++ if 1 ≤ cfg.maxIters then ["reached maximum number of iterations before convergence"] else []) := by
  intro res N nrm met evaluated
  obtain ⟨a1, a2, -, a4, a5, ⟨ev, a6, a7⟩, -⟩ := C90_is_newton env cfg (Sys.ofFun r J) (fun _ => rfl) (fun x _ _ h v => by cases h; exact hA x v) s hs
  obtain ⟨g1, g2, g3⟩ := C30_newton_iterates { env with linJ := krylovLinJ env } { cfg with update := .Standard } r J sol id (fun A b c l => by simp only [krylovLinJ, hk]; rfl) hcrit rfl hmax s hs
  have hdrop : ∀ k : Nat, ((List.range k).map (fun a => (⟨N^[a] s.x, true, .ok (r (N^[a] s.x), some (J (N^[a] s.x)))⟩ : Query (n → K) (Ans K m n)))).map dropJ = evaluated k := by
    intro k
    rw [List.map_map]
    rfl
  have hid : ∀ k : Nat, (id^[k] : L → L) s.lin = s.lin := fun k => by rw [Function.iterate_id]; rfl
  refine ⟨a1.trans g1, fun k h1 h2 h3 => ?_, fun h => ?_⟩
  · obtain ⟨f1, f2, f3, f4⟩ := g2 k h1 h2 h3
    rw [a6] at f2
    have hev := List.append_cancel_left f2
    refine ⟨a2.trans f1, a7.trans ?_, a4.trans (f3.trans (hid _)), a5.trans f4⟩
    rw [hev]
    exact congrArg _ (hdrop (k + 1))
  · obtain ⟨f1, f2, f3, f4⟩ := g3 h
    rw [a6] at f2
    have hev := List.append_cancel_left f2
    refine ⟨a2.trans f1, a7.trans ?_, a4.trans (f3.trans (hid _)), a5.trans f4⟩
    rw [hev]
    exact congrArg _ (hdrop _)

/-- **C90, no dependence on options and past.** The update option (and its parameters) of a matrix-free solver has no effect at all, ... -/
theorem C90_update_option_ignored (env : Env K m n p L) (cfg : Cfg K) (u : Update) (ps : Option (List K)) (sys : Sys K m n) (s : Reg K m n p L) :
    runMatrixFree env { cfg with update := u, params := ps } sys s = runMatrixFree env cfg sys s := by
  have h : ∀ (k : Nat) (i : Int), Model.Nonlinear.newtonLoop env { cfg with update := u, params := ps } true (fun _ _ => Model.Nonlinear.defaultUpdater) k i =
      Model.Nonlinear.newtonLoop env cfg true (fun _ _ => Model.Nonlinear.defaultUpdater) k i := by
    intro k
    induction k with
    | zero => intro i; rfl
    | succ k ih => intro i; simp only [Model.Nonlinear.newtonLoop, ih]; rfl
  unfold runMatrixFree Model.Nonlinear.matrixFreeSolve
  rw [h]

/-- ... and neither have earlier solves of the same object, if the Krylov method does not start from the old correction. -/
theorem C90_no_memory [DecidableEq n] (env : Env K m n p L) (cfg : Cfg K) (sys : Sys K m n) (hc : sys.Consistent) (hA : ActsAsJacobian env sys) (hw : ∀ op b c c', SameAnswer id (env.krylov op b c) (env.krylov op b c'))
    (s s' : Reg K m n p L) (hs : NewtonObj s) (hs' : NewtonObj s') (hx : s.x = s'.x) : SameSolve cfg s s' (runMatrixFree env cfg sys s) (runMatrixFree env cfg sys s') := by
  obtain ⟨a1, a2, -, -, a5, ⟨ev, a6, a7⟩, a8⟩ := C90_is_newton env cfg sys hc hA s hs
  obtain ⟨b1, b2, -, -, b5, ⟨ev', b6, b7⟩, b8⟩ := C90_is_newton env cfg sys hc hA s' hs'
  obtain ⟨c1, c2, ⟨F, c3, c3'⟩, ⟨Q, c4, c4'⟩, c5⟩ := C43_newton { env with linJ := krylovLinJ env } { cfg with update := .Standard } sys (by
    rintro A b ⟨c, l⟩ ⟨c', l'⟩
    have := hw (fun v out => out + A *ᵥ v) b c c'
    revert this
    simp only [krylovLinJ]
    rcases env.krylov (fun v out => out + A *ᵥ v) b c with ⟨⟨⟩, d⟩ | ⟨h, d⟩ <;> rcases env.krylov (fun v out => out + A *ᵥ v) b c' with ⟨⟨⟩, d'⟩ | ⟨h', d'⟩ <;>
      simp [SameAnswer, Res.stop?, Res.state]) s s' hs hs' hx
  rw [a6] at c4
  rw [b6] at c4'
  have e1 := List.append_cancel_left c4
  have e2 := List.append_cancel_left c4'
  subst e1
  subst e2
  exact ⟨a1.trans (c1.trans b1.symm), a2.trans (c2.trans b2.symm), ⟨F, a5.trans c3, b5.trans c3'⟩, ⟨_, a7, b7⟩,
    fun hm hn => (a8 hm hn).trans ((c5 hm (a1.symm.trans hn)).trans (b8 hm ((a1.trans (c1.trans b1.symm)).symm.trans hn)).symm)⟩

/-- **C90, criteria.** As for Newton (C32), no solve with a criterion on gradient or objective, or with `AfterMaxIters`, returns normally: it throws `out_of_range` if evaluation and Krylov method succeed. -/
theorem C90_other_criteria (env : Env K m n p L) (cfg : Cfg K) (sys : Sys K m n) (hc : sys.Consistent) (hA : ActsAsJacobian env sys)
    (hcrit : cfg.stop = .AfterMaxIters ∨ cfg.stop = .WhenAbsolutel2NormOfGradientBelowTolerance ∨ cfg.stop = .WhenRelativel2NormOfGradientBelowTolerance ∨
      cfg.stop = .WhenAbsoluteObjectiveBelowTolerance ∨ cfg.stop = .WhenRelativeObjectiveBelowTolerance)
    (h1 : 1 ≤ cfg.maxIters) (s : Reg K m n p L) (hs : NewtonObj s) :
    (runMatrixFree env cfg sys s).stop? ≠ none ∧ (runMatrixFree env cfg sys s).state.x = s.x ∧
    ∀ r J c', sys.resJac s.x = .ok (r, J) → env.krylov (fun v out => out + J *ᵥ v) r s.c = .ok () c' → (runMatrixFree env cfg sys s).stop? = some (.exc .outOfRange) := by
  obtain ⟨a1, a2, -⟩ := C90_is_newton env cfg sys hc hA s hs
  obtain ⟨g1, g2, g3⟩ := C32_newton_other_criteria { env with linJ := krylovLinJ env } { cfg with update := .Standard } sys (.inl rfl) hcrit h1 s hs
  exact ⟨by rw [a1]; exact g1, a2.trans g2, fun r J c' h k => a1.trans (g3 r J c' s.lin h (by simp only [krylovLinJ, k]))⟩

/-- **C90, failures.** As for Newton (C45): a residual evaluation that fails makes `solve` throw `NonlinearSolveFailure`. -/
theorem C90_failure (env : Env K m n p L) (cfg : Cfg K) (sys : Sys K m n) (hc : sys.Consistent) (hA : ActsAsJacobian env sys) (s : Reg K m n p L) (hs : NewtonObj s) :
    let res := runMatrixFree env cfg sys s
    ∃ new, res.state.log = s.log ++ new ∧ ∀ q ∈ new, q.wantJ = false ∧ ((q.ans = .error .residualEvaluationFailureUnrecoverable ∨ q.ans = .error .residualHasNans) →
      res.stop? = some (.exc .nonlinearSolveFailure)) := by
  intro res
  obtain ⟨a1, -, -, -, -, ⟨ev, a6, a7⟩, -⟩ := C90_is_newton env cfg sys hc hA s hs
  obtain ⟨new, g1, g2⟩ := C45_newton_failure { env with linJ := krylovLinJ env } { cfg with update := .Standard } sys rfl s hs
  rw [a6] at g1
  have := List.append_cancel_left g1
  subst this
  refine ⟨_, a7, fun q hq => ?_⟩
  obtain ⟨q', hq', rfl⟩ := List.mem_map.1 hq
  refine ⟨rfl, fun he => a1.trans (g2 q' hq' ?_)⟩
  rcases he with he | he <;> rcases hq2 : q'.ans with e | a <;> simp only [dropJ, hq2, Except.map] at he <;> cases he
  · exact .inl rfl
  · exact .inr rfl

end general

/-! ### Convergence with an inexact Krylov method -/
section inexact
variable {E n p L : Type} [NormedAddCommGroup E] [NormedSpace ℝ E] [Fintype n] [DecidableEq n] [Fintype p]

/-- **C90, convergence.** A Krylov method that leaves at most the fraction `η < 1` of the right-hand side, on every regular matrix.  Let `x'` be a regular root; let the initial guess be so close to it that
    `16/3 β ‖r(x₀)‖ ≤ ρ`, and `q ≤ 1` at least `η + 8 γ β² ‖r(x₀)‖`.  Then each iteration reduces the norm of the residual by `q` at least, and if `q^k` is small enough for the tolerance and `k < maxIters`, `solve` returns
    normally, after at most `k + 1` evaluations of the residual, without writing the termination file; the residual of the returned state is bounded by what the criterion says, and its error by `4/3 β` times that. -/
theorem C90_inexact_converges (ι : (n → ℝ) →ₗ[ℝ] E) (hι : Function.Injective ι) (env : Env ℝ n n p L) (hM : ∀ v, env.normM v = ‖ι v‖) (hN : ∀ v, env.normN v = ‖ι v‖)
    (cfg : Cfg ℝ) (r : (n → ℝ) → n → ℝ) (J : (n → ℝ) → Matrix n n ℝ) (hA : ∀ x v, env.applyJac x v 0 = J x *ᵥ v) (sol : Matrix n n ℝ → (n → ℝ) → n → ℝ) (η : ℝ) (h0 : 0 ≤ η) (h1 : η < 1)
    (hk : ∀ A b c, env.krylov (fun v out => out + A *ᵥ v) b c = .ok () (sol A b)) (hsol : ∀ A b, IsUnit A.det → ‖ι (b - A *ᵥ sol A b)‖ ≤ η * ‖ι b‖) (hcrit : rootCriterion cfg.stop = true)
    (hmax : cfg.maxIters < int32Max) (s : Reg ℝ n n p L) (hs : NewtonObj s)
    (x' : n → ℝ) (β Λ γ ρ : ℝ) (H : RegularRoot ι r J x' β Λ γ ρ) (hstart : ‖ι (s.x - x')‖ ≤ ρ) (hsmall : 16 / 3 * β * ‖ι (r s.x)‖ ≤ ρ) (hrel : isRelative cfg.stop = true → s.x ≠ x')
    (q : ℝ) (hq : η + 8 * γ * β ^ 2 * ‖ι (r s.x)‖ ≤ q) (hq1 : q ≤ 1) (k : Nat) (hkm : (k : Int) < cfg.maxIters) (hreach : InexactReached cfg.stop cfg.tol β (Λ + γ * ρ) η ‖ι (r s.x)‖ (q ^ k)) :
    let res := runMatrixFree env cfg (Sys.ofFun r J) s
    res.stop? = none ∧ res.state.files = s.files ∧ ‖ι (r res.state.x)‖ ≤ inexactResidual cfg.stop cfg.tol β (Λ + γ * ρ) η ‖ι (r s.x)‖ ∧ ‖ι (res.state.x - x')‖ ≤ 4 / 3 * β * ‖ι (r res.state.x)‖ ∧
    ∃ (it : Nat → n → ℝ) (j : Nat), it 0 = s.x ∧ (∀ a, ‖ι (r (it (a + 1)))‖ ≤ q * ‖ι (r (it a))‖) ∧
      j ≤ k ∧ res.state.x = it j ∧ res.state.log = s.log ++ (List.range (j + 1)).map (fun a => ⟨it a, false, .ok (r (it a), none)⟩) := by
  intro res
  have hb := H.β0
  have hg := H.γ0
  have hΛ := H.Λ0
  have hρ : 0 ≤ ρ := (norm_nonneg _).trans hstart
  have hq0 : 0 ≤ q := le_trans (by positivity) hq
  obtain ⟨g1, g2, -⟩ := C90_iterates env cfg r J hA sol hk hcrit hmax s hs
  set N : (n → ℝ) → n → ℝ := fun x => x + -sol (J x) (r x) with hNdef
  have hdir : ∀ x, ‖ι (x - x')‖ ≤ ρ → ‖ι (r x - J x *ᵥ sol (J x) (r x))‖ ≤ η * ‖ι (r x)‖ := fun x hx => hsol _ _ (H.unit_near hι x hx)
  have hNs : ∀ x, ‖ι (x - x')‖ ≤ ρ → ∃ d, ‖ι (r x - J x *ᵥ d)‖ ≤ η * ‖ι (r x)‖ ∧ N x = x - d := fun x hx => ⟨_, hdir x hx, (sub_eq_add_neg _ _).symm⟩
  have hit := fun a => H.inexact_iterates hι η q h0 h1 N hNs s.x hstart hsmall hq hq1 a
  have hr0 := norm_nonneg (ι (r s.x))
  have hle : ∀ a, ‖ι (r (N^[a] s.x))‖ ≤ ‖ι (r s.x)‖ := fun a => (hit a).2.1.trans (mul_le_of_le_one_right hr0 (pow_le_one₀ hq0 hq1))
  have hstep := fun a => H.inexact_step hι η h0 h1 (N^[a] s.x) _ (hit a).1 (le_trans (by have := hle a; gcongr) hsmall) (hdir _ (hit a).1)
  have hstep0 := H.inexact_step hι η h0 h1 s.x _ hstart hsmall (hdir _ hstart)
  have hr0pos : isRelative cfg.stop = true → 0 < ‖ι (r s.x)‖ := fun h => by
    rw [norm_pos_iff]
    intro hz
    have := (H.error_residual hι s.x hstart).1
    rw [hz, norm_zero, mul_zero] at this
    have := norm_le_zero_iff.1 this
    rw [map_sub, sub_eq_zero] at this
    exact hrel h (hι this)
  have h1' : 0 < 1 - η := by linarith
  have hΛ' : 0 ≤ Λ + γ * ρ := by positivity
  have nrmN : ∀ x, env.normN (-sol (J x) (r x)) = ‖ι (sol (J x) (r x))‖ := fun x => by rw [hN, map_neg, norm_neg]
  have hc0pos : isRelative cfg.stop = true → 0 < ‖ι (sol (J s.x) (r s.x))‖ := fun h => by
    have h2 := hstep0.2.2.2
    have h3 : 0 < (1 - η) * ‖ι (r s.x)‖ := mul_pos h1' (hr0pos h)
    by_contra hc
    push Not at hc
    have : ‖ι (sol (J s.x) (r s.x))‖ = 0 := le_antisymm hc (norm_nonneg _)
    rw [this, mul_zero] at h2
    linarith
  have hmetk : below cfg.stop cfg.tol ⟨env.normM (r s.x), env.normN (-sol (J s.x) (r s.x)), 0, 0⟩
      ⟨env.normM (r (N^[k] s.x)), env.normN (-sol (J (N^[k] s.x)) (r (N^[k] s.x))), 0, 0⟩ = true := by
    rw [hM, hM, nrmN, nrmN]
    have hc := (hstep k).2.2.1
    have hrk := (hit k).2.1
    have hqk : 0 ≤ q ^ k := by positivity
    rcases hstop : cfg.stop <;> rw [hstop] at hcrit hreach <;> simp only [rootCriterion, Bool.false_eq_true] at hcrit <;> simp only [InexactReached] at hreach <;> simp only [below]
    · rw [decide_eq_true_eq]
      calc _ ≤ 4 * β * (‖ι (r s.x)‖ * q ^ k) := hc.trans (by gcongr)
        _ = 4 * β * ‖ι (r s.x)‖ * q ^ k := by ring
        _ < _ := hreach
    · have hpos := hc0pos (by rw [hstop]; rfl)
      rw [fdiv_lt hpos, decide_eq_true_eq]
      have h2 := hstep0.2.2.2
      have h3 : (1 - η) * ‖ι (sol (J (N^[k] s.x)) (r (N^[k] s.x)))‖ ≤ 4 * β * (Λ + γ * ρ) * q ^ k * ‖ι (sol (J s.x) (r s.x))‖ := by
        calc _ ≤ (1 - η) * (4 * β * (‖ι (r s.x)‖ * q ^ k)) := by gcongr; exact hc.trans (by gcongr)
          _ = 4 * β * q ^ k * ((1 - η) * ‖ι (r s.x)‖) := by ring
          _ ≤ 4 * β * q ^ k * ((Λ + γ * ρ) * ‖ι (sol (J s.x) (r s.x))‖) := by gcongr
          _ = _ := by ring
      have h4 : 4 * β * (Λ + γ * ρ) * q ^ k * ‖ι (sol (J s.x) (r s.x))‖ < (1 - η) * cfg.tol * ‖ι (sol (J s.x) (r s.x))‖ := by gcongr
      have h5 : (1 - η) * ‖ι (sol (J (N^[k] s.x)) (r (N^[k] s.x)))‖ < (1 - η) * (cfg.tol * ‖ι (sol (J s.x) (r s.x))‖) := by rw [← mul_assoc]; exact h3.trans_lt h4
      exact lt_of_mul_lt_mul_left h5 h1'.le
    · rw [decide_eq_true_eq]; exact hrk.trans_lt hreach
    · have hpos := hr0pos (by rw [hstop]; rfl)
      rw [fdiv_lt hpos, decide_eq_true_eq]
      exact hrk.trans_lt (by rw [mul_comm]; gcongr)
  classical
  have hex : ∃ k : Nat, below cfg.stop cfg.tol ⟨env.normM (r s.x), env.normN (-sol (J s.x) (r s.x)), 0, 0⟩
      ⟨env.normM (r (N^[k] s.x)), env.normN (-sol (J (N^[k] s.x)) (r (N^[k] s.x))), 0, 0⟩ = true := ⟨k, hmetk⟩
  obtain ⟨j, hjk, hmet, hmin⟩ : ∃ j ≤ k, below cfg.stop cfg.tol ⟨env.normM (r s.x), env.normN (-sol (J s.x) (r s.x)), 0, 0⟩
      ⟨env.normM (r (N^[j] s.x)), env.normN (-sol (J (N^[j] s.x)) (r (N^[j] s.x))), 0, 0⟩ = true ∧ ∀ i < j, ¬ below cfg.stop cfg.tol ⟨env.normM (r s.x), env.normN (-sol (J s.x) (r s.x)), 0, 0⟩
      ⟨env.normM (r (N^[i] s.x)), env.normN (-sol (J (N^[i] s.x)) (r (N^[i] s.x))), 0, 0⟩ = true :=
    ⟨Nat.find hex, Nat.find_le hmetk, Nat.find_spec hex, fun i hi => Nat.find_min hex hi⟩
  obtain ⟨f1, f2, -, f4⟩ := g2 j (by omega) hmet hmin
  refine ⟨g1, f4, ?_, ?_, fun a => N^[a] s.x, j, rfl, fun a => (hit a).2.2, hjk, f1, f2⟩
  · rw [f1]
    rw [hM, hM, nrmN, nrmN] at hmet
    have hlow := (hstep j).2.2.2
    rcases hstop : cfg.stop <;> rw [hstop] at hcrit hmet <;> simp only [rootCriterion, Bool.false_eq_true] at hcrit <;> simp only [inexactResidual] <;> simp only [below] at hmet
    · rw [decide_eq_true_eq] at hmet
      rw [le_div_iff₀ h1']
      nlinarith
    · have hpos := hc0pos (by rw [hstop]; rfl)
      rw [fdiv_lt hpos, decide_eq_true_eq] at hmet
      have htol : 0 < cfg.tol := by
        by_contra hc
        push Not at hc
        have := norm_nonneg (ι (sol (J (N^[j] s.x)) (r (N^[j] s.x))))
        nlinarith
      rw [le_div_iff₀ h1']
      calc ‖ι (r (N^[j] s.x))‖ * (1 - η) = (1 - η) * ‖ι (r (N^[j] s.x))‖ := by ring
        _ ≤ (Λ + γ * ρ) * ‖ι (sol (J (N^[j] s.x)) (r (N^[j] s.x)))‖ := hlow
        _ ≤ (Λ + γ * ρ) * (cfg.tol * ‖ι (sol (J s.x) (r s.x))‖) := by gcongr
        _ ≤ (Λ + γ * ρ) * (cfg.tol * (4 * β * ‖ι (r s.x)‖)) := by gcongr; exact hstep0.2.2.1
        _ = _ := by ring
    · rw [decide_eq_true_eq] at hmet; exact hmet.le
    · have hpos := hr0pos (by rw [hstop]; rfl)
      rw [fdiv_lt hpos, decide_eq_true_eq] at hmet
      exact hmet.le
  · rw [f1]; exact (H.error_residual hι _ (hit j).1).1

/-- **C90, linear systems.** On a regular linear system `A x + b = 0` no closeness is needed: from every initial guess each iteration reduces the norm of the residual by `η` at least, and with a residual criterion `solve` returns
    normally, without termination file, as soon as `η^k` is small enough. -/
theorem C90_inexact_linear (ι : (n → ℝ) →ₗ[ℝ] E) (env : Env ℝ n n p L) (hM : ∀ v, env.normM v = ‖ι v‖) (cfg : Cfg ℝ) (A : Matrix n n ℝ) (b : n → ℝ) (hdet : IsUnit A.det)
    (hA : ∀ x v, env.applyJac x v 0 = A *ᵥ v) (sol : Matrix n n ℝ → (n → ℝ) → n → ℝ) (η : ℝ) (h0 : 0 ≤ η)
    (hk : ∀ A b c, env.krylov (fun v out => out + A *ᵥ v) b c = .ok () (sol A b)) (hsol : ∀ A b, IsUnit A.det → ‖ι (b - A *ᵥ sol A b)‖ ≤ η * ‖ι b‖)
    (hmax : cfg.maxIters < int32Max) (s : Reg ℝ n n p L) (hs : NewtonObj s) (k : Nat) (hkm : (k : Int) < cfg.maxIters)
    (hreach : (cfg.stop = .WhenAbsolutel2NormOfResidualBelowTolerance ∧ η ^ k * ‖ι (A *ᵥ s.x + b)‖ < cfg.tol) ∨
      (cfg.stop = .WhenRelativel2NormOfResidualBelowTolerance ∧ η ^ k < cfg.tol ∧ ι (A *ᵥ s.x + b) ≠ 0)) :
    let res := runMatrixFree env cfg (Sys.ofFun (fun x => A *ᵥ x + b) (fun _ => A)) s
    res.stop? = none ∧ res.state.files = s.files ∧
    ‖ι (A *ᵥ res.state.x + b)‖ < (if cfg.stop = .WhenAbsolutel2NormOfResidualBelowTolerance then cfg.tol else cfg.tol * ‖ι (A *ᵥ s.x + b)‖) ∧
    ∃ (it : Nat → n → ℝ) (j : Nat), it 0 = s.x ∧ (∀ a, ‖ι (A *ᵥ it (a + 1) + b)‖ ≤ η * ‖ι (A *ᵥ it a + b)‖) ∧
      j ≤ k ∧ res.state.x = it j ∧ res.state.log = s.log ++ (List.range (j + 1)).map (fun a => ⟨it a, false, .ok (A *ᵥ it a + b, none)⟩) := by
  intro res
  have hcrit : rootCriterion cfg.stop = true := by rcases hreach with ⟨h, -⟩ | ⟨h, -⟩ <;> rw [h] <;> rfl
  obtain ⟨g1, g2, -⟩ := C90_iterates env cfg (fun x => A *ᵥ x + b) (fun _ => A) hA sol hk hcrit hmax s hs
  set N : (n → ℝ) → n → ℝ := fun x => x + -sol A (A *ᵥ x + b) with hNdef
  have hstep : ∀ x, ‖ι (A *ᵥ N x + b)‖ ≤ η * ‖ι (A *ᵥ x + b)‖ := fun x => by
    have : A *ᵥ N x + b = (A *ᵥ x + b) - A *ᵥ sol A (A *ᵥ x + b) := by
      rw [hNdef]; simp only [Matrix.mulVec_add, Matrix.mulVec_neg]; abel
    rw [this]; exact hsol _ _ hdet
  have hit : ∀ a, ‖ι (A *ᵥ N^[a + 1] s.x + b)‖ ≤ η * ‖ι (A *ᵥ N^[a] s.x + b)‖ := fun a => by
    rw [Function.iterate_succ_apply']; exact hstep _
  have hpow : ∀ a, ‖ι (A *ᵥ N^[a] s.x + b)‖ ≤ η ^ a * ‖ι (A *ᵥ s.x + b)‖ := fun a => by
    induction a with
    | zero => simp
    | succ a ih =>
      refine (hit a).trans ?_
      rw [pow_succ, mul_comm (η ^ a) η, mul_assoc]
      gcongr
  have hmeets : ∀ a, below cfg.stop cfg.tol ⟨env.normM (A *ᵥ s.x + b), env.normN (-sol A (A *ᵥ s.x + b)), 0, 0⟩
      ⟨env.normM (A *ᵥ N^[a] s.x + b), env.normN (-sol A (A *ᵥ N^[a] s.x + b)), 0, 0⟩ = true ↔
      ‖ι (A *ᵥ N^[a] s.x + b)‖ < (if cfg.stop = .WhenAbsolutel2NormOfResidualBelowTolerance then cfg.tol else cfg.tol * ‖ι (A *ᵥ s.x + b)‖) := fun a => by
    rw [hM, hM]
    rcases hreach with ⟨h, -⟩ | ⟨h, -, hr⟩ <;> rw [h] <;> simp only [below]
    · simp
    · rw [fdiv_lt (norm_pos_iff.2 hr)]; simp
  have hmetk := (hmeets k).2 (by
    rcases hreach with ⟨h, ht⟩ | ⟨h, ht, hr⟩ <;> rw [h]
    · simpa using (hpow k).trans_lt ht
    · have := norm_pos_iff.2 hr
      simp only [reduceCtorEq, if_false]
      exact (hpow k).trans_lt (by gcongr))
  classical
  have hex : ∃ k : Nat, below cfg.stop cfg.tol ⟨env.normM (A *ᵥ s.x + b), env.normN (-sol A (A *ᵥ s.x + b)), 0, 0⟩
      ⟨env.normM (A *ᵥ N^[k] s.x + b), env.normN (-sol A (A *ᵥ N^[k] s.x + b)), 0, 0⟩ = true := ⟨k, hmetk⟩
  have hjk : Nat.find hex ≤ k := Nat.find_le hmetk
  obtain ⟨f1, f2, -, f4⟩ := g2 (Nat.find hex) (by omega) (Nat.find_spec hex) (fun i hi => Nat.find_min hex hi)
  exact ⟨g1, f4, by rw [f1]; exact (hmeets _).1 (Nat.find_spec hex), fun a => N^[a] s.x, Nat.find hex, rfl, hit, hjk, f1, f2⟩

/-- **C90, local convergence.** For every root with regular Jacobian of a twice continuously differentiable system and every `η < 1` there are a distance `δ` and a constant `C` so that, for every positive tolerance, all
    four criteria and every Krylov method that leaves at most the fraction `η` of the right-hand side (however close to one `η` is): from every initial guess within `δ` `solve` returns normally, without writing the
    termination file, with an error of at most `C * tol`, provided that the iteration limit exceeds a number that depends on the tolerance only. -/
theorem C90_local_convergence (ι : (n → ℝ) →ₗ[ℝ] E) (hι : Function.Injective ι) (r : (n → ℝ) → n → ℝ) (J : (n → ℝ) → Matrix n n ℝ) (hr : ContDiff ℝ 2 r) (hJ : ∀ x, IsJacobian r J x)
    (x' : n → ℝ) (hroot : r x' = 0) (hdet : (J x').det ≠ 0) (η : ℝ) (h0 : 0 ≤ η) (h1 : η < 1) :
    ∃ δ C : ℝ, 0 < δ ∧ ∀ tol : ℝ, 0 < tol → ∃ k : Nat, ∀ (env : Env ℝ n n p L) (cfg : Cfg ℝ) (sol : Matrix n n ℝ → (n → ℝ) → n → ℝ) (s : Reg ℝ n n p L),
      (∀ v, env.normM v = ‖ι v‖) → (∀ v, env.normN v = ‖ι v‖) → (∀ x v, env.applyJac x v 0 = J x *ᵥ v) → (∀ A b c, env.krylov (fun v out => out + A *ᵥ v) b c = .ok () (sol A b)) →
      (∀ A b, IsUnit A.det → ‖ι (b - A *ᵥ sol A b)‖ ≤ η * ‖ι b‖) →
      rootCriterion cfg.stop = true → cfg.tol = tol → (k : Int) < cfg.maxIters → cfg.maxIters < int32Max → NewtonObj s →
      ‖ι (s.x - x')‖ ≤ δ → (isRelative cfg.stop = true → s.x ≠ x') →
      let res := runMatrixFree env cfg (Sys.ofFun r J) s
      res.stop? = none ∧ res.state.files = s.files ∧ ‖ι (res.state.x - x')‖ ≤ C * tol ∧ res.state.log.length ≤ s.log.length + k + 1 := by
  obtain ⟨β, Λ, γ, ρ, hρ, H⟩ := C78_smooth_roots_are_regular ι hι r J hr hJ x' hroot hdet
  have hβ := H.β0
  have hΛ := H.Λ0
  have hγ := H.γ0
  have h1' : 0 < 1 - η := by linarith
  set Λ' := Λ + γ * ρ with hΛ'd
  have hΛ' : 0 ≤ Λ' := by positivity
  set R := 5 / 4 * Λ * ρ with hRd
  have hR : 0 ≤ R := by positivity
  set q := (1 + η) / 2 with hqd
  have hq0 : 0 ≤ q := by rw [hqd]; linarith
  have hq1 : q < 1 := by rw [hqd]; linarith
  set δ := min ρ (min (ρ / (1 + 20 / 3 * β * Λ)) ((1 - η) / 2 / (1 + 10 * γ * β ^ 2 * Λ))) with hδ
  have d1 : δ ≤ ρ := min_le_left _ _
  have d2 : 20 / 3 * β * Λ * δ ≤ ρ := by
    have h : δ ≤ ρ / (1 + 20 / 3 * β * Λ) := (min_le_right _ _).trans (min_le_left _ _)
    have hδ0 : 0 ≤ δ := by positivity
    rw [le_div_iff₀ (by positivity)] at h
    nlinarith
  have d3 : 10 * γ * β ^ 2 * Λ * δ ≤ (1 - η) / 2 := by
    have h : δ ≤ (1 - η) / 2 / (1 + 10 * γ * β ^ 2 * Λ) := (min_le_right _ _).trans (min_le_right _ _)
    have hδ0 : 0 ≤ δ := by positivity
    rw [le_div_iff₀ (by positivity)] at h
    nlinarith
  refine ⟨δ, 4 / 3 * β * (Λ' / (1 - η) + 4 * β * Λ' * R / (1 - η) + 1 + R), by positivity, fun tol htol => ?_⟩
  set D := 4 * β * R + 4 * β * Λ' / (1 - η) + R + 1 with hD
  have hD0 : 0 < D := by positivity
  obtain ⟨k, hk⟩ := exists_pow_lt_of_lt_one (show 0 < tol / D by positivity) hq1
  have hqk : D * q ^ k < tol := by rw [mul_comm]; exact (lt_div_iff₀ hD0).1 hk
  refine ⟨k, fun env cfg sol s hM hN hA hkr hsol hcrit ht hkm hmax hs hstart hrel => ?_⟩
  subst ht
  have hr0 := norm_nonneg (ι (r s.x))
  have he : ‖ι (r s.x)‖ ≤ 5 / 4 * Λ * ‖ι (s.x - x')‖ := (H.error_residual hι s.x (hstart.trans d1)).2
  have he' : ‖ι (r s.x)‖ ≤ 5 / 4 * Λ * δ := he.trans (by gcongr)
  have heR : ‖ι (r s.x)‖ ≤ R := he.trans (mul_le_mul_of_nonneg_left (hstart.trans d1) (by positivity))
  have hsmall : 16 / 3 * β * ‖ι (r s.x)‖ ≤ ρ := by
    calc _ ≤ 16 / 3 * β * (5 / 4 * Λ * δ) := by gcongr
      _ = 20 / 3 * β * Λ * δ := by ring
      _ ≤ ρ := d2
  have hq : η + 8 * γ * β ^ 2 * ‖ι (r s.x)‖ ≤ q := by
    have : 8 * γ * β ^ 2 * ‖ι (r s.x)‖ ≤ (1 - η) / 2 := by
      calc _ ≤ 8 * γ * β ^ 2 * (5 / 4 * Λ * δ) := by gcongr
        _ = 10 * γ * β ^ 2 * Λ * δ := by ring
        _ ≤ _ := d3
    rw [hqd]; linarith
  have hpk : 0 ≤ q ^ k := by positivity
  have p1 : 0 ≤ 4 * β * R * q ^ k := by positivity
  have p2 : 0 ≤ 4 * β * Λ' / (1 - η) * q ^ k := by positivity
  have p3 : 0 ≤ R * q ^ k := by positivity
  have hreach : InexactReached cfg.stop cfg.tol β Λ' η ‖ι (r s.x)‖ (q ^ k) := by
    rcases hc : cfg.stop <;> rw [hc] at hcrit <;> simp only [rootCriterion, Bool.false_eq_true] at hcrit <;> simp only [InexactReached] <;> rw [hD] at hqk
    · have : 4 * β * ‖ι (r s.x)‖ * q ^ k ≤ 4 * β * R * q ^ k := by gcongr
      linarith
    · have : 4 * β * Λ' / (1 - η) * q ^ k < cfg.tol := by linarith
      calc 4 * β * Λ' * q ^ k = (1 - η) * (4 * β * Λ' / (1 - η) * q ^ k) := by field_simp
        _ < _ := by gcongr
    · have : ‖ι (r s.x)‖ * q ^ k ≤ R * q ^ k := by gcongr
      linarith
    · linarith
  obtain ⟨g1, g2, g3, g4, it, j, -, -, hj, -, hlog⟩ := C90_inexact_converges ι hι env hM hN cfg r J hA sol η h0 h1 hkr hsol hcrit hmax s hs x' β Λ γ ρ H (hstart.trans d1) hsmall hrel q hq hq1.le k hkm hreach
  refine ⟨g1, g2, g4.trans ?_, by rw [hlog]; simp; omega⟩
  have hbound : inexactResidual cfg.stop cfg.tol β Λ' η ‖ι (r s.x)‖ ≤ (Λ' / (1 - η) + 4 * β * Λ' * R / (1 - η) + 1 + R) * cfg.tol := by
    have p4 : 0 ≤ Λ' / (1 - η) * cfg.tol := by positivity
    have p5 : 0 ≤ 4 * β * Λ' * R / (1 - η) * cfg.tol := by positivity
    have p6 : 0 ≤ R * cfg.tol := by positivity
    rcases hc : cfg.stop <;> rw [hc] at hcrit <;> simp only [rootCriterion, Bool.false_eq_true] at hcrit <;> simp only [inexactResidual]
    · rw [mul_div_right_comm]; linarith
    · have : 4 * β * Λ' * cfg.tol * ‖ι (r s.x)‖ / (1 - η) ≤ 4 * β * Λ' * cfg.tol * R / (1 - η) := by gcongr
      have e : 4 * β * Λ' * cfg.tol * R / (1 - η) = 4 * β * Λ' * R / (1 - η) * cfg.tol := by ring
      linarith
    · linarith
    · have : cfg.tol * ‖ι (r s.x)‖ ≤ cfg.tol * R := by gcongr
      linarith
  calc 4 / 3 * β * ‖ι (r (runMatrixFree env cfg (Sys.ofFun r J) s).state.x)‖ ≤ 4 / 3 * β * ((Λ' / (1 - η) + 4 * β * Λ' * R / (1 - η) + 1 + R) * cfg.tol) :=
        mul_le_mul_of_nonneg_left (g3.trans hbound) (by positivity)
    _ = _ := (mul_assoc _ _ _).symm

end inexact

/-! ### Concrete cases -/
section Examples

/-- `x² - 2` with the action of its Jacobian; the Krylov method of `env1` divides -/
theorem env1_acts : ActsAsJacobian env1 sq2 := by
  intro x r J h v
  cases h
  funext u
  simp [env1, v1, m1, Matrix.mulVec, dotProduct]

/-- from 1, two updates; three evaluations, none of them of the Jacobian -/
example : let res := runMatrixFree env1 (cfgN .WhenAbsolutel2NormOfResidualBelowTolerance (1/100) 5 .Standard) sq2 (reg1 newtonDiagnostics 1)
    res.stop? = none ∧ res.state.x () = 17/12 ∧ res.state.log.map (fun q => (q.x (), q.wantJ)) = [(1, false), (3/2, false), (17/12, false)] ∧ res.state.files = [] := by decide +kernel
example := C90_is_newton env1 (cfgN .WhenAbsolutel2NormOfResidualBelowTolerance (1/100) 5 .Standard) sq2 (fun _ => rfl) env1_acts (reg1 newtonDiagnostics 1) (.created _ rfl)
/-- here the Krylov method fails -/
example := C90_is_newton env1 (cfgN .WhenAbsolutel2NormOfResidualBelowTolerance (1/100) 5 .Standard) sq2 (fun _ => rfl) env1_acts (reg1 newtonDiagnostics 0) (.created _ rfl)
example : (runMatrixFree env1 (cfgN .WhenAbsolutel2NormOfResidualBelowTolerance (1/100) 5 .Standard) sq2 (reg1 newtonDiagnostics 0)).stop? = some (.exc (.other 0)) := by decide +kernel

/-- a Krylov method that always answers, and stops at nine tenths of the solution -/
def envK : Env ℚ Unit Unit Unit ℚ := { env1 with krylov := fun op b _ => .ok () (v1 (9/10 * (b () / op (v1 1) (v1 0) ()))) }

example := C90_iterates envK (cfgN .WhenAbsolutel2NormOfResidualBelowTolerance (1/100) 5 .Standard) (fun x => v1 (x () * x () - 2)) (fun x => m1 (2 * x ()))
  (fun x v => by funext u; simp [envK, env1, v1, m1, Matrix.mulVec, dotProduct]) (fun A b => v1 (9/10 * (b () / A () ())))
  (fun A b c => by simp [envK, v1, Matrix.mulVec, dotProduct]) rfl (by decide) (reg1 newtonDiagnostics 1) (.created _ rfl)
example : let res := runMatrixFree envK (cfgN .WhenAbsolutel2NormOfResidualBelowTolerance (1/100) 5 .Standard) sq2 (reg1 newtonDiagnostics 1)
    res.stop? = none ∧ res.state.log.length = 4 ∧ |res.state.x () * res.state.x () - 2| < 1/100 := by decide +kernel

/-- With backtracking selected: the residual grows all the same, which a backtracking Newton solver does not allow (C33). -/
theorem C90_update_option_witness :
    let cfg := cfgN .WhenAbsolutel2NormOfResidualBelowTolerance (1/100) 1 .BacktrackStrictlyDecreasingObjective
    let res := runMatrixFree env1 cfg sq2 (reg1 newtonDiagnostics (1/10))
    res.stop? = none ∧ res.state.x () = 201/20 ∧ |(1/10 : ℚ) * (1/10) - 2| < |res.state.x () * res.state.x () - 2| := by decide +kernel

example := C90_update_option_ignored env1 (cfgN .WhenAbsolutel2NormOfResidualBelowTolerance (1/100) 5 .Standard) .BacktrackStrictlyDecreasingObjective (some [1]) sq2 (reg1 newtonDiagnostics 1)
/-- a new object and one used before -/
example := C90_no_memory envK (cfgN .WhenAbsolutel2NormOfResidualBelowTolerance (1/100) 5 .Standard) sq2 (fun _ => rfl) env1_acts (fun _ _ _ _ => ⟨rfl, fun _ => rfl⟩) (reg1 newtonDiagnostics 1)
  { (runMatrixFree env1 (cfgN .WhenRelativel2NormOfResidualBelowTolerance (1/100) 5 .Standard) sq2 (reg1 newtonDiagnostics 3)).state with x := v1 1 } (.created _ rfl) (.usedMatrixFree _ _ _ _ _ (.created _ rfl)) rfl
example := C90_other_criteria env1 (cfgN .AfterMaxIters (1/100) 5 .Standard) sq2 (fun _ => rfl) env1_acts (.inl rfl) (by decide) (reg1 newtonDiagnostics 1) (.created _ rfl)

/-- `x² - 2`, which cannot be evaluated above 3 -/
def sqAbove3 : Sys ℚ Unit Unit where
  resJac := fun x => if 3 < x () then .error .residualEvaluationFailureUnrecoverable else .ok (v1 (x () * x () - 2), m1 (2 * x ()))
  res := fun x => if 3 < x () then .error .residualEvaluationFailureUnrecoverable else .ok (v1 (x () * x () - 2))

theorem sqAbove3_consistent : sqAbove3.Consistent := by
  intro x
  simp only [sqAbove3]
  split <;> rfl

theorem env1_acts_fail : ActsAsJacobian env1 sqAbove3 := by
  intro x r J h v
  simp only [sqAbove3] at h
  split at h
  · cases h
  · cases h
    funext u
    simp [env1, v1, m1, Matrix.mulVec, dotProduct]

/-- the second evaluation fails -/
example := C90_failure env1 (cfgN .WhenAbsolutel2NormOfResidualBelowTolerance (1/100) 5 .Standard) sqAbove3 sqAbove3_consistent env1_acts_fail (reg1 newtonDiagnostics (1/10)) (.created _ rfl)
example : let res := runMatrixFree env1 (cfgN .WhenAbsolutel2NormOfResidualBelowTolerance (1/100) 5 .Standard) sqAbove3 (reg1 newtonDiagnostics (1/10))
    res.stop? = some (.exc .nonlinearSolveFailure) ∧ res.state.log.length = 2 := by decide +kernel

/-- over the reals, a Krylov method that leaves half of the right-hand side -/
noncomputable def envH : Env ℝ Unit Unit Unit Unit :=
  { envR with applyJac := fun x v _ => fun _ => 2 * x () * v (), krylov := fun op b _ => .ok () (fun _ => b () / op (fun _ => 1) (fun _ => 0) () / 2) }

theorem envH_half (A : Matrix Unit Unit ℝ) (b : Unit → ℝ) (hA : IsUnit A.det) : b () - A () () * (b () / A () () / 2) = b () / 2 := by
  have : A () () ≠ 0 := by simpa [isUnit_iff_ne_zero] using hA
  field_simp
  ring

/-- from 17/12 to an error below 2/3·10⁻³, within six evaluations -/
example : let res := runMatrixFree envH (⟨100, .WhenAbsolutel2NormOfResidualBelowTolerance, 1 / 10 ^ 3, .Standard, none⟩ : Cfg ℝ) (Sys.ofFun sqRes sqJac) { regR with x := fun _ => 17 / 12 }
    res.stop? = none ∧ |res.state.x () - Real.sqrt 2| ≤ 2 / 3 / 10 ^ 3 ∧ res.state.log.length ≤ 6 := by
  have h2 : Real.sqrt 2 ^ 2 = 2 := Real.sq_sqrt (by norm_num)
  have h0 := Real.sqrt_nonneg 2
  have hlo : (1.41 : ℝ) ≤ Real.sqrt 2 := Real.le_sqrt_of_sq_le (by norm_num)
  have hhi : Real.sqrt 2 ≤ 1.42 := Real.sqrt_le_iff.2 (by norm_num)
  have H : RegularRoot (E := ℝ) (LinearMap.proj ()) sqRes sqJac (fun _ => Real.sqrt 2) (1 / 2) 3 2 (1 / 2) := by
    refine ⟨?_, fun x _ => sq_isJacobian x, fun v => ?_, fun v => ?_, fun x y v _ _ => ?_, by norm_num, by norm_num, by norm_num, by norm_num⟩
    · funext u; simp [sqRes]
    · simp [sqJac, Matrix.mulVec, dotProduct, abs_of_nonneg h0]
      nlinarith [abs_nonneg (v ())]
    · simp [sqJac, Matrix.mulVec, dotProduct, abs_of_nonneg h0]
      nlinarith [abs_nonneg (v ())]
    · simp [sqJac, Matrix.mulVec, dotProduct]
      rw [show 2 * x () * v () - 2 * y () * v () = 2 * ((x () - y ()) * v ()) by ring, abs_mul, abs_mul]
      norm_num
      linarith
  have hres : ‖(LinearMap.proj () : (Unit → ℝ) →ₗ[ℝ] ℝ) (sqRes (fun _ => 17 / 12))‖ = 1 / 144 := by
    simp [sqRes]; norm_num [abs_of_pos]
  have := C90_inexact_converges (E := ℝ) (LinearMap.proj ()) (fun v w h => by funext u; exact h) envH (fun v => by simp [envH, envR]) (fun v => by simp [envH, envR])
    ⟨100, .WhenAbsolutel2NormOfResidualBelowTolerance, 1 / 10 ^ 3, .Standard, none⟩
    sqRes sqJac (fun x v => by funext u; simp [envH, sqJac, Matrix.mulVec, dotProduct]) (fun A b _ => b () / A () () / 2) (1 / 2) (by norm_num) (by norm_num)
    (fun A b c => by simp [envH, Matrix.mulVec, dotProduct]) (fun A b hA => by
      have := envH_half A b hA
      simp [Matrix.mulVec, dotProduct, this]
      linarith) rfl (by simp [int32Max]) { regR with x := fun _ => 17 / 12 } (.created _ rfl) _ _ _ _ _ H (by
      simp
      rw [abs_le]; constructor <;> norm_num at * <;> linarith) (by rw [hres]; norm_num) (by simp [isRelative]) (3 / 5) (by rw [hres]; norm_num) (by norm_num) 5 (by norm_num) (by rw [hres]; norm_num [InexactReached])
  obtain ⟨g1, -, g3, g4, it, j, -, -, hj, -, hlog⟩ := this
  refine ⟨g1, ?_, ?_⟩
  · refine le_trans (by simpa using g4) ?_
    simp only [inexactResidual] at g3
    have g3' : |sqRes (runMatrixFree envH (⟨100, .WhenAbsolutel2NormOfResidualBelowTolerance, 1 / 10 ^ 3, .Standard, none⟩ : Cfg ℝ) (Sys.ofFun sqRes sqJac) { regR with x := fun _ => 17 / 12 }).state.x ()| ≤ 1 / 10 ^ 3 := by
      simpa using g3
    norm_num at g3' ⊢
    linarith
  · rw [hlog]; simp [regR]; omega

example := C90_local_convergence (p := Unit) (L := Unit) (LinearMap.id : (Unit → ℝ) →ₗ[ℝ] (Unit → ℝ)) (fun _ _ h => h) sqRes sqJac (by unfold sqRes; fun_prop) sq_isJacobian (fun _ => Real.sqrt 2)
  (by funext u; simp [sqRes]) (by simp [sqJac, Matrix.det_unique]) (9 / 10) (by norm_num) (by norm_num)

end Examples
end Pressio.Props
