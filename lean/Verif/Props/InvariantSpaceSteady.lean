import Verif.Props.InvariantSpaceExamples
import Verif.Props.SteadySolve

/-
  C104 for steady problems.
-/
namespace Pressio.Props
set_option autoImplicit false
set_option linter.unusedSectionVars false
open Pressio Matrix
open Pressio.Model.Nonlinear (Env Cfg Reg StopCrit Update Tag Ans SP newContainer newtonDiagnostics leastSquaresDiagnostics)
open Pressio.Spec.Nonlinear Pressio.Spec.SolverAlike Pressio.Spec.Coordinates Pressio.Spec.InvariantSpace
open Pressio.Lemmas.Nonlinear Pressio.Lemmas.SolverAlike Pressio.Lemmas.Coordinates
open Pressio.Spec.SolverRun Pressio.Lemmas.SolverTree Pressio.Lemmas.SolverRun Pressio.Model.SteadySolve Pressio.Spec.SteadySolve
open Pressio.Model.Galerkin Pressio.Spec.Galerkin
open Pressio.Model.Lspg (steadyLspg SteadyScaler)

section
variable {K m n q p p' L L' M : Type} [Field K] [LinearOrder K] [IsStrictOrderedRing K] [Fintype m] [DecidableEq m] [Fintype n] [DecidableEq n] [Fintype q] [Fintype p] [Fintype p']

theorem steady_of_points {P P' k k' Q Q' T T' : Type} [Fintype P] [Fintype P'] [Fintype k] [Fintype k'] (φ : (k' → K) → k → K) (solve : SP K P k Q L Unit) (solve' : SP K P' k' Q' L' Unit) (hs : Fine solve) (hs' : Fine solve') (reg : Reg K P k Q L) (reg' : Reg K P' k' Q' L')
    (ans : (k → K) → Bool → Prog T (Ans K P k)) (ans' : (k' → K) → Bool → Prog T' (Ans K P' k')) {r : (k → K) → P → K} {J : (k → K) → Matrix P k K} {r' : (k' → K) → P' → K} {J' : (k' → K) → Matrix P' k' K} (h : Serves ans r J) (h' : Serves ans' r' J')
    (x : k' → K) (mem : T) (mem' : T') (hp : SamePoints φ { reg with x := φ x } { reg' with x := x } (SM.run (Sys.ofFun r J).toF solve { reg with x := φ x }) (SM.run (Sys.ofFun r' J').toF solve' { reg' with x := x })) :
    SameSteady φ (solveSteady solve reg ans (φ x) mem) (solveSteady solve' reg' ans' x mem') := by
  obtain ⟨a1, a2, a3⟩ := C89_solve_is_memoryless solve reg ans r J h (φ x) mem
  obtain ⟨b1, b2, b3⟩ := C89_solve_is_memoryless solve' reg' ans' r' J' h' x mem'
  obtain ⟨h1, h2, Q1, Q2, h3, h4, h5⟩ := hp
  have l1 := log_run solve hs (Sys.ofFun r J).toF { reg with x := φ x }
  have l2 := log_run solve' hs' (Sys.ofFun r' J').toF { reg' with x := x }
  rw [h3] at l1
  rw [h4] at l2
  refine ⟨by rw [a1, b1, h1], by rw [a2, b2, h2], ?_⟩
  rw [a3, b3, ← List.append_cancel_left l1, ← List.append_cancel_left l2, h5]

/-- **C104, steady Galerkin.** Let the residuals of a full-order model at the states of the trial space be in the range of the (orthonormal) basis, and its Jacobians map this range into itself.  Newton on the full-order problem and Newton on the Galerkin problem, with Euclidean norms and the same options, started at the same state
    of the trial space: same end (convergence, iterations exhausted, failure), same full-order state, evaluations at the same full-order states. -/
theorem C104_steady_galerkin {F : SteadyFom K m m n} {f : (m → K) → m → K} {Df : (m → K) → Matrix m m K} (hF : SteadyIs F (fun y => .ok (f y)) (fun y => .ok (Df y))) (ans : (m → K) → Bool → Prog M (Ans K m m)) (hans : Serves ans f Df)
    (S : Trial K m n) (hS : Orthonormal S) (hI : InvariantResidual S f Df) (hreg : ∀ x, IsUnit (Df (lift S x)).det)
    (env : Env K m m p L) (env' : Env K n n p' L') (he : ∀ A b s, (env.linJ A b s).stop? ≠ some (.exc .timeStepFailure)) (he' : ∀ A b s, (env'.linJ A b s).stop? ≠ some (.exc .timeStepFailure)) (hlin : SolvesRegular env.linJ) (hlin' : SolvesRegular env'.linJ)
    (hM : Euclidean env.normM ∧ ∀ r, 0 ≤ env.normM r) (hM' : Euclidean env'.normM ∧ ∀ r, 0 ≤ env'.normM r) (hN : Euclidean env.normN ∧ ∀ r, 0 ≤ env.normN r) (hN' : Euclidean env'.normN ∧ ∀ r, 0 ≤ env'.normN r)
    (cfg : Cfg K) (reg : Reg K m m p L) (reg' : Reg K n n p' L') (hidle : NewtonIdle reg) (hidle' : NewtonIdle reg') (x0 : n → K) (mem : M) (mem' : GSt K m m q n) :
    SameSteady (lift S) (solveSteady (Model.Nonlinear.newtonSolve env cfg) reg ans (lift S x0) mem) (solveSteady (Model.Nonlinear.newtonSolve env' cfg) reg' (galerkinEval (steadyResidualJac S F)) x0 mem') := by
  have hB : S.basisᵀ * S.basis = 1 := hS
  refine steady_of_points (lift S) _ _ (fine_newtonSolve env he cfg) (fine_newtonSolve env' he' cfg) reg reg' ans _ hans (C89_galerkin_problem (q := q) hF S) x0 mem mem' ?_
  refine newton_restricted env env' cfg S.basis (origin S) hB (Sys.ofFun f Df) (Sys.ofFun (fun x => S.basisᵀ *ᵥ f (lift S x)) (fun x => S.basisᵀ * (Df (lift S x) * S.basis))) ?_ ?_
    (fun r => (euclidean_range hB hM'.1 hM.1 hM'.2 hM.2 r).symm) (fun r => (euclidean_range hB hN'.1 hN.1 hN'.2 hN.2 r).symm) hlin hlin' { reg with x := lift S x0 } { reg' with x := x0 } (hidle _) (hidle' _) rfl
  · intro x
    refine .inr ⟨_, _, _, _, rfl, rfl, ?_, ?_, ?_⟩ <;> rw [← lift_origin]
    · exact range_projected hB (hI x).1
    · exact (range_projected' hB (hI x).2).trans (by simp only [Matrix.mul_assoc])
    · exact hreg x
  · intro x
    refine .inr ⟨_, ?_, rfl⟩
    simp only [Sys.ofFun, ← lift_origin]
    exact congrArg Except.ok (range_projected hB (hI x).1)

/-- **C104, steady LSPG.** The same for LSPG problems (no scaling, linearly independent basis) with Gauss-Newton and the full-order problem with Gauss-Newton … -/
theorem C104_steady_lspg_gauss_newton {F : SteadyFom K m m n} {f : (m → K) → m → K} {Df : (m → K) → Matrix m m K} (hF : SteadyIs F (fun y => .ok (f y)) (fun y => .ok (Df y))) (ans : (m → K) → Bool → Prog M (Ans K m m)) (hans : Serves ans f Df)
    (S : Trial K m n) (hS : Function.Injective S.basis.mulVec) (hI : InvariantResidual S f Df) (hreg : ∀ x, IsUnit (Df (lift S x)).det) (sc : SteadyScaler K m m n) (hsc : ∀ y r J, sc y (r, J) = .ok (r, J))
    (env : Env K m m p L) (env' : Env K m n p' L') (he : InnerHonest env .gn) (he' : InnerHonest env' .gn) (hlin : SolvesRegular env.lin) (hlin' : SolvesRegular env'.lin) (hM : env'.normM = env.normM)
    (cfg : Cfg K) (hroot : rootCriterion cfg.stop = true) (hN : cfg.stop = .WhenAbsolutel2NormOfCorrectionBelowTolerance ∨ cfg.stop = .WhenRelativel2NormOfCorrectionBelowTolerance → ∀ c, env'.normN c = env.normN (S.basis *ᵥ c))
    (reg : Reg K m m p L) (reg' : Reg K m n p' L') (hidle : LsIdle reg) (hidle' : LsIdle reg') (x0 : n → K) (mem : M) (mem' : (m → K) × (m → K) × Matrix m n K) :
    SameSteady (lift S) (solveSteady (Model.Nonlinear.lsSolve env cfg .gn) reg ans (lift S x0) mem) (solveSteady (Model.Nonlinear.lsSolve env' cfg .gn) reg' (steadyLspg S F sc) x0 mem') := by
  refine steady_of_points (lift S) _ _ (fine_lsSolve env cfg _ he) (fine_lsSolve env' cfg _ he') reg reg' ans _ hans
    (C89_lspg_problem hF S sc (fun _ r => r) (fun _ J => J) (fun y r J => by rw [hsc]; simp)) x0 mem mem' ?_
  refine gauss_newton_restricted env env' cfg S.basis (origin S) hS (Sys.ofFun f Df) (Sys.ofFun (fun x => f (lift S x)) (fun x => Df (lift S x) * S.basis)) ?_ ?_
    hM hroot hN hlin hlin' { reg with x := lift S x0 } { reg' with x := x0 } (hidle _) (hidle' _) rfl
  · intro x
    refine .inr ⟨_, _, _, _, rfl, rfl, ?_, ?_, ?_, ?_, ?_⟩ <;> rw [← lift_origin]
    · exact (hI x).1
    · exact (hI x).2
    · exact hreg x
  · intro x
    simp only [Sys.ofFun, ← lift_origin]

/-- … and with Newton -/
theorem C104_steady_lspg {F : SteadyFom K m m n} {f : (m → K) → m → K} {Df : (m → K) → Matrix m m K} (hF : SteadyIs F (fun y => .ok (f y)) (fun y => .ok (Df y))) (ans : (m → K) → Bool → Prog M (Ans K m m)) (hans : Serves ans f Df)
    (S : Trial K m n) (hS : Function.Injective S.basis.mulVec) (hI : InvariantResidual S f Df) (hreg : ∀ y, IsUnit (Df y).det) (sc : SteadyScaler K m m n) (hsc : ∀ y r J, sc y (r, J) = .ok (r, J))
    (env : Env K m m p L) (env' : Env K m n p' L') (he : ∀ A b s, (env.linJ A b s).stop? ≠ some (.exc .timeStepFailure)) (he' : InnerHonest env' .gn) (hlin : SolvesRegular env.linJ) (hlin' : SolvesRegular env'.lin) (hM : env'.normM = env.normM) (hnn : ∀ r, 0 ≤ env.normM r)
    (cfg cfg' : Cfg K) (hcfg : Matching cfg cfg') (hroot : rootCriterion cfg.stop = true) (hN : cfg.stop = .WhenAbsolutel2NormOfCorrectionBelowTolerance ∨ cfg.stop = .WhenRelativel2NormOfCorrectionBelowTolerance → ∀ c, env'.normN c = env.normN (S.basis *ᵥ c))
    (reg : Reg K m m p L) (reg' : Reg K m n p' L') (hidle : NewtonIdle reg) (hidle' : LsIdle reg') (x0 : n → K) (mem : M) (mem' : (m → K) × (m → K) × Matrix m n K) :
    SameSteady (lift S) (solveSteady (Model.Nonlinear.newtonSolve env cfg) reg ans (lift S x0) mem) (solveSteady (Model.Nonlinear.lsSolve env' cfg' .gn) reg' (steadyLspg S F sc) x0 mem') := by
  let own : Reg K m m p L := { reg with diag := Model.Nonlinear.newContainer Model.Nonlinear.leastSquaresDiagnostics }
  have hown : LsIdle own := fun _ => .created _ rfl
  have h1 := C104_steady_lspg_gauss_newton hF ans hans S hS hI (fun x => hreg _) sc hsc { env with lin := exactSolver } env' (by intro A b s; simp [exactSolver]) he' exactSolver_regular hlin' hM cfg' (by rw [hcfg.2.1]; exact hroot) (by rw [hcfg.2.1]; exact hN) own reg' hown hidle' x0 mem mem'
  have h2 : SameSteady id (solveSteady (Model.Nonlinear.newtonSolve { env with lin := exactSolver } cfg) reg ans (lift S x0) mem) (solveSteady (Model.Nonlinear.lsSolve { env with lin := exactSolver } cfg' .gn) own ans (lift S x0) mem) := by
    refine steady_of_points id _ _ (fine_newtonSolve { env with lin := exactSolver } he cfg) (fine_lsSolve { env with lin := exactSolver } cfg' .gn (by intro A b s; simp [exactSolver])) reg own ans ans hans hans (lift S x0) mem mem ?_
    obtain ⟨e1, e2, Q, e3, e4⟩ := C98_gauss_newton_is_newton { env with lin := exactSolver } cfg cfg' hcfg hroot (Sys.ofFun f Df) hlin exactSolver_regular hnn (by rintro x r J h; cases h; exact hreg x) { reg with x := lift S x0 } { own with x := lift S x0 } (hidle _) (hown _) rfl
    exact ⟨e1, e2, Q, Q, e3, e4, rfl⟩
  rw [newtonSolve_lin env exactSolver cfg] at h2
  obtain ⟨a1, a2, a3⟩ := h1
  obtain ⟨b1, b2, b3⟩ := h2
  exact ⟨b1.trans a1, b2.trans a2, b3.trans a3⟩
end

/-- two coupled cells at rest: `1 - 2 y_0 - y_0^3 + y_1 = 0`, `1 - 2 y_1 - y_1^3 + y_0 = 0` -/
noncomputable def restF (y : Fin 2 → ℝ) : Fin 2 → ℝ := ![1 - 2 * y 0 - y 0 ^ 3 + y 1, 1 - 2 * y 1 - y 1 ^ 3 + y 0]
noncomputable def restJ (y : Fin 2 → ℝ) : Matrix (Fin 2) (Fin 2) ℝ := !![-3 * y 0 ^ 2 - 2, 1; 1, -3 * y 1 ^ 2 - 2]
noncomputable def restFom : SteadyFom ℝ (Fin 2) (Fin 2) (Fin 1) where
  residual := fun y _ => .ok (restF y)
  residualAndJac := fun y B w J => .ok (restF y, if w then restJ y * B else J.2)
  jacAction := fun y v _ => .ok (restJ y *ᵥ v)
theorem restFom_is : SteadyIs restFom (fun y => .ok (restF y)) (fun y => .ok (restJ y)) where
  residual := fun _ _ => rfl
  residualOnly := fun _ _ _ => rfl
  residualAndJac := fun _ _ _ => rfl

theorem rest_regular (y : Fin 2 → ℝ) : IsUnit (restJ y).det := by
  rw [restJ, Matrix.det_fin_two]
  apply isUnit_iff_ne_zero.2
  simp
  nlinarith [mul_nonneg (sq_nonneg (y 0)) (sq_nonneg (y 1)), sq_nonneg (y 0), sq_nonneg (y 1)]

theorem rest_invariant (c : ℝ) (hc : c ≠ 0) : InvariantResidual (inStep c) restF restJ := by
  intro x
  constructor
  · refine ⟨![(1 - (c * x 0 + 2) - (c * x 0 + 2) ^ 3) / c], ?_⟩
    funext i
    fin_cases i <;> simp [restF, lift, inStep, Matrix.mulVec, dotProduct] <;> field_simp <;> ring
  · refine ⟨!![-3 * (c * x 0 + 2) ^ 2 - 1], ?_⟩
    ext i j
    fin_cases i <;> fin_cases j <;> simp [restJ, lift, inStep, Matrix.mulVec, dotProduct, Matrix.mul_apply, Fin.sum_univ_two] <;> ring

/-- the full-order problem itself, evaluated without buffers -/
noncomputable def restEval (y : Fin 2 → ℝ) (w : Bool) : Prog Unit (Ans ℝ (Fin 2) (Fin 2)) := fun s => .ok (restF y, if w then some (restJ y) else none) s
theorem restEval_serves : Serves restEval restF restJ := fun _ _ s => ⟨s, rfl⟩

example := C104_steady_galerkin (q := Fin 1) restFom_is restEval restEval_serves (inStep (Real.sqrt (1/2))) inStep_orthonormal (rest_invariant _ (by positivity)) (fun _ => rest_regular _) envInv env1 (by simp [envInv]) (by simp [env1]) envInv_solves inverts
  realNorms realNorms1 realNorms realNorms1 ⟨10, .WhenAbsolutel2NormOfCorrectionBelowTolerance, 1/100, .BacktrackStrictlyDecreasingObjective, none⟩ regInv (regOf (Fin 1) newtonDiagnostics) (fun _ => .created _ rfl) (fun _ => .created _ rfl) ![1] () gstCells

example := C104_steady_lspg restFom_is restEval restEval_serves (inStep 3) (inStep_injective 3 (by norm_num)) (rest_invariant 3 (by norm_num)) rest_regular (fun _ a => .ok a) (fun _ _ _ => rfl) envInv env21 (by simp [envInv]) (by intro A b s; simp [env21]) envInv_solves inverts rfl
  (fun _ => Real.sqrt_nonneg _) ⟨10, .WhenAbsolutel2NormOfCorrectionBelowTolerance, 1/100, .BacktrackStrictlyDecreasingObjective, none⟩ ⟨10, .WhenAbsolutel2NormOfCorrectionBelowTolerance, 1/100, .BacktrackStrictlyDecreasingObjective, none⟩
  ⟨rfl, rfl, rfl, .inr ⟨rfl, rfl, .inl ⟨rfl, rfl⟩⟩⟩ rfl (fun _ _ => rfl) regInv (regOf (Fin 2) leastSquaresDiagnostics) (fun _ => .created _ rfl) (fun _ => .created _ rfl) ![1] () (![9, 9], ![9, 9], !![9; 9])

end Pressio.Props
