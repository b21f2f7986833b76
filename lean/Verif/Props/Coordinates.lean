import Verif.Lemmas.Coordinates
import Verif.Props.SolverAlikeRuns

/-
  Reduced models do not depend on the coordinates of the trial space: C99, solves and LSPG.
-/
namespace Pressio.Props
set_option autoImplicit false
set_option linter.unusedSectionVars false
open Pressio Matrix
open Pressio.Model.Nonlinear (Env Cfg Reg StopCrit Update Tag Ans SP)
open Pressio.Spec.Nonlinear Pressio.Spec.SolverAlike Pressio.Spec.Coordinates
open Pressio.Lemmas.Nonlinear Pressio.Lemmas.SolverAlike Pressio.Lemmas.Coordinates

section
variable {K m n p m' p' L L' : Type} [Field K] [LinearOrder K] [IsStrictOrderedRing K] [Fintype m] [Fintype n] [Fintype p] [Fintype m'] [Fintype p'] [DecidableEq m] [DecidableEq n]

/-! ### Single solves -/

theorem sameSystem_cases {A : Matrix m' m K} {B : Matrix n n K} {a : n → K} {sys : Sys K m n} {sys' : Sys K m' n} (h : SameSystem A B a sys sys') (P : Matrix m n K → Prop) (hP : ∀ x r J, sys.resJac x = .ok (r, J) → P J) (x : n → K) :
    (∃ e, sys.resJac (chart B a x) = .error e ∧ sys'.resJac x = .error e) ∨
      ∃ r J r' J', sys.resJac (chart B a x) = .ok (r, J) ∧ sys'.resJac x = .ok (r', J') ∧ (r' = A *ᵥ r ∧ J' = A * J * B ∧ P J) := by
  rw [h.1 x]
  rcases hx : sys.resJac (chart B a x) with e | ⟨r, J⟩
  · exact .inl ⟨e, rfl, rfl⟩
  · exact .inr ⟨r, J, _, _, rfl, rfl, rfl, rfl, hP _ _ _ hx⟩

/-- what is measured by the criterion, together with the objective -/
def MeasuredAlike (stop : StopCrit) (a b : Norms K) : Prop :=
  a.obj = b.obj ∧ match stop with
  | .WhenAbsolutel2NormOfCorrectionBelowTolerance | .WhenRelativel2NormOfCorrectionBelowTolerance => a.corr = b.corr
  | .WhenAbsolutel2NormOfResidualBelowTolerance | .WhenRelativel2NormOfResidualBelowTolerance => a.resid = b.resid
  | .WhenAbsolutel2NormOfGradientBelowTolerance | .WhenRelativel2NormOfGradientBelowTolerance => a.grad = b.grad
  | _ => True

theorem measured_below {stop : StopCrit} {tol : K} {a b c d : Norms K} (h : MeasuredAlike stop a b) (h' : MeasuredAlike stop c d) : below stop tol a c = below stop tol b d := by
  cases stop <;> simp only [MeasuredAlike] at h h' <;> simp [below, h, h']

/-- C99 (Gauss-Newton).  Let `sys'` be `sys` in coordinates `x = B x' + a`, with residuals combined by a matrix `A` with `Aᵀ A = 1` and residual norms unaffected by it.  If the Jacobians have full column rank, Gauss-Newton solvers on the two systems with the
    same options, started at the same point, have the same outcome, the same result and evaluate at the same points in the same order; for all criteria whose measure is the same in both (always for those on the residual and on the objective). -/
theorem C99_gauss_newton (env : Env K m n p L) (env' : Env K m' n p' L') (cfg : Cfg K) (A : Matrix m' m K) (B : Matrix n n K) (a : n → K) (hA : Aᵀ * A = 1) (hB : IsUnit B.det) (sys : Sys K m n) (sys' : Sys K m' n) (hsys : SameSystem A B a sys sys')
    (hM : ∀ r, env'.normM (A *ᵥ r) = env.normM r) (hcrit : SameMeasure A B env.normM env'.normM env.normN env'.normN cfg.stop) (hlin : SolvesRegular env.lin) (hlin' : SolvesRegular env'.lin)
    (hreg : ∀ x r J, sys.resJac x = .ok (r, J) → IsUnit (Jᵀ * J).det) (s : Reg K m n p L) (s' : Reg K m' n p' L') (hs : LsObj s) (hs' : LsObj s') (hx : s.x = chart B a s'.x) :
    SamePoints (chart B a) s s' (runLs env cfg sys .gn s) (runLs env' cfg sys' .gn s') := by
  have hg : ∀ r (J : Matrix m n K), (A * J * B)ᵀ *ᵥ (A *ᵥ r) = Bᵀ *ᵥ (Jᵀ *ᵥ r) := fun r J => by
    rw [Matrix.mulVec_mulVec, Matrix.mulVec_mulVec, Matrix.transpose_mul, Matrix.transpose_mul, Matrix.mul_assoc, Matrix.mul_assoc, hA, Matrix.mul_one]
  have hH : ∀ J : Matrix m n K, (A * J * B)ᵀ * (A * J * B) = Bᵀ * (Jᵀ * J) * B := fun J => by
    rw [Matrix.transpose_mul, Matrix.transpose_mul]
    calc Bᵀ * (Jᵀ * Aᵀ) * (A * J * B) = Bᵀ * (Jᵀ * (Aᵀ * A) * J) * B := by simp only [Matrix.mul_assoc]
      _ = _ := by rw [hA, Matrix.mul_one]
  obtain ⟨h1, h2, h3⟩ := ls_moved env env' cfg .gn (by decide) sys sys' B a (fun r J r' J' => r' = A *ᵥ r ∧ J' = A * J * B ∧ IsUnit (Jᵀ * J).det) (MeasuredAlike cfg.stop) (sameSystem_cases hsys _ hreg)
    (by
      rintro rule x r J r' J' d d' c b l c' b' l' ⟨rfl, rfl, hu⟩
      obtain ⟨y, l1, e1, e2⟩ := hlin (Jᵀ * J) (Jᵀ *ᵥ r) c l hu
      have hu' : IsUnit (Bᵀ * (Jᵀ * J) * B).det := by
        rw [Matrix.det_mul, Matrix.det_mul, Matrix.det_transpose]; exact (hB.mul hu).mul hB
      obtain ⟨y', l1', f1, f2⟩ := hlin' (Bᵀ * (Jᵀ * J) * B) (Bᵀ *ᵥ (Jᵀ *ᵥ r)) c' l' hu'
      have hBt : IsUnit (Bᵀ).det := by rw [Matrix.det_transpose]; exact hB
      have hy : B *ᵥ y' = y := by
        apply regular_unique hu
        apply regular_unique hBt
        rw [e2, ← f2]
        simp only [Matrix.mulVec_mulVec, Matrix.mul_assoc]
      refine ⟨-y', b, l1, b', l1', ?_, ?_⟩
      · simp only [lsProblem, hessOf, gradOf, negated, e1, Matrix.mulVec_neg, hy]
      · simp only [lsProblem, hessOf, gradOf, negated, hg, hH, f1])
    (by
      rintro r J r' J' c ⟨rfl, rfl, -⟩
      refine ⟨by simp only [objOf, hM], ?_⟩
      generalize hst : cfg.stop = stp at hcrit ⊢
      cases stp <;> simp only [SameMeasure] at hcrit <;> simp only [gradOf, hg, hcrit])
    (fun _ _ h => h.1) (fun _ _ _ _ => measured_below)
    (by
      intro x
      simp only [objAt, hsys.2 x]
      rcases sys.res (chart B a x) with e | r
      · rfl
      · simp only [Except.map, objOf, hM])
    (absR s) (absR s') hx
  exact points_of (ls_run env cfg sys .gn hs) (ls_run env' cfg sys' .gn hs') h1 h2 h3

/-- C99 (weights).  The same with a weighting operator on residuals, `W r` and `W J` with a matrix `W`: the weighted Gauss-Newton solver does not depend on the coordinates either. -/
theorem C99_weighted (env : Env K m n p L) (env' : Env K m n p' L') (cfg : Cfg K) (W : Matrix m m K) (B : Matrix n n K) (a : n → K) (hB : IsUnit B.det) (sys sys' : Sys K m n) (hsys : SameSystem 1 B a sys sys')
    (hR : ∀ r, env.wR r = W *ᵥ r) (hJ : ∀ J, env.wJ J = W * J) (hR' : ∀ r, env'.wR r = W *ᵥ r) (hJ' : ∀ J, env'.wJ J = W * J) (hcrit : SameMeasure (1 : Matrix m m K) B env.normM env'.normM env.normN env'.normN cfg.stop)
    (hlin : SolvesRegular env.lin) (hlin' : SolvesRegular env'.lin) (hreg : ∀ x r J, sys.resJac x = .ok (r, J) → IsUnit (Jᵀ * (W * J)).det) (s : Reg K m n p L) (s' : Reg K m n p' L') (hs : LsObj s) (hs' : LsObj s') (hx : s.x = chart B a s'.x) :
    SamePoints (chart B a) s s' (runLs env cfg sys .wgn s) (runLs env' cfg sys' .wgn s') := by
  have hg : ∀ r (J : Matrix m n K), (J * B)ᵀ *ᵥ (W *ᵥ r) = Bᵀ *ᵥ (Jᵀ *ᵥ (W *ᵥ r)) := fun r J => by
    rw [Matrix.transpose_mul, Matrix.mulVec_mulVec (W *ᵥ r)]
  have hH : ∀ J : Matrix m n K, (J * B)ᵀ * (W * (J * B)) = Bᵀ * (Jᵀ * (W * J)) * B := fun J => by
    simp only [Matrix.transpose_mul, Matrix.mul_assoc]
  obtain ⟨h1, h2, h3⟩ := ls_moved env env' cfg .wgn (by decide) sys sys' B a (fun r J r' J' => r' = r ∧ J' = J * B ∧ IsUnit (Jᵀ * (W * J)).det) (MeasuredAlike cfg.stop)
    (fun x => by simpa only [Matrix.one_mulVec, Matrix.one_mul] using sameSystem_cases hsys (fun J => IsUnit (Jᵀ * (W * J)).det) hreg x)
    (by
      rintro rule x r J r' J' d d' c b l c' b' l' ⟨rfl, rfl, hu⟩
      obtain ⟨y, l1, e1, e2⟩ := hlin (Jᵀ * (W * J)) (Jᵀ *ᵥ (W *ᵥ r')) c l hu
      have hu' : IsUnit (Bᵀ * (Jᵀ * (W * J)) * B).det := by
        rw [Matrix.det_mul, Matrix.det_mul, Matrix.det_transpose]; exact (hB.mul hu).mul hB
      obtain ⟨y', l1', f1, f2⟩ := hlin' (Bᵀ * (Jᵀ * (W * J)) * B) (Bᵀ *ᵥ (Jᵀ *ᵥ (W *ᵥ r'))) c' l' hu'
      have hBt : IsUnit (Bᵀ).det := by rw [Matrix.det_transpose]; exact hB
      have hy : B *ᵥ y' = y := by
        apply regular_unique hu
        apply regular_unique hBt
        rw [e2, ← f2]
        simp only [Matrix.mulVec_mulVec, Matrix.mul_assoc]
      refine ⟨-y', b, l1, b', l1', ?_, ?_⟩
      · simp only [lsProblem, hessOf, gradOf, negated, hR, hJ, e1, Matrix.mulVec_neg, hy]
      · simp only [lsProblem, hessOf, gradOf, negated, hR', hJ', hg, hH, f1])
    (by
      rintro r J r' J' c ⟨rfl, rfl, -⟩
      refine ⟨by simp only [objOf, hR, hR'], ?_⟩
      generalize hst : cfg.stop = stp at hcrit ⊢
      cases stp <;> simp only [SameMeasure, Matrix.one_mulVec] at hcrit <;> simp only [gradOf, hR, hR', hg, hcrit])
    (fun _ _ h => h.1) (fun _ _ _ _ => measured_below)
    (by
      intro x
      simp only [objAt, hsys.2 x]
      rcases sys.res (chart B a x) with e | r
      · rfl
      · simp only [Except.map, objOf, hR, hR', Matrix.one_mulVec])
    (absR s) (absR s') hx
  exact points_of (ls_run env cfg sys .wgn hs) (ls_run env' cfg sys' .wgn hs') h1 h2 h3

/-- the matrices of Levenberg-Marquardt with positive damping are regular where the Jacobian has full column rank -/
theorem damped_regular (J : Matrix m n K) (h : IsUnit (Jᵀ * J).det) (d : K) (hd : 0 < d) : IsUnit (Jᵀ * J + d • Matrix.diagonal (Jᵀ * J).diag).det := by
  rw [← Matrix.isUnit_iff_isUnit_det, ← Matrix.mulVec_injective_iff_isUnit]
  have hpos : ∀ i, 0 ≤ (Jᵀ * J) i i := fun i => by
    simp only [Matrix.mul_apply, Matrix.transpose_apply]
    exact Finset.sum_nonneg fun k _ => mul_self_nonneg _
  refine (injective_iff_map_eq_zero (Matrix.mulVecLin _)).2 fun x hx => ?_
  have e : x ⬝ᵥ ((Jᵀ * J) *ᵥ x) + d * (x ⬝ᵥ (Matrix.diagonal (Jᵀ * J).diag *ᵥ x)) = 0 := by
    have := congrArg (fun v => x ⬝ᵥ v) hx
    simpa only [Matrix.mulVecLin_apply, Matrix.add_mulVec, Matrix.smul_mulVec, dotProduct_add, dotProduct_smul, smul_eq_mul, dotProduct_zero] using this
  have e1 : x ⬝ᵥ ((Jᵀ * J) *ᵥ x) = (J *ᵥ x) ⬝ᵥ (J *ᵥ x) := by
    rw [← Matrix.mulVec_mulVec, Matrix.dotProduct_mulVec, Matrix.vecMul_transpose]
  have e2 : 0 ≤ x ⬝ᵥ (Matrix.diagonal (Jᵀ * J).diag *ᵥ x) := by
    simp only [dotProduct, Matrix.mulVec_diagonal, Matrix.diag_apply]
    exact Finset.sum_nonneg fun i _ => by nlinarith [hpos i, mul_self_nonneg (x i), mul_nonneg (hpos i) (mul_self_nonneg (x i))]
  have e3 : (J *ᵥ x) ⬝ᵥ (J *ᵥ x) = 0 := le_antisymm (by rw [← e1]; nlinarith [mul_nonneg hd.le e2]) (Finset.sum_nonneg fun i _ => mul_self_nonneg _)
  have e4 : J *ᵥ x = 0 := dotProduct_self_eq_zero.1 e3
  have e5 : (Jᵀ * J) *ᵥ x = (Jᵀ * J) *ᵥ 0 := by rw [← Matrix.mulVec_mulVec, e4, Matrix.mulVec_zero, Matrix.mulVec_zero]
  exact regular_unique h e5

/-- C99 (Levenberg-Marquardt).  For changes of the scale of each coordinate, `x_i = b_i x'_i + a_i` with `b_i ≠ 0`: the solvers of Levenberg-Marquardt type, with all their update options, have the same outcome, the same result and evaluate at the same points.  (The damping is relative to the
    diagonal of the Hessian; for other changes of coordinates it is not so, see `C99_levenberg_marquardt_refuted`.) -/
theorem C99_levenberg_marquardt (env : Env K m n p L) (env' : Env K m' n p' L') (cfg : Cfg K) (A : Matrix m' m K) (b : n → K) (a : n → K) (hA : Aᵀ * A = 1) (hb : ∀ i, b i ≠ 0) (sys : Sys K m n) (sys' : Sys K m' n) (hsys : SameSystem A (Matrix.diagonal b) a sys sys')
    (hM : ∀ r, env'.normM (A *ᵥ r) = env.normM r) (hcrit : SameMeasure A (Matrix.diagonal b) env.normM env'.normM env.normN env'.normN cfg.stop) (hlin : SolvesRegular env.lin) (hlin' : SolvesRegular env'.lin)
    (hreg : ∀ x r J, sys.resJac x = .ok (r, J) → IsUnit (Jᵀ * J).det) (s : Reg K m n p L) (s' : Reg K m' n p' L') (hs : LsObj s) (hs' : LsObj s') (hx : s.x = chart (Matrix.diagonal b) a s'.x) :
    SamePoints (chart (Matrix.diagonal b) a) s s' (runLs env cfg sys .lm s) (runLs env' cfg sys' .lm s') := by
  have hB : IsUnit (Matrix.diagonal b).det := by
    rw [Matrix.det_diagonal]; exact isUnit_iff_ne_zero.2 (Finset.prod_ne_zero_iff.2 fun i _ => hb i)
  have hg : ∀ r (J : Matrix m n K), (A * J * Matrix.diagonal b)ᵀ *ᵥ (A *ᵥ r) = (Matrix.diagonal b) *ᵥ (Jᵀ *ᵥ r) := fun r J => by
    rw [Matrix.mulVec_mulVec, Matrix.mulVec_mulVec, Matrix.transpose_mul, Matrix.transpose_mul, Matrix.mul_assoc, Matrix.mul_assoc, hA, Matrix.mul_one, Matrix.diagonal_transpose]
  have hH : ∀ J : Matrix m n K, (A * J * Matrix.diagonal b)ᵀ * (A * J * Matrix.diagonal b) = Matrix.diagonal b * (Jᵀ * J) * Matrix.diagonal b := fun J => by
    rw [Matrix.transpose_mul, Matrix.transpose_mul, Matrix.diagonal_transpose]
    calc Matrix.diagonal b * (Jᵀ * Aᵀ) * (A * J * Matrix.diagonal b) = Matrix.diagonal b * (Jᵀ * (Aᵀ * A) * J) * Matrix.diagonal b := by simp only [Matrix.mul_assoc]
      _ = _ := by rw [hA, Matrix.mul_one]
  have hD : ∀ (J : Matrix m n K) (d : K), Matrix.diagonal b * (Jᵀ * J) * Matrix.diagonal b + d • Matrix.diagonal (Matrix.diagonal b * (Jᵀ * J) * Matrix.diagonal b).diag =
      Matrix.diagonal b * (Jᵀ * J + d • Matrix.diagonal (Jᵀ * J).diag) * Matrix.diagonal b := fun J d => by
    rw [Matrix.mul_add, Matrix.add_mul]
    congr 1
    ext i j
    simp only [Matrix.smul_apply, Matrix.mul_diagonal, Matrix.diagonal_mul, Matrix.diagonal_apply, Matrix.diag_apply, smul_eq_mul]
    by_cases h : i = j
    · subst h; simp only [if_true]; ring
    · simp only [h, if_false]; ring
  obtain ⟨h1, h2, h3⟩ := lm_moved env env' cfg sys sys' (Matrix.diagonal b) a (fun r J r' J' => r' = A *ᵥ r ∧ J' = A * J * Matrix.diagonal b ∧ IsUnit (Jᵀ * J).det) (MeasuredAlike cfg.stop) (sameSystem_cases hsys _ hreg)
    (by
      rintro rule x r J r' J' d c bb l c' b' l' ⟨rfl, rfl, hu⟩ hd
      have hu := damped_regular J hu d hd
      obtain ⟨y, l1, e1, e2⟩ := hlin (Jᵀ * J + d • Matrix.diagonal (Jᵀ * J).diag) (Jᵀ *ᵥ r) c l hu
      have hu' : IsUnit (Matrix.diagonal b * (Jᵀ * J + d • Matrix.diagonal (Jᵀ * J).diag) * Matrix.diagonal b).det := by
        rw [Matrix.det_mul, Matrix.det_mul]; exact (hB.mul hu).mul hB
      obtain ⟨y', l1', f1, f2⟩ := hlin' _ (Matrix.diagonal b *ᵥ (Jᵀ *ᵥ r)) c' l' hu'
      have hy : Matrix.diagonal b *ᵥ y' = y := by
        apply regular_unique hu
        apply regular_unique hB
        rw [e2, ← f2]
        simp only [Matrix.mulVec_mulVec, Matrix.mul_assoc]
      refine ⟨-y', bb, l1, b', l1', ?_, ?_⟩
      · simp only [lsProblem, hessOf, gradOf, negated, e1, Matrix.mulVec_neg, hy]
      · simp only [lsProblem, hessOf, gradOf, negated, hg, hH, hD, f1])
    (by
      rintro r J r' J' c ⟨rfl, rfl, -⟩
      refine ⟨by simp only [objOf, hM], ?_⟩
      generalize hst : cfg.stop = stp at hcrit ⊢
      cases stp <;> simp only [SameMeasure, Matrix.diagonal_transpose] at hcrit <;> simp only [gradOf, hg, hcrit])
    (by
      rintro r J r' J' c f1 f0 d ⟨rfl, rfl, -⟩
      simp only [gain, gradOf, hg, hH]
      have q1 : ((Matrix.diagonal b *ᵥ c) ⬝ᵥ fun i => (Matrix.diagonal b *ᵥ c) i * (Jᵀ * J) i i) = c ⬝ᵥ fun i => c i * (Matrix.diagonal b * (Jᵀ * J) * Matrix.diagonal b) i i := by
        simp only [dotProduct, Matrix.mulVec_diagonal, Matrix.mul_diagonal, Matrix.diagonal_mul]
        exact Finset.sum_congr rfl fun i _ => by ring
      have q2 : (Matrix.diagonal b *ᵥ c) ⬝ᵥ (Jᵀ *ᵥ r) = c ⬝ᵥ (Matrix.diagonal b *ᵥ (Jᵀ *ᵥ r)) := by
        simp only [dotProduct, Matrix.mulVec_diagonal]
        exact Finset.sum_congr rfl fun i _ => by ring
      rw [q1, q2])
    (fun _ _ h => h.1) (fun _ _ _ _ => measured_below)
    (by
      intro x
      simp only [objAt, hsys.2 x]
      rcases sys.res (chart (Matrix.diagonal b) a x) with e | r
      · rfl
      · simp only [Except.map, objOf, hM])
    (absR s) (absR s') hx
  exact points_of (ls_run env cfg sys .lm hs) (ls_run env' cfg sys' .lm hs') h1 h2 h3

/-- C99 (Newton).  Let `sys'` be the square system `sys` in coordinates `x = B x' + a`, with equations combined by an invertible matrix `A`.  If the Jacobians are regular, Newton solvers on the two systems with the same options, started at the same point,
    have the same outcome, the same result and evaluate at the same points, for a criterion whose measure is the same in both; with backtracking, norms of residuals must be unaffected by `A`. -/
theorem C99_newton (env : Env K n n p L) (env' : Env K n n p' L') (cfg : Cfg K) (A B : Matrix n n K) (a : n → K) (hA : IsUnit A.det) (hB : IsUnit B.det) (sys sys' : Sys K n n) (hsys : SameSystem A B a sys sys')
    (hM : cfg.update = .Standard ∨ ∀ r, env'.normM (A *ᵥ r) = env.normM r) (hcrit : SameMeasure A B env.normM env'.normM env.normN env'.normN cfg.stop) (hlin : SolvesRegular env.linJ) (hlin' : SolvesRegular env'.linJ)
    (hreg : ∀ x r J, sys.resJac x = .ok (r, J) → IsUnit J.det) (s : Reg K n n p L) (s' : Reg K n n p' L') (hs : NewtonObj s) (hs' : NewtonObj s') (hx : s.x = chart B a s'.x) :
    SamePoints (chart B a) s s' (runNewton env cfg sys s) (runNewton env' cfg sys' s') := by
  suffices h : (newtonSolve env cfg sys (absR s)).how = (newtonSolve env' cfg sys' (absR s')).how ∧ (newtonSolve env cfg sys (absR s)).st.x = chart B a (newtonSolve env' cfg sys' (absR s')).st.x ∧
      points (newtonSolve env cfg sys (absR s)).log = (points (newtonSolve env' cfg sys' (absR s')).log).map (fun q => (chart B a q.1, q.2)) from
    points_of (newton_run env cfg sys hs) (newton_run env' cfg sys' hs') h.1 h.2.1 h.2.2
  have hrule : ∀ rule, newtonRule cfg = .ok rule → rule = .standard ∨ ∃ z, rule = .backtrack z ∧ ∀ r, env'.normM (A *ᵥ r) = env.normM r := by
    intro rule h
    unfold newtonRule at h
    rcases hM with hM | hM
    · rw [hM] at h; cases h; exact .inl rfl
    · cases rule with
      | standard => exact .inl rfl
      | backtrack z => exact .inr ⟨z, rfl, hM⟩
  unfold newtonSolve
  rcases hr : newtonRule cfg with e | rule
  · exact ⟨rfl, hx, rfl⟩
  simp only
  refine iterate_moved (chart B a) (fun _ _ _ _ => True) (fun c c' => c = B *ᵥ c') sys sys' _ _ (fun r J r' J' => r' = A *ᵥ r ∧ J' = A * J * B ∧ IsUnit J.det) (MeasuredAlike cfg.stop) rfl rfl (sameSystem_cases hsys _ hreg) ?_ ?_ ?_ _ _ _ _ _ _ .none hx trivial
  · rintro x r J r' J' d _ d' _ c b l c' b' l' ⟨rfl, rfl, hu⟩ -
    obtain ⟨y, l1, e1, e2⟩ := hlin J r c l hu
    have hu' : IsUnit (A * J * B).det := by rw [Matrix.det_mul, Matrix.det_mul]; exact (hA.mul hu).mul hB
    obtain ⟨y', l1', f1, f2⟩ := hlin' (A * J * B) (A *ᵥ r) c' l' hu'
    have hy : B *ᵥ y' = y := by
      apply regular_unique hu
      apply regular_unique hA
      rw [e2, ← f2, ← Matrix.mulVec_mulVec, ← Matrix.mulVec_mulVec]
    refine ⟨-y, b, l1, -y', b', l1', ?_, ?_, ?_, rfl, ?_⟩
    · simp only [newtonProblem, Bool.false_eq_true, if_false, negated, e1]
    · simp only [newtonProblem, Bool.false_eq_true, if_false, negated, f1]
    · simp only [Matrix.mulVec_neg, hy]
    · have hc : B *ᵥ (-y') = -y := by rw [Matrix.mulVec_neg, hy]
      generalize hst : cfg.stop = stp at hcrit ⊢
      cases stp <;> simp only [SameMeasure] at hcrit <;> simp only [newtonProblem, hcrit, hc]
  · intro i ref ref' now now' h1 h2
    simp only [newtonProblem, measured_below h1 h2]
  · rintro s s' r J r' J' now now' ⟨rfl, rfl, hu⟩ hN hx hc - hn hn'
    rcases hrule rule hr with rfl | ⟨z, rfl, hM⟩
    · simp only [newtonProblem, hx, hc]
      refine ⟨rfl, ?_, trivial⟩
      simp only [SameMove, chart, Matrix.mulVec_add]; abel
    · simp only [newtonProblem, hx, hc]
      have hres : now.resid = now'.resid := by rw [hn, hn']; simp only [newtonProblem, hM]
      rw [hres]
      refine Lemmas.Coordinates.search_moved _ B a _ _ _ _ _ _ _ _ _ ?_ trivial _
      intro y
      simp only [hsys.2 y]
      rcases sys.res (chart B a y) with e | r
      · rfl
      · simp only [Except.map, hM]

end

/-! ### LSPG -/
section
open Pressio.Model.Implicit Pressio.Spec.Implicit Pressio.Lemmas.Implicit Pressio.Spec.SolverRun Pressio.Lemmas.SolverTree Pressio.Lemmas.SolverRun
open Pressio.Model.Explicit (Scheme)
open Pressio.Model.Galerkin Pressio.Model.Lspg Pressio.Spec.Galerkin Pressio.Spec.Lspg Pressio.Lemmas.Lspg
variable {K m n P P' L L' U : Type} [Field K] [LinearOrder K] [IsStrictOrderedRing K] [Fintype m] [DecidableEq m] [Fintype n] [DecidableEq n] [Fintype P] [Fintype P']

theorem sameSpace_basis {S S' : Trial K m n} {B : Matrix n n K} {a : n → K} (h : SameSpace S S' B a) : S'.basis = S.basis * B := by
  have h0 := h.2 0
  have key : ∀ x, S'.basis *ᵥ x = (S.basis * B) *ᵥ x := fun x => by
    have hx := h.2 x
    simp only [lift, chart, Matrix.mulVec_add, Matrix.mulVec_zero, zero_add] at h0 hx
    rw [← Matrix.mulVec_mulVec]
    have := congrArg₂ (· - ·) hx h0
    calc S'.basis *ᵥ x = (S'.basis *ᵥ x + if S'.isAffine then S'.translation else 0) - (if S'.isAffine then S'.translation else 0) := by abel
      _ = _ := this
      _ = _ := by abel
  exact Matrix.ext_of_mulVec_single fun i => key _

theorem lspg_moved {S S' : Trial K m n} {B : Matrix n n K} {a : n → K} (h : SameSpace S S' B a) (name : Scheme) (f : (m → K) → K → Except Exc (m → K)) (Df : (m → K) → K → Except Exc (Matrix m m K)) (hist : List (n → K)) (t dt : K) :
    SameSystem 1 B a (sysOf (lspg name S f Df (hist.map (chart B a)) t dt)) (sysOf (lspg name S' f Df hist t dt)) := by
  have hb := sameSpace_basis h
  have hl : (hist.map (chart B a)).map (lift S) = hist.map (lift S') := by
    rw [List.map_map]; exact List.map_congr_left fun x _ => (h.2 x).symm
  have hc : coef name (hist.map (chart B a)) dt = coef name hist dt := by
    cases name <;> rcases hist with _ | ⟨_, _ | ⟨_, _⟩⟩ <;> rfl
  constructor
  · intro x
    simp only [sysOf, lspg, hl, hc, h.2 x]
    rcases f (lift S (chart B a x)) (t + dt) with e | v
    · rfl
    rcases Df (lift S (chart B a x)) (t + dt) with e | D
    · rfl
    simp only [bind, Except.bind, pure, Except.pure, Except.map, if_true, Matrix.one_mulVec, Matrix.one_mul, hb]
    rw [Matrix.sub_mul, Matrix.smul_mul, Matrix.mul_assoc]
  · intro x
    simp only [sysOf, lspg, hl, hc, h.2 x]
    rcases f (lift S (chart B a x)) (t + dt) with e | v
    · rfl
    simp only [bind, Except.bind, pure, Except.pure, Except.map, Matrix.one_mulVec, Bool.false_eq_true, if_false]

/-- what is shown of a run through the reconstruction -/
theorem shown_lift {A A' : Type} {S S' : Trial K m n} {B : Matrix n n K} {a : n → K} (h : SameSpace S S' B a) {l : List (Record K (n → K) A)} {l' : List (Record K (n → K) A')} (hl : l.map (shown id) = l'.map (shown (chart B a))) :
    l.map (shown (lift S)) = l'.map (shown (lift S')) := by
  have h1 : ∀ r : Record K (n → K) A, shown (lift S) r = (fun v : K × K × Option Stop × List (n → K) × (n → K) × List ((n → K) × Bool) => (v.1, v.2.1, v.2.2.1, v.2.2.2.1.map (lift S), lift S v.2.2.2.2.1, v.2.2.2.2.2.map (fun q => (lift S q.1, q.2)))) (shown id r) := fun r => by
    simp [shown, Function.comp_def]
  have h2 : ∀ r : Record K (n → K) A', shown (lift S') r = (fun v : K × K × Option Stop × List (n → K) × (n → K) × List ((n → K) × Bool) => (v.1, v.2.1, v.2.2.1, v.2.2.2.1.map (lift S), lift S v.2.2.2.2.1, v.2.2.2.2.2.map (fun q => (lift S q.1, q.2)))) (shown (chart B a) r) := fun r => by
    simp [shown, Function.comp_def, h.2]
  have e := congrArg (List.map (fun v : K × K × Option Stop × List (n → K) × (n → K) × List ((n → K) × Bool) => (v.1, v.2.1, v.2.2.1, v.2.2.2.1.map (lift S), lift S v.2.2.2.2.1, v.2.2.2.2.2.map (fun q => (lift S q.1, q.2))))) hl
  rw [List.map_map, List.map_map] at e
  rw [List.map_congr_left (fun r _ => h1 r), List.map_congr_left (fun r _ => h2 r)]
  exact e

theorem policyObj_moved {Pm Pm' : Type} (D : K → Prop) (φ : (n → K) → n → K) (name : Scheme) (hname : name = .BDF1 ∨ name = .BDF2) (policy : Policy K (n → K) (n → K) Pm (Ans K m n)) (policy' : Policy K (n → K) (n → K) Pm' (Ans K m n))
    (F F' : List (n → K) → K → K → (n → K) → Bool → Except Exc (Ans K m n)) (PI PD : List (n → K) → List (n → K) → Pm → Prop) (PI' PD' : List (n → K) → List (n → K) → Pm' → Prop)
    (h : PolicyRefinesA name policy F (StOf name) PI PD) (h' : PolicyRefinesA name policy' F' (StOf name) PI' PD') (hF : ∀ hist t dt x w, F hist t dt x w ≠ .error .timeStepFailure)
    (solve : SP K m n P L Unit) (solve' : SP K m n P' L' Unit) (hs : Fine solve) (hs' : Fine solve') (hb : Busy solve) (hb' : Busy solve') (R : Reg K m n P L → Reg K m n P' L' → Prop)
    (hR : ∀ reg reg' y prev t dt, D dt → R reg reg' → let r := SM.run (F ((y :: prev).map φ) t dt) solve { reg with x := φ y }; let r' := SM.run (F' (y :: prev) t dt) solve' { reg' with x := y }
      SamePoints φ { reg with x := φ y } { reg' with x := y } r r' ∧ R r.state r'.state)
    (dts : List K) (hD : ∀ d ∈ dts, D d) (t0 : K) (x0 : n → K) (mem : SMem K (n → K) (n → K) Pm) (mem' : SMem K (n → K) (n → K) Pm') (hmem : Sized name mem) (hmem' : Sized name mem') (hp : PI [φ x0] mem.rhs mem.pol) (hp' : PI' [x0] mem'.rhs mem'.pol)
    (reg : Reg K m n P L) (reg' : Reg K m n P' L') (hreg : R reg reg') :
    (driveObj (stepWith name policy) solve dts t0 [φ x0] (φ x0) mem reg).map (shown id) = (driveObj (stepWith name policy') solve' dts t0 [x0] x0 mem' reg').map (shown φ) := by
  rcases hname with rfl | rfl
  · exact driveObj_moved D φ Asks Asks _ _ F F' _ _ (refinesOn_asks (refines_bdf1_asked policy F PI PD h)) (refinesOn_asks (refines_bdf1_asked policy' F' PI' PD' h')) hF solve solve' hs hs' (asks_solverOf solve hb) (asks_solverOf solve' hb') R hR dts hD t0 x0 [] mem mem' reg reg'
      ⟨hmem, hp⟩ ⟨hmem', hp'⟩ hreg
  · obtain ⟨a, b, hab⟩ := List.length_eq_two.1 hmem
    obtain ⟨a', b', hab'⟩ := List.length_eq_two.1 hmem'
    exact driveObj_moved D φ Asks Asks _ _ F F' _ _ (refinesOn_asks (refines_bdf2_asked policy F PI PD h)) (refinesOn_asks (refines_bdf2_asked policy' F' PI' PD' h')) hF solve solve' hs hs' (asks_solverOf solve hb) (asks_solverOf solve' hb') R hR dts hD t0 x0 [] mem mem' reg reg'
      ⟨⟨a, b, hab, by simp⟩, hp⟩ ⟨⟨a', b', hab', by simp⟩, hp'⟩ hreg

/-- **C99, LSPG.** Two LSPG problems for the same FOM, whose trial spaces contain the same states (another basis of the same space, another reference state in it), each with its own Gauss-Newton object, with the same options (at least one iteration),
    from the same initial FOM state: the two runs go through the same FOM states, accept and fail in the same steps in the same way, and evaluate the FOM at the same states; for every list of step sizes with which the LSPG Jacobians have full column rank, and
    every criterion whose measure is the same in both coordinates; whatever the objects did before. -/
theorem C99_lspg_runs {F : Fom K m m n} {f : (m → K) → K → Except Exc (m → K)} {Df Mm : (m → K) → K → Except Exc (Matrix m m K)} (hF : FomIs F f Df Mm) (hn : FomNoTSF f Df)
    (S S' : Trial K m n) (B : Matrix n n K) (a : n → K) (hS : SameSpace S S' B a) (name : Scheme) (hname : name = .BDF1 ∨ name = .BDF2) (mem mem' : SMem K (n → K) (n → K) (LMem K m m n)) (hmem : LspgReady name mem) (hmem' : LspgReady name mem')
    (env : Env K m n P L) (env' : Env K m n P' L') (he : InnerHonest env .gn) (he' : InnerHonest env' .gn) (hlin : SolvesRegular env.lin) (hlin' : SolvesRegular env'.lin) (hM : env'.normM = env.normM)
    (cfg : Cfg K) (h1 : 1 ≤ cfg.maxIters) (hcrit : SameMeasure (1 : Matrix m m K) B env.normM env'.normM env.normN env'.normN cfg.stop) (reg : Reg K m n P L) (reg' : Reg K m n P' L') (hreg : LsIdle reg) (hreg' : LsIdle reg')
    (dts : List K) (hdt : ∀ dt ∈ dts, LspgRegular name S Df dt) (t0 : K) (x0 x0' : n → K) (hx0 : lift S x0 = lift S' x0') (hinj : Function.Injective S.basis.mulVec) :
    (driveObj (stepWith name (defaultPolicy S F)) (Model.Nonlinear.lsSolve env cfg .gn) dts t0 [x0] x0 mem reg).map (shown (lift S)) =
      (driveObj (stepWith name (defaultPolicy S' F)) (Model.Nonlinear.lsSolve env' cfg .gn) dts t0 [x0'] x0' mem' reg').map (shown (lift S')) := by
  obtain rfl : x0 = chart B a x0' := hinj (add_right_cancel (hx0.trans (hS.2 x0')))
  apply shown_lift hS
  refine policyObj_moved (LspgRegular name S Df) (chart B a) name hname _ _ _ _ _ _ _ _
    ((lspgPolicy_refines name hname S _ _ (assembleDefault_ok hF S) (mem.pol.data.getD 1 0)).congrF (fun y prev t dt x w => equations_lspg name hname S f Df y prev t dt x w))
    ((lspgPolicy_refines name hname S' _ _ (assembleDefault_ok hF S') (mem'.pol.data.getD 1 0)).congrF (fun y prev t dt x w => equations_lspg name hname S' f Df y prev t dt x w))
    (lspg_ne hn name S) _ _ (fine_lsSolve env cfg _ he) (fine_lsSolve env' cfg _ he') (busy_lsSolve env cfg _ h1) (busy_lsSolve env' cfg _ h1) (fun a b => LsIdle a ∧ LsIdle b) ?_ dts hdt t0 x0' mem mem' hmem.1 hmem'.1
    (good_start _ S _ mem.pol hmem.2.1 (by rcases hname with rfl | rfl <;> simp [numStates]) hmem.2.2) (good_start _ S' _ mem'.pol hmem'.2.1 (by rcases hname with rfl | rfl <;> simp [numStates]) hmem'.2.2) reg reg' ⟨hreg, hreg'⟩
  intro rg rg' y prev t dt hd hr r r'
  have hwt := lspg_wellTyped name S f Df ((y :: prev).map (chart B a)) t dt
  have hwt' := lspg_wellTyped name S' f Df (y :: prev) t dt
  have hsame := C99_gauss_newton env env' cfg 1 B a (by simp) hS.1 _ _ (lspg_moved hS name f Df (y :: prev) t dt) (fun r => by rw [Matrix.one_mulVec, hM]) hcrit hlin hlin' (lspg_regular name hname S f Df dt hd _ t)
    { rg with x := chart B a y } { rg' with x := y } (hr.1 _) (hr.2 y) rfl
  unfold runLs at hsame
  rw [toF_sysOf _ hwt, toF_sysOf _ hwt'] at hsame
  exact ⟨hsame, lsIdle_run env cfg _ _ hwt rg _ hr.1, lsIdle_run env' cfg _ _ hwt' rg' y hr.2⟩

end
end Pressio.Props
