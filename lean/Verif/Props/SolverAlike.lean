import Verif.Lemmas.SolverAlike
import Verif.Props.SolverMemory

/-
  Nonlinear solvers of different kinds that are expected to do the same: C98.
-/
namespace Pressio.Props
set_option autoImplicit false
set_option linter.unusedSectionVars false
open Pressio Matrix
open Pressio.Model.Nonlinear (Env Cfg Reg StopCrit Update Tag Ans)
open Pressio.Spec.Nonlinear Pressio.Spec.SolverAlike
open Pressio.Lemmas.Nonlinear Pressio.Lemmas.SolverAlike

section
variable {K m n p q L : Type} [Field K] [LinearOrder K] [IsStrictOrderedRing K] [Fintype m] [Fintype n] [Fintype p] [Fintype q] [DecidableEq n]

/-! ### Identity weights -/

theorem ls_writes_nothing (env : Env K m n p L) (cfg : Cfg K) (sys : Sys K m n) (tag : Tag) (s : St K n L) : (lsSolve env cfg sys tag s).files = [] := by
  have h : ∀ rule k i ref s, (iterate sys (lsProblem env cfg sys tag rule) k i ref s).files = [] := by
    intro rule k
    induction k with
    | zero => intro i ref s; simp only [iterate]; split <;> rfl
    | succ k ih =>
      intro i ref s
      simp only [iterate]
      split
      · split <;> rfl
      split
      · rfl
      split
      · rfl
      · rfl
      split
      · split <;> rfl
      · rfl
      · simp only [ih]; rfl
  unfold lsSolve
  split
  · rfl
  · rfl
  · exact h _ _ _ _ _

theorem ls_queries (env : Env K m n p L) (cfg : Cfg K) (sys : Sys K m n) (tag : Tag) (x : St K n L) : (lsSolve env cfg sys tag x).log = (points (lsSolve env cfg sys tag x).log).map (fun a => sys.query a.1 a.2) := by
  unfold lsSolve
  split
  · rfl
  · rfl
  · exact iterate_queries _ _ _ _ _ _

theorem same_of_agree (env : Env K m n p L) (cfg : Cfg K) (sys : Sys K m n) (tag tag' : Tag) {s s' : Reg K m n p L} (hs : LsObj s) (hs' : LsObj s') {Λ : (n → K) → L → (n → K) → L → Prop}
    (ha : Agree Λ Eq (lsSolve env cfg sys tag (absR s)) (lsSolve env cfg sys tag' (absR s'))) :
    SameSolve cfg s s' (runLs env cfg sys tag s) (runLs env cfg sys tag' s') ∧ Λ (runLs env cfg sys tag s).state.c (runLs env cfg sys tag s).state.lin (runLs env cfg sys tag' s').state.c (runLs env cfg sys tag' s').state.lin := by
  have hr := ls_run env cfg sys tag hs
  have hr' := ls_run env cfg sys tag' hs'
  obtain ⟨⟨c1, c2, -⟩, hΛ⟩ := calls_of hr hr' ha
  obtain ⟨g1, g2, g3, g4, -, g6⟩ := hr
  obtain ⟨k1, k2, k3, k4, -, k6⟩ := hr'
  obtain ⟨-, -, -, a4, a5⟩ := ha
  have hlog : (lsSolve env cfg sys tag (absR s)).log = (lsSolve env cfg sys tag' (absR s')).log := by
    rw [ls_queries env cfg sys tag, a4, ← ls_queries env cfg sys tag']
  refine ⟨⟨c1, c2, ⟨[], by rw [g3, ls_writes_nothing env cfg sys tag (absR s)], by rw [k3, ls_writes_nothing env cfg sys tag' (absR s')]⟩, ⟨_, g4, by rw [hlog]; exact k4⟩, ?_⟩, hΛ⟩
  intro h1 hn
  have h6 : ∃ rn, (lsSolve env cfg sys tag (absR s)).last = some rn := by
    rw [g1] at hn
    rcases hrule : lsRule cfg tag with e | rule
    · unfold lsSolve at hn; rw [hrule] at hn; cases e <;> cases hn
    · rw [ls_spec env cfg sys tag (absR s) hrule] at hn ⊢
      obtain ⟨_, _, _, _, _, _, _, -, -, -, -, -, -, h⟩ := iterate_last sys (lsProblem env cfg sys tag rule) rfl cfg.maxIters.toNat 1 none (lsStart tag rule (absR s)) (by omega) hn
      exact ⟨_, h⟩
  obtain ⟨rn, hrn⟩ := h6
  have hrn' : (lsSolve env cfg sys tag' (absR s')).last = some rn := by
    rw [hrn] at a5
    cases hl : (lsSolve env cfg sys tag' (absR s')).last with
    | none => rw [hl] at a5; cases a5
    | some b =>
      rw [hl] at a5
      cases a5 with
      | some h => exact congrArg some (Prod.ext h.1.symm h.2.symm)
  rw [g6 rn hrn, k6 rn hrn']

/-- C98 (identity weights).  A weighted Gauss-Newton solver whose weighting operator is the identity does the same as a Gauss-Newton solver with the same linear solver, where residuals are measured in the Euclidean norm: for every
    system, option and state the same outcome, result, evaluations and diagnostics; afterwards both objects are equal in what later solves may depend on.  So over any sequence of solves. -/
theorem C98_identity_weights (env : Env K m n p L) (cfg : Cfg K) (sys : Sys K m n) (hR : ∀ r, env.wR r = r) (hJ : ∀ J, env.wJ J = J) (hE : Euclidean env.normM) (s s' : Reg K m n p L) (hs : LsObj s) (hs' : LsObj s')
    (hx : s.x = s'.x) (hc : s.c = s'.c) (hl : s.lin = s'.lin) :
    SameSolve cfg s s' (runLs env cfg sys .wgn s) (runLs env cfg sys .gn s') ∧ (runLs env cfg sys .wgn s).state.c = (runLs env cfg sys .gn s').state.c ∧
      (runLs env cfg sys .wgn s).state.lin = (runLs env cfg sys .gn s').state.lin := by
  apply same_of_agree env cfg sys .wgn .gn hs hs' (Λ := fun c l c' l' => c = c' ∧ l = l')
  have ho : ∀ r, objOf env .wgn r = objOf env .gn r := fun r => by simp only [objOf, hR, hE r]
  have hg : ∀ r J, gradOf env .wgn r J = gradOf env .gn r J := fun r J => by simp only [gradOf, hR]
  refine ls_alike env env cfg .wgn .gn (by decide) (by decide) sys sys (fun r J r' J' => r = r' ∧ J = J') _ Eq ?_ ?_ ?_ (fun a b h => by rw [h]) (fun a b c d h h' => by rw [h, h']) ?_ _ _ hx ⟨hc, hl⟩
  · intro x
    rcases h : sys.resJac x with e | ⟨r, J⟩
    · exact .inl ⟨e, rfl, rfl⟩
    · exact .inr ⟨r, J, r, J, rfl, rfl, rfl, rfl⟩
  · rintro rule x r J r' J' d d' c b l c' b' l' ⟨rfl, rfl⟩ ⟨rfl, rfl⟩
    simp only [lsProblem, hessOf, gradOf, hR, hJ, negated]
    rcases env.lin (Jᵀ * J) (Jᵀ *ᵥ r) (c, l) with ⟨_, c1, l1⟩ | ⟨h, c1, l1⟩
    · exact .inl ⟨_, _, _, _, _, rfl, rfl, trivial, rfl⟩
    · exact .inr ⟨_, _, _, _, _, _, _, rfl, rfl, rfl, rfl⟩
  · rintro r J r' J' c ⟨rfl, rfl⟩
    rw [ho, hg]
  · intro x
    simp only [objAt, show objOf env .wgn = objOf env .gn from funext ho]

/-- C98 (identity weights, compact).  The same for the compact weighted solver with the identity of the residual space. -/
theorem C98_identity_compact (env : Env K m n m L) (cfg : Cfg K) (sys : Sys K m n) (hR : ∀ r, env.cwR r = r) (hJ : ∀ J, env.cwJ J = J) (hE : Euclidean env.normM) (s s' : Reg K m n m L) (hs : LsObj s) (hs' : LsObj s')
    (hx : s.x = s'.x) (hc : s.c = s'.c) (hl : s.lin = s'.lin) :
    SameSolve cfg s s' (runLs env cfg sys .cwgn s) (runLs env cfg sys .gn s') ∧ (runLs env cfg sys .cwgn s).state.c = (runLs env cfg sys .gn s').state.c ∧
      (runLs env cfg sys .cwgn s).state.lin = (runLs env cfg sys .gn s').state.lin := by
  apply same_of_agree env cfg sys .cwgn .gn hs hs' (Λ := fun c l c' l' => c = c' ∧ l = l')
  have ho : ∀ r, objOf env .cwgn r = objOf env .gn r := fun r => by simp only [objOf, hR, hE r]
  have hg : ∀ r J, gradOf env .cwgn r J = gradOf env .gn r J := fun r J => by simp only [gradOf, hR, hJ]
  refine ls_alike env env cfg .cwgn .gn (by decide) (by decide) sys sys (fun r J r' J' => r = r' ∧ J = J') _ Eq ?_ ?_ ?_ (fun a b h => by rw [h]) (fun a b c d h h' => by rw [h, h']) ?_ _ _ hx ⟨hc, hl⟩
  · intro x
    rcases h : sys.resJac x with e | ⟨r, J⟩
    · exact .inl ⟨e, rfl, rfl⟩
    · exact .inr ⟨r, J, r, J, rfl, rfl, rfl, rfl⟩
  · rintro rule x r J r' J' d d' c b l c' b' l' ⟨rfl, rfl⟩ ⟨rfl, rfl⟩
    simp only [lsProblem, hessOf, gradOf, hR, hJ, negated]
    rcases env.lin (Jᵀ * J) (Jᵀ *ᵥ r) (c, l) with ⟨_, c1, l1⟩ | ⟨h, c1, l1⟩
    · exact .inl ⟨_, _, _, _, _, rfl, rfl, trivial, rfl⟩
    · exact .inr ⟨_, _, _, _, _, _, _, rfl, rfl, rfl, rfl⟩
  · rintro r J r' J' c ⟨rfl, rfl⟩
    rw [ho, hg]
  · intro x
    simp only [objAt, show objOf env .cwgn = objOf env .gn from funext ho]

/-! ### Weights and scaled systems -/

/-- the criteria other than those about the residual see only correction, gradient and objective -/
theorem below_notResidual {stop : StopCrit} (h : notResidual stop = true) (tol : K) (a b c d : Norms K) (h1 : a.corr = b.corr ∧ a.grad = b.grad ∧ a.obj = b.obj) (h2 : c.corr = d.corr ∧ c.grad = d.grad ∧ c.obj = d.obj) :
    below stop tol a c = below stop tol b d := by
  cases stop <;> simp [notResidual] at h <;> simp [below, h1, h2]

/-- C98 (weights are a scaling).  A weighted Gauss-Newton solver with weights `W = Mᵀ M` does the same as a Gauss-Newton solver on the system with residual `M r` and Jacobian `M J`, with the same linear solver and norm of
    states, and the Euclidean norm for residuals: same outcome, result and evaluation points, for every option whose criterion is not about the residual (see `C98_residual_criterion_ignores_weights`). -/
theorem C98_weighted_is_scaled {p' : Type} [Fintype p'] (env : Env K m n p L) (env' : Env K q n p' L) (M : Matrix q m K) (cfg : Cfg K) (hcrit : notResidual cfg.stop = true) (sys : Sys K m n) (hR : ∀ r, env.wR r = (Mᵀ * M) *ᵥ r) (hJ : ∀ J, env.wJ J = (Mᵀ * M) * J)
    (hlin : env'.lin = env.lin) (hnorm : env'.normN = env.normN) (hE : Euclidean env'.normM) (s : Reg K m n p L) (s' : Reg K q n p' L) (hs : LsObj s) (hs' : LsObj s') (hx : s.x = s'.x) (hc : s.c = s'.c) (hl : s.lin = s'.lin) :
    SameCalls s s' (runLs env cfg sys .wgn s) (runLs env' cfg (scaledSys M sys) .gn s') ∧ (runLs env cfg sys .wgn s).state.c = (runLs env' cfg (scaledSys M sys) .gn s').state.c ∧
      (runLs env cfg sys .wgn s).state.lin = (runLs env' cfg (scaledSys M sys) .gn s').state.lin := by
  have ho : ∀ r, objOf env .wgn r = objOf env' .gn (M *ᵥ r) := fun r => by
    simp only [objOf, hR, hE (M *ᵥ r)]
    rw [← Matrix.mulVec_mulVec, Matrix.dotProduct_mulVec, Matrix.vecMul_transpose]
  have hg : ∀ r J, gradOf env .wgn r J = gradOf env' .gn (M *ᵥ r) (M * J) := fun r J => by
    simp only [gradOf, hR, Matrix.transpose_mul, Matrix.mulVec_mulVec, Matrix.mul_assoc]
  refine calls_of (ls_run env cfg sys .wgn hs) (ls_run env' cfg (scaledSys M sys) .gn hs') (Λ := fun c l c' l' => c = c' ∧ l = l') (N := fun a b => a.corr = b.corr ∧ a.grad = b.grad ∧ a.obj = b.obj) ?_
  refine ls_alike env env' cfg .wgn .gn (by decide) (by decide) sys (scaledSys M sys) (fun r J r' J' => r' = M *ᵥ r ∧ J' = M * J) _ _ ?_ ?_ ?_ (fun a b h => h.2.2)
    (fun a b c d h h' => below_notResidual hcrit _ _ _ _ _ h h') ?_ _ _ hx ⟨hc, hl⟩
  · intro x
    simp only [scaledSys]
    rcases h : sys.resJac x with e | ⟨r, J⟩
    · exact .inl ⟨e, rfl, rfl⟩
    · exact .inr ⟨r, J, _, _, rfl, rfl, rfl, rfl⟩
  · rintro rule x r J r' J' d d' c b l c' b' l' ⟨rfl, rfl⟩ ⟨rfl, rfl⟩
    have e1 : Jᵀ * ((Mᵀ * M) * J) = (M * J)ᵀ * (M * J) := by simp only [Matrix.transpose_mul, Matrix.mul_assoc]
    have e2 := hg r J
    simp only [gradOf] at e2
    simp only [lsProblem, hessOf, gradOf, hJ, negated, hlin, e1, e2]
    rcases env.lin ((M * J)ᵀ * (M * J)) ((M * J)ᵀ *ᵥ (M *ᵥ r)) (c, l) with ⟨_, c1, l1⟩ | ⟨h, c1, l1⟩
    · exact .inl ⟨_, _, _, _, _, rfl, rfl, trivial, rfl⟩
    · exact .inr ⟨_, _, _, _, _, _, _, rfl, rfl, rfl, rfl⟩
  · rintro r J r' J' c ⟨rfl, rfl⟩
    exact ⟨by rw [hnorm], by simp only [hg, hnorm], ho r⟩
  · intro x
    simp only [objAt, scaledSys]
    rcases sys.res x with e | r
    · rfl
    · exact congrArg Except.ok (ho r)

/-- C98 (compact weights are a scaling).  The same for the compact weighted solver with weighting operator `M`. -/
theorem C98_compact_is_scaled (env : Env K m n p L) (env' : Env K p n q L) (M : Matrix p m K) (cfg : Cfg K) (hcrit : notResidual cfg.stop = true) (sys : Sys K m n) (hR : ∀ r, env.cwR r = M *ᵥ r) (hJ : ∀ J, env.cwJ J = M * J)
    (hlin : env'.lin = env.lin) (hnorm : env'.normN = env.normN) (hE : Euclidean env'.normM) (s : Reg K m n p L) (s' : Reg K p n q L) (hs : LsObj s) (hs' : LsObj s') (hx : s.x = s'.x) (hc : s.c = s'.c) (hl : s.lin = s'.lin) :
    SameCalls s s' (runLs env cfg sys .cwgn s) (runLs env' cfg (scaledSys M sys) .gn s') ∧ (runLs env cfg sys .cwgn s).state.c = (runLs env' cfg (scaledSys M sys) .gn s').state.c ∧
      (runLs env cfg sys .cwgn s).state.lin = (runLs env' cfg (scaledSys M sys) .gn s').state.lin := by
  have ho : ∀ r, objOf env .cwgn r = objOf env' .gn (M *ᵥ r) := fun r => by simp only [objOf, hR, hE (M *ᵥ r)]
  have hg : ∀ r J, gradOf env .cwgn r J = gradOf env' .gn (M *ᵥ r) (M * J) := fun r J => by simp only [gradOf, hR, hJ]
  refine calls_of (ls_run env cfg sys .cwgn hs) (ls_run env' cfg (scaledSys M sys) .gn hs') (Λ := fun c l c' l' => c = c' ∧ l = l') (N := fun a b => a.corr = b.corr ∧ a.grad = b.grad ∧ a.obj = b.obj) ?_
  refine ls_alike env env' cfg .cwgn .gn (by decide) (by decide) sys (scaledSys M sys) (fun r J r' J' => r' = M *ᵥ r ∧ J' = M * J) _ _ ?_ ?_ ?_ (fun a b h => h.2.2)
    (fun a b c d h h' => below_notResidual hcrit _ _ _ _ _ h h') ?_ _ _ hx ⟨hc, hl⟩
  · intro x
    simp only [scaledSys]
    rcases h : sys.resJac x with e | ⟨r, J⟩
    · exact .inl ⟨e, rfl, rfl⟩
    · exact .inr ⟨r, J, _, _, rfl, rfl, rfl, rfl⟩
  · rintro rule x r J r' J' d d' c b l c' b' l' ⟨rfl, rfl⟩ ⟨rfl, rfl⟩
    simp only [lsProblem, hessOf, gradOf, hR, hJ, negated, hlin]
    rcases env.lin ((M * J)ᵀ * (M * J)) ((M * J)ᵀ *ᵥ (M *ᵥ r)) (c, l) with ⟨_, c1, l1⟩ | ⟨h, c1, l1⟩
    · exact .inl ⟨_, _, _, _, _, rfl, rfl, trivial, rfl⟩
    · exact .inr ⟨_, _, _, _, _, _, _, rfl, rfl, rfl, rfl⟩
  · rintro r J r' J' c ⟨rfl, rfl⟩
    exact ⟨by rw [hnorm], by simp only [hg, hnorm], ho r⟩
  · intro x
    simp only [objAt, scaledSys]
    rcases sys.res x with e | r
    · rfl
    · exact congrArg Except.ok (ho r)

/-! ### QR and normal equations -/

theorem regular_unique {A : Matrix n n K} (hA : IsUnit A.det) {x y : n → K} (h : A *ᵥ x = A *ᵥ y) : x = y :=
  Matrix.mulVec_injective_iff_isUnit.2 ((Matrix.isUnit_iff_isUnit_det A).2 hA) h

/-- C98 (QR).  A Gauss-Newton solver that uses a QR factorisation does the same as one that solves the normal equations, on every system whose Jacobians have full column rank, for every option: same outcome, result,
    evaluations and diagnostics. -/
theorem C98_qr_is_normal_equations (env : Env K m n p L) (cfg : Cfg K) (sys : Sys K m n) (I : L → Prop) (hQ : FactorsRegular env I) (hlin : SolvesRegular env.lin) (hreg : ∀ x r J, sys.resJac x = .ok (r, J) → IsUnit (Jᵀ * J).det)
    (s s' : Reg K m n p L) (hs : LsObj s) (hs' : LsObj s') (hx : s.x = s'.x) (hI : I s.lin) :
    SameSolve cfg s s' (runLs env cfg sys .gnQr s) (runLs env cfg sys .gn s') ∧ I (runLs env cfg sys .gnQr s).state.lin := by
  refine same_of_agree env cfg sys .gnQr .gn hs hs' (Λ := fun _ l _ _ => I l) ?_
  refine ls_alike env env cfg .gnQr .gn (by decide) (by decide) sys sys (fun r J r' J' => r = r' ∧ J = J' ∧ IsUnit (Jᵀ * J).det) _ Eq ?_ ?_ ?_ (fun a b h => by rw [h]) (fun a b c d h h' => by rw [h, h']) (fun _ => rfl) _ _ hx hI
  · intro x
    rcases h : sys.resJac x with e | ⟨r, J⟩
    · exact .inl ⟨e, rfl, rfl⟩
    · exact .inr ⟨r, J, r, J, rfl, rfl, rfl, rfl, hreg x r J h⟩
  · rintro rule x r J r' J' d d' c b l c' b' l' ⟨rfl, rfl, hu⟩ hl
    obtain ⟨l1, b2, l2, y, l3, q1, q2, q3, q4, q5⟩ := hQ J r c b l hl hu
    obtain ⟨y', l', e1, e2⟩ := hlin (Jᵀ * J) (Jᵀ *ᵥ r) c' l' hu
    have hy : y = y' := regular_unique hu (q4.trans e2.symm)
    subst hy
    refine .inl ⟨-y, b2, l3, b', l', ?_, ?_, q5⟩
    · simp only [lsProblem, qrNegated, q1, q2, negated, q3]
    · simp only [lsProblem, hessOf, gradOf, negated, e1]
  · rintro r J r' J' c ⟨rfl, rfl, -⟩
    rfl

/-! ### Gauss-Newton and Newton -/

/-- C98 (Gauss-Newton is Newton).  On a square system with regular Jacobians, a Gauss-Newton solver does the same as a Newton solver with corresponding options (see `Matching`): same outcome, result and evaluations. -/
theorem C98_gauss_newton_is_newton (env : Env K n n p L) (cfg cfg' : Cfg K) (hcfg : Matching cfg cfg') (hcrit : rootCriterion cfg.stop = true) (sys : Sys K n n) (hJ : SolvesRegular env.linJ) (hlin : SolvesRegular env.lin)
    (hnn : ∀ r, 0 ≤ env.normM r) (hreg : ∀ x r J, sys.resJac x = .ok (r, J) → IsUnit J.det) (s s' : Reg K n n p L) (hs : NewtonObj s) (hs' : LsObj s') (hx : s.x = s'.x) :
    SameEvals s s' (runNewton env cfg sys s) (runLs env cfg' sys .gn s') := by
  suffices ha : Agree (fun _ _ _ _ => True) (fun a b : Norms K => a.resid = b.resid ∧ a.corr = b.corr) (newtonSolve env cfg sys (absR s)) (lsSolve env cfg' sys .gn (absR s')) by
    have hr := newton_run env cfg sys hs
    have hr' := ls_run env cfg' sys .gn hs'
    obtain ⟨⟨c1, c2, -⟩, -⟩ := calls_of hr hr' ha
    refine ⟨c1, c2, _, hr.2.2.2.1, ?_⟩
    rw [hr'.2.2.2.1]
    have hq : (newtonSolve env cfg sys (absR s)).log = (points (newtonSolve env cfg sys (absR s)).log).map (fun a => sys.query a.1 a.2) := by
      unfold newtonSolve
      split
      · rfl
      · exact iterate_queries _ _ _ _ _ _
    rw [hq, ha.2.2.2.1, ← ls_queries env cfg' sys .gn]
  obtain ⟨hm, hst, htol, hupd⟩ := hcfg
  have key : ∀ (rule : RootRule K) (rule' : Rule K), (rule = .standard ∧ rule' = .standard ∨ ∃ z, 0 ≤ z ∧ rule = .backtrack z ∧ rule' = .backtrack (z ^ 2)) → ∀ st st' : St K n L, st.x = st'.x →
      Agree (fun _ _ _ _ => True) (fun a b : Norms K => a.resid = b.resid ∧ a.corr = b.corr) (iterate sys (newtonProblem env cfg sys false rule) cfg.maxIters.toNat 1 none st)
        (iterate sys (lsProblem env cfg' sys .gn rule') cfg'.maxIters.toNat 1 none st') := by
    intro rule rule' hrr st st' hxx
    rw [hm]
    refine iterate_alike sys sys _ _ (fun r J r' J' => r = r' ∧ J = J' ∧ IsUnit J.det) (fun _ _ _ _ => True) (fun a b : Norms K => a.resid = b.resid ∧ a.corr = b.corr) rfl rfl ?_ ?_ ?_ ?_ _ _ _ _ _ _ .none hxx trivial
    · intro x
      rcases h : sys.resJac x with e | ⟨r, J⟩
      · exact .inl ⟨e, rfl, rfl⟩
      · exact .inr ⟨r, J, r, J, rfl, rfl, rfl, rfl, hreg x r J h⟩
    · rintro x r J r' J' d d' c b l c' b' l' ⟨rfl, rfl, hu⟩ -
      have hu2 : IsUnit (Jᵀ * J).det := by rw [Matrix.det_mul, Matrix.det_transpose]; exact hu.mul hu
      obtain ⟨y, l1, e1, e2⟩ := hJ J r c l hu
      obtain ⟨y', l2, f1, f2⟩ := hlin (Jᵀ * J) (Jᵀ *ᵥ r) c' l' hu2
      have hy : y = y' := by
        apply regular_unique hu2
        rw [f2, ← Matrix.mulVec_mulVec, e2]
      subst hy
      refine .inl ⟨-y, b, l1, b', l2, ?_, ?_, trivial, rfl, rfl⟩
      · simp only [newtonProblem, Bool.false_eq_true, if_false, negated, e1]
      · simp only [lsProblem, hessOf, gradOf, negated, f1]
    · intro i ref ref' now now' h1 h2
      have hA : cfg'.stop ≠ .AfterMaxIters := by rw [hst]; intro h; rw [h] at hcrit; cases hcrit
      simp only [newtonProblem, lsProblem, hcrit, if_true, hst, htol]
      congr 1
      generalize cfg.stop = stp at hcrit ⊢
      cases stp <;> simp [rootCriterion] at hcrit <;> simp [below, h1, h2]
    · rintro s s' r J r' J' now now' ⟨rfl, rfl, hu⟩ hN hx hc hn hn'
      rcases hrr with ⟨rfl, rfl⟩ | ⟨z, hz, rfl, rfl⟩
      · simp only [newtonProblem, lsProblem, lsUpd, hx, hc]
        exact ⟨trivial, rfl⟩
      · simp only [newtonProblem, lsProblem, lsUpd, hx, hc]
        apply search_same'
        intro y
        simp only [objAt]
        rcases sys.res y with e | v
        · exact .inl ⟨e, rfl, rfl⟩
        · refine .inr ⟨_, _, rfl, rfl, ?_⟩
          simp only [hn, hn', newtonProblem, lsProblem, objOf]
          have h0 : 0 ≤ z * env.normM r := mul_nonneg hz (hnn r)
          rw [← pow_le_pow_iff_left₀ (hnn v) h0 (two_ne_zero), mul_pow]
          constructor <;> intro h <;> linarith
  unfold newtonSolve lsSolve
  rcases hupd with ⟨h1, h2⟩ | ⟨h1, h2, ⟨h3, h4⟩ | ⟨z, l, l', hz, h3, h4⟩⟩
  · simp only [newtonRule, lsRule, h1, h2]
    exact key _ _ (.inl ⟨rfl, rfl⟩) _ _ hx
  · simp only [newtonRule, lsRule, h1, h2, h3, h4]
    exact key _ _ (.inr ⟨1, zero_le_one, rfl, by rw [one_pow]⟩) _ _ hx
  · simp only [newtonRule, lsRule, h1, h2, h3, h4]
    exact key _ _ (.inr ⟨z, hz, rfl, rfl⟩) _ _ hx

end
end Pressio.Props
