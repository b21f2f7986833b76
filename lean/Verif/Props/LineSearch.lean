import Verif.Lemmas.NonlinearSearch
import Verif.Props.LeastSquares

/-
  Properties of line searches: C37, C38, C39, and of failures in least-squares solves: C45.
-/
namespace Pressio.Props
set_option autoImplicit false
open Pressio Matrix
open Pressio.Model.Nonlinear (Env Cfg Reg StopCrit Update Tag leastSquaresDiagnostics newtonDiagnostics backtrackUpdater armijoUpdater lsObjective newtonObjective)
open Pressio.Spec.Nonlinear
open Pressio.Lemmas.Nonlinear

variable {K m n p L : Type} [Field K] [LinearOrder K] [IsStrictOrderedRing K] [Fintype m] [Fintype n] [Fintype p] [DecidableEq n]

/-! ### C37 -/

/-- the whole behaviour of one backtracking update: objective `f`, current value `f0`, outcome `res` -/
def Backtracks (sys : Sys K m n) (f : (n → K) → Except Exc K) (zeta f0 : K) (s : Reg K m n p L) (res : Res (Reg K m n p L) Unit) : Prop :=
  let trial := fun j : Nat => s.x + (1 / 2 : K) ^ j • s.c
  let tried := fun k : Nat => (List.range k).map (fun j => sys.query (trial j) false)
  let rejected := fun k : Nat => ∀ i < k, ∃ v, f (trial i) = .ok v ∧ zeta * f0 < v
  (∀ j < 10, rejected j → (∃ v, f (trial j) = .ok v ∧ v ≤ zeta * f0) → res.stop? = none ∧ res.state.x = trial j ∧ res.state.log = s.log ++ tried (j + 1)) ∧
  (rejected 10 → res.stop? = some (.exc .lineSearchStepTooSmall) ∧ res.state.x = s.x ∧ res.state.log = s.log ++ tried 10) ∧
  (∀ j < 10, rejected j → ∀ e, f (trial j) = .error e → res.stop? = some (.exc e) ∧ res.state.x = s.x ∧ res.state.log = s.log ++ tried (j + 1)) ∧
  res.state.c = s.c ∧ res.state.files = s.files ∧ ∃ k ≤ 10, res.state.log = s.log ++ tried k

theorem backtracks (sys : Sys K m n) (obj : (n → K) → Model.Nonlinear.SP K m n p L K) (f : (n → K) → Except Exc K)
    (hobj : Objective sys obj f) (zeta f0 : K) (s : Reg K m n p L) :
    Backtracks sys f zeta f0 s (SM.run sys.toF (backtrackUpdater zeta obj f0) s) := by
  have hm := backtrack_matches sys obj f hobj zeta f0 s
  have hmap : ∀ k, ((List.range k).map (point s.x s.c)).map (fun t => sys.query t false) = (List.range k).map (fun j => sys.query (s.x + (1/2:K)^j • s.c) false) := by
    intro k; rw [List.map_map]; rfl
  generalize SM.run sys.toF (backtrackUpdater zeta obj f0) s = res at hm ⊢
  have hacc : ∀ j < 10, (∀ i < j, ∃ v, f (s.x + (1/2:K)^i • s.c) = .ok v ∧ zeta * f0 < v) → (∃ v, f (s.x + (1/2:K)^j • s.c) = .ok v ∧ v ≤ zeta * f0) →
      res.stop? = none ∧ res.state.x = s.x + (1/2:K)^j • s.c ∧ res.state.log = s.log ++ (List.range (j+1)).map (fun j => sys.query (s.x + (1/2:K)^j • s.c) false) := by
    intro j hj h1 h2
    rw [search_accept f s.x s.c (zeta * f0) s.damp s.nu j hj (fun i hi => by obtain ⟨v, a, b⟩ := h1 i hi; exact ⟨v, a, not_le.mpr b⟩) h2] at hm
    obtain ⟨s', rfl, a2, -, -, a5⟩ := hm
    exact ⟨rfl, congrArg St.x a2, by rw [← hmap]; exact a5⟩
  have hnone : (∀ i < 10, ∃ v, f (s.x + (1/2:K)^i • s.c) = .ok v ∧ zeta * f0 < v) → res.stop? = some (.exc .lineSearchStepTooSmall) ∧ res.state.x = s.x ∧
      res.state.log = s.log ++ (List.range 10).map (fun j => sys.query (s.x + (1/2:K)^j • s.c) false) := by
    intro h1
    rw [search_none f s.x s.c (zeta * f0) s.damp s.nu (fun i hi => by obtain ⟨v, a, b⟩ := h1 i hi; exact ⟨v, a, not_le.mpr b⟩)] at hm
    obtain ⟨s', rfl, a2, -, -, a5⟩ := hm
    exact ⟨rfl, congrArg St.x a2, by rw [← hmap]; exact a5⟩
  have herr : ∀ j < 10, (∀ i < j, ∃ v, f (s.x + (1/2:K)^i • s.c) = .ok v ∧ zeta * f0 < v) → ∀ e, f (s.x + (1/2:K)^j • s.c) = .error e →
      res.stop? = some (.exc e) ∧ res.state.x = s.x ∧ res.state.log = s.log ++ (List.range (j+1)).map (fun j => sys.query (s.x + (1/2:K)^j • s.c) false) := by
    intro j hj h1 e h2
    rw [search_threw f s.x s.c (zeta * f0) s.damp s.nu j hj e (fun i hi => by obtain ⟨v, a, b⟩ := h1 i hi; exact ⟨v, a, not_le.mpr b⟩) h2] at hm
    obtain ⟨s', rfl, a2, -, -, a5⟩ := hm
    exact ⟨rfl, congrArg St.x a2, by rw [← hmap]; exact a5⟩
  refine ⟨hacc, hnone, herr, ?_, ?_, ?_⟩
  · unfold Matches at hm
    split at hm <;> (obtain ⟨s', rfl, a2, -, -, -⟩ := hm; exact congrArg St.c a2)
  · unfold Matches at hm
    split at hm <;> (obtain ⟨s', rfl, -, -, a4, -⟩ := hm; exact a4)
  · have hneg : ∀ k, (∀ i < k, ∃ v, f (point s.x s.c i) = .ok v ∧ ¬ v ≤ zeta * f0) → ∀ i < k, ∃ v, f (s.x + (1/2:K)^i • s.c) = .ok v ∧ zeta * f0 < v := by
      intro k h i hi; obtain ⟨v, a, b⟩ := h i hi; exact ⟨v, a, not_le.mp b⟩
    rcases search_trichotomy f s.x s.c (zeta * f0) with ⟨j, hj, h1, h2⟩ | h1 | ⟨j, hj, e, h1, h2⟩
    · exact ⟨j+1, by omega, (hacc j hj (hneg j h1) h2).2.2⟩
    · exact ⟨10, le_rfl, (hnone (hneg 10 h1)).2.2⟩
    · exact ⟨j+1, by omega, (herr j hj (hneg j h1) e h2).2.2⟩

/-- C37 for the least-squares solvers: the objective of the method, evaluated through the system. -/
theorem C37_backtracking_least_squares (env : Env K m n p L) (sys : Sys K m n) (tag : Tag) (zeta f0 : K) (s : Reg K m n p L) :
    Backtracks sys (fun x => (sys.res x).map (objOf env tag)) zeta f0 s (SM.run sys.toF (backtrackUpdater zeta (lsObjective env tag) f0) s) :=
  backtracks sys _ _ (objective_ok env sys tag) zeta f0 s

/-- C37 for Newton: the objective is the norm of the residual. -/
theorem C37_backtracking_newton (env : Env K m n p L) (sys : Sys K m n) (zeta f0 : K) (s : Reg K m n p L) :
    Backtracks sys (fun x => (sys.res x).map env.normM) zeta f0 s (SM.run sys.toF (backtrackUpdater zeta (newtonObjective env) f0) s) :=
  backtracks sys _ _ (newtonObjective_ok env sys) zeta f0 s

/-- C37 in a whole least-squares solve: however the solve ends, the returned state comes from `x₀` by a chain of moves `x + 2^{-j} c`, where `c` is the correction of the
    method at `x`, the objective at the new state is at most `zeta` times that at `x`, and at all longer trial steps it is larger. -/
theorem C37_least_squares_chain (env : Env K m n p L) (cfg : Cfg K) (sys : Sys K m n) (tag : Tag)
    (hupd : cfg.update = .BacktrackStrictlyDecreasingObjective) (hpar : cfg.params ≠ some []) (s : Reg K m n p L) (hs : LsObj s) :
    let res := runLs env cfg sys tag s
    ∃ ys : List (n → K), ys.length ≤ cfg.maxIters.toNat ∧ (s.x :: ys).getLast (by simp) = res.state.x ∧
      List.IsChain (fun x x' => ∃ r J c, ∃ j < 10, sys.resJac x = .ok (r, J) ∧ x' = x + (1 / 2 : K) ^ j • c ∧
        (tag ≠ .gnQr → ExactLin env → ∃ damp, hessOf env tag J damp *ᵥ c = -gradOf env tag r J) ∧
        (∃ v, objAt env sys tag x' = .ok v ∧ v ≤ zetaOf cfg * objOf env tag r) ∧
        ∀ i < j, ∃ v, objAt env sys tag (x + (1 / 2 : K) ^ i • c) = .ok v ∧ zetaOf cfg * objOf env tag r < v) (s.x :: ys) := by
  intro res
  obtain ⟨rule, hr, -, h2, -⟩ := ls_rule (cfg := cfg) (tag := tag) (.inr (.inl ⟨.inl hupd, hpar⟩))
  have hrule := h2 (.inl hupd)
  subst hrule
  obtain ⟨-, g2, -⟩ := ls_run env cfg sys tag hs
  rw [ls_spec env cfg sys tag (absR s) hr] at g2
  obtain ⟨ys, f1, f2, f3, -⟩ := iterate_accepts sys (lsProblem env cfg sys tag (.backtrack (zetaOf cfg))) rfl cfg.maxIters.toNat 1 none (lsStart tag (.backtrack (zetaOf cfg)) (absR s))
  refine ⟨ys.map Prod.fst, by simpa using f1, ?_, ?_⟩
  · have := congrArg St.x g2
    have f3 := congrArg Prod.fst f3
    rw [show res.state.x = _ from this]
    refine Eq.trans ?_ f3
    rw [← List.getLast_map (f := Prod.fst) (by simp)]
    rfl
  · have hmap : s.x :: ys.map Prod.fst = (((lsStart tag (.backtrack (zetaOf cfg)) (absR s)).x, (lsStart tag (.backtrack (zetaOf cfg)) (absR s)).damp, (lsStart tag (.backtrack (zetaOf cfg)) (absR s)).nu) :: ys).map Prod.fst := rfl
    rw [hmap, List.isChain_map]
    refine List.IsChain.imp ?_ f2
    rintro ⟨x, d, nu⟩ ⟨x', d', nu'⟩ ⟨r, J, inn, c, b, l, hA, hC, hU⟩
    obtain ⟨j, hj, e1, e2, e3⟩ := search_moved_point _ _ _ _ _ _ _ _ _ hU
    simp only at e1
    subst e1
    refine ⟨r, J, c, j, hj, hA, rfl, ?_, e3, ?_⟩
    · intro hq hex
      refine ⟨d, ?_⟩
      have hC' : negated (env.lin (hessOf env tag J d) (gradOf env tag r J)) inn = .ok () (c, b, l) := by
        cases tag <;> first | exact hC | exact absurd rfl hq
      have := hex _ _ _ _ _ (negated_ok hC')
      rw [← this, Matrix.mulVec_neg, neg_neg]
    · intro i hi
      obtain ⟨v, a, b⟩ := e2 i hi
      exact ⟨v, a, not_le.mp b⟩

/-- `x² - x + 1` with its Jacobian `2 x - 1` -/
def quadTie : Sys ℚ Unit Unit := Sys.ofFun (fun x => v1 (x () * x () - x () + 1)) (fun x => m1 (2 * x () - 1))

/-- residual `x³ - 2 x + 2` with its Jacobian -/
def cubic : Sys ℚ Unit Unit := Sys.ofFun (fun x => v1 (x () * x () * x () - 2 * x () + 2)) (fun x => m1 (3 * x () * x () - 2))

/-- an instance in which nine trials are rejected: from `4/5` the correction of `x³ - 2x + 2` is `57/5` -/
example : let res := SM.run cubic.toF (backtrackUpdater 1 (lsObjective env1 .gn) ((114/125)^2/2)) { reg1 leastSquaresDiagnostics (4/5) with c := v1 (57/5) }
    res.stop? = none ∧ res.state.x () = 4/5 + 57/5 * (1/2)^9 ∧ res.state.log.length = 10 := by decide +kernel

example : let res := runLs env1 (cfgN .AfterMaxIters (1/100) 3 .BacktrackStrictlyDecreasingObjective) cubic .gn (reg1 leastSquaresDiagnostics (4/5))
    res.stop? = none ∧ res.state.x () ≠ 4/5 := by decide +kernel

/-! ### C38 -/

/-- C38 (least squares).  Backtracking with `zeta = 1`, or `zeta ≤ 1` and a nonnegative objective, on a system whose two evaluations agree: if the objective
    can be evaluated at the initial state, it can be evaluated at the state that solve leaves, and is not larger there, however the solve ended. -/
theorem C38_least_squares_monotone (env : Env K m n p L) (cfg : Cfg K) (sys : Sys K m n) (hc : sys.Consistent) (tag : Tag)
    (hupd : cfg.update = .BacktrackStrictlyDecreasingObjective) (hpar : cfg.params ≠ some [])
    (hz : zetaOf cfg = 1 ∨ (zetaOf cfg ≤ 1 ∧ ∀ r, 0 ≤ objOf env tag r)) (s : Reg K m n p L) (hs : LsObj s) (f0 : K) (h0 : objAt env sys tag s.x = .ok f0) :
    ∃ f1, objAt env sys tag (runLs env cfg sys tag s).state.x = .ok f1 ∧ f1 ≤ f0 := by
  obtain ⟨ys, -, hlast, hchain⟩ := C37_least_squares_chain env cfg sys tag hupd hpar s hs
  rw [← hlast]
  clear hlast
  generalize s.x = x at h0 hchain
  induction ys generalizing x f0 with
  | nil => exact ⟨f0, h0, le_rfl⟩
  | cons y ys ih =>
    rw [List.isChain_cons_cons] at hchain
    obtain ⟨⟨r, J, c, j, hj, hA, hy, -, ⟨v, hv, hle⟩, -⟩, hrest⟩ := hchain
    have hobj : f0 = objOf env tag r := by
      have : sys.res x = .ok r := by rw [hc x, hA]; rfl
      unfold objAt at h0
      rw [this] at h0
      exact (Except.ok.inj h0).symm
    obtain ⟨f1, h1, h2⟩ := ih v y hv hrest
    refine ⟨f1, ?_, le_trans h2 (le_trans hle ?_)⟩
    · rw [List.getLast_cons (by simp)]; exact h1
    · rw [hobj]
      rcases hz with hz | ⟨hz, hpos⟩
      · rw [hz, one_mul]
      · exact mul_le_of_le_one_left (hpos r) hz

/-- the objectives of Gauss-Newton, Levenberg-Marquardt and compact weighted Gauss-Newton are never negative; weighted: if the weights are positive semidefinite -/
theorem C38_objective_nonneg (env : Env K m n p L) (tag : Tag) (hW : tag = .wgn → LinearWeights env) (r : m → K) : 0 ≤ objOf env tag r := by
  cases tag with
  | gn => exact div_nonneg (sq_nonneg _) (by norm_num)
  | gnQr => exact div_nonneg (sq_nonneg _) (by norm_num)
  | lm => exact div_nonneg (sq_nonneg _) (by norm_num)
  | cwgn => exact div_nonneg (dot_self_nonneg _) (by norm_num)
  | wgn =>
    obtain ⟨W, -, hp, hr, -⟩ := hW rfl
    show 0 ≤ (r ⬝ᵥ env.wR r) / 2
    rw [hr]
    exact div_nonneg (hp r) (by norm_num)

/-- C38 for Newton: the norm of the residual. -/
theorem C38_newton_monotone (env : Env K m n p L) (cfg : Cfg K) (sys : Sys K m n) (hc : sys.Consistent)
    (hupd : cfg.update = .BacktrackStrictlyDecreasingObjective) (hpar : cfg.params ≠ some [])
    (hz : zetaOf cfg = 1 ∨ (zetaOf cfg ≤ 1 ∧ ∀ r, 0 ≤ env.normM r)) (s : Reg K m n p L) (hs : NewtonObj s) (r0 : m → K) (h0 : sys.res s.x = .ok r0) :
    ∃ r1, sys.res (runNewton env cfg sys s).state.x = .ok r1 ∧ env.normM r1 ≤ env.normM r0 := by
  have hr : newtonRule cfg = .ok (.backtrack (zetaOf cfg)) := by
    unfold newtonRule zetaOf
    rw [hupd]
    rcases hq : cfg.params with _ | _ | ⟨z, zs⟩
    · rfl
    · exact absurd hq hpar
    · rfl
  obtain ⟨-, g2, -⟩ := newton_run env cfg sys hs
  have hspec : Spec.Nonlinear.newtonSolve env cfg sys (absR s) = iterate sys (newtonProblem env cfg sys false (.backtrack (zetaOf cfg))) cfg.maxIters.toNat 1 none (absR s) := by
    unfold Spec.Nonlinear.newtonSolve; rw [hr]
  rw [hspec] at g2
  have hx : (runNewton env cfg sys s).state.x = _ := congrArg St.x g2
  rw [hx]
  refine iterate_inv sys _ (fun x _ _ => ∃ r1, sys.res x = .ok r1 ∧ env.normM r1 ≤ env.normM r0) ?_ _ _ _ _ ⟨r0, h0, le_rfl⟩
  rintro x d nu r J inn c b l x' d' nu' ⟨r1, h1, h2⟩ hA - hU
  have hA : sys.resJac x = .ok (r, J) := hA
  have hrr : r1 = r := by
    rw [hc x, hA] at h1
    exact (Except.ok.inj h1).symm
  subst hrr
  obtain ⟨j, hj, e1, -, v, e3, e4⟩ := search_moved_point _ _ _ _ _ _ _ _ _ hU
  simp only at e1
  subst e1
  rcases hres : sys.res (point x c j) with e | r2
  · rw [hres] at e3; cases e3
  · rw [hres] at e3
    cases e3
    refine ⟨r2, rfl, le_trans e4 (le_trans ?_ h2)⟩
    show zetaOf cfg * env.normM r1 ≤ env.normM r1
    rcases hz with hz | ⟨hz, hpos⟩
    · rw [hz, one_mul]
    · exact mul_le_of_le_one_left (hpos r1) hz

/-- C38: the decrease need not be strict, in spite of the name of the option: on `x² - x + 1` from 0 the full step to 1 is accepted with the same objective. -/
theorem C38_tie_accepted :
    let res := runLs env1 (cfgN .AfterMaxIters (1/100) 2 .BacktrackStrictlyDecreasingObjective) quadTie .gn (reg1 leastSquaresDiagnostics 0)
    res.stop? = none ∧ res.state.x () = 1 ∧ objAt env1 quadTie .gn (res.state.x) = objAt env1 quadTie .gn (v1 0) := by
  decide +kernel

example : quadTie.Consistent := fun _ => rfl
example : ∀ r, 0 ≤ objOf env1 .cwgn r := C38_objective_nonneg env1 .cwgn (by simp)

/-! ### C39 -/

theorem lsLoop_congr (env : Env K m n p L) (cfg cfg' : Cfg K) (h1 : cfg.maxIters = cfg'.maxIters) (h2 : cfg.stop = cfg'.stop) (h3 : cfg.tol = cfg'.tol) (tag : Tag)
    (upd : ((n → K) → Model.Nonlinear.SP K m n p L K) → K → Model.Nonlinear.SP K m n p L Unit) :
    ∀ (k : Nat) (i : Int), Model.Nonlinear.lsLoop env cfg tag upd k i = Model.Nonlinear.lsLoop env cfg' tag upd k i := by
  have hm : ∀ i, (Model.Nonlinear.lsMustStop cfg i : Prog (Reg K m n p L) Bool) = Model.Nonlinear.lsMustStop cfg' i := by
    intro i
    unfold Model.Nonlinear.lsMustStop Model.Nonlinear.belowTol
    rw [h1, h2, h3]
  intro k
  induction k with
  | zero => intro i; rfl
  | succ k ih =>
    intro i
    unfold Model.Nonlinear.lsLoop
    simp only [hm, ih]

/-- C39 is false: for every system, method and history, a least-squares solve with `Armijo` is, effect for effect, the solve with
    `BacktrackStrictlyDecreasingObjective`. -/
theorem C39_armijo_is_backtracking (env : Env K m n p L) (cfg : Cfg K) (sys : Sys K m n) (tag : Tag) (s : Reg K m n p L) :
    runLs env { cfg with update := .Armijo } sys tag s = runLs env { cfg with update := .BacktrackStrictlyDecreasingObjective } sys tag s := by
  unfold runLs Model.Nonlinear.lsSolve
  simp only [lsLoop_congr env { cfg with update := .Armijo } { cfg with update := .BacktrackStrictlyDecreasingObjective } rfl rfl rfl]

/-- C39: Newton refuses `Armijo`, leaving everything as it was. -/
theorem C39_newton_refuses (env : Env K m n p L) (cfg : Cfg K) (sys : Sys K m n) (hupd : cfg.update = .Armijo) (s : Reg K m n p L) :
    runNewton env cfg sys s = .stop (.exc (.runtimeError "Invalid criterion")) s := by
  unfold runNewton Model.Nonlinear.newtonSolve
  rw [hupd]
  rfl

/-- C39 is false: with `Armijo` the step from 0 to 1 on `x² - x + 1` is accepted; its length is 1, the gradient times the step is `-1`, and the objective does not
    decrease at all. -/
theorem C39_armijo_violated :
    let res := runLs env1 (cfgN .AfterMaxIters (1/100) 2 .Armijo) quadTie .gn (reg1 leastSquaresDiagnostics 0)
    let f : ℚ → ℚ := fun x => (x * x - x + 1) ^ 2 / 2
    let g0 : ℚ := (2 * 0 - 1) * (0 * 0 - 0 + 1)
    res.stop? = none ∧ res.state.x () = 0 + 1 * 1 ∧ ¬ f (res.state.x ()) - f 0 ≤ 1/10000 * 1 * (g0 * 1) := by
  decide +kernel

/-- C39, what exists: the Armijo updater itself (which no solver uses) does enforce the condition: when it returns, the state has moved by `2^{-j} c` with the
    Armijo condition satisfied.  Missing from the full property: that `solve` uses it. -/
theorem C39_armijo_updater_partial (env : Env K m n p L) (sys : Sys K m n) (tag : Tag) (f0 : K) (s s' : Reg K m n p L)
    (h : SM.run sys.toF (armijoUpdater (lsObjective env tag) f0) s = .ok () s') :
    ∃ j : Nat, ∃ v, s'.x = s.x + (1 / 2 : K) ^ j • s.c ∧ objAt env sys tag s'.x = .ok v ∧ v - f0 ≤ 1 / 10000 * (1 / 2 : K) ^ j * (s.g ⬝ᵥ s.c) := by
  unfold armijoUpdater at h
  simp only [SM.run_bind, SM.run_lift, Prog.bind_run, Prog.get_run] at h
  suffices hgen : ∀ (fuel : Nat) (j : Nat) (t : Reg K m n p L), t.x = s.x → t.c = s.c →
      SM.run sys.toF (Model.Nonlinear.armijoLoop (s.g ⬝ᵥ s.c) f0 (lsObjective env tag) fuel ((1/2:K)^j)) t = .ok () s' →
      ∃ j : Nat, ∃ v, s'.x = s.x + (1 / 2 : K) ^ j • s.c ∧ objAt env sys tag s'.x = .ok v ∧ v - f0 ≤ 1 / 10000 * (1 / 2 : K) ^ j * (s.g ⬝ᵥ s.c) by
    exact hgen 11 0 s rfl rfl (by simpa using h)
  intro fuel
  induction fuel with
  | zero => intro j t _ _ h; cases h
  | succ fuel ih =>
    intro j t hx hc h
    unfold Model.Nonlinear.armijoLoop at h
    by_cases ha : |(1/2:K)^j| ≤ 1/1000
    · rw [if_pos ha] at h; cases h
    · rw [if_neg ha] at h
      simp only [SM.run_bind, SM.run_lift, Prog.bind_run, Prog.modify_run, Prog.get_run, zero_smul, one_smul, zero_add] at h
      obtain ⟨r', W', cW', ho⟩ := objective_ok env sys tag (t.x + (1/2:K)^j • t.c) { t with trial := t.x + (1/2:K)^j • t.c }
      rw [ho] at h
      rcases hf : objAt env sys tag (t.x + (1/2:K)^j • t.c) with e | v
      · rw [hf] at h; cases h
      · rw [hf] at h
        simp only [SM.run_ite] at h
        by_cases hv : v - f0 ≤ (1/2:K)^j * (1/10000) * (s.g ⬝ᵥ s.c)
        · rw [if_pos hv] at h
          simp only [SM.run_lift, Prog.modify_run, one_smul] at h
          cases h
          refine ⟨j, v, by simp [hx, hc], hf, le_trans hv (le_of_eq (by ring))⟩
        · rw [if_neg hv] at h
          split at h
          · cases h
          · have e : (1/2:K)^j * (1/2) = (1/2:K)^(j+1) := by rw [pow_succ]
            rw [e] at h
            refine ih (j+1) _ ?_ ?_ h
            · exact hx
            · exact hc

/-- an instance: from 1 with `c = -1/2` on `x² - x + 1` (gradient 1, objective 1/2) -/
example : (SM.run quadTie.toF (armijoUpdater (lsObjective env1 .gn) (1/2)) { reg1 leastSquaresDiagnostics 1 with c := v1 (-1/2), g := v1 1 }).stop? = none := by decide +kernel

/-- C39, what exists, completely: the Armijo updater tries the points of Armijo's rule, in this order and no others, moves the state to the accepted one, and otherwise throws the exception of the rule and leaves
    the state unchanged.  Missing from the full property: that `solve` uses it. -/
theorem C39_armijo_updater_outcome_partial (env : Env K m n p L) (sys : Sys K m n) (tag : Tag) (f0 : K) (s : Reg K m n p L) :
    let out := Spec.Nonlinear.armijo (objAt env sys tag) s.x s.c f0 (s.g ⬝ᵥ s.c) steps
    let res := SM.run sys.toF (armijoUpdater (lsObjective env tag) f0) s
    res.state.log = s.log ++ out.1.map (fun x => sys.query x false) ∧ (∀ y, out.2 = .ok y → res.stop? = none ∧ res.state.x = y) ∧
      ∀ e, out.2 = .error e → res.stop? = some (.exc e) ∧ res.state.x = s.x := by
  unfold armijoUpdater
  simp only [SM.run_bind, SM.run_lift, Prog.bind_run, Prog.get_run]
  suffices hgen : ∀ (l : List K) (alpha : K), (∀ j (h : j < l.length), l[j] = alpha * (1/2)^j) → (∀ a ∈ l, ¬ |a| ≤ 1/1000) → |alpha * (1/2)^l.length| ≤ 1/1000 →
      ∀ t : Reg K m n p L, t.x = s.x → t.c = s.c →
      let out := Spec.Nonlinear.armijo (objAt env sys tag) s.x s.c f0 (s.g ⬝ᵥ s.c) l
      let res := SM.run sys.toF (Model.Nonlinear.armijoLoop (s.g ⬝ᵥ s.c) f0 (lsObjective env tag) (l.length + 1) alpha) t
      res.state.log = t.log ++ out.1.map (fun x => sys.query x false) ∧ (∀ y, out.2 = .ok y → res.stop? = none ∧ res.state.x = y) ∧
        ∀ e, out.2 = .error e → res.stop? = some (.exc e) ∧ res.state.x = s.x by
    have := hgen (steps : List K) 1 (by intro j h; simp [steps])
      (by
        intro a ha
        simp only [steps, List.mem_map, List.mem_range] at ha
        obtain ⟨j, hj, rfl⟩ := ha
        have : (0:K) < (1/2)^j := by positivity
        rw [abs_of_pos this, not_le]
        interval_cases j <;> norm_num)
      (by
        simp only [steps, List.length_map, List.length_range]
        rw [abs_of_pos (by positivity)]
        norm_num)
      s rfl rfl
    have hlen : (steps : List K).length + 1 = 11 := by simp [steps]
    rw [hlen] at this
    exact this
  intro l
  induction l with
  | nil =>
    intro alpha _ _ hlast t hx _
    have hlast : |alpha| ≤ 1/1000 := by simpa using hlast
    intro out res
    have hres : res = SM.run sys.toF (Model.Nonlinear.armijoLoop (s.g ⬝ᵥ s.c) f0 (lsObjective env tag) (0 + 1) alpha) t := rfl
    unfold Model.Nonlinear.armijoLoop at hres
    rw [if_pos hlast] at hres
    rw [hres]
    refine ⟨by simp [out, Spec.Nonlinear.armijo], fun y h => (by cases h), fun e h => ?_⟩
    cases h
    exact ⟨rfl, hx⟩
  | cons a l ih =>
    intro alpha hl hbig hlast t hx hc
    have ha : a = alpha := by
      have := hl 0 (by simp)
      simpa only [List.getElem_cons_zero, pow_zero, mul_one] using this
    subst ha
    have hb : ¬ |a| ≤ 1/1000 := hbig a (by simp)
    intro out res
    have hres : res = SM.run sys.toF (Model.Nonlinear.armijoLoop (s.g ⬝ᵥ s.c) f0 (lsObjective env tag) ((l.length + 1) + 1) a) t := rfl
    unfold Model.Nonlinear.armijoLoop at hres
    rw [if_neg hb] at hres
    simp only [SM.run_bind, SM.run_lift, Prog.bind_run, Prog.modify_run, Prog.get_run, zero_smul, one_smul, zero_add] at hres
    obtain ⟨r', W', cW', ho⟩ := objective_ok env sys tag (t.x + a • t.c) { t with trial := t.x + a • t.c }
    rw [ho, hx, hc] at hres
    have hout : out = Spec.Nonlinear.armijo (objAt env sys tag) s.x s.c f0 (s.g ⬝ᵥ s.c) (a :: l) := rfl
    unfold Spec.Nonlinear.armijo at hout
    rcases hf : objAt env sys tag (s.x + a • s.c) with e | v
    · rw [hf] at hres hout
      rw [hres, hout]
      refine ⟨by simp, fun y h => (by cases h), fun e h => ?_⟩
      cases h
      exact ⟨rfl, rfl⟩
    · rw [hf] at hres hout
      simp only [SM.run_ite] at hres
      by_cases hv : v - f0 ≤ a * (1/10000) * (s.g ⬝ᵥ s.c)
      · rw [if_pos hv] at hres
        simp only [if_pos hv] at hout
        simp only [SM.run_lift, Prog.modify_run, one_smul] at hres
        rw [hres, hout]
        refine ⟨by simp, fun y h => ?_, fun e h => (by cases h)⟩
        cases h
        exact ⟨rfl, rfl⟩
      · rw [if_neg hv] at hres
        simp only [if_neg hv, ← abs_le] at hout
        by_cases hw : |v - f0| ≤ 1 / 10 ^ 14
        · rw [if_pos hw] at hres hout
          rw [hres, hout]
          refine ⟨by simp, fun y h => (by cases h), fun e h => ?_⟩
          cases h
          exact ⟨rfl, rfl⟩
        · rw [if_neg hw] at hres hout
          have := ih (a * (1/2)) (by
              intro j h
              have := hl (j+1) (by simpa using h)
              simp only [List.getElem_cons_succ] at this
              rw [this]; ring)
            (fun b hb => hbig b (by simp [hb])) (by
              have e : a * (1/2) * (1/2)^l.length = a * (1/2)^((a :: l).length) := by simp only [List.length_cons]; ring
              rw [e]; exact hlast)
            { t with x := s.x, c := s.c, trial := s.x + a • s.c, r := r', Wr := W', cWr := cW', log := t.log ++ [sys.query (s.x + a • s.c) false] } rfl rfl
          rw [hres, hout]
          refine ⟨this.1.trans (by simp), this.2⟩

/-- instances on `x² - x + 1` from 0: a step to 3/2 is halved and then accepted; a step to 1 does not change the objective -/
example : let f : (Unit → ℚ) → Except Exc ℚ := fun x => .ok ((x () * x () - x () + 1) ^ 2 / 2)
    let out := Spec.Nonlinear.armijo f (fun _ => 0) (fun _ => 3 / 2) (1 / 2) (-3 / 2) steps
    let out' := Spec.Nonlinear.armijo f (fun _ => 0) (fun _ => 1) (1 / 2) (-1) steps
    out.1.map (· ()) = [3 / 2, 3 / 4] ∧ out.2.toOption.map (· ()) = some (3 / 4) ∧ out'.1.length = 1 ∧ out'.2 = .error .lineSearchObjFunctionChangeTooSmall := by
  refine ⟨by decide +kernel, by decide +kernel, by decide +kernel, ?_⟩
  norm_num [Spec.Nonlinear.armijo, steps, List.range_succ]

/-! ### C45 (least squares; all updates) -/

/-- C45: an evaluation of residual and Jacobian that throws one of the two residual exceptions makes a least-squares solve throw `NonlinearSolveFailure`, with every update
    option and inner solver. -/
theorem C45_least_squares_assembly_failure (env : Env K m n p L) (cfg : Cfg K) (sys : Sys K m n) (tag : Tag) (hopt : LsOption cfg tag) (s : Reg K m n p L) (hs : LsObj s) :
    let res := runLs env cfg sys tag s
    ∃ new, res.state.log = s.log ++ new ∧ ∀ q ∈ new, q.wantJ = true → (q.ans = .error .residualEvaluationFailureUnrecoverable ∨ q.ans = .error .residualHasNans) →
      res.stop? = some (.exc .nonlinearSolveFailure) := by
  intro res
  obtain ⟨rule, hr, -⟩ := ls_rule hopt
  obtain ⟨g1, -, -, g4, -⟩ := ls_run env cfg sys tag hs
  rw [ls_spec env cfg sys tag (absR s) hr] at g1 g4
  refine ⟨_, g4, fun q hq hw he => ?_⟩
  have g1 : res.stop? = _ := g1
  rw [g1]
  rcases he with he | he
  · rw [iterate_assembly_failure sys _ rfl _ _ _ _ q hq hw _ _ he rfl]; rfl
  · rw [iterate_assembly_failure sys _ rfl _ _ _ _ q hq hw _ _ he rfl]; rfl

/-- the same for Newton -/
theorem C45_newton_assembly_failure (env : Env K m n p L) (cfg : Cfg K) (sys : Sys K m n) (hopt : NewtonOption cfg) (s : Reg K m n p L) (hs : NewtonObj s) :
    let res := runNewton env cfg sys s
    ∃ new, res.state.log = s.log ++ new ∧ ∀ q ∈ new, q.wantJ = true → (q.ans = .error .residualEvaluationFailureUnrecoverable ∨ q.ans = .error .residualHasNans) →
      res.stop? = some (.exc .nonlinearSolveFailure) := by
  intro res
  obtain ⟨rule, hr, hspec⟩ := newton_spec env cfg sys hopt (absR s)
  obtain ⟨g1, g2, g3, g4, -⟩ := newton_run env cfg sys hs
  rw [hspec] at g1 g4
  refine ⟨_, g4, fun q hq hw he => ?_⟩
  have g1 : res.stop? = _ := g1
  rw [g1]
  rcases he with he | he
  · rw [iterate_assembly_failure sys _ rfl _ _ _ _ q hq hw _ _ he rfl]; rfl
  · rw [iterate_assembly_failure sys _ rfl _ _ _ _ q hq hw _ _ he rfl]; rfl

/-- C45 is false during line searches and Levenberg-Marquardt trials, in every case: an exception (other than the two line-search ones) thrown by a residual
    evaluation without Jacobian leaves `solve` untranslated. -/
theorem C45_least_squares_trial_escapes (env : Env K m n p L) (cfg : Cfg K) (sys : Sys K m n) (tag : Tag) (hopt : LsOption cfg tag) (s : Reg K m n p L) (hs : LsObj s) :
    let res := runLs env cfg sys tag s
    ∃ new, res.state.log = s.log ++ new ∧ ∀ q ∈ new, q.wantJ = false → ∀ e, q.ans = .error e → e ≠ .lineSearchStepTooSmall →
      e ≠ .lineSearchObjFunctionChangeTooSmall → res.stop? = some (.exc e) := by
  intro res
  obtain ⟨rule, hr, -⟩ := ls_rule hopt
  obtain ⟨g1, -, -, g4, -⟩ := ls_run env cfg sys tag hs
  rw [ls_spec env cfg sys tag (absR s) hr] at g1 g4
  have hmap : ∀ t e, sys.res t = .error e → objAt env sys tag t = .error e := by
    intro t e h; unfold objAt; rw [h]; rfl
  have hthru : LetsThrough sys (lsProblem env cfg sys tag rule) := by
    intro st r J now t ht e he
    have he := hmap t e he
    cases rule with
    | standard => cases ht
    | backtrack z => exact search_letsThrough _ _ _ _ _ _ _ t ht e he
    | lm1 =>
      show (lsUpd env sys tag .lm1 st r J now).val = _
      have ht : t ∈ (lsUpd env sys tag .lm1 st r J now).trials := ht
      unfold lsUpd at ht ⊢
      simp only at ht ⊢
      rcases ho : objAt env sys tag (st.x + st.c) with e' | v
      · rw [ho] at ht
        simp only [List.mem_singleton] at ht
        subst ht
        rw [ho] at he; cases he; rfl
      · rw [ho] at ht
        simp only [List.mem_singleton] at ht
        subst ht
        rw [ho] at he; cases he
    | lm2 =>
      show (lsUpd env sys tag .lm2 st r J now).val = _
      have ht : t ∈ (lsUpd env sys tag .lm2 st r J now).trials := ht
      unfold lsUpd at ht ⊢
      simp only at ht ⊢
      rcases ho : objAt env sys tag (st.x + st.c) with e' | v
      · rw [ho] at ht
        simp only [List.mem_singleton] at ht
        subst ht
        rw [ho] at he; cases he; rfl
      · rw [ho] at ht
        simp only [List.mem_singleton] at ht
        subst ht
        rw [ho] at he; cases he
  refine ⟨_, g4, fun q hq hw e he h1 h2 => ?_⟩
  have g1 : res.stop? = _ := g1
  have hb : breakdownText e = none := by cases e <;> first | rfl | exact absurd rfl h1 | exact absurd rfl h2
  rw [g1, iterate_trial_failure sys _ rfl hthru _ _ _ _ q hq hw e he hb]; rfl

/-- witnesses: the trial evaluation fails and the exception escapes, with backtracking and with both Levenberg-Marquardt schedules; with standard updates the same failure is
    translated -/
theorem C45_least_squares_escape_witness :
    (runLs env1 (cfgN .WhenAbsolutel2NormOfResidualBelowTolerance (1/100) 9 .BacktrackStrictlyDecreasingObjective) sqFail .gn (reg1 leastSquaresDiagnostics 3)).stop? =
      some (.exc .residualEvaluationFailureUnrecoverable) ∧
    (runLs env1 (cfgN .WhenAbsolutel2NormOfResidualBelowTolerance (1/100) 9 .LMSchedule1) sqFail .lm (reg1 leastSquaresDiagnostics 3)).stop? =
      some (.exc .residualEvaluationFailureUnrecoverable) ∧
    (runLs env1 (cfgN .WhenAbsolutel2NormOfResidualBelowTolerance (1/100) 9 .LMSchedule2) sqFail .lm (reg1 leastSquaresDiagnostics 3)).stop? =
      some (.exc .residualEvaluationFailureUnrecoverable) ∧
    (runLs env1 (cfgN .WhenAbsolutel2NormOfResidualBelowTolerance (1/100) 9 .Standard) sqFail .gn (reg1 leastSquaresDiagnostics 3)).stop? =
      some (.exc .nonlinearSolveFailure) := by
  decide +kernel

/-! ### The theorems on concrete runs -/

example := C37_backtracking_least_squares env1 cubic .gn 1 ((114/125)^2/2) { reg1 leastSquaresDiagnostics (4/5) with c := v1 (57/5) }
example := C37_backtracking_newton env1 cubic 1 (114/125) { reg1 newtonDiagnostics (4/5) with c := v1 (57/5) }
example := C38_least_squares_monotone env1 (cfgN .AfterMaxIters (1/100) 3 .BacktrackStrictlyDecreasingObjective) cubic (fun _ => rfl) .gn rfl (by decide) (.inl rfl) (reg1 leastSquaresDiagnostics (4/5)) (.created _ rfl)
  _ rfl
/-- a factor below one, with the objective of the compact weights -/
example := C38_least_squares_monotone env1 ⟨3, .AfterMaxIters, 1/100, .BacktrackStrictlyDecreasingObjective, some [1/2]⟩ cubic (fun _ => rfl) .cwgn rfl (by decide)
  (.inr ⟨by decide +kernel, C38_objective_nonneg env1 .cwgn (by simp)⟩) (reg1 leastSquaresDiagnostics (4/5)) (.created _ rfl) _ rfl
example := C38_newton_monotone env1 ⟨3, .WhenAbsolutel2NormOfResidualBelowTolerance, 1/100, .BacktrackStrictlyDecreasingObjective, some [1/2]⟩ cubic (fun _ => rfl) rfl (by decide)
  (.inr ⟨by decide +kernel, fun _ => abs_nonneg _⟩) (reg1 newtonDiagnostics (4/5)) (.created _ rfl) _ rfl
example := C39_newton_refuses env1 (cfgN .WhenAbsolutel2NormOfResidualBelowTolerance (1/100) 9 .Armijo) sq2 rfl (reg1 newtonDiagnostics 1)
example := C45_least_squares_assembly_failure env1 (cfgN .WhenAbsolutel2NormOfResidualBelowTolerance (1/100) 9 .Standard) sqFail .gn (.inl rfl) (reg1 leastSquaresDiagnostics 3) (.created _ rfl)
example := C45_newton_assembly_failure env1 (cfgN .WhenAbsolutel2NormOfResidualBelowTolerance (1/100) 9 .BacktrackStrictlyDecreasingObjective) sqFail (.inr ⟨rfl, by decide⟩) (reg1 newtonDiagnostics 3) (.created _ rfl)
example := C45_least_squares_trial_escapes env1 (cfgN .WhenAbsolutel2NormOfResidualBelowTolerance (1/100) 9 .LMSchedule1) sqFail .lm (.inr (.inr ⟨rfl, .inl rfl⟩)) (reg1 leastSquaresDiagnostics 3) (.created _ rfl)


end Pressio.Props
