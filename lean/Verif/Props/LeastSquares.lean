import Verif.Lemmas.NonlinearAgree
import Verif.Spec.NonlinearWitness
import Verif.Props.Newton

/-
  Properties of the least-squares solvers: C32, C33, C34, C36, C37, C38, C39, C45.  (Levenberg-Marquardt damping: `Props/LevenbergMarquardt.lean`.)

  `runLs env cfg sys tag s` is the call `solver.solve(sys, s.x)` of a least-squares solver of kind `tag`; `LsObj s`: memory of a solver object with any past.
-/
namespace Pressio.Props
set_option autoImplicit false
open Pressio Matrix
open Pressio.Model.Nonlinear (Env Cfg Reg StopCrit Update Tag leastSquaresDiagnostics)
open Pressio.Spec.Nonlinear
open Pressio.Lemmas.Nonlinear

variable {K m n p L : Type} [Field K] [LinearOrder K] [IsStrictOrderedRing K] [Fintype m] [Fintype n] [Fintype p] [DecidableEq n]

/-! ### C34 -/

/-- C34.  Gauss-Newton (normal equations, QR, weighted, compact weighted) with user objects that do what they should: whatever the system does, the state that
    solve leaves comes from `x₀` by a chain of at most `maxIters` updates, each of which moves along a correction `c` that minimises the (weighted) norm of the
    linearised residual `J d + r` over all `d`, where `r`, `J` are what the system returned there.  Standard updates add exactly `c`; a line search adds
    `2^{-j} c`. -/
theorem C34_gauss_newton_step [DecidableEq m] (env : Env K m n p L) (cfg : Cfg K) (sys : Sys K m n) (tag : Tag) (htag : tag ≠ .lm) (hinner : InnerExact env tag)
    (hopt : LsOption cfg tag) (s : Reg K m n p L) (hs : LsObj s) :
    let res := runLs env cfg sys tag s
    ∃ ys : List (n → K), ys.length ≤ cfg.maxIters.toNat ∧
      List.IsChain (fun x x' => ∃ r J c, ∃ j < 10, sys.resJac x = .ok (r, J) ∧ (∀ d, linModel env tag r J c ≤ linModel env tag r J d) ∧
        x' = x + (1 / 2 : K) ^ j • c ∧ (cfg.update = .Standard → j = 0)) (s.x :: ys) ∧
      (s.x :: ys).getLast (by simp) = res.state.x := by
  intro res
  obtain ⟨rule, hr, h1, h2, h3, h4⟩ := ls_rule hopt
  obtain ⟨-, g2, -⟩ := ls_run env cfg sys tag hs
  rw [ls_spec env cfg sys tag (absR s) hr] at g2
  obtain ⟨ys, f1, f2, f3, -⟩ := iterate_accepts sys (lsProblem env cfg sys tag rule) rfl cfg.maxIters.toNat 1 none (lsStart tag rule (absR s))
  have hx : (lsStart tag rule (absR s)).x = s.x := rfl
  refine ⟨ys.map Prod.fst, by simpa using f1, ?_, ?_⟩
  · have hmap : s.x :: ys.map Prod.fst = (((lsStart tag rule (absR s)).x, (lsStart tag rule (absR s)).damp, (lsStart tag rule (absR s)).nu) :: ys).map Prod.fst := rfl
    rw [hmap, List.isChain_map]
    refine List.IsChain.imp ?_ f2
    rintro ⟨x, d, nu⟩ ⟨x', d', nu'⟩ ⟨r, J, inn, c, b, l, hA, hC, hU⟩
    have hmin := correction_minimises env cfg sys tag rule hinner x r J d (fun h => absurd h htag) inn c b l hC
    simp only [if_neg htag, add_zero] at hmin
    cases rule with
    | standard =>
      have hU' : UpdVal.moved (x + c) d nu = .moved x' d' nu' := hU
      cases hU'
      exact ⟨r, J, c, 0, by omega, hA, hmin, by simp, fun _ => rfl⟩
    | backtrack z =>
      obtain ⟨l1, a, l2, e1, -, -, e4, -⟩ := search_moved _ _ _ _ _ _ _ _ _ _ hU
      obtain ⟨j, hj, rfl⟩ := mem_steps (a := a) (by rw [e1]; simp)
      exact ⟨r, J, c, j, hj, hA, hmin, e4, fun h => by cases h1 h⟩
    | lm1 =>
      rcases hopt with h | ⟨h, -⟩ | ⟨h, -⟩
      · cases h1 h
      · cases h2 h
      · exact absurd h htag
    | lm2 =>
      rcases hopt with h | ⟨h, -⟩ | ⟨h, -⟩
      · cases h1 h
      · cases h2 h
      · exact absurd h htag
  · have := congrArg St.x g2
    have f3 := congrArg Prod.fst f3
    rw [show res.state.x = _ from this]
    refine Eq.trans ?_ f3
    rw [← List.getLast_map (f := Prod.fst) (by simp)]
    rfl

/-! Non-vacuity: the user objects of the examples satisfy the hypotheses, and one Gauss-Newton step of each kind on `x² - 2` from 1 gives `3/2`. -/

theorem env1_inner (tag : Tag) : InnerExact env1 tag := by
  have hlin : ExactLin env1 := div1_exact
  have hmul : ∀ (A : Matrix Unit Unit ℚ) (v : Unit → ℚ), A *ᵥ v = v1 (A () () * v ()) := by
    intro A v; funext u; simp [Matrix.mulVec, dotProduct, v1]
  have hmm : ∀ (A B : Matrix Unit Unit ℚ), A * B = m1 (A () () * B () ()) := by
    intro A B; funext u v; simp [Matrix.mul_apply, m1]
  cases tag
  · exact hlin
  · intro J l l1 h
    simp only [env1] at h
    cases h
    refine ⟨1, J, by simp, by simp, fun r b b' l2 h => ?_⟩
    simp only [env1] at h
    cases h
    refine ⟨by simp, fun c c' l3 h => ?_⟩
    simp only [env1] at h
    by_cases hJ : J () () = 0
    · simp [hJ] at h
    · simp only [hJ, if_false] at h
      cases h
      rw [hmul]
      funext u
      simp only [v1]
      field_simp
  · refine ⟨hlin, m1 2, rfl, fun v => ?_, fun r => ?_, fun J => ?_⟩
    · rw [hmul]
      simp only [dotProduct, v1, m1, Finset.univ_unique, PUnit.default_eq_unit, Finset.sum_singleton]
      nlinarith [mul_self_nonneg (v ())]
    · rw [hmul]; rfl
    · rw [hmm]; rfl
  · refine ⟨hlin, m1 3, fun r => ?_, fun J => ?_⟩
    · rw [hmul]; rfl
    · rw [hmm]; rfl
  · exact hlin

example : LsObj (reg1 leastSquaresDiagnostics 1) := .created _ rfl
example : LsObj { (runLs env1 (cfgN .AfterMaxIters (1/100) 5 .Standard) sq2 .wgn (reg1 leastSquaresDiagnostics 1)).state with x := v1 3 } := .used _ _ _ _ _ _ (.created _ rfl)
example : ∀ tag ∈ [Tag.gn, .gnQr, .wgn, .cwgn], let res := runLs env1 (cfgN .AfterMaxIters (1/100) 2 .Standard) sq2 tag (reg1 leastSquaresDiagnostics 1)
    res.stop? = none ∧ res.state.x () = 3/2 := by decide +kernel

/-! ### C32, C36: iteration count, criteria -/

/-- the stopping test of a least-squares solver after `k` updates -/
def lsMet (cfg : Cfg K) (ref now : Norms K) (k : Nat) : Bool :=
  if cfg.stop = .AfterMaxIters then decide ((k : Int) + 1 = cfg.maxIters) else below cfg.stop cfg.tol ref now

/-- Standard updates with a correction that is a function of the state. -/
theorem ls_iterates (env : Env K m n p L) (cfg : Cfg K) (tag : Tag) (htag : tag ≠ .lm) (r : (n → K) → m → K)
    (J : (n → K) → Matrix m n K) (hupd : cfg.update = .Standard) (hmax : cfg.maxIters < int32Max) (s : Reg K m n p L) (hs : LsObj s) (corr : (n → K) → n → K) (tick : (n → K) → L → L)
    (hcorr : ∀ x c b l, ∃ b', (lsProblem env cfg (Sys.ofFun r J) tag .standard).corr x (r x) (J x) s.damp (c, b, l) = .ok () (corr x, b', tick x l)) :
    let res := runLs env cfg (Sys.ofFun r J) tag s
    let N : (n → K) → n → K := fun x => x + corr x
    let nrm : (n → K) → Norms K := fun x => ⟨env.normM (r x), env.normN (corr x), env.normN (gradOf env tag (r x) (J x)), objOf env tag (r x)⟩
    let met := fun k : Nat => lsMet cfg (nrm s.x) (nrm (N^[k] s.x)) k = true
    let evaluated := fun k : Nat => (List.range k).map (fun a => (⟨N^[a] s.x, true, .ok (r (N^[a] s.x), some (J (N^[a] s.x)))⟩ : Query (n → K) (Model.Nonlinear.Ans K m n)))
    let ticked := fun k : Nat => (List.range k).foldl (fun l a => tick (N^[a] s.x) l) s.lin
    res.stop? = none ∧ res.state.files = s.files ∧
    (∀ k : Nat, (k : Int) < cfg.maxIters → met k → (∀ j < k, ¬ met j) →
      res.state.x = N^[k] s.x ∧ res.state.log = s.log ++ evaluated (k + 1) ∧ res.state.lin = ticked (k + 1)) ∧
    ((∀ k : Nat, (k : Int) < cfg.maxIters → ¬ met k) →
      res.state.x = N^[cfg.maxIters.toNat] s.x ∧ res.state.log = s.log ++ evaluated cfg.maxIters.toNat ∧ res.state.lin = ticked cfg.maxIters.toNat) := by
  intro res N nrm met evaluated ticked
  have hr : lsRule cfg tag = .ok .standard := by unfold lsRule; rw [hupd]
  have hstart : lsStart tag .standard (absR s) = absR s := by
    unfold lsStart; rw [if_neg htag]
  have hstd : Std (Sys.ofFun r J) (lsProblem env cfg (Sys.ofFun r J) tag .standard) s.damp r J corr tick
      (fun i ref now => if cfg.stop = .AfterMaxIters then decide (i = cfg.maxIters) else below cfg.stop cfg.tol ref now) :=
    ⟨fun x => rfl, hcorr, fun _ _ _ => rfl, fun _ _ _ _ => rfl⟩
  obtain ⟨g1, g2, g3, g4, -, -⟩ := ls_run env cfg (Sys.ofFun r J) tag hs
  rw [ls_spec env cfg (Sys.ofFun r J) tag (absR s) hr, hstart] at g1 g2 g3 g4
  have hT : ∀ k : Nat, (if cfg.stop = .AfterMaxIters then decide ((1 : Int) + k = cfg.maxIters) else below cfg.stop cfg.tol (nrm s.x) (nrm (N^[k] s.x))) = true ↔ met k := by
    intro k
    show _ ↔ (if _ then _ else _) = true
    rw [add_comm]
  have hflat : ∀ (l : List Nat) (f : Nat → List String), (∀ a, f a = []) → l.flatMap f = [] := by
    intro l f hf; rw [List.flatMap_eq_nil_iff]; exact fun a _ => hf a
  have hstop : ∀ k : Nat, (k : Int) < cfg.maxIters → met k → (∀ j < k, ¬ met j) → res.stop? = none ∧ res.state.files = s.files ∧
      res.state.x = N^[k] s.x ∧ res.state.log = s.log ++ evaluated (k + 1) ∧ res.state.lin = ticked (k + 1) := by
    intro k hk hmet hbefore
    obtain ⟨f1, f2, f3, f4, -, f6⟩ := iterate_stop hstd cfg.maxIters.toNat 1 none (absR s) k rfl (by omega)
      (fun j hj => Bool.of_not_eq_true (fun h => hbefore j hj ((hT j).mp h))) ((hT k).mpr hmet)
    refine ⟨by rw [show res.stop? = _ from g1, f1]; rfl, ?_, ?_, ?_, ?_⟩
    · rw [show res.state.files = _ from g3, f4]; simp only [lsProblem, List.flatMap_nil, List.append_nil, absR]; exact (congrArg (s.files ++ ·) (hflat _ _ (fun _ => rfl))).trans (List.append_nil _)
    · have := congrArg St.x g2; rw [f2] at this; exact this
    · rw [show res.state.log = _ from g4, f3]; rfl
    · have := congrArg St.lin g2; rw [f6] at this; exact this
  have hlimit : (∀ k : Nat, (k : Int) < cfg.maxIters → ¬ met k) → res.stop? = none ∧ res.state.files = s.files ∧
      res.state.x = N^[cfg.maxIters.toNat] s.x ∧ res.state.log = s.log ++ evaluated cfg.maxIters.toNat ∧ res.state.lin = ticked cfg.maxIters.toNat := by
    intro hnever
    obtain ⟨f1, f2, f3, f4, -, f6⟩ := iterate_limit hstd cfg.maxIters.toNat 1 none (absR s) rfl
      (fun j hj => Bool.of_not_eq_true (fun h => hnever j (by omega) ((hT j).mp h)))
    refine ⟨?_, ?_, ?_, ?_, ?_⟩
    · rw [show res.stop? = _ from g1, f1, if_neg]
      · rfl
      · intro h
        have : (0:Int) < int32Max := by decide
        omega
    · rw [show res.state.files = _ from g3, f4]; simp only [lsProblem, List.flatMap_nil, List.append_nil, absR]; exact (congrArg (s.files ++ ·) (hflat _ _ (fun _ => rfl))).trans (List.append_nil _)
    · have := congrArg St.x g2; rw [f2] at this; exact this
    · rw [show res.state.log = _ from g4, f3]; rfl
    · have := congrArg St.lin g2; rw [f6] at this; exact this
  classical
  have hall : res.stop? = none ∧ res.state.files = s.files := by
    by_cases hex : ∃ k : Nat, (k : Int) < cfg.maxIters ∧ met k
    · have hm := Nat.find_spec hex
      have := hstop (Nat.find hex) hm.1 hm.2 (fun j hj hmet => Nat.find_min hex hj ⟨by omega, hmet⟩)
      exact ⟨this.1, this.2.1⟩
    · have := hlimit (fun k hk hmet => hex ⟨k, hk, hmet⟩)
      exact ⟨this.1, this.2.1⟩
  exact ⟨hall.1, hall.2, fun k h1 h2 h3 => (hstop k h1 h2 h3).2.2, fun h => (hlimit h).2.2⟩

/-- C36 and C32 (least squares).  Gauss-Newton solvers with standard updates, a system given by functions, and an inner solver whose answer is a function of its
    input (`sol`): with all nine criteria, if `k < maxIters` is the first iteration at which the criterion is met (for `AfterMaxIters`: `k = maxIters - 1`), solve returns
    `N^k x₀`, having evaluated residual and Jacobian `k+1` times, at the iterates `0, …, k`; the correction computed in the last iteration is not applied. If it is
    met in none, `maxIters` updates are made.  In both cases solve returns normally and writes no file. -/
theorem C36_least_squares_iterates (env : Env K m n p L) (cfg : Cfg K) (tag : Tag) (htag : tag = .gn ∨ tag = .wgn ∨ tag = .cwgn) (r : (n → K) → m → K)
    (J : (n → K) → Matrix m n K) (sol : Matrix n n K → (n → K) → n → K) (tick : L → L) (hlin : ∀ A b c l, env.lin A b (c, l) = .ok () (sol A b, tick l))
    (hupd : cfg.update = .Standard) (hmax : cfg.maxIters < int32Max) (s : Reg K m n p L) (hs : LsObj s) :
    let res := runLs env cfg (Sys.ofFun r J) tag s
    let corr : (n → K) → n → K := fun x => -sol (hessOf env tag (J x) s.damp) (gradOf env tag (r x) (J x))
    let N : (n → K) → n → K := fun x => x + corr x
    let nrm : (n → K) → Norms K := fun x => ⟨env.normM (r x), env.normN (corr x), env.normN (gradOf env tag (r x) (J x)), objOf env tag (r x)⟩
    let met := fun k : Nat => lsMet cfg (nrm s.x) (nrm (N^[k] s.x)) k = true
    let evaluated := fun k : Nat => (List.range k).map (fun a => (⟨N^[a] s.x, true, .ok (r (N^[a] s.x), some (J (N^[a] s.x)))⟩ : Query (n → K) (Model.Nonlinear.Ans K m n)))
    res.stop? = none ∧ res.state.files = s.files ∧
    (∀ k : Nat, (k : Int) < cfg.maxIters → met k → (∀ j < k, ¬ met j) →
      res.state.x = N^[k] s.x ∧ res.state.log = s.log ++ evaluated (k + 1) ∧ res.state.lin = tick^[k + 1] s.lin) ∧
    ((∀ k : Nat, (k : Int) < cfg.maxIters → ¬ met k) →
      res.state.x = N^[cfg.maxIters.toNat] s.x ∧ res.state.log = s.log ++ evaluated cfg.maxIters.toNat ∧ res.state.lin = tick^[cfg.maxIters.toNat] s.lin) := by
  intro res corr N nrm met evaluated
  have hlm : tag ≠ .lm := by rcases htag with h | h | h <;> rw [h] <;> simp
  obtain ⟨g1, g2, g3, g4⟩ := ls_iterates env cfg tag hlm r J hupd hmax s hs corr (fun _ => tick) (fun x c b l => ⟨b, by
    have : (lsProblem env cfg (Sys.ofFun r J) tag .standard).corr x (r x) (J x) s.damp (c, b, l) =
        negated (env.lin (hessOf env tag (J x) s.damp) (gradOf env tag (r x) (J x))) (c, b, l) := by
      rcases htag with h | h | h <;> rw [h] <;> rfl
    rw [this]
    simp only [negated, hlin]
    rfl⟩)
  refine ⟨g1, g2, fun k h1 h2 h3 => ?_, fun h => ?_⟩
  · obtain ⟨f1, f2, f3⟩ := g3 k h1 h2 h3
    exact ⟨f1, f2, by rw [f3]; beta_reduce; rw [foldl_const_iterate tick _ (fun _ _ => rfl)]⟩
  · obtain ⟨f1, f2, f3⟩ := g4 h
    exact ⟨f1, f2, by rw [f3]; beta_reduce; rw [foldl_const_iterate tick _ (fun _ _ => rfl)]⟩

/-- C36 and C32, Gauss-Newton with QR: the same when the QR solver object keeps the factorisation of the last matrix it was given, and its answers are functions of that matrix and of the vectors. -/
theorem C36_qr_iterates (env : Env K m n p L) (cfg : Cfg K) (r : (n → K) → m → K) (J : (n → K) → Matrix m n K) (fact : Matrix m n K → L) (qt : Matrix m n K → (m → K) → n → K)
    (back : Matrix m n K → (n → K) → n → K) (hthin : ∀ A l, env.qrThin A l = .ok () (fact A)) (hqt : ∀ A v b, env.qrApplyQT v (b, fact A) = .ok () (qt A v, fact A))
    (hback : ∀ A b c, env.qrSolve b (c, fact A) = .ok () (back A b, fact A)) (hupd : cfg.update = .Standard) (hmax : cfg.maxIters < int32Max) (s : Reg K m n p L) (hs : LsObj s) :
    let res := runLs env cfg (Sys.ofFun r J) .gnQr s
    let corr : (n → K) → n → K := fun x => -back (J x) (qt (J x) (r x))
    let N : (n → K) → n → K := fun x => x + corr x
    let nrm : (n → K) → Norms K := fun x => ⟨env.normM (r x), env.normN (corr x), env.normN ((J x)ᵀ *ᵥ r x), env.normM (r x) ^ 2 / 2⟩
    let met := fun k : Nat => lsMet cfg (nrm s.x) (nrm (N^[k] s.x)) k = true
    let evaluated := fun k : Nat => (List.range k).map (fun a => (⟨N^[a] s.x, true, .ok (r (N^[a] s.x), some (J (N^[a] s.x)))⟩ : Query (n → K) (Model.Nonlinear.Ans K m n)))
    res.stop? = none ∧ res.state.files = s.files ∧
    (∀ k : Nat, (k : Int) < cfg.maxIters → met k → (∀ j < k, ¬ met j) →
      res.state.x = N^[k] s.x ∧ res.state.log = s.log ++ evaluated (k + 1) ∧ res.state.lin = fact (J (N^[k] s.x))) ∧
    ((∀ k : Nat, (k : Int) < cfg.maxIters → ¬ met k) →
      res.state.x = N^[cfg.maxIters.toNat] s.x ∧ res.state.log = s.log ++ evaluated cfg.maxIters.toNat ∧
      res.state.lin = if 1 ≤ cfg.maxIters then fact (J (N^[cfg.maxIters.toNat - 1] s.x)) else s.lin) := by
  intro res corr N nrm met evaluated
  obtain ⟨g1, g2, g3, g4⟩ := ls_iterates env cfg .gnQr (by simp) r J hupd hmax s hs corr (fun x _ => fact (J x)) (fun x c b l => ⟨qt (J x) (r x), by
    show qrNegated env (r x) (J x) (c, b, l) = _
    simp only [qrNegated, hthin, hqt, negated, hback]
    rfl⟩)
  refine ⟨g1, g2, fun k h1 h2 h3 => ?_, fun h => ?_⟩
  · obtain ⟨f1, f2, f3⟩ := g3 k h1 h2 h3
    exact ⟨f1, f2, by rw [f3]; beta_reduce; rw [List.range_succ, List.foldl_append]; rfl⟩
  · obtain ⟨f1, f2, f3⟩ := g4 h
    refine ⟨f1, f2, ?_⟩
    rw [f3]
    beta_reduce
    by_cases h0 : 1 ≤ cfg.maxIters
    · obtain ⟨N0, hN0⟩ : ∃ N0, cfg.maxIters.toNat = N0 + 1 := ⟨cfg.maxIters.toNat - 1, by omega⟩
      rw [if_pos h0, hN0, List.range_succ, List.foldl_append]; rfl
    · rw [if_neg h0, show cfg.maxIters.toNat = 0 by omega]; rfl

/-- the hypotheses of `C36_qr_iterates` are met by a QR solver that always answers -/
example := C36_qr_iterates { env1 with qrSolve := fun b (_, l) => .ok () (v1 (b () / l), l) } (cfgN .AfterMaxIters (1/100) 5 .Standard) (fun x => v1 (x () ^ 2 - 2)) (fun x => m1 (2 * x ())) (fun A => A () ()) (fun _ v => v)
  (fun A b => v1 (b () / A () ())) (fun _ _ => rfl) (fun _ _ _ => rfl) (fun _ _ _ => rfl) rfl (by decide) (reg1 leastSquaresDiagnostics 1) (.created _ rfl)

/-- C36.  With `AfterMaxIters`, `maxIters ≥ 1`: `maxIters` assemblies, but only `maxIters - 1` updates. -/
theorem C36_after_max_iters (env : Env K m n p L) (cfg : Cfg K) (tag : Tag) (htag : tag = .gn ∨ tag = .wgn ∨ tag = .cwgn) (r : (n → K) → m → K)
    (J : (n → K) → Matrix m n K) (sol : Matrix n n K → (n → K) → n → K) (tick : L → L) (hlin : ∀ A b c l, env.lin A b (c, l) = .ok () (sol A b, tick l))
    (hupd : cfg.update = .Standard) (hstop : cfg.stop = .AfterMaxIters) (h1 : 1 ≤ cfg.maxIters) (hmax : cfg.maxIters < int32Max) (s : Reg K m n p L) (hs : LsObj s) :
    let res := runLs env cfg (Sys.ofFun r J) tag s
    res.stop? = none ∧ res.state.log.length = s.log.length + cfg.maxIters.toNat ∧ res.state.lin = tick^[cfg.maxIters.toNat] s.lin ∧
    res.state.x = (fun x => x + -sol (hessOf env tag (J x) s.damp) (gradOf env tag (r x) (J x)))^[cfg.maxIters.toNat - 1] s.x := by
  intro res
  obtain ⟨f1, -, f3, -⟩ := C36_least_squares_iterates env cfg tag htag r J sol tick hlin hupd hmax s hs
  obtain ⟨e1, e2, e3⟩ := f3 (cfg.maxIters.toNat - 1) (by omega)
    (by simp only [lsMet, hstop, if_true, decide_eq_true_eq]; omega)
    (fun j hj h => by simp only [lsMet, hstop, if_true, decide_eq_true_eq] at h; omega)
  have hsub : cfg.maxIters.toNat - 1 + 1 = cfg.maxIters.toNat := by omega
  rw [hsub] at e2 e3
  exact ⟨f1, by rw [show res.state.log = _ from e2]; simp, e3, e1⟩

/-- C36 in general (any method, any accepted option, any system, any inner solver, however the solve ends): there are never more than `maxIters` assemblies, each
    update is followed by an assembly at the new state or is the `maxIters`-th one; with `AfterMaxIters` there are at most `maxIters - 1` updates, and exactly that many if
    the solve returns normally and no line search is used. -/
theorem C36_assemblies_and_updates (env : Env K m n p L) (cfg : Cfg K) (sys : Sys K m n) (tag : Tag) (hopt : LsOption cfg tag) (s : Reg K m n p L) (hs : LsObj s) :
    let res := runLs env cfg sys tag s
    ∃ (ys : List (n → K)) (new : List (Query (n → K) (Model.Nonlinear.Ans K m n))), res.state.log = s.log ++ new ∧ ys.length ≤ cfg.maxIters.toNat ∧
      (s.x :: ys).getLast (by simp) = res.state.x ∧
      (new.filter (fun q => q.wantJ)).map (fun q => q.x) = (if ys.length = cfg.maxIters.toNat then (s.x :: ys).dropLast else s.x :: ys) ∧
      (cfg.stop = .AfterMaxIters → 1 ≤ cfg.maxIters → ys.length ≤ cfg.maxIters.toNat - 1) ∧
      (cfg.stop = .AfterMaxIters → 1 ≤ cfg.maxIters → cfg.update = .Standard → res.stop? = none → ys.length = cfg.maxIters.toNat - 1) := by
  intro res
  obtain ⟨rule, hr, hst, -⟩ := ls_rule hopt
  obtain ⟨g1, g2, -, g4, -⟩ := ls_run env cfg sys tag hs
  rw [ls_spec env cfg sys tag (absR s) hr] at g1 g2 g4
  obtain ⟨ys, f1, f2, f3, f4, f5, f6, f7⟩ := iterate_accepts sys (lsProblem env cfg sys tag rule) rfl cfg.maxIters.toNat 1 none (lsStart tag rule (absR s))
  have hmap : s.x :: ys.map Prod.fst = (((lsStart tag rule (absR s)).x, (lsStart tag rule (absR s)).damp, (lsStart tag rule (absR s)).nu) :: ys).map Prod.fst := rfl
  have hlen : cfg.stop = .AfterMaxIters → 1 ≤ cfg.maxIters → ys.length ≤ cfg.maxIters.toNat - 1 := by
    intro hs h1
    by_contra hlt
    obtain ⟨rf, now, ht⟩ := f7 (cfg.maxIters.toNat - 1) (by omega)
    have ht : (.ok (if cfg.stop = .AfterMaxIters then decide ((1 : Int) + ((cfg.maxIters.toNat - 1 : Nat) : Int) = cfg.maxIters) else below cfg.stop cfg.tol rf now) : Except Exc Bool) = .ok false := ht
    rw [if_pos hs] at ht
    have := Except.ok.inj ht
    rw [decide_eq_false_iff_not] at this
    omega
  refine ⟨ys.map Prod.fst, _, g4, by simpa using f1, ?_, ?_, by simpa using hlen, ?_⟩
  · have := congrArg St.x g2
    have f3 := congrArg Prod.fst f3
    rw [show res.state.x = _ from this]
    refine Eq.trans ?_ f3
    rw [← List.getLast_map (f := Prod.fst) (by simp)]
    rfl
  · rw [f4, List.length_map, hmap, ← List.map_dropLast]
    split <;> rfl
  · intro hs h1 hu hn
    have hrule := hst hu
    subst hrule
    have g1 : res.stop? = _ := g1
    rw [hn] at g1
    rw [List.length_map]
    rcases he : (iterate sys (lsProblem env cfg sys tag .standard) cfg.maxIters.toNat 1 none (lsStart tag .standard (absR s))).how with _ | _ | _ | h
    · obtain ⟨h2, rf, now, ht⟩ := f6 he
      have ht : (.ok (if cfg.stop = .AfterMaxIters then decide ((1 : Int) + (ys.length : Int) = cfg.maxIters) else below cfg.stop cfg.tol rf now) : Except Exc Bool) = .ok true := ht
      rw [if_pos hs] at ht
      have := Except.ok.inj ht
      rw [decide_eq_true_eq] at this
      omega
    · have := f5 he
      have := hlen hs h1
      omega
    · exact absurd he (iterate_no_breakdown sys _ (fun s r J now => ⟨_, _, _, rfl⟩) _ _ _ _)
    · rw [he] at g1; cases g1

example : let res := runLs env1 (cfgN .AfterMaxIters (1/100) 3 .Standard) sq2 .gn (reg1 leastSquaresDiagnostics 1)
    res.stop? = none ∧ res.state.x () = 17/12 ∧ res.state.log.length = 3 := by decide +kernel
/-- with one iteration allowed nothing is ever updated -/
example : let res := runLs env1 (cfgN .AfterMaxIters (1/100) 1 .Standard) sq2 .gn (reg1 leastSquaresDiagnostics 1)
    res.stop? = none ∧ res.state.x () = 1 ∧ res.state.log.length = 1 := by decide +kernel

/-! ### C33 (least squares) -/

/-- C33 is false of the least-squares solvers: `|gradient| = 2·(3/2)·(1/4) = 3/4` at the returned state, tolerance `1/100`; nothing tells the caller. -/
theorem C33_least_squares_normal_return_unconverged :
    let res := runLs env1 (cfgN .WhenAbsolutel2NormOfGradientBelowTolerance (1/100) 1 .Standard) sq2 .gn (reg1 leastSquaresDiagnostics 1)
    res.stop? = none ∧ res.state.files = [] ∧ res.state.x () = 3/2 ∧ ¬ |2 * res.state.x () * (res.state.x () * res.state.x () - 2)| < 1/100 := by
  decide +kernel

/-- C33, what holds: a least-squares solve without line search that returns normally with fewer than `maxIters` updates has met its criterion at the
    returned state.  Missing from the full property: the iteration limit (see the refutation) and line-search breakdown. -/
theorem C33_least_squares_early_return_converged_partial (env : Env K m n p L) (cfg : Cfg K) (sys : Sys K m n) (tag : Tag) (hupd : cfg.update = .Standard)
    (hstop : cfg.stop ≠ .AfterMaxIters) (s : Reg K m n p L) (hs : LsObj s) (hc : sys.Consistent) :
    let res := runLs env cfg sys tag s
    res.stop? = none → (res.state.log.filter (fun q => q.wantJ)).length - (s.log.filter (fun q => q.wantJ)).length < cfg.maxIters.toNat →
    ∃ r J ref, sys.resJac res.state.x = .ok (r, J) ∧
      below cfg.stop cfg.tol ref ⟨env.normM r, env.normN res.state.c, env.normN (gradOf env tag r J), objOf env tag r⟩ = true := by
  intro res hn hlt
  have hr : lsRule cfg tag = .ok .standard := by unfold lsRule; rw [hupd]
  obtain ⟨g1, g2, -, g4, -⟩ := ls_run env cfg sys tag hs
  rw [ls_spec env cfg sys tag (absR s) hr] at g1 g2 g4
  obtain ⟨ys, f1, f2, f3, f4, f5, f6, f7⟩ := iterate_accepts sys (lsProblem env cfg sys tag .standard) rfl cfg.maxIters.toNat 1 none (lsStart tag .standard (absR s))
  have g1 : res.stop? = _ := g1
  rw [hn] at g1
  rcases he : (iterate sys (lsProblem env cfg sys tag .standard) cfg.maxIters.toNat 1 none (lsStart tag .standard (absR s))).how with _ | _ | _ | h
  · obtain ⟨j, hj, r, J, inn, b, l, rf, e1, -, -, e4, -⟩ := iterate_stopped sys _ _ _ _ _ he
    rw [← g2] at e1 e4
    refine ⟨r, J, rf, e1, ?_⟩
    have e4 : (.ok (if cfg.stop = .AfterMaxIters then decide ((1 : Int) + (j : Int) = cfg.maxIters) else below cfg.stop cfg.tol rf
      ⟨env.normM r, env.normN res.state.c, env.normN (gradOf env tag r J), objOf env tag r⟩) : Except Exc Bool) = .ok true := e4
    rw [if_neg hstop] at e4
    exact Except.ok.inj e4
  · exfalso
    have hl := f5 he
    have f4 := congrArg List.length f4
    rw [if_pos hl] at f4
    simp only [List.length_map, List.length_dropLast, List.length_cons] at f4
    have g4 : res.state.log = _ := g4
    rw [g4, List.filter_append, List.length_append] at hlt
    omega
  · exact absurd he (iterate_no_breakdown sys _ (fun s r J now => ⟨_, _, _, rfl⟩) _ _ _ _)
  · rw [he] at g1; cases g1

/-! ### The theorems on concrete runs -/

example := C36_least_squares_iterates (L := ℚ) { env1 with lin := fun A b (_, l) => .ok () (v1 (b () / A () ()), l + 1) } (cfgN .WhenAbsolutel2NormOfGradientBelowTolerance (1/100) 5 .Standard) .wgn (.inr (.inl rfl))
  (fun x => v1 (x () ^ 2 - 2)) (fun x => m1 (2 * x ())) (fun A b => v1 (b () / A () ())) (· + 1) (fun _ _ _ _ => rfl) rfl (by decide) (reg1 leastSquaresDiagnostics 1) (.created _ rfl)
example := C36_after_max_iters (L := ℚ) { env1 with lin := fun A b (_, l) => .ok () (v1 (b () / A () ()), l + 1) } (cfgN .AfterMaxIters (1/100) 5 .Standard) .gn (.inl rfl)
  (fun x => v1 (x () ^ 2 - 2)) (fun x => m1 (2 * x ())) (fun A b => v1 (b () / A () ())) (· + 1) (fun _ _ _ _ => rfl) rfl rfl (by decide) (by decide) (reg1 leastSquaresDiagnostics 1) (.created _ rfl)
/-- the criterion is met at the third iterate, four iterations early -/
example := C33_least_squares_early_return_converged_partial env1 (cfgN .WhenAbsolutel2NormOfResidualBelowTolerance (1/100) 7 .Standard) sq2 .gn rfl (by decide) (reg1 leastSquaresDiagnostics 1) (.created _ rfl)
  (fun _ => rfl) (by decide +kernel) (by decide +kernel)


end Pressio.Props
