import Verif.Lemmas.NonlinearObjects
import Verif.Spec.NonlinearWitness
import Mathlib.Tactic.FieldSimp
import Mathlib.Tactic.Abel

/-
  Properties of the Newton solver: C30, C31, C32 (Newton), C33 (Newton), C45 (Newton).

  `runNewton env cfg sys s` is the call `solver.solve(sys, s.x)` of a solver object with memory `s`; `NewtonObj s` says that the memory is that of a solver
  object with any past.
-/
namespace Pressio.Props
set_option autoImplicit false
open Pressio Matrix
open Pressio.Model.Nonlinear (Env Cfg Reg StopCrit Update newtonDiagnostics)
open Pressio.Spec.Nonlinear
open Pressio.Lemmas.Nonlinear

variable {K m n p L : Type} [Field K] [LinearOrder K] [IsStrictOrderedRing K] [Fintype m] [Fintype n] [Fintype p]

/-! ### Helpers -/

theorem newton_std (env : Env K m n p L) (cfg : Cfg K) (r : (n → K) → m → K) (J : (n → K) → Matrix m n K) (sol : Matrix m n K → (m → K) → n → K) (tick : L → L)
    (hlin : ∀ A b c l, env.linJ A b (c, l) = .ok () (sol A b, tick l)) (hcrit : rootCriterion cfg.stop = true) (d : K) :
    Std (Sys.ofFun r J) (newtonProblem env cfg (Sys.ofFun r J) false .standard) d r J (fun x => -sol (J x) (r x)) (fun _ => tick)
      (fun _ ref now => below cfg.stop cfg.tol ref now) where
  asm := fun x => rfl
  corr := fun x c b l => ⟨b, by
    show negated (env.linJ (J x) (r x)) (c, b, l) = _
    simp only [negated, hlin]⟩
  test := fun i ref now => by
    show (if rootCriterion cfg.stop then _ else _) = _
    rw [if_pos hcrit]
  upd := fun s r J now => rfl

theorem foldl_const_iterate (tick : L → L) (f : Nat → L → L) (hf : ∀ a l, f a l = tick l) (l : L) (k : Nat) :
    (List.range k).foldl (fun l a => f a l) l = tick^[k] l := by
  induction k with
  | zero => rfl
  | succ k ih => rw [List.range_succ, List.foldl_append, ih, Function.iterate_succ_apply']; simp [hf]

/-! ### C30 -/

/-- C30.  Newton with standard updates on a system `r`, `J` with a linear solver whose answer is a function `sol` of matrix and right-hand side (`tick`: what
    one linear solve does to the linear solver object, so that `tick^[k]` counts the linear solves): with `N x = x - sol (J x) (r x)`,
    * if the criterion is met at iterate `k`, for the first time, with `k < maxIters`, then solve returns `N^k x₀`: the correction computed there is not applied,
      the system was evaluated exactly at the iterates `0, …, k`, there were `k+1` linear solves, and the termination file is not written;
    * if the criterion is met at none of the iterates `0, …, maxIters-1`, solve returns (normally) `N^maxIters x₀` after `maxIters` evaluations and linear solves,
      having written the termination file (when `maxIters ≥ 1`).
    The criterion compares with the tolerance the norm of `r` or of the correction at an iterate, or its ratio to the one at `x₀`. -/
theorem C30_newton_iterates (env : Env K m n p L) (cfg : Cfg K) (r : (n → K) → m → K) (J : (n → K) → Matrix m n K) (sol : Matrix m n K → (m → K) → n → K)
    (tick : L → L) (hlin : ∀ A b c l, env.linJ A b (c, l) = .ok () (sol A b, tick l)) (hcrit : rootCriterion cfg.stop = true)
    (hupd : cfg.update = .Standard) (hmax : cfg.maxIters < int32Max) (s : Reg K m n p L) (hs : NewtonObj s) :
    let res := runNewton env cfg (Sys.ofFun r J) s
    let N : (n → K) → n → K := fun x => x + -sol (J x) (r x)
    let nrm : (n → K) → Norms K := fun x => ⟨env.normM (r x), env.normN (-sol (J x) (r x)), 0, 0⟩
    let met := fun k : Nat => below cfg.stop cfg.tol (nrm s.x) (nrm (N^[k] s.x)) = true
    let evaluated := fun k : Nat => (List.range k).map (fun a => (⟨N^[a] s.x, true, .ok (r (N^[a] s.x), some (J (N^[a] s.x)))⟩ : Query (n → K) (Model.Nonlinear.Ans K m n)))
    res.stop? = none ∧
    (∀ k : Nat, (k : Int) < cfg.maxIters → met k → (∀ j < k, ¬ met j) →
      res.state.x = N^[k] s.x ∧ res.state.log = s.log ++ evaluated (k + 1) ∧ res.state.lin = tick^[k + 1] s.lin ∧ res.state.files = s.files) ∧
    ((∀ k : Nat, (k : Int) < cfg.maxIters → ¬ met k) →
      res.state.x = N^[cfg.maxIters.toNat] s.x ∧ res.state.log = s.log ++ evaluated cfg.maxIters.toNat ∧
      res.state.lin = tick^[cfg.maxIters.toNat] s.lin ∧
      res.state.files = s.files ++ if 1 ≤ cfg.maxIters then ["reached maximum number of iterations before convergence"] else []) := by
  intro res N nrm met evaluated
  have hstd := newton_std env cfg r J sol tick hlin hcrit s.damp
  obtain ⟨g1, g2, g3, g4, -, -⟩ := newton_run env cfg (Sys.ofFun r J) hs
  have hspec : Spec.Nonlinear.newtonSolve env cfg (Sys.ofFun r J) (absR s) =
      iterate (Sys.ofFun r J) (newtonProblem env cfg (Sys.ofFun r J) false .standard) cfg.maxIters.toNat 1 none (absR s) := by
    unfold Spec.Nonlinear.newtonSolve newtonRule
    rw [hupd]
  rw [hspec] at g1 g2 g3 g4
  have hq : ∀ k, (List.range k).map (fun a => (Sys.ofFun r J).query (N^[a] s.x) (newtonProblem (p := p) env cfg (Sys.ofFun r J) false .standard).withJ) = evaluated k := by
    intro k; rfl
  have hstop : ∀ k : Nat, (k : Int) < cfg.maxIters → met k → (∀ j < k, ¬ met j) → res.stop? = none ∧
      res.state.x = N^[k] s.x ∧ res.state.log = s.log ++ evaluated (k + 1) ∧ res.state.lin = tick^[k + 1] s.lin ∧ res.state.files = s.files := by
    intro k hk hmet hbefore
    have := iterate_stop hstd cfg.maxIters.toNat 1 none (absR s) k rfl (by omega)
      (fun j hj => Bool.of_not_eq_true (hbefore j hj)) hmet
    obtain ⟨f1, f2, f3, f4, -, f6⟩ := this
    refine ⟨by rw [g1, f1]; rfl, ?_, ?_, ?_, ?_⟩
    · have := congrArg St.x g2; rw [f2] at this; exact this
    · rw [g4, f3]; rfl
    · have := congrArg St.lin g2; rw [f6, foldl_const_iterate tick _ (fun _ _ => rfl)] at this; exact this
    · rw [g3, f4]
      suffices h : (List.range (k+1)).flatMap (fun (a : Nat) => (newtonProblem (p := p) env cfg (Sys.ofFun r J) false .standard).note (1 + a)
          (nrm s.x) (nrm (N^[a] s.x))) = [] by
        exact (congrArg _ h).trans (List.append_nil _)
      rw [List.flatMap_eq_nil_iff]
      intro a ha
      rw [List.mem_range] at ha
      show (if _ then _ else _) = _
      rw [if_neg]
      rintro ⟨h1, h2⟩
      have : a = k := by omega
      subst this
      have : below cfg.stop cfg.tol (nrm s.x) (nrm (N^[a] s.x)) = true := hmet
      rw [this] at h2; cases h2
  have hlimit : (∀ k : Nat, (k : Int) < cfg.maxIters → ¬ met k) → res.stop? = none ∧
      res.state.x = N^[cfg.maxIters.toNat] s.x ∧ res.state.log = s.log ++ evaluated cfg.maxIters.toNat ∧
      res.state.lin = tick^[cfg.maxIters.toNat] s.lin ∧
      res.state.files = s.files ++ if 1 ≤ cfg.maxIters then ["reached maximum number of iterations before convergence"] else [] := by
    intro hnever
    have := iterate_limit hstd cfg.maxIters.toNat 1 none (absR s) rfl (fun j hj => Bool.of_not_eq_true (hnever j (by omega)))
    obtain ⟨f1, f2, f3, f4, -, f6⟩ := this
    refine ⟨?_, ?_, ?_, ?_, ?_⟩
    · rw [g1, f1, if_neg]
      · rfl
      · intro h
        have : (0:Int) < int32Max := by decide
        omega
    · have := congrArg St.x g2; rw [f2] at this; exact this
    · rw [g4, f3]; rfl
    · have := congrArg St.lin g2; rw [f6, foldl_const_iterate tick _ (fun _ _ => rfl)] at this; exact this
    · rw [g3, f4]
      congr 1
      have hnote : ∀ a : Nat, a < cfg.maxIters.toNat → (newtonProblem (p := p) env cfg (Sys.ofFun r J) false .standard).note (1 + a) (nrm s.x) (nrm (N^[a] s.x)) =
          if a + 1 = cfg.maxIters.toNat then ["reached maximum number of iterations before convergence"] else [] := by
        intro a ha
        show (if _ then _ else _) = _
        have hb : below cfg.stop cfg.tol (nrm s.x) (nrm (N^[a] s.x)) = false := Bool.of_not_eq_true (hnever a (by omega))
        by_cases h : a + 1 = cfg.maxIters.toNat
        · rw [if_pos h, if_pos ⟨by omega, hb⟩]
        · rw [if_neg h, if_neg]
          rintro ⟨h1, -⟩; omega
      show (List.range cfg.maxIters.toNat).flatMap (fun (a : Nat) => (newtonProblem (p := p) env cfg (Sys.ofFun r J) false .standard).note (1 + a)
          (nrm s.x) (nrm (N^[a] s.x))) = _
      by_cases h1 : 1 ≤ cfg.maxIters
      · rw [if_pos h1]
        obtain ⟨k, hk⟩ : ∃ k, cfg.maxIters.toNat = k + 1 := ⟨cfg.maxIters.toNat - 1, by omega⟩
        rw [hk] at hnote ⊢
        rw [List.range_succ, List.flatMap_append]
        have : (List.range k).flatMap (fun (a : Nat) => (newtonProblem (p := p) env cfg (Sys.ofFun r J) false .standard).note (1 + a) (nrm s.x) (nrm (N^[a] s.x))) = [] := by
          rw [List.flatMap_eq_nil_iff]
          intro a ha
          rw [List.mem_range] at ha
          rw [hnote a (by omega), if_neg (by omega)]
        rw [this, List.nil_append, List.flatMap_singleton, hnote k (by omega), if_pos rfl]
      · rw [if_neg h1]
        have : cfg.maxIters.toNat = 0 := by omega
        rw [this]; rfl
  refine ⟨?_, fun k h1 h2 h3 => (hstop k h1 h2 h3).2, fun h => (hlimit h).2⟩
  classical
  by_cases hex : ∃ k : Nat, (k : Int) < cfg.maxIters ∧ met k
  · have hm := Nat.find_spec hex
    refine (hstop (Nat.find hex) hm.1 hm.2 (fun j hj hmet => ?_)).1
    exact Nat.find_min hex hj ⟨by omega, hmet⟩
  · exact (hlimit (fun k hk hmet => hex ⟨k, hk, hmet⟩)).1

/-- the update options with which a Newton solver works -/
def NewtonOption (cfg : Cfg K) : Prop := cfg.update = .Standard ∨ cfg.update = .BacktrackStrictlyDecreasingObjective ∧ cfg.params ≠ some []

theorem newton_rule {cfg : Cfg K} (h : NewtonOption cfg) : ∃ rule, newtonRule cfg = .ok rule ∧ (cfg.update = .Standard → rule = .standard) := by
  unfold newtonRule
  rcases h with h | ⟨h, hp⟩
  · rw [h]; exact ⟨_, rfl, fun _ => rfl⟩
  · rw [h]
    rcases hq : cfg.params with _ | _ | ⟨z, zs⟩
    · exact ⟨_, rfl, by simp⟩
    · exact absurd hq hp
    · exact ⟨_, rfl, by simp⟩

theorem negated_ok {f : Prog ((n → K) × L) Unit} {inn : (n → K) × (n → K) × L} {c b : n → K} {l : L} (h : negated f inn = .ok () (c, b, l)) :
    f (inn.1, inn.2.2) = .ok () (-c, l) := by
  obtain ⟨c0, b0, l0⟩ := inn
  unfold negated at h
  rcases hf : f (c0, l0) with ⟨⟨⟩, c1, l1⟩ | ⟨h', c1, l1⟩
  · simp only [hf] at h
    cases h
    simp [hf]
  · simp only [hf] at h
    cases h

/-- C30, in general: the system may fail, the linear solver may have memory and may throw.  If the linear solver, whenever it returns, solves the linear
    system, then the state that `solve` leaves (however it ends) comes from `x₀` by a chain of at most `maxIters` updates, each of which moves along a
    correction `c` with `J(x) c = -r(x)`, where `r(x), J(x)` are what the system returned at `x`; the Jacobian is evaluated once per iteration, at the points of
    the chain (except at the last one if all `maxIters` updates were made).  With standard updates the move is exactly `c`; with backtracking it is `2^{-j} c`,
    `j < 10`. -/
theorem C30_newton_chain (env : Env K m n p L) (cfg : Cfg K) (sys : Sys K m n) (hopt : NewtonOption cfg)
    (hlin : ∀ A b st c' l', env.linJ A b st = .ok () (c', l') → A *ᵥ c' = b) (s : Reg K m n p L) (hs : NewtonObj s) :
    let res := runNewton env cfg sys s
    ∃ ys : List (n → K), ys.length ≤ cfg.maxIters.toNat ∧
      List.IsChain (fun x x' => ∃ r J c, ∃ j < 10, sys.resJac x = .ok (r, J) ∧ J *ᵥ c = -r ∧ x' = x + (1 / 2 : K) ^ j • c ∧ (cfg.update = .Standard → j = 0)) (s.x :: ys) ∧
      (s.x :: ys).getLast (by simp) = res.state.x ∧
      ∃ new, res.state.log = s.log ++ new ∧ (new.filter (fun q => q.wantJ)).map (fun q => q.x) =
        if ys.length = cfg.maxIters.toNat then (s.x :: ys).dropLast else s.x :: ys := by
  intro res
  obtain ⟨rule, hr, hstd⟩ := newton_rule hopt
  obtain ⟨g1, g2, g3, g4, -, -⟩ := newton_run env cfg sys hs
  have hspec : Spec.Nonlinear.newtonSolve env cfg sys (absR s) =
      iterate sys (newtonProblem env cfg sys false rule) cfg.maxIters.toNat 1 none (absR s) := by
    unfold Spec.Nonlinear.newtonSolve; rw [hr]
  rw [hspec] at g1 g2 g3 g4
  obtain ⟨ys, f1, f2, f3, f4⟩ := iterate_chain sys (newtonProblem env cfg sys false rule) rfl cfg.maxIters.toNat 1 none (absR s)
  refine ⟨ys, f1, ?_, ?_, _, g4, f4⟩
  · refine List.IsChain.imp ?_ f2
    rintro x x' ⟨r, J, inn, c, b, l, d, nu, d', nu', hA, hC, hU⟩
    have hC' : negated (env.linJ J r) inn = .ok () (c, b, l) := hC
    have hJ := hlin _ _ _ _ _ (negated_ok hC')
    rw [Matrix.mulVec_neg] at hJ
    have hJ : J *ᵥ c = -r := by rw [← hJ, neg_neg]
    cases rule with
    | standard =>
      have hU' : UpdVal.moved (x + c) d nu = .moved x' d' nu' := hU
      cases hU'
      exact ⟨r, J, c, 0, by omega, hA, hJ, by simp, fun _ => rfl⟩
    | backtrack z =>
      obtain ⟨l1, a, l2, e1, -, -, e4, -⟩ := search_moved _ _ _ _ _ _ _ _ _ _ hU
      obtain ⟨j, hj, rfl⟩ := mem_steps (a := a) (by rw [e1]; simp)
      exact ⟨r, J, c, j, hj, hA, hJ, e4, fun h => by cases hstd h⟩
  · have := congrArg St.x g2
    rw [← f3] at this
    exact this.symm

/-! Non-vacuity: `x² - 2` from `x₀ = 1` (`N 1 = 3/2`, `N (3/2) = 17/12`). -/

def cfgN (stop : StopCrit) (tol : ℚ) (maxIters : Int) (upd : Update) : Cfg ℚ := ⟨maxIters, stop, tol, upd, none⟩

example : NewtonObj (reg1 newtonDiagnostics 1) := .created _ rfl
example : NewtonObj { (runNewton env1 (cfgN .WhenAbsolutel2NormOfResidualBelowTolerance (1/100) 5 .Standard) sq2 (reg1 newtonDiagnostics 1)).state with x := v1 3 } :=
  .used _ _ _ _ _ (.created _ rfl)
example : let res := runNewton env1 (cfgN .WhenAbsolutel2NormOfResidualBelowTolerance (1/100) 5 .Standard) sq2 (reg1 newtonDiagnostics 1)
    res.stop? = none ∧ res.state.x () = 17/12 ∧ res.state.log.length = 3 ∧ res.state.files = [] := by decide +kernel
example : let res := runNewton env1 (cfgN .WhenAbsolutel2NormOfResidualBelowTolerance (1/100) 2 .Standard) sq2 (reg1 newtonDiagnostics 1)
    res.stop? = none ∧ res.state.x () = 17/12 ∧ res.state.log.length = 2 ∧
    res.state.files = ["reached maximum number of iterations before convergence"] := by decide +kernel
/-- the linear solver of the examples solves the linear system whenever it returns -/
theorem div1_exact (A : Matrix Unit Unit ℚ) (b : Unit → ℚ) (st : (Unit → ℚ) × ℚ) (c' : Unit → ℚ) (l' : ℚ) (h : div1 A b st = .ok () (c', l')) : A *ᵥ c' = b := by
  obtain ⟨c, l⟩ := st
  unfold div1 at h
  by_cases hA : A () () = 0
  · simp [hA] at h
  · simp only [hA, if_false] at h
    cases h
    funext u
    simp only [Matrix.mulVec, dotProduct, v1, Finset.univ_unique, PUnit.default_eq_unit, Finset.sum_singleton]
    field_simp
example : ∀ A b st c' l', env1.linJ A b st = .ok () (c', l') → A *ᵥ c' = b := div1_exact

example : ∀ A b c l, env1t.linJ A b (c, l) = .ok () (v1 (b () / A () ()), l + 1) := fun _ _ _ _ => rfl
/-- one instance of `C30_newton_iterates`: three evaluations, three linear solves -/
example : let res := runNewton env1t (cfgN .WhenAbsolutel2NormOfResidualBelowTolerance (1/100) 5 .Standard) sq2 (reg1 newtonDiagnostics 1)
    res.state.x () = 17/12 ∧ res.state.lin = 7 + 3 := by decide +kernel

/-! ### C31 -/

/-- C31.  Affine system `r(x) = A x + b` with `A` injective and an exact linear solver, `maxIters ≥ 2`, positive tolerance: solve returns normally; if the
    criterion is already met at `x₀` then `x₀` is returned; otherwise the returned state solves `A x + b = 0`, and it is found after one update and
    two evaluations, unless the criterion is relative and the reference norm is zero (then the ratio is 0/0 and `maxIters` iterations are made at the solution). -/
theorem C31_newton_affine (env : Env K m n p L) (cfg : Cfg K) (A : Matrix m n K) (b : m → K) (sol : Matrix m n K → (m → K) → n → K)
    (tick : L → L) (hlin : ∀ B d c l, env.linJ B d (c, l) = .ok () (sol B d, tick l)) (hsol : ∀ d, A *ᵥ sol A d = d) (hinj : ∀ v, A *ᵥ v = 0 → v = 0)
    (hcrit : rootCriterion cfg.stop = true) (hupd : cfg.update = .Standard) (hmax : cfg.maxIters < int32Max) (h2 : 2 ≤ cfg.maxIters) (htol : 0 < cfg.tol)
    (hM : env.normM 0 = 0) (hN : env.normN 0 = 0) (s : Reg K m n p L) (hs : NewtonObj s) :
    let r := fun x : n → K => A *ᵥ x + b
    let res := runNewton env cfg (Sys.ofFun r (fun _ => A)) s
    let nrm : Norms K := ⟨env.normM (r s.x), env.normN (-sol A (r s.x)), 0, 0⟩
    let met := below cfg.stop cfg.tol nrm nrm = true
    res.stop? = none ∧
    (met → res.state.x = s.x ∧ res.state.log.length = s.log.length + 1 ∧ res.state.files = s.files) ∧
    (¬ met → r res.state.x = 0) ∧
    (¬ met → (cfg.stop = .WhenAbsolutel2NormOfResidualBelowTolerance ∨ cfg.stop = .WhenAbsolutel2NormOfCorrectionBelowTolerance ∨
        (env.normM (r s.x) ≠ 0 ∧ env.normN (-sol A (r s.x)) ≠ 0)) →
      res.state.x = s.x + -sol A (r s.x) ∧ res.state.log.length = s.log.length + 2 ∧ res.state.files = s.files) := by
  intro r res nrm met
  obtain ⟨g1, g2, g3⟩ := C30_newton_iterates env cfg r (fun _ => A) sol tick hlin hcrit hupd hmax s hs
  have hsol0 : sol A 0 = 0 := hinj _ (hsol 0)
  have hr1 : ∀ x, r (x + -sol A (r x)) = 0 := by
    intro x
    show A *ᵥ (x + -sol A (r x)) + b = 0
    rw [Matrix.mulVec_add, Matrix.mulVec_neg, hsol]
    show A *ᵥ x + -(A *ᵥ x + b) + b = 0
    abel
  have hit : ∀ k, r ((fun x => x + -sol A (r x))^[k+1] s.x) = 0 := by
    intro k; rw [Function.iterate_succ_apply']; exact hr1 _
  refine ⟨g1, fun hm => ?_, fun hm => ?_, fun hm hx => ?_⟩
  · obtain ⟨f1, f2, -, f4⟩ := g2 0 (by push_cast; omega) hm (by simp)
    exact ⟨f1, by rw [f2]; simp, f4⟩
  · classical
    by_cases hex : ∃ k : Nat, (k : Int) < cfg.maxIters ∧ below cfg.stop cfg.tol nrm
        ⟨env.normM (r ((fun x => x + -sol A (r x))^[k] s.x)), env.normN (-sol A (r ((fun x => x + -sol A (r x))^[k] s.x))), 0, 0⟩ = true
    · have hf := Nat.find_spec hex
      have := (g2 (Nat.find hex) hf.1 hf.2 (fun j hj hmet => Nat.find_min hex hj ⟨by omega, hmet⟩)).1
      obtain ⟨k, hk⟩ : ∃ k, Nat.find hex = k + 1 := by
        refine ⟨Nat.find hex - 1, ?_⟩
        have : Nat.find hex ≠ 0 := by
          intro h0; rw [h0] at hf; exact hm hf.2
        omega
      rw [hk] at this
      show r res.state.x = 0
      rw [this]; exact hit k
    · have := (g3 (fun k hk hmet => hex ⟨k, hk, hmet⟩)).1
      obtain ⟨k, hk⟩ : ∃ k, cfg.maxIters.toNat = k + 1 := ⟨cfg.maxIters.toNat - 1, by omega⟩
      rw [hk] at this
      show r res.state.x = 0
      rw [this]; exact hit k
  · have hmet1 : below cfg.stop cfg.tol nrm ⟨env.normM (r ((fun x => x + -sol A (r x))^[1] s.x)), env.normN (-sol A (r ((fun x => x + -sol A (r x))^[1] s.x))), 0, 0⟩ = true := by
      rw [hit 0, hsol0, hM, neg_zero, hN]
      have hfd : ∀ q : K, q ≠ 0 → (Model.Nonlinear.fdiv 0 q).lt cfg.tol = true := by
        intro q hq
        simp [Model.Nonlinear.fdiv, hq, Model.Nonlinear.Quot'.lt, htol]
      rcases hx with h | h | ⟨h1, h2⟩
      · rw [h]; simpa [below] using htol
      · rw [h]; simpa [below] using htol
      · revert hcrit
        rcases hst : cfg.stop <;> intro hc <;> simp [rootCriterion] at hc
        · simpa [below] using htol
        · exact hfd _ h2
        · simpa [below] using htol
        · exact hfd _ h1
    obtain ⟨f1, f2, -, f4⟩ := g2 1 (by push_cast; omega) hmet1 (by
      intro j hj
      obtain rfl : j = 0 := by omega
      exact hm)
    exact ⟨f1, by rw [f2]; simp, f4⟩

/-- an instance: `3 x - 6` from `x₀ = 100` with relative criterion -/
example : (∀ d : Unit → ℚ, m1 3 *ᵥ v1 (d () / 3) = d) ∧ (∀ v, m1 3 *ᵥ v = 0 → v = 0) := by
  constructor
  · intro d; funext u
    simp only [Matrix.mulVec, dotProduct, v1, m1, Finset.univ_unique, PUnit.default_eq_unit, Finset.sum_singleton]
    field_simp
  · intro v h
    funext u
    have := congrFun h ()
    simpa [Matrix.mulVec, dotProduct, m1] using this
example : let res := runNewton env1t (cfgN .WhenRelativel2NormOfResidualBelowTolerance (1/100) 5 .Standard) (aff1 3 6) (reg1 newtonDiagnostics 100)
    res.state.x () = 2 ∧ res.state.log.length = 2 := by decide +kernel
/-- the excluded point: a relative criterion from the solution itself makes all `maxIters` iterations -/
example : let res := runNewton env1t (cfgN .WhenRelativel2NormOfResidualBelowTolerance (1/100) 5 .Standard) (aff1 3 6) (reg1 newtonDiagnostics 2)
    res.stop? = none ∧ res.state.x () = 2 ∧ res.state.log.length = 5 ∧ res.state.files.length = 1 := by decide +kernel

/-! ### C32 -/

theorem newton_spec (env : Env K m n p L) (cfg : Cfg K) (sys : Sys K m n) (hopt : NewtonOption cfg) (st : St K n L) :
    ∃ rule, newtonRule cfg = .ok rule ∧ Spec.Nonlinear.newtonSolve env cfg sys st =
      iterate sys (newtonProblem env cfg sys false rule) cfg.maxIters.toNat 1 none st := by
  obtain ⟨rule, hr, -⟩ := newton_rule hopt
  refine ⟨rule, hr, ?_⟩
  unfold Spec.Nonlinear.newtonSolve; rw [hr]

/-- C32 is false of Newton's solver: with a criterion on the gradient or the objective, or `AfterMaxIters`, no solve (with at least one iteration allowed) ever
    returns normally, whatever the system: the state is left as it was, and if the first evaluation and the first linear solve succeed the exception is
    `std::out_of_range`. -/
theorem C32_newton_other_criteria (env : Env K m n p L) (cfg : Cfg K) (sys : Sys K m n) (hopt : NewtonOption cfg)
    (hcrit : cfg.stop = .AfterMaxIters ∨ cfg.stop = .WhenAbsolutel2NormOfGradientBelowTolerance ∨ cfg.stop = .WhenRelativel2NormOfGradientBelowTolerance ∨
      cfg.stop = .WhenAbsoluteObjectiveBelowTolerance ∨ cfg.stop = .WhenRelativeObjectiveBelowTolerance)
    (h1 : 1 ≤ cfg.maxIters) (s : Reg K m n p L) (hs : NewtonObj s) :
    let res := runNewton env cfg sys s
    res.stop? ≠ none ∧ res.state.x = s.x ∧
    ∀ r J c' l', sys.resJac s.x = .ok (r, J) → env.linJ J r (s.c, s.lin) = .ok () (c', l') → res.stop? = some (.exc .outOfRange) := by
  intro res
  have hc : rootCriterion cfg.stop = false := by rcases hcrit with h | h | h | h | h <;> rw [h] <;> rfl
  obtain ⟨rule, hr, hspec⟩ := newton_spec env cfg sys hopt (absR s)
  obtain ⟨g1, g2, -⟩ := newton_run env cfg sys hs
  rw [hspec] at g1 g2
  have g2 : res.state.x = _ := congrArg St.x g2
  have g1 : res.stop? = _ := g1
  rw [g1, g2]
  obtain ⟨k, hk⟩ : ∃ k, cfg.maxIters.toNat = k + 1 := ⟨cfg.maxIters.toNat - 1, by omega⟩
  rw [hk]
  have htest : ∀ i ref now, (newtonProblem env cfg sys false rule).test i ref now = .error .outOfRange := by
    intro i ref now
    show (if rootCriterion cfg.stop then _ else _) = _
    rw [hc]; rfl
  apply iterate_cases sys (newtonProblem env cfg sys false rule) k 1 none (absR s) (fun o => o.how.stop? ≠ none ∧ o.st.x = s.x ∧
    ∀ r J c' l', sys.resJac s.x = .ok (r, J) → env.linJ J r (s.c, s.lin) = .ok () (c', l') → o.how.stop? = some (.exc .outOfRange))
  · intro e t hA _
    refine ⟨by simp [End.stop?], rfl, fun r J c' l' h => ?_⟩
    have hA' : sys.resJac s.x = .error e := hA
    rw [h] at hA'; cases hA'
  · intro e hA _
    refine ⟨by simp [End.stop?], rfl, fun r J c' l' h => ?_⟩
    have hA' : sys.resJac s.x = .error e := hA
    rw [h] at hA'; cases hA'
  · intro r J h c b l hA hC
    refine ⟨by simp [End.stop?], rfl, fun r' J' c' l' h' hl => ?_⟩
    have hA' : sys.resJac s.x = .ok (r, J) := hA
    rw [h'] at hA'; cases hA'
    have hC' : negated (env.linJ J r) (s.c, s.QTr, s.lin) = .stop h (c, b, l) := hC
    simp only [negated, hl] at hC'
    cases hC'
  · intro r J c b l e _ _ hT
    rw [htest] at hT; cases hT
    exact ⟨by simp [End.stop?], rfl, fun _ _ _ _ _ _ => rfl⟩
  · intro r J c b l _ _ hT; rw [htest] at hT; cases hT
  · intro r J c b l t tr _ _ hT; rw [htest] at hT; cases hT
  · intro r J c b l e tr _ _ hT; rw [htest] at hT; cases hT
  · intro r J c b l x' d nu tr _ _ hT; rw [htest] at hT; cases hT

example : NewtonOption (cfgN .AfterMaxIters (1/100) 5 .Standard) := .inl rfl
example : let res := runNewton env1 (cfgN .AfterMaxIters (1/100) 5 .Standard) sq2 (reg1 newtonDiagnostics 1)
    res.stop? = some (.exc .outOfRange) ∧ res.state.x () = 1 := by decide +kernel

/-! ### C33 -/

/-- C33 is false: Newton returns normally from `x² - 2` at `x = 3/2` with absolute residual tolerance `1/100` although `|r| = 1/4` there (one iteration allowed),
    and with `maxIters = 0` from any state without evaluating anything and without writing the termination file. -/
theorem C33_newton_normal_return_unconverged :
    (let res := runNewton env1 (cfgN .WhenAbsolutel2NormOfResidualBelowTolerance (1/100) 1 .Standard) sq2 (reg1 newtonDiagnostics 1)
     res.stop? = none ∧ res.state.x () = 3/2 ∧ ¬ |res.state.x () * res.state.x () - 2| < 1/100) ∧
    (let res := runNewton env1 (cfgN .WhenAbsolutel2NormOfResidualBelowTolerance (1/100) 0 .Standard) sq2 (reg1 newtonDiagnostics 1)
     res.stop? = none ∧ res.state.x () = 1 ∧ res.state.log = [] ∧ res.state.files = []) := by
  decide +kernel

/-- A Newton solve that ends by line-search breakdown returns normally too: with `r = 1` everywhere and `J = 1`, strictly smaller objective demanded (`zeta = 1/2`). -/
theorem C33_newton_breakdown_returns :
    let res := runNewton env1 ⟨5, .WhenAbsolutel2NormOfResidualBelowTolerance, 1/100, .BacktrackStrictlyDecreasingObjective, some [1/2]⟩
      (Sys.ofFun (fun _ => v1 1) (fun _ => m1 1)) (reg1 newtonDiagnostics 3)
    res.stop? = none ∧ res.state.x () = 3 ∧ res.state.files = ["line search step size too small"] := by
  decide +kernel

/-- C33, what holds: a Newton solve with at least one iteration allowed that returns normally and has not written to the termination file has converged: the
    criterion holds for the norms `now` of residual and last correction at the returned state, relative to the norms `ref`, which the diagnostics hold.
    Missing from the full property: the termination file must be inspected (see the refutations). -/
theorem C33_newton_no_file_means_converged_partial (env : Env K m n p L) (cfg : Cfg K) (sys : Sys K m n) (hopt : NewtonOption cfg) (h1 : 1 ≤ cfg.maxIters)
    (s : Reg K m n p L) (hs : NewtonObj s) :
    let res := runNewton env cfg sys s
    res.stop? = none → res.state.files = s.files →
    ∃ r J c l c' l' ref, sys.resJac res.state.x = .ok (r, J) ∧ env.linJ J r (c, l) = .ok () (c', l') ∧ res.state.c = -c' ∧
      below cfg.stop cfg.tol ref ⟨env.normM r, env.normN (-c'), 0, 0⟩ = true := by
  intro res hstop hfiles
  obtain ⟨rule, hr, hspec⟩ := newton_spec env cfg sys hopt (absR s)
  obtain ⟨g1, g2, g3, -⟩ := newton_run env cfg sys hs
  rw [hspec] at g1 g2 g3
  have g1 : res.stop? = _ := g1
  have g3 : res.state.files = _ := g3
  rw [hstop] at g1
  rw [hfiles] at g3
  have hf := List.append_right_eq_self.mp g3.symm
  have hend := newton_no_file env cfg sys false rule cfg.maxIters.toNat 1 none (absR s) (by omega) (by omega) g1.symm hf
  obtain ⟨j, hj, r, J, inn, b, l, rf, f1, f2, -, f4, -⟩ := iterate_stopped sys _ _ _ _ _ hend
  rw [← g2] at f1 f2 f4
  have f2' := negated_ok (show negated (env.linJ J r) inn = .ok () (res.state.c, b, l) from f2)
  refine ⟨r, J, _, _, _, l, rf, f1, f2', by simp, ?_⟩
  have f4' : (if rootCriterion cfg.stop then (.ok (below cfg.stop cfg.tol rf ⟨env.normM r, env.normN res.state.c, 0, 0⟩) : Except Exc Bool) else .error .outOfRange) = .ok true := f4
  split at f4'
  · rw [neg_neg]; exact Except.ok.inj f4'
  · cases f4'

/-! ### C45 (Newton) -/

/-- C45 for Newton with standard updates: an evaluation that throws one of the two residual exceptions makes `solve` throw `NonlinearSolveFailure`. -/
theorem C45_newton_failure (env : Env K m n p L) (cfg : Cfg K) (sys : Sys K m n) (hupd : cfg.update = .Standard) (s : Reg K m n p L) (hs : NewtonObj s) :
    let res := runNewton env cfg sys s
    ∃ new, res.state.log = s.log ++ new ∧ ∀ q ∈ new, (q.ans = .error .residualEvaluationFailureUnrecoverable ∨ q.ans = .error .residualHasNans) →
      res.stop? = some (.exc .nonlinearSolveFailure) := by
  intro res
  obtain ⟨rule, hr, hspec⟩ := newton_spec env cfg sys (.inl hupd) (absR s)
  have hrule : rule = .standard := by
    unfold newtonRule at hr; rw [hupd] at hr; cases hr; rfl
  subst hrule
  obtain ⟨g1, g2, g3, g4, -⟩ := newton_run env cfg sys hs
  rw [hspec] at g1 g2 g3 g4
  refine ⟨_, g4, fun q hq he => ?_⟩
  have g1 : res.stop? = _ := g1
  rw [g1]
  rcases he with he | he
  · rw [iterate_failure sys _ (fun s r J now => ⟨_, _, _, rfl⟩) _ _ _ _ q hq _ _ he rfl]; rfl
  · rw [iterate_failure sys _ (fun s r J now => ⟨_, _, _, rfl⟩) _ _ _ _ q hq _ _ he rfl]; rfl

/-- C45 for Newton with standard updates: neither residual exception escapes from `solve`, unless the linear solver itself throws it. -/
theorem C45_newton_translates (env : Env K m n p L) (cfg : Cfg K) (sys : Sys K m n) (hupd : cfg.update = .Standard) (s : Reg K m n p L) (hs : NewtonObj s)
    (e : Exc) (he : e = .residualEvaluationFailureUnrecoverable ∨ e = .residualHasNans) :
    (runNewton env cfg sys s).stop? = some (.exc e) → ∃ J r st st', env.linJ J r st = .stop (.exc e) st' := by
  intro h
  obtain ⟨rule, hr, hspec⟩ := newton_spec env cfg sys (.inl hupd) (absR s)
  have hrule : rule = .standard := by
    unfold newtonRule at hr; rw [hupd] at hr; cases hr; rfl
  subst hrule
  obtain ⟨g1, -⟩ := newton_run env cfg sys hs
  rw [hspec, h] at g1
  have hne : assemblyText e ≠ none := by rcases he with rfl | rfl <;> simp [assemblyText]
  have hhow : (iterate sys (newtonProblem env cfg sys false .standard) cfg.maxIters.toNat 1 none (absR s)).how = .threw (.exc e) := by
    revert g1
    cases (iterate sys (newtonProblem env cfg sys false .standard) cfg.maxIters.toNat 1 none (absR s)).how <;> simp [End.stop?]
    exact fun h => h.symm
  rcases iterate_throws sys _ e hne _ _ _ _ hhow with ⟨x, r, J, d, inn, inn', hC⟩ | ⟨i, ref, now, hT⟩ | ⟨st, r, J, now, hU⟩
  · have hC' : negated (env.linJ J r) inn = .stop (.exc e) inn' := hC
    obtain ⟨c, b, l⟩ := inn
    unfold negated at hC'
    rcases hl : env.linJ J r (c, l) with ⟨⟨⟩, c1, l1⟩ | ⟨h', c1, l1⟩
    · simp only [hl] at hC'; cases hC'
    · simp only [hl] at hC'
      cases hC'
      exact ⟨J, r, _, _, hl⟩
  · have hT' : (if rootCriterion cfg.stop then (.ok (below cfg.stop cfg.tol ref now) : Except Exc Bool) else .error .outOfRange) = .error e := hT
    split at hT'
    · cases hT'
    · cases hT'; rcases he with he | he <;> cases he
  · have hU' : UpdVal.moved (st.x + st.c) st.damp st.nu = .threw e := hU
    cases hU'

/-- evaluation of `x² - 2` that fails below 1.45 -/
def sqFail : Sys ℚ Unit Unit where
  resJac := fun x => if x () < 29/20 then .error .residualEvaluationFailureUnrecoverable else sq2.resJac x
  res := fun x => if x () < 29/20 then .error .residualEvaluationFailureUnrecoverable else sq2.res x

example : let res := runNewton env1 (cfgN .WhenAbsolutel2NormOfResidualBelowTolerance (1/100) 9 .Standard) sqFail (reg1 newtonDiagnostics 3)
    res.stop? = some (.exc .nonlinearSolveFailure) ∧ res.state.log.length = 4 ∧ res.state.files = ["residual evaluation failed"] := by decide +kernel

/-- C45 is false of Newton with backtracking: a failure in a line-search trial escapes untranslated. -/
theorem C45_newton_linesearch_escapes :
    (runNewton env1 (cfgN .WhenAbsolutel2NormOfResidualBelowTolerance (1/100) 9 .BacktrackStrictlyDecreasingObjective) sqFail (reg1 newtonDiagnostics 3)).stop? =
      some (.exc .residualEvaluationFailureUnrecoverable) := by
  decide +kernel

/-! ### The theorems on concrete runs -/

example := C33_newton_no_file_means_converged_partial env1 (cfgN .WhenAbsolutel2NormOfResidualBelowTolerance (1/100) 5 .Standard) sq2 (.inl rfl) (by decide) (reg1 newtonDiagnostics 1) (.created _ rfl)
  (by decide +kernel) (by decide +kernel)
example := C45_newton_failure env1 (cfgN .WhenAbsolutel2NormOfResidualBelowTolerance (1/100) 9 .Standard) sqFail rfl (reg1 newtonDiagnostics 3) (.created _ rfl)


end Pressio.Props
