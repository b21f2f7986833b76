import Verif.Props.LineSearch
import Mathlib.Analysis.Calculus.FDeriv.Add
import Mathlib.Analysis.Calculus.FDeriv.Comp
import Mathlib.Analysis.Calculus.FDeriv.Mul
import Mathlib.Analysis.Calculus.FDeriv.Pi
import Mathlib.Topology.Algebra.Module.FiniteDimension

/-
  Properties of the solver objects over several solves: C43, C44; gradient and objective: C35.
-/
namespace Pressio.Props
set_option autoImplicit false
open Pressio Matrix
open Pressio.Model.Nonlinear (Env Cfg Reg StopCrit Update Tag leastSquaresDiagnostics newtonDiagnostics fdiv DData operators lsObjective Quot')
open Pressio.Spec.Nonlinear
open Pressio.Lemmas.Nonlinear

section
variable {K m n p L : Type} [Field K] [LinearOrder K] [IsStrictOrderedRing K] [Fintype m] [Fintype n] [Fintype p] [DecidableEq n]

/-! ### C43 -/

/-- what two solves have in common: outcome, resulting state, texts written, evaluations made, and (if an iteration was made and the solve returned) diagnostics -/
def SameSolve (cfg : Cfg K) (s s' : Reg K m n p L) (res res' : Res (Reg K m n p L) Unit) : Prop :=
  res.stop? = res'.stop? ∧ res.state.x = res'.state.x ∧
  (∃ F, res.state.files = s.files ++ F ∧ res'.state.files = s'.files ++ F) ∧
  (∃ Q, res.state.log = s.log ++ Q ∧ res'.state.log = s'.log ++ Q) ∧
  (1 ≤ cfg.maxIters → res.stop? = none → res.state.diag = res'.state.diag)

/-- the same for any contents of the two objects whose diagnostics are in order (this also holds if other parts of the program have used the inner solver) -/
theorem ls_memory (env : Env K m n p L) (cfg : Cfg K) (sys : Sys K m n) (tag : Tag) (hw : NoWarmStart env tag) (s s' : Reg K m n p L) (hs : LsDiag none s.diag) (hs' : LsDiag none s'.diag)
    (hx : s.x = s'.x) : SameSolve cfg s s' (runLs env cfg sys tag s) (runLs env cfg sys tag s') := by
  obtain ⟨g1, g2, g3, g4, -, g6⟩ : Refines (LsDiag none) lsFull s (runLs env cfg sys tag s) _ := lsSolve_refines env cfg sys tag s hs
  obtain ⟨k1, k2, k3, k4, -, k6⟩ : Refines (LsDiag none) lsFull s' (runLs env cfg sys tag s') _ := lsSolve_refines env cfg sys tag s' hs'
  suffices h : (Spec.Nonlinear.lsSolve env cfg sys tag (absR s)).how = (Spec.Nonlinear.lsSolve env cfg sys tag (absR s')).how ∧
      (Spec.Nonlinear.lsSolve env cfg sys tag (absR s)).st.x = (Spec.Nonlinear.lsSolve env cfg sys tag (absR s')).st.x ∧
      (Spec.Nonlinear.lsSolve env cfg sys tag (absR s)).files = (Spec.Nonlinear.lsSolve env cfg sys tag (absR s')).files ∧
      (Spec.Nonlinear.lsSolve env cfg sys tag (absR s)).log = (Spec.Nonlinear.lsSolve env cfg sys tag (absR s')).log ∧
      (Spec.Nonlinear.lsSolve env cfg sys tag (absR s)).last = (Spec.Nonlinear.lsSolve env cfg sys tag (absR s')).last ∧
      (1 ≤ cfg.maxIters → (Spec.Nonlinear.lsSolve env cfg sys tag (absR s)).how.stop? = none → ∃ rn, (Spec.Nonlinear.lsSolve env cfg sys tag (absR s)).last = some rn) by
    obtain ⟨h1, h2, h3, h4, h5, h6⟩ := h
    refine ⟨by rw [g1, k1, h1], ?_, ⟨_, g3, by rw [h3]; exact k3⟩, ⟨_, g4, by rw [h4]; exact k4⟩, ?_⟩
    · have e1 : (runLs env cfg sys tag s).state.x = _ := congrArg St.x g2
      have e2 : (runLs env cfg sys tag s').state.x = _ := congrArg St.x k2
      rw [e1, e2, h2]
    · intro hm hn
      obtain ⟨rn, hrn⟩ := h6 hm (by rw [← g1]; exact hn)
      rw [g6 rn hrn, k6 rn (by rw [← h5]; exact hrn)]
  rcases hr : lsRule cfg tag with e | rule
  · unfold Spec.Nonlinear.lsSolve
    rw [hr]
    cases e with
    | exc e => exact ⟨rfl, hx, rfl, rfl, rfl, fun _ h => by cases h⟩
    | ub w => exact ⟨rfl, hx, rfl, rfl, rfl, fun _ h => by cases h⟩
    | fuel => exact ⟨rfl, hx, rfl, rfl, rfl, fun _ h => by cases h⟩
  · rw [ls_spec env cfg sys tag (absR s) hr, ls_spec env cfg sys tag (absR s') hr]
    have hlmrule : rule = .lm1 ∨ rule = .lm2 → tag = .lm := by
      intro h
      by_contra hn
      unfold lsRule at hr
      rcases h with rfl | rfl <;>
      · rw [if_neg hn, if_neg hn] at hr
        cases hu : cfg.update <;> rw [hu] at hr <;> simp only [] at hr <;> first | cases hr | (rcases hp : cfg.params with _ | _ | ⟨z, zs⟩ <;> rw [hp] at hr <;> cases hr)
    have hag := iterate_agree sys (lsProblem env cfg sys tag rule) (fun d nu d' nu' => (tag = .lm → d = d') ∧ (rule = .lm1 → nu = nu')) (by
        rintro x r J d nu d' nu' inn inn' ⟨hd, -⟩
        have hneg : ∀ A b, (∀ st st', SameAnswer Prod.fst (env.lin A b st) (env.lin A b st')) → SameAnswer Prod.fst (negated (env.lin A b) inn) (negated (env.lin A b) inn') := by
          intro A b h
          obtain ⟨c, q, l⟩ := inn
          obtain ⟨c', q', l'⟩ := inn'
          have := h (c, l) (c', l')
          unfold negated
          revert this
          simp only []
          rcases env.lin A b (c, l) with ⟨⟨⟩, c1, l1⟩ | ⟨h1, c1, l1⟩ <;> rcases env.lin A b (c', l') with ⟨⟨⟩, c2, l2⟩ | ⟨h2, c2, l2⟩ <;>
            simp [SameAnswer, Res.stop?, Res.state]
        have hH : hessOf env tag J d = hessOf env tag J d' := by
          cases tag <;> first | rfl | rw [hd rfl]
        cases tag with
        | gnQr => exact hw r J inn inn'
        | gn => exact hneg _ _ (hw _ _)
        | wgn => exact hneg _ _ (hw _ _)
        | cwgn => exact hneg _ _ (hw _ _)
        | lm =>
          show SameAnswer Prod.fst (negated (env.lin (hessOf env .lm J d) _) inn) (negated (env.lin (hessOf env .lm J d') _) inn')
          rw [hH]
          exact hneg _ _ (hw _ _)) (by
        rintro x c b l d nu b' l' d' nu' r J now ⟨hd, hnu⟩
        cases rule with
        | standard => exact ⟨rfl, .inr ⟨_, _, _, _, _, rfl, rfl, hd, hnu⟩⟩
        | backtrack z =>
          obtain ⟨h1, h2⟩ := search_damp (objAt env sys tag) x c (z * now.obj) d nu d' nu' steps
          refine ⟨h1, ?_⟩
          rcases h2 with ⟨h2, h3⟩ | ⟨y, h2, h3⟩
          · exact .inl ⟨h2, fun y e f h => absurd h (h3 y e f)⟩
          · exact .inr ⟨y, d, nu, d', nu', h2, h3, hd, hnu⟩
        | lm1 =>
          obtain rfl := hd (hlmrule (.inl rfl))
          obtain rfl := hnu rfl
          exact ⟨rfl, .inl ⟨rfl, fun _ _ _ _ => ⟨fun _ => rfl, fun _ => rfl⟩⟩⟩
        | lm2 =>
          obtain rfl := hd (hlmrule (.inr rfl))
          have hU : ∀ b l nu, (lsProblem env cfg sys tag .lm2).upd ⟨x, c, b, l, d, nu⟩ r J now = match objAt env sys tag (x + c) with
              | .error e => ⟨[x + c], .threw e⟩
              | .ok v => ⟨[x + c], Spec.Nonlinear.lm2 (gain v now.obj d (Jᵀ * J) (gradOf env tag r J) c) x c d nu⟩ := by
            intro b l nu
            show lsUpd env sys tag .lm2 _ r J now = _
            unfold lsUpd
            simp only []
            rcases objAt env sys tag (x + c) with e | v <;> rfl
          rw [hU, hU]
          rcases objAt env sys tag (x + c) with e | v
          · exact ⟨rfl, .inl ⟨rfl, fun _ _ _ h => by cases h⟩⟩
          · exact ⟨rfl, .inr ⟨_, _, _, _, _, rfl, rfl, fun _ => rfl, fun h => by cases h⟩⟩)
      cfg.maxIters.toNat 1 none (lsStart tag rule (absR s)) (lsStart tag rule (absR s')) hx ⟨fun h => by simp [lsStart, h], fun h => by subst h; rfl⟩
    obtain ⟨a1, a2, a3, a4, a5⟩ := hag
    refine ⟨a1, a2, a3, a4, a5, fun hm hn => ?_⟩
    obtain ⟨_, _, _, _, _, _, _, _, _, _, _, _, _, h⟩ := iterate_last sys (lsProblem env cfg sys tag rule) rfl cfg.maxIters.toNat 1 none (lsStart tag rule (absR s)) (by omega) hn
    exact ⟨_, h⟩

/-- C43 (least squares).  Two solver objects with the same options and any pasts (one may be new), called with the same system on the same state, with an inner solver
    without warm start: same outcome, state, evaluations and diagnostics. -/
theorem C43_least_squares (env : Env K m n p L) (cfg : Cfg K) (sys : Sys K m n) (tag : Tag) (hw : NoWarmStart env tag) (s s' : Reg K m n p L) (hs : LsObj s) (hs' : LsObj s')
    (hx : s.x = s'.x) : SameSolve cfg s s' (runLs env cfg sys tag s) (runLs env cfg sys tag s') :=
  ls_memory env cfg sys tag hw s s' (lsObj_diag hs) (lsObj_diag hs') hx

theorem newton_memory (env : Env K m n p L) (cfg : Cfg K) (sys : Sys K m n) (hw : ∀ A b st st', SameAnswer Prod.fst (env.linJ A b st) (env.linJ A b st')) (s s' : Reg K m n p L)
    (hs : NewtonDiag none s.diag) (hs' : NewtonDiag none s'.diag) (hx : s.x = s'.x) : SameSolve cfg s s' (runNewton env cfg sys s) (runNewton env cfg sys s') := by
  obtain ⟨g1, g2, g3, g4, -, g6⟩ : Refines (NewtonDiag none) newtonFull s (runNewton env cfg sys s) _ := newtonSolve_refines env cfg sys s hs
  obtain ⟨k1, k2, k3, k4, -, k6⟩ : Refines (NewtonDiag none) newtonFull s' (runNewton env cfg sys s') _ := newtonSolve_refines env cfg sys s' hs'
  suffices h : (Spec.Nonlinear.newtonSolve env cfg sys (absR s)).how = (Spec.Nonlinear.newtonSolve env cfg sys (absR s')).how ∧
      (Spec.Nonlinear.newtonSolve env cfg sys (absR s)).st.x = (Spec.Nonlinear.newtonSolve env cfg sys (absR s')).st.x ∧
      (Spec.Nonlinear.newtonSolve env cfg sys (absR s)).files = (Spec.Nonlinear.newtonSolve env cfg sys (absR s')).files ∧
      (Spec.Nonlinear.newtonSolve env cfg sys (absR s)).log = (Spec.Nonlinear.newtonSolve env cfg sys (absR s')).log ∧
      (Spec.Nonlinear.newtonSolve env cfg sys (absR s)).last = (Spec.Nonlinear.newtonSolve env cfg sys (absR s')).last ∧
      (1 ≤ cfg.maxIters → (Spec.Nonlinear.newtonSolve env cfg sys (absR s)).how.stop? = none → ∃ rn, (Spec.Nonlinear.newtonSolve env cfg sys (absR s)).last = some rn) by
    obtain ⟨h1, h2, h3, h4, h5, h6⟩ := h
    refine ⟨by rw [g1, k1, h1], ?_, ⟨_, g3, by rw [h3]; exact k3⟩, ⟨_, g4, by rw [h4]; exact k4⟩, ?_⟩
    · have e1 : (runNewton env cfg sys s).state.x = _ := congrArg St.x g2
      have e2 : (runNewton env cfg sys s').state.x = _ := congrArg St.x k2
      rw [e1, e2, h2]
    · intro hm hn
      obtain ⟨rn, hrn⟩ := h6 hm (by rw [← g1]; exact hn)
      rw [g6 rn hrn, k6 rn (by rw [← h5]; exact hrn)]
  unfold Spec.Nonlinear.newtonSolve
  rcases hr : newtonRule cfg with e | rule
  · exact ⟨rfl, hx, rfl, rfl, rfl, fun _ h => by cases h⟩
  · have hag := iterate_agree sys (newtonProblem env cfg sys false rule) (fun _ _ _ _ => True) (by
        rintro x r J d nu d' nu' inn inn' -
        show SameAnswer Prod.fst (negated (env.linJ J r) inn) (negated (env.linJ J r) inn')
        obtain ⟨c, q, l⟩ := inn
        obtain ⟨c', q', l'⟩ := inn'
        have := hw J r (c, l) (c', l')
        unfold negated
        revert this
        simp only []
        rcases env.linJ J r (c, l) with ⟨⟨⟩, c1, l1⟩ | ⟨h1, c1, l1⟩ <;> rcases env.linJ J r (c', l') with ⟨⟨⟩, c2, l2⟩ | ⟨h2, c2, l2⟩ <;>
          simp [SameAnswer, Res.stop?, Res.state]) (by
        rintro x c b l d nu b' l' d' nu' r J now -
        cases rule with
        | standard => exact ⟨rfl, .inr ⟨_, _, _, _, _, rfl, rfl, trivial⟩⟩
        | backtrack z =>
          obtain ⟨h1, h2⟩ := search_damp (fun x => (sys.res x).map env.normM) x c (z * now.resid) d nu d' nu' steps
          refine ⟨h1, ?_⟩
          rcases h2 with ⟨h2, h3⟩ | ⟨y, h2, h3⟩
          · exact .inl ⟨h2, fun y e f h => absurd h (h3 y e f)⟩
          · exact .inr ⟨y, d, nu, d', nu', h2, h3, trivial⟩)
      cfg.maxIters.toNat 1 none (absR s) (absR s') hx trivial
    obtain ⟨a1, a2, a3, a4, a5⟩ := hag
    refine ⟨a1, a2, a3, a4, a5, fun hm hn => ?_⟩
    obtain ⟨_, _, _, _, _, _, _, _, _, _, _, _, _, h⟩ := iterate_last sys (newtonProblem env cfg sys false rule) rfl cfg.maxIters.toNat 1 none (absR s) (by omega) hn
    exact ⟨_, h⟩

/-- C43 (Newton) -/
theorem C43_newton (env : Env K m n p L) (cfg : Cfg K) (sys : Sys K m n) (hw : ∀ A b st st', SameAnswer Prod.fst (env.linJ A b st) (env.linJ A b st')) (s s' : Reg K m n p L)
    (hs : NewtonObj s) (hs' : NewtonObj s') (hx : s.x = s'.x) : SameSolve cfg s s' (runNewton env cfg sys s) (runNewton env cfg sys s') :=
  newton_memory env cfg sys hw s s' (newtonObj_diag hs) (newtonObj_diag hs') hx

/-- the inner solvers of the examples have no warm start -/
theorem env1_noWarm (tag : Tag) : NoWarmStart env1 tag := by
  have h : ∀ (A : Matrix Unit Unit ℚ) (b : Unit → ℚ) (st st' : (Unit → ℚ) × ℚ), SameAnswer Prod.fst (div1 A b st) (div1 A b st') := by
    rintro A b ⟨c, l⟩ ⟨c', l'⟩
    unfold div1
    by_cases hA : A () () = 0 <;> simp [hA, SameAnswer, Res.stop?, Res.state]
  cases tag
  · exact h
  · rintro r J ⟨c, b, l⟩ ⟨c', b', l'⟩
    simp only [qrNegated, negated, env1]
    by_cases hA : J () () = 0 <;> simp [hA, SameAnswer, Res.stop?, Res.state]
  · exact h
  · exact h
  · exact h

/-- an instance with a Levenberg-Marquardt solver that has solved another problem before: same result as a new solver -/
example :
    let used := { (runLs env1 (cfgN .AfterMaxIters (1/100) 4 .LMSchedule1) quadTie .lm (reg1 leastSquaresDiagnostics 0)).state with x := v1 1 }
    let a := runLs env1 (cfgN .AfterMaxIters (1/100) 3 .LMSchedule1) sq2 .lm used
    let b := runLs env1 (cfgN .AfterMaxIters (1/100) 3 .LMSchedule1) sq2 .lm (reg1 leastSquaresDiagnostics 1)
    used.damp ≠ (reg1 leastSquaresDiagnostics 1).damp ∧ a.stop? = none ∧ a.state.x () = b.state.x () ∧ a.state.x () ≠ 1 ∧ a.state.diag = b.state.diag := by decide +kernel

/-! ### C44 -/

/-- the entry that the logger and the stopping test read for a diagnostic -/
def Reads (s : Reg K m n p L) (d : Model.Nonlinear.Diagnostic) (v : DData K) : Prop := 
  (match (s.diag.atPublic d : Prog Unit (DData K)) () with | .ok w _ => some w | .stop _ _ => none) = some v

/-- C44 (least squares).  After a solve that returned normally, with at least one iteration allowed, by an object with any past: all eight diagnostics hold the absolute values of
    the last iteration of this solve, and these divided by those of the first iteration of this solve.  (`maxIters = k` shows iteration `k`.)  At the first
    iteration the two coincide. -/
theorem C44_least_squares (env : Env K m n p L) (cfg : Cfg K) (sys : Sys K m n) (tag : Tag) (hopt : LsOption cfg tag) (s : Reg K m n p L) (hs : LsObj s) (h1 : 1 ≤ cfg.maxIters)
    (hn : (runLs env cfg sys tag s).stop? = none) :
    let res := runLs env cfg sys tag s
    ∃ (new : List (Query (n → K) (Model.Nonlinear.Ans K m n))) (xl : n → K) (r0 : m → K) (J0 : Matrix m n K) (c0 : n → K) (rl : m → K) (Jl : Matrix m n K),
      res.state.log = s.log ++ new ∧ ((new.filter (fun q => q.wantJ)).map (fun q => q.x)).getLast? = some xl ∧
      sys.resJac s.x = .ok (r0, J0) ∧ sys.resJac xl = .ok (rl, Jl) ∧
      (let norms := fun r J c => (⟨env.normM r, env.normN c, env.normN (gradOf env tag r J), objOf env tag r⟩ : Norms K)
       (∀ d ∈ leastSquaresDiagnostics, ∃ v, Reads res.state d v ∧ v.absolute = quantity d (norms rl Jl res.state.c) ∧
         v.relative = fdiv (quantity d (norms rl Jl res.state.c)) (quantity d (norms r0 J0 c0))) ∧
       (cfg.maxIters = 1 → norms rl Jl res.state.c = norms r0 J0 c0)) := by
  intro res
  obtain ⟨rule, hr, -⟩ := ls_rule hopt
  obtain ⟨g1, g2, -, g4, -, g6⟩ := ls_run env cfg sys tag hs
  rw [ls_spec env cfg sys tag (absR s) hr] at g1 g2 g4 g6
  rw [hn] at g1
  obtain ⟨x1, r0, J0, c0, r1, J1, c1, e1, e2, e3, e4, e5, e6, e7⟩ := iterate_last sys (lsProblem env cfg sys tag rule) rfl cfg.maxIters.toNat 1 none (lsStart tag rule (absR s))
    (by omega) g1.symm
  have hc : res.state.c = c1 := by
    have : res.state.c = _ := congrArg St.c g2
    rw [this, e6]
  refine ⟨_, x1, r0, J0, c0, r1, J1, g4, e1, e2, e4, ?_, ?_⟩
  · have hd : res.state.diag = _ := g6 _ e7
    intro d hd'
    unfold Reads
    rw [hd, hc]
    simp only [leastSquaresDiagnostics, List.mem_cons, List.not_mem_nil, or_false] at hd'
    rcases hd' with rfl | rfl | rfl | rfl | rfl | rfl | rfl | rfl <;> exact ⟨_, rfl, rfl, rfl⟩
  · intro hone
    have hk : cfg.maxIters.toNat = 1 := by omega
    rw [hk] at e7 g1
    obtain ⟨N, hN⟩ := iterate_last_one sys (lsProblem env cfg sys tag rule) 1 (lsStart tag rule (absR s)) g1.symm
    rw [hN] at e7
    simp only [Option.some.injEq, Prod.mk.injEq] at e7
    rw [hc]
    exact e7.2.symm.trans e7.1

/-- C44 (Newton): four diagnostics -/
theorem C44_newton (env : Env K m n p L) (cfg : Cfg K) (sys : Sys K m n) (hopt : NewtonOption cfg) (s : Reg K m n p L) (hs : NewtonObj s) (h1 : 1 ≤ cfg.maxIters)
    (hn : (runNewton env cfg sys s).stop? = none) :
    let res := runNewton env cfg sys s
    ∃ (new : List (Query (n → K) (Model.Nonlinear.Ans K m n))) (xl : n → K) (r0 : m → K) (J0 : Matrix m n K) (c0 : n → K) (rl : m → K) (Jl : Matrix m n K),
      res.state.log = s.log ++ new ∧ ((new.filter (fun q => q.wantJ)).map (fun q => q.x)).getLast? = some xl ∧
      sys.resJac s.x = .ok (r0, J0) ∧ sys.resJac xl = .ok (rl, Jl) ∧
      (let norms := fun r c => (⟨env.normM r, env.normN c, 0, 0⟩ : Norms K)
       (∀ d ∈ newtonDiagnostics, ∃ v, Reads res.state d v ∧ v.absolute = quantity d (norms rl res.state.c) ∧
         v.relative = fdiv (quantity d (norms rl res.state.c)) (quantity d (norms r0 c0))) ∧
       (cfg.maxIters = 1 → norms rl res.state.c = norms r0 c0)) := by
  intro res
  obtain ⟨rule, hr, hspec⟩ := newton_spec env cfg sys hopt (absR s)
  obtain ⟨g1, g2, -, g4, -, g6⟩ := newton_run env cfg sys hs
  rw [hspec] at g1 g2 g4 g6
  rw [hn] at g1
  obtain ⟨x1, r0, J0, c0, r1, J1, c1, e1, e2, e3, e4, e5, e6, e7⟩ := iterate_last sys (newtonProblem env cfg sys false rule) rfl cfg.maxIters.toNat 1 none (absR s)
    (by omega) g1.symm
  have hc : res.state.c = c1 := by
    have : res.state.c = _ := congrArg St.c g2
    rw [this, e6]
  refine ⟨_, x1, r0, J0, c0, r1, J1, g4, e1, e2, e4, ?_, ?_⟩
  · have hd : res.state.diag = _ := g6 _ e7
    intro d hd'
    unfold Reads
    rw [hd, hc]
    simp only [newtonDiagnostics, List.mem_cons, List.not_mem_nil, or_false] at hd'
    rcases hd' with rfl | rfl | rfl | rfl <;> exact ⟨_, rfl, rfl, rfl⟩
  · intro hone
    have hk : cfg.maxIters.toNat = 1 := by omega
    rw [hk] at e7 g1
    obtain ⟨N, hN⟩ := iterate_last_one sys (newtonProblem env cfg sys false rule) 1 (absR s) g1.symm
    rw [hN] at e7
    simp only [Option.some.injEq, Prod.mk.injEq] at e7
    rw [hc]
    exact e7.2.symm.trans e7.1

/-- relative values: 1 if the two coincide and are not zero; NaN, with which no tolerance test succeeds, if they are zero -/
theorem C44_first_relative (v : K) : (v ≠ 0 → fdiv v v = .fin 1) ∧ (v = 0 → fdiv v v = .nan ∧ ∀ tol, (fdiv v v).lt tol = false) := by
  refine ⟨fun h => ?_, fun h => ?_⟩
  · unfold fdiv; rw [if_neg h, div_self h]
  · subst h
    have : fdiv (0:K) 0 = .nan := by unfold fdiv; simp
    exact ⟨this, fun tol => by rw [this]; rfl⟩

/-- an instance: second iteration of Gauss-Newton on `x² - 2` from 1: `|r|` is `1/4`, relative to `1` -/
example : let res := runLs env1 (cfgN .AfterMaxIters (1/100) 2 .Standard) sq2 .gn (reg1 leastSquaresDiagnostics 1)
    Reads res.state .residualRelativel2Norm ⟨.residual, 1/4, .fin (1/4), 1⟩ := by unfold Reads; decide +kernel

end

/-! ### C35 -/

section
variable {m n p L : Type} [Fintype m] [Fintype n] [Fintype p] [DecidableEq n]

/-- C35.  If the system evaluates `R` and its derivative `Jac`, and the norm is the Euclidean one: the operators computed at `x` leave in the gradient the derivative of
    the objective `Phi(x) = objOf (R x)` at `x`; and the value they return, like the value that the line search computes, is `Phi(x)`. -/
theorem C35_gradient_is_derivative (env : Env ℝ m n p L) (tag : Tag) (R : (n → ℝ) → m → ℝ) (Jac : (n → ℝ) → Matrix m n ℝ)
    (hnorm : ∀ r, env.normM r ^ 2 = r ⬝ᵥ r) (hw : tag = .wgn → LinearWeights env) (hcw : tag = .cwgn → LinearCompactWeights env)
    (x : n → ℝ) (hR : HasFDerivAt R (LinearMap.toContinuousLinearMap (Jac x).mulVecLin) x) (s : Reg ℝ m n p L) (hr : s.r = R x) (hJ : s.J = Jac x) :
    let Phi := fun y => objOf env tag (R y)
    ∃ s', operators env tag s = .ok (Phi x) s' ∧
      HasFDerivAt Phi (LinearMap.toContinuousLinearMap (∑ i, s'.g i • LinearMap.proj i : (n → ℝ) →ₗ[ℝ] ℝ)) x ∧
      ∀ (y : n → ℝ) (t : Reg ℝ m n p L), ∃ t', SM.run (Sys.ofFun R Jac).toF (lsObjective env tag y) t = .ok (Phi y) t' := by
  intro Phi
  obtain ⟨s', h1, -, -, -, -, -, -, h2, -⟩ := operators_run env tag s
  rw [hr, hJ] at h2
  refine ⟨s', by rw [h1, hr], ?_, ?_⟩
  · rw [h2]
    have hlin : ∀ {q : Type} [Fintype q] (W : Matrix q m ℝ), HasFDerivAt (fun y => W *ᵥ R y) (LinearMap.toContinuousLinearMap (W * Jac x).mulVecLin) x := by
      intro q _ W
      have := (LinearMap.toContinuousLinearMap W.mulVecLin).hasFDerivAt.comp x hR
      refine HasFDerivAt.congr_fderiv this ?_
      ext w i
      simp [Matrix.mulVec_mulVec]
    have hdot : ∀ {q : Type} [Fintype q] (u v : (n → ℝ) → q → ℝ) (A B : Matrix q n ℝ), HasFDerivAt u (LinearMap.toContinuousLinearMap A.mulVecLin) x →
        HasFDerivAt v (LinearMap.toContinuousLinearMap B.mulVecLin) x →
        HasFDerivAt (fun y => (u y ⬝ᵥ v y) / 2) (LinearMap.toContinuousLinearMap (∑ i, ((Aᵀ *ᵥ v x + Bᵀ *ᵥ u x) i / 2) • LinearMap.proj i : (n → ℝ) →ₗ[ℝ] ℝ)) x := by
      intro q _ u v A B hu hv
      have hu' := fun i => (hasFDerivAt_pi'.mp hu) i
      have hv' := fun i => (hasFDerivAt_pi'.mp hv) i
      have hsum := (HasFDerivAt.fun_sum (u := Finset.univ) (fun i _ => (hu' i).mul (hv' i))).mul_const (1/2 : ℝ)
      have hfun : (fun y => (u y ⬝ᵥ v y) / 2) = fun y => (∑ i, u y i * v y i) * (1/2) := by funext y; rw [dotProduct]; ring
      rw [hfun]
      refine HasFDerivAt.congr_fderiv hsum ?_
      ext w
      have e1 : ∑ i, v x i * (A *ᵥ w) i = ∑ i, (Aᵀ *ᵥ v x) i * w i := by
        have := dot_mulVec_transpose A (v x) w
        simp only [dotProduct] at this
        rw [Finset.sum_congr rfl (fun i _ => mul_comm (v x i) _), this]
        exact Finset.sum_congr rfl (fun i _ => mul_comm _ _)
      have e2 : ∑ i, u x i * (B *ᵥ w) i = ∑ i, (Bᵀ *ᵥ u x) i * w i := by
        have := dot_mulVec_transpose B (u x) w
        simp only [dotProduct] at this
        rw [Finset.sum_congr rfl (fun i _ => mul_comm (u x i) _), this]
        exact Finset.sum_congr rfl (fun i _ => mul_comm _ _)
      have e3 : ∑ i, ((Aᵀ *ᵥ v x + Bᵀ *ᵥ u x) i / 2) * w i = (∑ i, u x i * (B *ᵥ w) i + ∑ i, v x i * (A *ᵥ w) i) * (1/2) := by
        rw [e1, e2, ← Finset.sum_add_distrib, Finset.sum_mul]
        exact Finset.sum_congr rfl (fun i _ => by simp only [Pi.add_apply]; ring)
      simp [ContinuousLinearMap.sum_apply, Finset.sum_add_distrib] at e3 ⊢
      linarith
    have hhalf : ∀ {q : Type} [Fintype q] (u : (n → ℝ) → q → ℝ) (A : Matrix q n ℝ), HasFDerivAt u (LinearMap.toContinuousLinearMap A.mulVecLin) x →
        HasFDerivAt (fun y => (u y ⬝ᵥ u y) / 2) (LinearMap.toContinuousLinearMap (∑ i, (Aᵀ *ᵥ u x) i • LinearMap.proj i : (n → ℝ) →ₗ[ℝ] ℝ)) x := by
      intro q _ u A hu
      have := hdot u u A A hu hu
      have e : ∀ i, (Aᵀ *ᵥ u x + Aᵀ *ᵥ u x) i / 2 = (Aᵀ *ᵥ u x) i := by intro i; simp only [Pi.add_apply]; ring
      simpa only [e] using this
    cases tag with
    | gn =>
      have hP : Phi = fun y => (R y ⬝ᵥ R y) / 2 := by funext y; show env.normM (R y) ^ 2 / 2 = _; rw [hnorm]
      rw [hP]; exact hhalf R (Jac x) hR
    | gnQr =>
      have hP : Phi = fun y => (R y ⬝ᵥ R y) / 2 := by funext y; show env.normM (R y) ^ 2 / 2 = _; rw [hnorm]
      rw [hP]; exact hhalf R (Jac x) hR
    | lm =>
      have hP : Phi = fun y => (R y ⬝ᵥ R y) / 2 := by funext y; show env.normM (R y) ^ 2 / 2 = _; rw [hnorm]
      rw [hP]; exact hhalf R (Jac x) hR
    | cwgn =>
      obtain ⟨W, h3, h4⟩ := hcw rfl
      have hP : Phi = fun y => ((W *ᵥ R y) ⬝ᵥ (W *ᵥ R y)) / 2 := by funext y; show (env.cwR (R y) ⬝ᵥ env.cwR (R y)) / 2 = _; rw [h3]
      rw [hP]
      show HasFDerivAt _ (LinearMap.toContinuousLinearMap (∑ i, ((env.cwJ (Jac x))ᵀ *ᵥ env.cwR (R x)) i • LinearMap.proj i : (n → ℝ) →ₗ[ℝ] ℝ)) x
      rw [h3, h4]
      exact hhalf (fun y => W *ᵥ R y) (W * Jac x) (hlin W)
    | wgn =>
      obtain ⟨W, hs, -, h3, h4⟩ := hw rfl
      have hP : Phi = fun y => (R y ⬝ᵥ (W *ᵥ R y)) / 2 := by funext y; show (R y ⬝ᵥ env.wR (R y)) / 2 = _; rw [h3]
      rw [hP]
      show HasFDerivAt _ (LinearMap.toContinuousLinearMap (∑ i, ((Jac x)ᵀ *ᵥ env.wR (R x)) i • LinearMap.proj i : (n → ℝ) →ₗ[ℝ] ℝ)) x
      rw [h3]
      have := hdot R (fun y => W *ᵥ R y) (Jac x) (W * Jac x) hR (hlin W)
      have e : ∀ i, ((Jac x)ᵀ *ᵥ (W *ᵥ R x) + (W * Jac x)ᵀ *ᵥ R x) i / 2 = ((Jac x)ᵀ *ᵥ (W *ᵥ R x)) i := by
        intro i
        rw [Matrix.transpose_mul, hs, ← Matrix.mulVec_mulVec]
        simp only [Pi.add_apply]; ring
      simpa only [e] using this
  · intro y t
    obtain ⟨r', W', cW', h⟩ := objective_ok env (Sys.ofFun R Jac) tag y t
    exact ⟨_, h⟩

/-- the hypothesis on the derivative is met by `x² - 2` -/
example (x : Unit → ℝ) : HasFDerivAt (fun y : Unit → ℝ => (fun _ : Unit => y () * y () - 2))
    (LinearMap.toContinuousLinearMap (Matrix.of (fun _ _ => 2 * x ()) : Matrix Unit Unit ℝ).mulVecLin) x := by
  rw [hasFDerivAt_pi']
  intro i
  have h := hasFDerivAt_apply (𝕜 := ℝ) (F' := fun _ : Unit => ℝ) () x
  refine HasFDerivAt.congr_fderiv ((h.mul h).sub_const 2) ?_
  ext w
  simp [Matrix.mulVec, dotProduct]
  ring

end
/-! ### The theorems on concrete runs -/

example := C43_least_squares env1 (cfgN .AfterMaxIters (1/100) 3 .LMSchedule1) sq2 .lm (env1_noWarm .lm)
  { (runLs env1 (cfgN .AfterMaxIters (1/100) 4 .LMSchedule1) quadTie .lm (reg1 leastSquaresDiagnostics 0)).state with x := v1 1 } (reg1 leastSquaresDiagnostics 1)
  (.used _ _ _ _ _ _ (.created _ rfl)) (.created _ rfl) rfl
example := C44_least_squares env1 (cfgN .AfterMaxIters (1/100) 4 .LMSchedule1) sq2 .lm (.inr (.inr ⟨rfl, .inl rfl⟩)) (reg1 leastSquaresDiagnostics 1) (.created _ rfl) (by decide) (by decide +kernel)
example := C44_newton env1 (cfgN .WhenAbsolutel2NormOfResidualBelowTolerance (1/100) 5 .Standard) sq2 (.inl rfl) (reg1 newtonDiagnostics 1) (.created _ rfl) (by decide) (by decide +kernel)


end Pressio.Props
