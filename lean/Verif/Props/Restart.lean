import Verif.Spec.Restart
import Verif.Props.Sharing

/-
  C107: checkpoint and restart.
-/
namespace Pressio.Props
set_option autoImplicit false
set_option linter.unusedSectionVars false
open Pressio Matrix
open Pressio.Model.Nonlinear (Env Cfg Reg StopCrit Update Tag Ans SP)
open Pressio.Spec.Nonlinear Pressio.Spec.Restart
open Pressio.Model.Implicit Pressio.Spec.Implicit Pressio.Lemmas.Implicit Pressio.Spec.SolverRun Pressio.Lemmas.SolverTree Pressio.Lemmas.SolverRun
open Pressio.Model.Explicit (Scheme)
open Pressio.Model.Galerkin Pressio.Model.Lspg Pressio.Spec.Galerkin Pressio.Spec.Lspg Pressio.Lemmas.Lspg

section
variable {K m n p L S : Type} [Add K]

/-- the equations of a step depend on the last accepted state only -/
def OneStepEqs (F : List (n → K) → K → K → (n → K) → Bool → Except Exc (Ans K m n)) : Prop := ∀ y prev prev', F (y :: prev) = F (y :: prev')

/-- runs of a one-step scheme from the same state at the same time, with other objects and another past -/
theorem past_irrelevant (Q : SolveTree (n → K) (Ans K m n) → Prop) (step : ((n → K) → SolveTree (n → K) (Ans K m n)) → K → K → Int → Prog (SolveSt (n → K) S (Ans K m n)) Unit)
    (F : List (n → K) → K → K → (n → K) → Bool → Except Exc (Ans K m n)) (hone : OneStepEqs F) (Inv Inv' : K → List (n → K) → S → Prop) (h : RefinesOn Q step F Inv) (h' : RefinesOn Q step F Inv')
    (hF : ∀ hist t dt x w, F hist t dt x w ≠ .error .timeStepFailure) (solve : SP K m n p L Unit) (hs : Fine solve) (hQ : ∀ reg y, Q (solverOf solve reg y))
    (good : Reg K m n p L → Prop) (hgood : ∀ reg reg' y hist t dt, good reg → good reg' →
      Lemmas.Sharing.Alike good { reg with x := y } { reg' with x := y } (SM.run (F hist t dt) solve { reg with x := y }) (SM.run (F hist t dt) solve { reg' with x := y }))
    (dts : List K) (t : K) (y : n → K) (prev prev' : List (n → K)) (mem mem' : S) (reg reg' : Reg K m n p L) (hI : Inv t (y :: prev) mem) (hI' : Inv' t (y :: prev') mem') (hg : good reg) (hg' : good reg') :
    (driveObj step solve dts t (y :: prev) y mem reg).map told = (driveObj step solve dts t (y :: prev') y mem' reg').map told := by
  induction dts generalizing t y prev prev' mem mem' reg reg' with
  | nil => rfl
  | cons dt rest ih =>
    obtain ⟨m1, hm1, e1⟩ := h (solverOf solve reg) t dt y prev mem hI (hQ reg y)
    obtain ⟨m2, hm2, e2⟩ := h' (solverOf solve reg') t dt y prev' mem' hI' (hQ reg' y)
    rw [hone y prev' prev] at e2 hm2
    obtain ⟨r1, r2, ⟨Qs, r3, r4⟩, r5, r6⟩ := hgood reg reg' y (y :: prev) t dt hg hg'
    have hh := honest_outcome (F (y :: prev) t dt) (hF _ _ _) (solverOf solve reg y) (honest_solverOf solve hs reg y)
    have hrep : (solve { reg with x := y }).replay reg ((outcome (F (y :: prev) t dt) (solverOf solve reg y)).queries.map (·.ans)) = (SM.run (F (y :: prev) t dt) solve { reg with x := y }).state := by
      rw [outcome_solverOf]; exact replay_asked _ _ _
    have hrep' : (solve { reg' with x := y }).replay reg' ((outcome (F (y :: prev) t dt) (solverOf solve reg' y)).queries.map (·.ans)) = (SM.run (F (y :: prev) t dt) solve { reg' with x := y }).state := by
      rw [outcome_solverOf]; exact replay_asked _ _ _
    have hout : outcome (F (y :: prev) t dt) (solverOf solve reg y) = outcome (F (y :: prev) t dt) (solverOf solve reg' y) := by
      rw [outcome_solverOf, outcome_solverOf, r1, r2]
      have l1 := log_run solve hs (F (y :: prev) t dt) { reg with x := y }
      have l2 := log_run solve hs (F (y :: prev) t dt) { reg' with x := y }
      rw [r3] at l1
      rw [r4] at l2
      rw [← List.append_cancel_left l1, ← List.append_cancel_left l2]
    rw [← hout] at e2 hm2 hrep'
    simp only [driveObj]
    rw [e1, e2]
    generalize hst : (outcome (F (y :: prev) t dt) (solverOf solve reg y)).stop = st at *
    match st with
    | none =>
      simp only at hm1 hm2 ⊢
      rw [hrep, hrep', List.map_cons, List.map_cons, ih _ _ _ _ _ _ _ _ hm1 hm2 r5 r6]
      rfl
    | some (.exc ex) =>
      cases ex with
      | nonlinearSolveFailure =>
        simp only at hm1 hm2 ⊢
        rw [hrep, hrep', List.map_cons, List.map_cons, ih _ _ _ _ _ _ _ _ hm1 hm2 r5 r6]
        rfl
      | timeStepFailure => exact absurd rfl hh
      | _ => rfl
    | some (.ub w) => rfl
    | some .fuel => rfl

theorem restart_runs (Q : SolveTree (n → K) (Ans K m n) → Prop) (step : ((n → K) → SolveTree (n → K) (Ans K m n)) → K → K → Int → Prog (SolveSt (n → K) S (Ans K m n)) Unit)
    (F : List (n → K) → K → K → (n → K) → Bool → Except Exc (Ans K m n)) (hone : OneStepEqs F) (Inv : K → List (n → K) → S → Prop) (h : RefinesOn Q step F Inv)
    (hF : ∀ hist t dt x w, F hist t dt x w ≠ .error .timeStepFailure) (solve : SP K m n p L Unit) (hs : Fine solve) (hQ : ∀ reg y, Q (solverOf solve reg y))
    (good : Reg K m n p L → Prop) (hgood : ∀ reg reg' y hist t dt, good reg → good reg' →
      Lemmas.Sharing.Alike good { reg with x := y } { reg' with x := y } (SM.run (F hist t dt) solve { reg with x := y }) (SM.run (F hist t dt) solve { reg' with x := y }))
    (mem' : S) (hnew : ∀ t y, ∃ Inv', RefinesOn Q step F Inv' ∧ Inv' t [y] mem') (reg' : Reg K m n p L) (hg' : good reg') (dts dts' : List K) :
    ∀ (t : K) (y : n → K) (prev : List (n → K)) (mem : S) (reg : Reg K m n p L), Inv t (y :: prev) mem → good reg →
    let first := driveObj step solve dts t (y :: prev) y mem reg
    Alive first → (driveObj step solve (dts ++ dts') t (y :: prev) y mem reg).map told =
      first.map told ++ (driveObj step solve dts' (timeAfter t first) [stateOf y first] (stateOf y first) mem' reg').map told := by
  induction dts with
  | nil =>
    intro t y prev mem reg hI hg first _
    obtain ⟨Inv', h', hI'⟩ := hnew t y
    exact past_irrelevant Q step F hone Inv Inv' h h' hF solve hs hQ good hgood dts' t y prev [] mem mem' reg reg' hI hI' hg hg'
  | cons dt rest ih =>
    intro t y prev mem reg hI hg
    obtain ⟨m1, hm1, e1⟩ := h (solverOf solve reg) t dt y prev mem hI (hQ reg y)
    have r5 := (hgood reg reg y (y :: prev) t dt hg hg).2.2.2.1
    have hh := honest_outcome (F (y :: prev) t dt) (hF _ _ _) (solverOf solve reg y) (honest_solverOf solve hs reg y)
    have hrep : (solve { reg with x := y }).replay reg ((outcome (F (y :: prev) t dt) (solverOf solve reg y)).queries.map (·.ans)) = (SM.run (F (y :: prev) t dt) solve { reg with x := y }).state := by
      rw [outcome_solverOf]; exact replay_asked _ _ _
    simp only [driveObj, List.cons_append]
    rw [e1]
    have last : ∀ (r : Record K (n → K) (Ans K m n)) l, stateOf y (r :: l) = stateOf r.y l := by
      intro r l
      unfold stateOf
      cases l <;> simp [List.getLast?_cons]
    generalize hst : (outcome (F (y :: prev) t dt) (solverOf solve reg y)).stop = st at *
    match st with
    | none =>
      simp only at hm1 ⊢
      rw [hrep]
      intro ha
      rw [List.map_cons, ih _ _ _ _ _ hm1 r5 (fun r hr => ha r (List.mem_cons_of_mem _ hr)), last]
      rfl
    | some (.exc ex) =>
      cases ex with
      | nonlinearSolveFailure =>
        simp only at hm1 ⊢
        rw [hrep]
        intro ha
        rw [List.map_cons, ih _ _ _ _ _ hm1 r5 (fun r hr => ha r (List.mem_cons_of_mem _ hr)), last]
        rfl
      | timeStepFailure => exact absurd rfl hh
      | _ => intro ha; have := ha _ List.mem_cons_self; simp at this
    | some (.ub w) => intro ha; have := ha _ List.mem_cons_self; simp at this
    | some .fuel => intro ha; have := ha _ List.mem_cons_self; simp at this
end

section
variable {K n p L : Type} [Field K] [LinearOrder K] [IsStrictOrderedRing K] [Fintype n] [DecidableEq n] [Fintype p]

/-- the scheme of the stepper is BDF1 or Crank-Nicolson -/
def Evolution.OneStep : Evolution K n → Prop
  | .ode name _ => name ≠ .BDF2
  | .withMass _ _ name _ => name ≠ .BDF2

theorem Evolution.oneStepEqs (P : Evolution K n) (h : P.OneStep) : OneStepEqs P.equations := by
  intro y prev prev'
  cases P with
  | ode name sys => cases name <;> first | exact absurd rfl h | rfl
  | withMass act asJac name sys => cases name <;> first | exact absurd rfl h | rfl

/-- **C107, implicit steppers.** A run with BDF1 or Crank-Nicolson (ODEs, Galerkin problems, problems with mass matrix), with a solver object of any kind, that is interrupted after any number of attempts and continued from the time and the state it has reached, with a new stepper object
    (whose step numbers begin again) and any other solver object with the same options, makes exactly the attempts of the uninterrupted run: same times, sizes, failures, states, evaluations and answers. -/
theorem C107_implicit (P : Evolution K n) (hP : P.Fits) (h1 : P.OneStep) (kind : SolverKind) (env : Env K n n p L) (cfg : Cfg K) (he : kind.Honest env) (hc : kind.NoWarm env) (stepper stepper' : P.Mem) (hnew : P.New stepper) (hnew' : P.New stepper') (reg reg' : Reg K n n p L) (hreg : kind.Idle reg) (hreg' : kind.Idle reg')
    (t0 : K) (y0 : n → K) (dts dts' : List K) :
    let first := driveObj P.step (kind.solve env cfg) dts t0 [y0] y0 stepper reg
    Alive first → (driveObj P.step (kind.solve env cfg) (dts ++ dts') t0 [y0] y0 stepper reg).map told =
      first.map told ++ (driveObj P.step (kind.solve env cfg) dts' (timeAfter t0 first) [stateOf y0 first] (stateOf y0 first) stepper' reg').map told := by
  obtain ⟨Inv, h, hI⟩ := P.lawful stepper hnew t0 y0
  exact restart_runs (fun _ => True) P.step P.equations (P.oneStepEqs h1) Inv h (P.ne hP) _ (kind.fine env cfg he) (fun _ _ => trivial) (fun r => kind.Good r)
    (fun reg reg' y hist t dt hg hg' => kind.alike env cfg hc _ (P.typed hP hist t dt) reg reg' y hg hg') stepper' (fun t y => P.lawful stepper' hnew' t y) reg' (kind.good_of_idle _ hreg') dts dts' t0 y0 [] stepper reg hI (kind.good_of_idle _ hreg)
end

section
variable {K m q n p L : Type} [Field K] [LinearOrder K] [IsStrictOrderedRing K] [Fintype m] [DecidableEq m] [Fintype q] [DecidableEq q] [Fintype n] [DecidableEq n] [Fintype p]

/-- the scheme of the stepper is BDF1 -/
def LspgProblem.OneStep : LspgProblem K m q n → Prop
  | .default _ _ _ _ name => name = .BDF1
  | .hyperReduced _ _ _ _ _ _ name => name = .BDF1
  | .masked _ _ _ _ _ _ _ name => name = .BDF1

theorem LspgProblem.oneStepEqs (P : LspgProblem K m q n) (h : P.OneStep) : OneStepEqs P.equations := by
  intro y prev prev'
  cases P <;> (obtain rfl := h; rfl)

/-- **C107, LSPG** with BDF1: default, hyper-reduced and masked problems, continued with a new problem object. -/
theorem C107_lspg (P : LspgProblem K m q n) (hP : P.Fits) (h1 : P.OneStep) (tag : Tag) (env : Env K q n p L) (cfg : Cfg K) (hi : 1 ≤ cfg.maxIters) (he : InnerHonest env tag) (hc : NoWarmStart env tag) (stepper stepper' : P.Mem) (hnew : P.New stepper) (hnew' : P.New stepper') (reg reg' : Reg K q n p L)
    (hreg : LsIdle reg) (hreg' : LsIdle reg') (t0 : K) (y0 : n → K) (dts dts' : List K) :
    let first := driveObj P.step (Model.Nonlinear.lsSolve env cfg tag) dts t0 [y0] y0 stepper reg
    Alive first → (driveObj P.step (Model.Nonlinear.lsSolve env cfg tag) (dts ++ dts') t0 [y0] y0 stepper reg).map told =
      first.map told ++ (driveObj P.step (Model.Nonlinear.lsSolve env cfg tag) dts' (timeAfter t0 first) [stateOf y0 first] (stateOf y0 first) stepper' reg').map told := by
  obtain ⟨Inv, h, hI⟩ := P.lawful hP stepper hnew t0 y0
  exact restart_runs Asks P.step P.equations (P.oneStepEqs h1) Inv h (P.ne hP) _ (SolverKind.fine env cfg (.leastSquares tag) he) (asks_solverOf _ (busy_lsSolve env cfg tag hi)) (fun r => (SolverKind.leastSquares tag).Good r)
    (fun reg reg' y hist t dt hg hg' => SolverKind.alike env cfg (.leastSquares tag) hc _ (P.typed hist t dt) reg reg' y hg hg') stepper' (fun t y => P.lawful hP stepper' hnew' t y) reg' (SolverKind.good_of_idle (.leastSquares tag) _ hreg') dts dts' t0 y0 [] stepper reg hI (SolverKind.good_of_idle (.leastSquares tag) _ hreg)
end
end Pressio.Props
