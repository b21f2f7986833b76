import Verif.Lemmas.SolverAsks

/-
  Runs of a stepper with two solver objects that solve the equations of the steps alike.
-/
namespace Pressio.Lemmas.SolverRun
set_option autoImplicit false
set_option linter.unusedSectionVars false
open Pressio Matrix
open Pressio.Model.Nonlinear Pressio.Spec.Nonlinear Pressio.Spec.SolverRun Pressio.Spec.Implicit Pressio.Lemmas.Implicit Pressio.Lemmas.SolverTree

variable {K m n p p' L L' S : Type}

theorem driveObj_solvers [Add K] (D : K → Prop) (Q : SolveTree (n → K) (Ans K m n) → Prop) (step : ((n → K) → SolveTree (n → K) (Ans K m n)) → K → K → Int → Prog (SolveSt (n → K) S (Ans K m n)) Unit)
    (F : List (n → K) → K → K → (n → K) → Bool → Except Exc (Ans K m n)) (Inv : K → List (n → K) → S → Prop) (h : RefinesOn Q step F Inv)
    (hF : ∀ hist t dt x w, F hist t dt x w ≠ .error .timeStepFailure) (solve : SP K m n p L Unit) (solve' : SP K m n p' L' Unit) (hs : Fine solve) (hs' : Fine solve') (hQ : ∀ reg y, Q (solverOf solve reg y)) (hQ' : ∀ reg y, Q (solverOf solve' reg y))
    (R : Reg K m n p L → Reg K m n p' L' → Prop)
    (hR : ∀ reg reg' y prev t dt, D dt → R reg reg' → let r := SM.run (F (y :: prev) t dt) solve { reg with x := y }; let r' := SM.run (F (y :: prev) t dt) solve' { reg' with x := y }
      r.stop? = r'.stop? ∧ r.state.x = r'.state.x ∧ (∃ Q, r.state.log = reg.log ++ Q ∧ r'.state.log = reg'.log ++ Q) ∧ R r.state r'.state)
    (dts : List K) (hD : ∀ d ∈ dts, D d) (t : K) (y : n → K) (prev : List (n → K)) (mem mem' : S) (reg : Reg K m n p L) (reg' : Reg K m n p' L') (hI : Inv t (y :: prev) mem) (hI' : Inv t (y :: prev) mem') (hreg : R reg reg') :
    driveObj step solve dts t (y :: prev) y mem reg = driveObj step solve' dts t (y :: prev) y mem' reg' := by
  induction dts generalizing t y prev mem mem' reg reg' with
  | nil => rfl
  | cons dt rest ih =>
    obtain ⟨m1, hm1, e1⟩ := h (solverOf solve reg) t dt y prev mem hI (hQ reg y)
    obtain ⟨m2, hm2, e2⟩ := h (solverOf solve' reg') t dt y prev mem' hI' (hQ' reg' y)
    obtain ⟨r1, r2, ⟨Qs, r3, r4⟩, r5⟩ := hR reg reg' y prev t dt (hD _ List.mem_cons_self) hreg
    have hh := honest_outcome (F (y :: prev) t dt) (hF _ _ _) (solverOf solve reg y) (honest_solverOf solve hs reg y)
    have hrep : (solve { reg with x := y }).replay reg ((outcome (F (y :: prev) t dt) (solverOf solve reg y)).queries.map (·.ans)) = (SM.run (F (y :: prev) t dt) solve { reg with x := y }).state := by
      rw [outcome_solverOf]; exact replay_asked _ _ _
    have hrep' : (solve' { reg' with x := y }).replay reg' ((outcome (F (y :: prev) t dt) (solverOf solve' reg' y)).queries.map (·.ans)) = (SM.run (F (y :: prev) t dt) solve' { reg' with x := y }).state := by
      rw [outcome_solverOf]; exact replay_asked _ _ _
    have hout : outcome (F (y :: prev) t dt) (solverOf solve reg y) = outcome (F (y :: prev) t dt) (solverOf solve' reg' y) := by
      rw [outcome_solverOf, outcome_solverOf, r1, r2]
      have l1 := log_run solve hs (F (y :: prev) t dt) { reg with x := y }
      have l2 := log_run solve' hs' (F (y :: prev) t dt) { reg' with x := y }
      rw [r3] at l1
      rw [r4] at l2
      rw [← List.append_cancel_left l1, ← List.append_cancel_left l2]
    rw [← hout] at e2 hm2 hrep'
    simp only [driveObj]
    rw [e1, e2]
    have hrest : ∀ d ∈ rest, D d := fun d hd => hD d (List.mem_cons_of_mem _ hd)
    generalize hst : (outcome (F (y :: prev) t dt) (solverOf solve reg y)).stop = st at *
    match st with
    | none =>
      simp only at hm1 hm2 ⊢
      rw [hrep, hrep', ih hrest _ _ _ _ _ _ _ hm1 hm2 r5]
    | some (.exc ex) =>
      cases ex with
      | nonlinearSolveFailure =>
        simp only at hm1 hm2 ⊢
        rw [hrep, hrep', ih hrest _ _ _ _ _ _ _ hm1 hm2 r5]
      | timeStepFailure => exact absurd rfl hh
      | _ => rfl
    | some (.ub w) => rfl
    | some .fuel => rfl

end Pressio.Lemmas.SolverRun
