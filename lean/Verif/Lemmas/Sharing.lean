import Verif.Spec.Sharing
import Verif.Lemmas.SolverRun
import Verif.Lemmas.SolverAsks

/-
  Sharing solver objects changes nothing, if the solves do not depend on the memory of the solver objects.
-/
namespace Pressio.Lemmas.Sharing
set_option autoImplicit false
set_option linter.unusedSectionVars false
open Pressio Pressio.Spec.Implicit Pressio.Spec.SolverRun Pressio.Spec.Sharing
open Pressio.Model.Nonlinear Pressio.Lemmas.Implicit Pressio.Lemmas.SolverTree Pressio.Lemmas.SolverRun

variable {K m n p L ι σ ℓ : Type} [DecidableEq ι] [DecidableEq σ] [DecidableEq ℓ]

theorem part_cons {α : Type} (k j : ι) (a : α) (l : List (ι × α)) : part k ((j, a) :: l) = if j = k then a :: part k l else part k l := by
  unfold part
  by_cases h : j = k <;> simp [h]

section
variable [Add K] {S : ι → Type} (step : ∀ k, ((n → K) → SolveTree (n → K) (Ans K m n)) → K → K → Int → Prog (SolveSt (n → K) (S k) (Ans K m n)) Unit) (solve : σ → SP K m n p L Unit) (solverFor : ι → σ) (linearFor : σ → ℓ)

/-- a problem that was given up makes no more attempts -/
theorem part_none (k : ι) : ∀ (sched : List (ι × K)) (w : ∀ k, Option (Going K (n → K) (S k))) (regs : σ → Reg K m n p L) (lins : ℓ → L), w k = none → part k (driveShared step solve solverFor linearFor sched w regs lins) = [] := by
  intro sched
  induction sched with
  | nil => intros; rfl
  | cons a rest ih =>
    obtain ⟨j, dt⟩ := a
    intro w regs lins hk
    unfold driveShared
    rcases hj : w j with _ | ⟨t, hist, y, mem⟩
    · exact ih _ _ _ hk
    have hne : j ≠ k := by rintro rfl; rw [hk] at hj; cases hj
    simp only
    split
    all_goals
      rw [part_cons, if_neg hne]
      exact ih _ _ _ (by rw [Function.update_of_ne hne.symm]; exact hk)

/-- what two solves have in common as seen by the caller and by the system, and a property that they keep -/
def Alike (good : Reg K m n p L → Prop) (s s' : Reg K m n p L) (r r' : Res (Reg K m n p L) Unit) : Prop :=
  r.stop? = r'.stop? ∧ r.state.x = r'.state.x ∧ (∃ Q, r.state.log = s.log ++ Q ∧ r'.state.log = s'.log ++ Q) ∧ good r.state ∧ good r'.state

theorem shared_alone (Q : SolveTree (n → K) (Ans K m n) → Prop) (F : ι → List (n → K) → K → K → (n → K) → Bool → Except Exc (Ans K m n)) (Inv : ∀ k, K → List (n → K) → S k → Prop) (h : ∀ k, RefinesOn Q (step k) (F k) (Inv k))
    (hF : ∀ k hist t dt x w, F k hist t dt x w ≠ .error .timeStepFailure) (hs : ∀ s, Fine (solve s)) (hQ : ∀ s reg y, Q (solverOf (solve s) reg y)) (good : σ → Reg K m n p L → Prop)
    (hlin : ∀ s reg l, good s reg → good s (withLinear reg l))
    (hgood : ∀ k reg reg' y hist t dt, good (solverFor k) reg → good (solverFor k) reg' →
      Alike (good (solverFor k)) { reg with x := y } { reg' with x := y } (SM.run (F k hist t dt) (solve (solverFor k)) { reg with x := y }) (SM.run (F k hist t dt) (solve (solverFor k)) { reg' with x := y }))
    (k : ι) (Inv' : K → List (n → K) → S k → Prop) (h' : RefinesOn Q (step k) (F k) Inv') :
    ∀ (sched : List (ι × K)) (w : ∀ k, Option (Going K (n → K) (S k))) (regs : σ → Reg K m n p L) (lins : ℓ → L),
      (∀ j a, w j = some a → ∃ prev, a.hist = a.y :: prev ∧ Inv j a.t a.hist a.mem) → (∀ s, good s (regs s)) → ∀ (a : Going K (n → K) (S k)), w k = some a → ∀ (mem' : S k), Inv' a.t a.hist mem' → ∀ own, good (solverFor k) own →
      part k (driveShared step solve solverFor linearFor sched w regs lins) = driveObj (step k) (solve (solverFor k)) (part k sched) a.t a.hist a.y mem' own := by
  intro sched
  induction sched with
  | nil => intros; rfl
  | cons b rest ih =>
    obtain ⟨j, dt⟩ := b
    intro w regs lins hw hr a ha mem' hm own ho
    rcases hj : w j with _ | ⟨t, hist, y, mem⟩
    · have hne : j ≠ k := by rintro rfl; rw [ha] at hj; cases hj
      unfold driveShared
      rw [hj, part_cons, if_neg hne]
      exact ih _ _ _ hw hr a ha mem' hm own ho
    obtain ⟨prev, hp, hI⟩ := hw j _ hj
    simp only at hp hI
    subst hp
    -- the attempt of problem `j` in the shared program
    generalize hreg : withLinear (regs (solverFor j)) (lins (linearFor (solverFor j))) = reg
    have hg : good (solverFor j) reg := hreg ▸ hlin _ _ _ (hr _)
    obtain ⟨m1, hm1, e1⟩ := h j (solverOf (solve (solverFor j)) reg) t dt y prev mem hI (hQ _ _ _)
    have hh := honest_outcome (F j (y :: prev) t dt) (hF j _ _ _) (solverOf (solve (solverFor j)) reg y) (honest_solverOf _ (hs _) reg y)
    have hrep : (solve (solverFor j) { reg with x := y }).replay reg ((outcome (F j (y :: prev) t dt) (solverOf (solve (solverFor j)) reg y)).queries.map (·.ans)) = (SM.run (F j (y :: prev) t dt) (solve (solverFor j)) { reg with x := y }).state := by
      rw [outcome_solverOf]; exact replay_asked _ _ _
    have hg1 := (hgood j reg reg y (y :: prev) t dt hg hg).2.2.2.1
    have hregs : ∀ s, good s (Function.update regs (solverFor j) (SM.run (F j (y :: prev) t dt) (solve (solverFor j)) { reg with x := y }).state s) := by
      intro s
      by_cases hsj : s = solverFor j
      · subst hsj; rw [Function.update_self]; exact hg1
      · rw [Function.update_of_ne hsj]; exact hr s
    have hw' : ∀ (o : Option (Going K (n → K) (S j))), (∀ a, o = some a → ∃ prev, a.hist = a.y :: prev ∧ Inv j a.t a.hist a.mem) → ∀ i a, Function.update w j o i = some a → ∃ prev, a.hist = a.y :: prev ∧ Inv i a.t a.hist a.mem := by
      intro o hoo i a hi
      by_cases hij : i = j
      · subst hij; rw [Function.update_self] at hi; exact hoo a hi
      · rw [Function.update_of_ne hij] at hi; exact hw i a hi
    unfold driveShared
    rw [hj]
    simp only [hreg]
    by_cases hjk : j = k
    · -- an attempt of problem `k`: compare with the attempt of the program that has only this problem
      subst hjk
      obtain rfl : (⟨t, y :: prev, y, mem⟩ : Going K (n → K) (S j)) = a := by rw [hj] at ha; exact Option.some.inj ha
      simp only at hm
      obtain ⟨m2, hm2, e2⟩ := h' (solverOf (solve (solverFor j)) own) t dt y prev mem' hm (hQ _ _ _)
      have hrep' : (solve (solverFor j) { own with x := y }).replay own ((outcome (F j (y :: prev) t dt) (solverOf (solve (solverFor j)) own y)).queries.map (·.ans)) = (SM.run (F j (y :: prev) t dt) (solve (solverFor j)) { own with x := y }).state := by
        rw [outcome_solverOf]; exact replay_asked _ _ _
      obtain ⟨r1, r2, ⟨q, r3, r4⟩, -, r5⟩ := hgood j reg own y (y :: prev) t dt hg ho
      have l1 := log_run _ (hs (solverFor j)) (F j (y :: prev) t dt) { reg with x := y }
      have l2 := log_run _ (hs (solverFor j)) (F j (y :: prev) t dt) { own with x := y }
      rw [r3] at l1
      rw [r4] at l2
      have hO : outcome (F j (y :: prev) t dt) (solverOf (solve (solverFor j)) own y) = outcome (F j (y :: prev) t dt) (solverOf (solve (solverFor j)) reg y) := by
        rw [outcome_solverOf, outcome_solverOf, r1, r2, ← List.append_cancel_left l1, ← List.append_cancel_left l2]
      rw [hO] at e2 hm2 hrep'
      rw [part_cons, if_pos rfl]
      simp only [driveObj]
      generalize outcome (F j (y :: prev) t dt) (solverOf (solve (solverFor j)) reg y) = O at *
      obtain ⟨st, oy, oq⟩ := O
      simp only at e1 e2 hm1 hm2 hrep hrep' hh
      rw [e1, e2]
      match st with
      | none =>
        simp only at hm1 hm2 ⊢
        rw [hrep, hrep', part_cons, if_pos rfl]
        refine congrArg _ (ih _ _ _ (hw' _ ?_) hregs ⟨t + dt, oy :: y :: prev, oy, m1⟩ (Function.update_self ..) _ hm2 _ r5)
        rintro _ ⟨⟩; exact ⟨_, rfl, hm1⟩
      | some (.exc ex) =>
        cases ex with
        | nonlinearSolveFailure =>
          simp only at hm1 hm2 ⊢
          rw [hrep, hrep', part_cons, if_pos rfl]
          refine congrArg _ (ih _ _ _ (hw' _ ?_) hregs ⟨t, y :: prev, y, m1⟩ (Function.update_self ..) _ hm2 _ r5)
          rintro _ ⟨⟩; exact ⟨_, rfl, hm1⟩
        | timeStepFailure => exact absurd rfl hh
        | _ => simp only [part_cons, if_true]; rw [part_none _ _ _ _ _ _ _ _ _ (Function.update_self ..)]
      | some (.ub _) => simp only [part_cons, if_true]; rw [part_none _ _ _ _ _ _ _ _ _ (Function.update_self ..)]
      | some .fuel => simp only [part_cons, if_true]; rw [part_none _ _ _ _ _ _ _ _ _ (Function.update_self ..)]
    · -- an attempt of another problem
      have hkj : k ≠ j := fun e => hjk e.symm
      rw [part_cons, if_neg hjk]
      generalize outcome (F j (y :: prev) t dt) (solverOf (solve (solverFor j)) reg y) = O at *
      obtain ⟨st, oy, oq⟩ := O
      simp only at e1 hm1 hrep hh
      rw [e1]
      match st with
      | none =>
        simp only at hm1 ⊢
        rw [hrep, part_cons, if_neg hjk]
        refine ih _ _ _ (hw' _ ?_) hregs a (by rw [Function.update_of_ne hkj]; exact ha) _ hm _ ho
        rintro _ ⟨⟩; exact ⟨_, rfl, hm1⟩
      | some (.exc ex) =>
        cases ex with
        | nonlinearSolveFailure =>
          simp only at hm1 ⊢
          rw [hrep, part_cons, if_neg hjk]
          refine ih _ _ _ (hw' _ ?_) hregs a (by rw [Function.update_of_ne hkj]; exact ha) _ hm _ ho
          rintro _ ⟨⟩; exact ⟨_, rfl, hm1⟩
        | timeStepFailure => exact absurd rfl hh
        | _ =>
          simp only
          rw [hrep, part_cons, if_neg hjk]
          exact ih _ _ _ (hw' _ (by simp)) hregs a (by rw [Function.update_of_ne hkj]; exact ha) _ hm _ ho
      | some (.ub _) =>
        simp only
        rw [hrep, part_cons, if_neg hjk]
        exact ih _ _ _ (hw' _ (by simp)) hregs a (by rw [Function.update_of_ne hkj]; exact ha) _ hm _ ho
      | some .fuel =>
        simp only
        rw [hrep, part_cons, if_neg hjk]
        exact ih _ _ _ (hw' _ (by simp)) hregs a (by rw [Function.update_of_ne hkj]; exact ha) _ hm _ ho
end

end Pressio.Lemmas.Sharing
