import Verif.Lemmas.Implicit
import Mathlib.Tactic.Module
import Mathlib.Tactic.Abel

namespace Pressio.Lemmas.Implicit
set_option autoImplicit false
open Pressio Pressio.Model.Implicit Pressio.Spec.Implicit
open Pressio.Model.Explicit (Scheme)

variable {K Y J : Type} [Field K] [AddCommGroup Y] [Module K Y] [AddCommGroup J] [Module K J] [One J]

set_option linter.unusedSectionVars false

theorem resBDF1_eq (y f yn : Y) (dt : K) : discreteResidualBDF1 y f yn dt = bdf1Res dt y yn f := by
  simp only [discreteResidualBDF1, bdf1Res]; module
theorem resBDF2_eq (y f yn ynm1 : Y) (dt : K) : discreteResidualBDF2 y f yn ynm1 dt = bdf2Res dt y yn ynm1 f := by
  simp only [discreteResidualBDF2, bdf2Res, neg_div, neg_mul, neg_smul, one_smul, sub_eq_add_neg]; abel
theorem resCN_eq (r y yn fn fnp1 : Y) (dt : K) : discreteResidualCN r y yn fn fnp1 dt = cnRes dt y yn fnp1 fn := by
  have h : ((-1:K) / 2) * dt = -(dt / 2) := by ring
  simp only [discreteResidualCN, cnRes, h, neg_smul, one_smul, zero_smul, zero_add, smul_add, sub_eq_add_neg, neg_add]; abel
theorem jacBDF1_eq (j : J) (dt : K) : discreteJacobianBDF1 j dt = bdf1Jac dt j := by
  simp only [discreteJacobianBDF1, bdf1Jac]; module
theorem jacBDF2_eq (j : J) (dt : K) : discreteJacobianBDF2 j dt = bdf2Jac dt j := by
  simp only [discreteJacobianBDF2, bdf2Jac, neg_div, neg_mul, neg_smul, one_smul, sub_eq_add_neg]; abel
theorem jacCN_eq (j : J) (dt : K) : discreteJacobianCN j dt = cnJac dt j := by
  have h : ((-1:K) / 2) * dt = -(dt / 2) := by ring
  simp only [discreteJacobianCN, cnJac, h, neg_smul, one_smul, sub_eq_add_neg]; abel

theorem policy_bdf1 (sys : ISystem K Y J) :
    PolicyRefines .BDF1 (standardPolicy sys) (textbook .BDF1 sys) St1 (fun _ _ _ _ => True) := by
  refine ⟨?_, fun _ _ _ _ _ _ _ _ => trivial⟩
  rintro y prev t dt states ⟨y', prev', h1, rfl⟩ x w r p -
  simp only [List.cons.injEq] at h1
  obtain ⟨rfl, rfl⟩ := h1
  refine ⟨r, ⟨(y :: prev).length⟩, trivial, ?_⟩
  simp only [standardPolicy, computeBDF1, catchVelocity, Prog.catchE, Prog.bind_run, evalSys, readState, textbook]
  rcases sys.eval x (t + dt) w with ⟨e, _⟩ | ⟨f, j⟩
  · by_cases he : e = .velocityFailureUnrecoverable <;> simp [he, reported]
  · simp [resBDF1_eq]
    cases j <;> simp [jacBDF1_eq]

theorem policy_bdf2 (sys : ISystem K Y J) :
    PolicyRefines .BDF2 (standardPolicy sys) (textbook .BDF2 sys) St2 (fun _ _ _ _ => True) := by
  refine ⟨?_, fun _ _ _ _ _ _ _ _ => trivial⟩
  rintro y prev t dt states ⟨y', prev', b, h1, rfl, hb⟩ x w r p -
  simp only [List.cons.injEq] at h1
  obtain ⟨rfl, rfl⟩ := h1
  refine ⟨r, ⟨(y :: prev).length⟩, trivial, ?_⟩
  cases prev with
  | nil =>
    have h1 : (([y].length : Nat) : Int) = 1 := rfl
    simp only [standardPolicy, computeBDF2, if_pos h1]
    simp only [catchVelocity, Prog.catchE, Prog.bind_run, evalSys, readState, textbook]
    rcases sys.eval x (t + dt) w with ⟨e, _⟩ | ⟨f, j⟩
    · by_cases he : e = .velocityFailureUnrecoverable <;> simp [he, reported, Prog.bind_run]
    · simp [resBDF1_eq, Prog.bind_run]
      cases j <;> simp [jacBDF1_eq]
  | cons z rest =>
    obtain rfl := hb z rest rfl
    have h1 : ¬ (((y :: b :: rest).length : Int) = 1) := by simp only [List.length_cons]; omega
    simp only [standardPolicy, computeBDF2, if_neg h1]
    simp only [catchVelocity, Prog.catchE, Prog.bind_run, evalSys, readState, textbook]
    rcases sys.eval x (t + dt) w with ⟨e, _⟩ | ⟨f, j⟩
    · by_cases he : e = .velocityFailureUnrecoverable <;> simp [he, reported, Prog.bind_run]
    · simp [resBDF2_eq, Prog.bind_run]
      cases j <;> simp [jacBDF2_eq]

/-- memory of the Crank-Nicolson policy: either the right-hand side at the start of the step will be computed, or it has been -/
def CNInv (sys : ISystem K Y J) : K → List Y → List Y → PMem → Prop := fun t hist r p =>
  ∃ r0 r1 yn prev, hist = yn :: prev ∧ r = [r0, r1] ∧
    (p.tracker < hist.length ∨ (p.tracker = hist.length ∧ ∃ j, sys.eval yn t false = .ok (r1, j)))

theorem policy_cn (sys : ISystem K Y J) :
    PolicyRefines .CrankNicolson (standardPolicy sys) (textbook .CrankNicolson sys) St1 (CNInv sys) := by
  refine ⟨?_, ?_⟩
  · rintro y prev t dt states ⟨y', prev', h1, rfl⟩ x w r ⟨tr⟩ ⟨r0, r1, yn, pv, h2, rfl, htr⟩
    simp only [List.cons.injEq] at h1 h2
    obtain ⟨rfl, rfl⟩ := h1
    obtain ⟨rfl, rfl⟩ := h2
    have htn : t + dt - dt = t := by ring
    by_cases hc : tr = ((y :: prev).length : Int)
    · obtain ⟨j0, hj0⟩ : ∃ j, sys.eval y t false = .ok (r1, j) := by
        rcases htr with h | h
        · simp only at h; omega
        · exact h.2
      rcases hx : sys.eval x (t + dt) w with ⟨e, junk⟩ | ⟨f, j⟩
      · refine ⟨[junk, r1], ⟨tr⟩, ⟨junk, r1, y, prev, rfl, rfl, Or.inr ⟨hc, j0, hj0⟩⟩, ?_⟩
        simp only [standardPolicy, computeCN, textbook, hj0, hx, Prog.bind_run, Prog.get_run, if_neg (not_not.2 hc)]
        simp [evalIntoRhs, hx]
      · refine ⟨[f, r1], ⟨tr⟩, ⟨f, r1, y, prev, rfl, rfl, Or.inr ⟨hc, j0, hj0⟩⟩, ?_⟩
        simp only [standardPolicy, computeCN, textbook, hj0, hx, Prog.bind_run, Prog.get_run, if_neg (not_not.2 hc)]
        simp [evalIntoRhs, hx, readState, readRhs, slot, resCN_eq, hc]
        cases j <;> simp [jacCN_eq]
    · have hlt : tr < ((y :: prev).length : Int) := by
        rcases htr with h | h
        · exact h
        · exact absurd h.1 hc
      rcases h0 : sys.eval y t false with ⟨e0, junk0⟩ | ⟨f0, j0⟩
      · refine ⟨[r0, junk0], ⟨tr⟩, ⟨r0, junk0, y, prev, rfl, rfl, Or.inl hlt⟩, ?_⟩
        simp only [standardPolicy, computeCN, textbook, h0, Prog.bind_run, Prog.get_run, if_pos hc]
        simp [evalIntoRhs, readState, htn, h0]
      · rcases hx : sys.eval x (t + dt) w with ⟨e, junk⟩ | ⟨f, j⟩
        · refine ⟨[junk, f0], ⟨tr⟩, ⟨junk, f0, y, prev, rfl, rfl, Or.inl hlt⟩, ?_⟩
          simp only [standardPolicy, computeCN, textbook, h0, hx, Prog.bind_run, Prog.get_run, if_pos hc]
          simp [evalIntoRhs, readState, htn, h0, hx]
        · refine ⟨[f, f0], ⟨(y :: prev).length⟩, ⟨f, f0, y, prev, rfl, rfl, Or.inr ⟨rfl, j0, h0⟩⟩, ?_⟩
          simp only [standardPolicy, computeCN, textbook, h0, hx, Prog.bind_run, Prog.get_run, if_pos hc]
          simp [evalIntoRhs, readState, htn, h0, hx, readRhs, slot, resCN_eq]
          cases j <;> simp [jacCN_eq]
  · rintro y' y prev t dt r ⟨tr⟩ ⟨r0, r1, yn, pv, h2, rfl, htr⟩
    refine ⟨r0, r1, y', y :: prev, rfl, rfl, Or.inl ?_⟩
    simp only [List.length_cons] at htr ⊢
    push_cast
    rcases htr with h | h
    · push_cast at h; omega
    · have := h.1; push_cast at this; omega

section MM
variable {Mt : Type} (act : Mt → Y → Y) (asJac : Mt → J)

theorem policy_mm_bdf1 (sys : IMMSystem K Y J Mt) :
    PolicyRefines .BDF1 (massMatrixPolicy act asJac sys) (textbookMM act asJac .BDF1 sys) St1 (fun _ _ _ _ => True) := by
  refine ⟨?_, fun _ _ _ _ _ _ _ _ => trivial⟩
  rintro y prev t dt states ⟨y', prev', h1, rfl⟩ x w r p -
  simp only [List.cons.injEq] at h1
  obtain ⟨rfl, rfl⟩ := h1
  simp only [massMatrixPolicy, computeMMBDF1, catchVelocity, Prog.catchE, Prog.bind_run, evalMM, readState, textbookMM]
  rcases sys.eval x (t + dt) w with ⟨e, m, f⟩ | ⟨m, f, j⟩
  · refine ⟨r, ⟨(y :: prev).length, p.scratch, m, f⟩, trivial, ?_⟩
    by_cases he : e = .velocityFailureUnrecoverable <;> simp [he, reported]
  · refine ⟨r, ⟨(y :: prev).length, x - y, m, f⟩, trivial, ?_⟩
    simp [residualMMBDF1, Prog.bind_run, sub_eq_add_neg]
    cases j <;> simp [jacobianMMBDF1]
    abel

theorem policy_mm_bdf2 (sys : IMMSystem K Y J Mt) :
    PolicyRefines .BDF2 (massMatrixPolicy act asJac sys) (textbookMM act asJac .BDF2 sys) St2 (fun _ _ _ _ => True) := by
  refine ⟨?_, fun _ _ _ _ _ _ _ _ => trivial⟩
  rintro y prev t dt states ⟨y', prev', b, h1, rfl, hb⟩ x w r p -
  simp only [List.cons.injEq] at h1
  obtain ⟨rfl, rfl⟩ := h1
  cases prev with
  | nil =>
    have h1 : (([y].length : Nat) : Int) = 1 := rfl
    simp only [massMatrixPolicy, computeMMBDF2, if_pos h1]
    simp only [catchVelocity, Prog.catchE, Prog.bind_run, evalMM, readState, textbookMM, Prog.modify_run]
    rcases sys.eval x (t + dt) w with ⟨e, m, f⟩ | ⟨m, f, j⟩
    · refine ⟨r, ⟨[y].length, p.scratch, m, f⟩, trivial, ?_⟩
      by_cases he : e = .velocityFailureUnrecoverable <;> simp [he, reported]
    · refine ⟨r, ⟨[y].length, x - y, m, f⟩, trivial, ?_⟩
      simp [residualMMBDF1, Prog.bind_run, sub_eq_add_neg]
      cases j <;> simp [jacobianMMBDF1]
      abel
  | cons z rest =>
    obtain rfl := hb z rest rfl
    have h1 : ¬ (((y :: b :: rest).length : Int) = 1) := by simp only [List.length_cons]; omega
    simp only [massMatrixPolicy, computeMMBDF2, if_neg h1]
    simp only [catchVelocity, Prog.catchE, Prog.bind_run, evalMM, readState, textbookMM, Prog.modify_run]
    rcases sys.eval x (t + dt) w with ⟨e, m, f⟩ | ⟨m, f, j⟩
    · refine ⟨r, ⟨(y :: b :: rest).length, p.scratch, m, f⟩, trivial, ?_⟩
      by_cases he : e = .velocityFailureUnrecoverable <;> simp [he, reported]
    · refine ⟨r, ⟨(y :: b :: rest).length, x + -(((4:K)/3) • y) + ((1:K)/3) • b, m, f⟩, trivial, ?_⟩
      simp [residualMMBDF2, Prog.bind_run, sub_eq_add_neg, neg_div]
      cases j <;> simp [jacobianMMBDF2, neg_div]
      abel
end MM

end Pressio.Lemmas.Implicit
