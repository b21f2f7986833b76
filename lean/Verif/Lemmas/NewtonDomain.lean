import Verif.Lemmas.NonlinearObjects
import Verif.Lemmas.NonlinearIterate

/-
  Newton's method for systems that can only be evaluated on a domain.
-/
namespace Pressio.Lemmas.Nonlinear
set_option autoImplicit false
open Pressio Matrix Pressio.Spec.Nonlinear
open Pressio.Model.Nonlinear (Env Cfg Reg Ans StopCrit Update)

variable {K m n p L : Type} [Field K] [LinearOrder K] [Fintype m] [Fintype n] [Fintype p]

theorem iterate_domain (env : Env K m n p L) (cfg : Cfg K) (sys : Sys K m n) (r : (n → K) → m → K) (J : (n → K) → Matrix m n K) (Dom : (n → K) → Prop)
    (hin : ∀ x, Dom x → sys.resJac x = .ok (r x, J x)) (hout : ∀ x, ¬ Dom x → sys.resJac x = .error .residualEvaluationFailureUnrecoverable)
    (sol : Matrix m n K → (m → K) → n → K) (tick : L → L) (hlin : ∀ A b c l, env.linJ A b (c, l) = .ok () (sol A b, tick l)) (hcrit : cfg.stop = .WhenAbsolutel2NormOfResidualBelowTolerance) :
    ∀ (k : Nat) (i : Int) (ref : Option (Norms K)) (s : St K n L),
      let N : (n → K) → n → K := fun x => x + -sol (J x) (r x)
      let met := fun a : Nat => env.normM (r (N^[a] s.x)) < cfg.tol
      let o := iterate sys (newtonProblem env cfg sys false .standard) k i ref s
      (∃ a < k, (∀ b ≤ a, Dom (N^[b] s.x)) ∧ (∀ b < a, ¬ met b) ∧ met a ∧ o.how = .stopped ∧ o.st.x = N^[a] s.x ∧ sys.query (N^[a] s.x) true ∈ o.log) ∨
      (∃ a < k, (∀ b < a, Dom (N^[b] s.x) ∧ ¬ met b) ∧ ¬ Dom (N^[a] s.x) ∧ o.how = .threw (.exc .nonlinearSolveFailure)) ∨
      ∀ a < k, Dom (N^[a] s.x) ∧ ¬ met a := by
  intro k
  induction k with
  | zero => intro i ref s; exact .inr (.inr (fun a ha => absurd ha (Nat.not_lt_zero a)))
  | succ k ih =>
    intro i ref s N met o
    by_cases hD : Dom s.x
    · have hass : assembly sys (newtonProblem env cfg sys false .standard) s.x = .ok (r s.x, J s.x) := by
        simp only [assembly, newtonProblem, Bool.not_false, if_true]; exact hin _ hD
      have hcor : (newtonProblem env cfg sys false .standard).corr s.x (r s.x) (J s.x) s.damp (s.c, s.QTr, s.lin) = .ok () (-sol (J s.x) (r s.x), s.QTr, tick s.lin) := by
        show negated (env.linJ (J s.x) (r s.x)) (s.c, s.QTr, s.lin) = _
        simp only [negated, hlin]
      by_cases hm : env.normM (r s.x) < cfg.tol
      · left
        have ho : o = ⟨.stopped, { s with c := -sol (J s.x) (r s.x), QTr := s.QTr, lin := tick s.lin }, (newtonProblem env cfg sys false .standard).note i (ref.getD ⟨env.normM (r s.x), env.normN (-sol (J s.x) (r s.x)), 0, 0⟩) ⟨env.normM (r s.x), env.normN (-sol (J s.x) (r s.x)), 0, 0⟩,
            [sys.query s.x true], some (ref.getD ⟨env.normM (r s.x), env.normN (-sol (J s.x) (r s.x)), 0, 0⟩, ⟨env.normM (r s.x), env.normN (-sol (J s.x) (r s.x)), 0, 0⟩)⟩ := by
          show iterate sys (newtonProblem env cfg sys false .standard) (k + 1) i ref s = _
          simp only [iterate, hass, hcor]
          simp only [newtonProblem, hcrit, rootCriterion, below, if_true, decide_eq_true hm, Bool.not_false]
        refine ⟨0, Nat.succ_pos k, fun b hb => ?_, fun b hb => absurd hb (Nat.not_lt_zero b), hm, by rw [ho], by rw [ho]; rfl, by rw [ho]; simp⟩
        rw [Nat.le_zero.1 hb]; exact hD
      · have hstep : ∃ ref' s', s'.x = N s.x ∧ ∃ (note : List String) (last : Out K m n L → Option (Norms K × Norms K)), o = (let o' := iterate sys (newtonProblem env cfg sys false .standard) k (i + 1) ref' s'; ⟨o'.how, o'.st, note ++ o'.files, [sys.query s.x true] ++ o'.log, last o'⟩) := by
          refine ⟨some (ref.getD ⟨env.normM (r s.x), env.normN (-sol (J s.x) (r s.x)), 0, 0⟩), { s with x := s.x + -sol (J s.x) (r s.x), c := -sol (J s.x) (r s.x), QTr := s.QTr, lin := tick s.lin }, rfl, (newtonProblem env cfg sys false .standard).note i (ref.getD ⟨env.normM (r s.x), env.normN (-sol (J s.x) (r s.x)), 0, 0⟩) ⟨env.normM (r s.x), env.normN (-sol (J s.x) (r s.x)), 0, 0⟩,
            fun o' => if k = 0 then some (ref.getD ⟨env.normM (r s.x), env.normN (-sol (J s.x) (r s.x)), 0, 0⟩, ⟨env.normM (r s.x), env.normN (-sol (J s.x) (r s.x)), 0, 0⟩) else o'.last, ?_⟩
          show iterate sys (newtonProblem env cfg sys false .standard) (k + 1) i ref s = _
          rw [iterate]
          simp only [hass, hcor]
          simp only [newtonProblem, hcrit, rootCriterion, below, if_true, decide_eq_false hm, List.map_nil, Bool.not_false]
        obtain ⟨ref', s', hx, note, last, ho⟩ := hstep
        have hi := ih (i + 1) ref' s'
        simp only at hi
        rw [hx] at hi
        have hit : ∀ a, N^[a] (N s.x) = N^[a + 1] s.x := fun a => rfl
        rcases hi with ⟨a, h1, h2, h3, h4, h5, h6, h7⟩ | ⟨a, h1, h2, h3, h4⟩ | h
        · left
          refine ⟨a + 1, by omega, ?_, ?_, h4, by rw [ho]; exact h5, by rw [ho]; exact h6, by rw [ho]; exact List.mem_append_right _ h7⟩
          · intro b hb
            rcases b with _ | b
            · exact hD
            · exact h2 b (by omega)
          · intro b hb
            rcases b with _ | b
            · exact hm
            · exact h3 b (by omega)
        · right; left
          refine ⟨a + 1, by omega, ?_, h3, by rw [ho]; exact h4⟩
          intro b hb
          rcases b with _ | b
          · exact ⟨hD, hm⟩
          · exact h2 b (by omega)
        · right; right
          intro a ha
          rcases a with _ | a
          · exact ⟨hD, hm⟩
          · exact h a (by omega)
    · right; left
      have hass : assembly sys (newtonProblem env cfg sys false .standard) s.x = .error .residualEvaluationFailureUnrecoverable := by
        simp only [assembly, newtonProblem, Bool.not_false, if_true]; exact hout _ hD
      refine ⟨0, Nat.succ_pos k, fun b hb => absurd hb (Nat.not_lt_zero b), hD, ?_⟩
      show (iterate sys (newtonProblem env cfg sys false .standard) (k + 1) i ref s).how = _
      simp only [iterate, hass, assemblyText]

end Pressio.Lemmas.Nonlinear
