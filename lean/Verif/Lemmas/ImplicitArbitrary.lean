import Verif.Lemmas.Implicit
import Mathlib.Data.List.Basic

namespace Pressio.Lemmas.Implicit
set_option autoImplicit false
open Pressio Pressio.Model.Implicit Pressio.Spec.Implicit

variable {K Y A : Type} [Add K]

theorem arb_answers (sys : ASystem K Y A) (numAux : Nat) (hn : numAux = 1 ∨ numAux = 2 ∨ numAux = 3)
    (init hist : List Y) (t dt : K) (hl : ((hist ++ init).take numAux).length = numAux) (rc : Y) :
    Answers (arbResidual sys numAux) (arbitrary sys numAux init hist t dt)
      (fun m => m = ⟨t + dt, dt, hist.length, (hist ++ init).take numAux, rc⟩) := by
  rintro x w m rfl
  refine ⟨_, rfl, ?_⟩
  simp only [arbitrary]
  generalize (hist ++ init).take numAux = l at *
  obtain rfl | rfl | rfl := hn
  · obtain ⟨a, rfl⟩ := List.length_eq_one_iff.1 hl
    simp only [arbResidual]
    rcases sys.eval _ _ _ _ _ _ with e | a <;> rfl
  · obtain ⟨a, b, rfl⟩ := List.length_eq_two.1 hl
    simp only [arbResidual]
    rcases sys.eval _ _ _ _ _ _ with e | a <;> rfl
  · obtain ⟨a, b, c, rfl⟩ := List.length_eq_three.1 hl
    simp only [arbResidual]
    rcases sys.eval _ _ _ _ _ _ with e | a <;> rfl

theorem take_succ_cons_form (n : Nat) (y : Y) (l : List Y) (h : (l.take (n+1)).length = n+1) :
    ∃ z, l.take (n+1) = l.take n ++ [z] ∧ (y :: l).take (n+1) = y :: l.take n := by
  have hl : n < l.length := by
    rw [List.length_take] at h; omega
  exact ⟨l[n], by simp, by simp⟩

theorem refines_arb (sys : ASystem K Y A) (numAux : Nat) (hn : numAux = 1 ∨ numAux = 2 ∨ numAux = 3)
    (init : List Y) (hinit : init.length = numAux) :
    Refines (S := AMem K Y) (fun solver t dt n => arbStep sys numAux solver t dt n) (arbitrary sys numAux init)
      (fun _ hist m => m.states = (hist.tail ++ init).take numAux) := by
  rintro solver t dt y prev ⟨mt, mdt, ms, mst, mrec⟩ hI
  simp only [List.tail_cons] at hI
  subst hI
  have hlp : ((prev ++ init).take numAux).length = numAux := by
    rw [List.length_take, List.length_append]; omega
  have hlc : (((y :: prev) ++ init).take numAux).length = numAux := by
    rw [List.length_take, List.length_append, List.length_cons]; omega
  -- the shift
  obtain ⟨z, hup, hrb⟩ : ∃ z, updateAux numAux y (⟨t + dt, dt, (y :: prev).length, (prev ++ init).take numAux, mrec⟩ : AMem K Y) =
      some ⟨t + dt, dt, (y :: prev).length, ((y :: prev) ++ init).take numAux, z⟩ ∧
      rollBack numAux (⟨t + dt, dt, (y :: prev).length, ((y :: prev) ++ init).take numAux, z⟩ : AMem K Y) =
        some (y, ⟨t + dt, dt, (y :: prev).length, (prev ++ init).take numAux, z⟩) := by
    obtain ⟨k, rfl⟩ : ∃ k, numAux = k + 1 := ⟨numAux - 1, by omega⟩
    obtain ⟨z, h1, h2⟩ := take_succ_cons_form k y (prev ++ init) hlp
    rw [List.cons_append]
    refine ⟨z, ?_, ?_⟩
    all_goals
      have h3 : ((prev ++ init).take k).length = k := by
        rw [List.length_take, List.length_append]; omega
      rw [h1, h2]
      generalize (prev ++ init).take k = l at *
      obtain hn | hn | hn := hn
      · obtain rfl : k = 0 := by omega
        obtain rfl := List.length_eq_zero_iff.1 h3
        rfl
      · obtain rfl : k = 1 := by omega
        obtain ⟨a, rfl⟩ := List.length_eq_one_iff.1 h3
        rfl
      · obtain rfl : k = 2 := by omega
        obtain ⟨a, b, rfl⟩ := List.length_eq_two.1 h3
        rfl
  obtain ⟨m', rfl, e⟩ := run_eq _ _ _ (arb_answers sys numAux hn init (y :: prev) t dt hlc z) (solver y)
    ⟨y, ⟨t + dt, dt, (y :: prev).length, ((y :: prev) ++ init).take numAux, z⟩, []⟩ rfl
  simp only [arbStep]
  simp only [hup, e]
  generalize outcome (arbitrary sys numAux init (y :: prev) t dt) (solver y) = o at *
  obtain ⟨st, oy, oq⟩ := o
  match st with
  | none => exact ⟨_, rfl, rfl⟩
  | some (.exc ex) =>
    by_cases hex : ex = .nonlinearSolveFailure
    · subst hex
      refine ⟨⟨t + dt, dt, (y :: prev).length, (prev ++ init).take numAux, z⟩, rfl, ?_⟩
      simp only [if_true]
      rw [hrb]
      simp
    · refine ⟨⟨t + dt, dt, (y :: prev).length, ((y :: prev) ++ init).take numAux, z⟩, ?_, ?_⟩
      · cases ex <;> first | trivial | (exfalso; exact hex rfl)
      · cases ex <;> first | (exfalso; exact hex rfl) | simp
  | some (.ub w) => exact ⟨_, trivial, rfl⟩
  | some .fuel => exact ⟨_, trivial, rfl⟩

end Pressio.Lemmas.Implicit
