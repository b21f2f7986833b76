import Verif.Spec.Run
import Verif.Lemmas.Advance

namespace Pressio.Lemmas.Run
set_option autoImplicit false
open Pressio Pressio.Model.Advance Pressio.Spec.AdvanceTarget Pressio.Spec.Run

variable {K Y M : Type}

theorem observations_append (a b : List (Ev K Y)) : observations (a ++ b) = observations a ++ observations b := by
  simp [observations]

theorem tSeq_succ [Add K] (zero : K) (pol : Int → K → K → K) (start : K) (k : Nat) :
    tSeq zero pol start (k+1) = tSeq zero pol start k + hSeq zero pol start k := rfl

theorem plain_loop [Add K] (zero : K) (pol : Int → K → K → K) (st : K → Int → K → Prog (Y × M) Unit) (start : K) (N : Nat)
    (hN : (N : Int) < int32Max) (yseq : Nat → Y) (Inv : Nat → M → Prop)
    (hstep : ∀ k < N, ∀ m, Inv k m →
      ∃ m', st (tSeq zero pol start k) ((k : Int) + 1) (hSeq zero pol start k) (yseq k, m) = .ok () (yseq (k+1), m') ∧ Inv (k+1) m')
    (j : Nat) : ∀ (i : Nat) (m : M) (log : List (Ev K Y)), i + j = N → Inv i m →
      ∃ m' evs, nLoop (plainCalls pol st) j ((i : Int) + 1) (clock zero pol start i).1 (clock zero pol start i).2 ⟨m, yseq i, log⟩
        = .ok () ⟨m', yseq N, log ++ evs⟩ ∧ Inv N m' ∧
        observations evs = (List.range j).map
          (fun k => (((i + k : Nat) : Int) + 1, tSeq zero pol start (i+k+1), yseq (i+k+1))) := by
  induction j with
  | zero =>
    intro i m log hi hm
    obtain rfl : i = N := by omega
    exact ⟨m, [], by simp [nLoop], hm, by simp [observations]⟩
  | succ j ih =>
    intro i m log hi hm
    obtain ⟨m1, hs, hm1⟩ := hstep i (by omega) m hm
    simp only [tSeq, hSeq] at hs
    obtain ⟨m', evs, g1, g2, g3⟩ := ih (i+1) m1
      (log ++ [.setDt ((i : Int) + 1) (clock zero pol start i).1 (hSeq zero pol start i)]
        ++ [.guess ((i : Int) + 1) (clock zero pol start i).1 (yseq i)]
        ++ [.step ((i : Int) + 1) (clock zero pol start i).1 (hSeq zero pol start i) (yseq i)]
        ++ [.obs ((i : Int) + 1) (tSeq zero pol start (i+1)) (yseq (i+1))]) (by omega) hm1
    refine ⟨m', [.setDt ((i : Int) + 1) (clock zero pol start i).1 (hSeq zero pol start i),
        .guess ((i : Int) + 1) (clock zero pol start i).1 (yseq i),
        .step ((i : Int) + 1) (clock zero pol start i).1 (hSeq zero pol start i) (yseq i),
        .obs ((i : Int) + 1) (tSeq zero pol start (i+1)) (yseq (i+1))] ++ evs, ?_, g2, ?_⟩
    · rw [nLoop]
      simp only [Prog.bind_run, plainCalls, onW, emit, callGuess, onYW, noopGuesser, Prog.pure_run, callStep, hs, callObs,
        noopObserver]
      rw [if_neg (by omega)]
      have := g1
      simp only [plainCalls, noopGuesser, noopObserver, clock, hSeq, tSeq] at this ⊢
      push_cast at this
      rw [this]
      simp
    · rw [List.range_succ_eq_map, List.map_cons, List.map_map, observations_append, g3]
      simp only [observations, List.filterMap_cons, List.filterMap_nil, List.cons_append, List.nil_append, Nat.add_zero]
      congr 1
      apply List.map_congr_left
      intro k _
      simp only [Function.comp_apply, Nat.succ_eq_add_one]
      rw [show i + 1 + k = i + (k + 1) by omega]

/-- A run in which every step does what `yseq` says, for every memory satisfying an invariant. -/
theorem plain_run [Add K] (zero : K) (pol : Int → K → K → K) (st : K → Int → K → Prog (Y × M) Unit) (start : K) (N : Nat)
    (hN : (N : Int) < int32Max) (yseq : Nat → Y) (Inv : Nat → M → Prop) (m0 : M) (h0 : Inv 0 m0)
    (hstep : ∀ k < N, ∀ m, Inv k m →
      ∃ m', st (tSeq zero pol start k) ((k : Int) + 1) (hSeq zero pol start k) (yseq k, m) = .ok () (yseq (k+1), m') ∧ Inv (k+1) m') :
    ∃ s' : St M K Y, run zero pol st N start (yseq 0) m0 = .ok () s' ∧ s'.y = yseq N ∧ Inv N s'.w ∧
      observations s'.log = (List.range (N+1)).map (fun k : Nat => ((k : Int), tSeq zero pol start k, yseq k)) := by
  obtain ⟨m', evs, g1, g2, g3⟩ := plain_loop zero pol st start N hN yseq Inv hstep N 0 m0 [.obs 0 start (yseq 0)] (by omega) h0
  refine ⟨⟨m', yseq N, [.obs 0 start (yseq 0)] ++ evs⟩, ?_, rfl, g2, ?_⟩
  · unfold run advanceN
    simp only [Prog.bind_run, callObs, emit, onW]
    have ho : (plainCalls pol st : Calls M K Y).observer 0 start (yseq 0) m0 = .ok () m0 := rfl
    rw [ho]
    simpa [clock] using g1
  · simp only [observations_append, g3]
    rw [List.range_succ_eq_map, List.map_cons, List.map_map]
    simp only [observations, List.filterMap_cons, List.filterMap_nil, List.cons_append, List.nil_append, Nat.zero_add]
    simp [tSeq, clock, Function.comp_def]

end Pressio.Lemmas.Run
