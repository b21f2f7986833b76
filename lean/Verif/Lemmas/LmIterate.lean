import Verif.Lemmas.NonlinearIterate

/-
  Iterations in which the correction and the update depend on state, damping and growth factor.
-/
namespace Pressio.Lemmas.Nonlinear
set_option autoImplicit false
open Pressio Matrix
open Pressio.Spec.Nonlinear
set_option linter.unusedSectionVars false

variable {K m n p L : Type} [Field K]

/-- what is left of an iteration's memory -/
def damped (s : St K n L) : (n → K) × K × K := (s.x, s.damp, s.nu)

/-- A solver whose correction and update depend on state, damping and growth factor, with one trial evaluation for each update. -/
structure Damped (sys : Sys K m n) (P : Problem K m n L) (R : (n → K) → m → K) (Jf : (n → K) → Matrix m n K) (C : (n → K) → K → n → K)
    (G : L → L) (T : Int → Norms K → Norms K → Bool) (nxt : (n → K) × K × K → (n → K) × K × K) : Prop where
  asm : ∀ x, assembly sys P x = .ok (R x, Jf x)
  corr : ∀ x d c b l, ∃ b', P.corr x (R x) (Jf x) d (c, b, l) = .ok () (C x d, b', G l)
  test : ∀ i ref now, P.test i ref now = .ok (T i ref now)
  note : ∀ i ref now, P.note i ref now = []
  upd : ∀ s : St K n L, s.c = C s.x s.damp → P.upd s (R s.x) (Jf s.x) (P.norms (R s.x) (Jf s.x) s.c) = ⟨[s.x + s.c], .moved (nxt (damped s)).1 (nxt (damped s)).2.1 (nxt (damped s)).2.2⟩

variable {sys : Sys K m n} {P : Problem K m n L} {R : (n → K) → m → K} {Jf : (n → K) → Matrix m n K} {C : (n → K) → K → n → K}
  {G : L → L} {T : Int → Norms K → Norms K → Bool} {nxt : (n → K) × K × K → (n → K) × K × K}

/-- the evaluations of one complete iteration -/
def dampedLog (sys : Sys K m n) (P : Problem K m n L) (C : (n → K) → K → n → K) (z : (n → K) × K × K) : List (Query (n → K) (Model.Nonlinear.Ans K m n)) := [sys.query z.1 P.withJ, sys.query (z.1 + C z.1 z.2.1) false]

theorem damped_stop (h : Damped sys P R Jf C G T nxt) :
    ∀ (k : Nat) (i : Int) (ref : Option (Norms K)) (s : St K n L) (j : Nat),
      let nrm := fun z : (n → K) × K × K => P.norms (R z.1) (Jf z.1) (C z.1 z.2.1)
      let rf := ref.getD (nrm (damped s))
      j < k → (∀ j' < j, T (i + j') rf (nrm (nxt^[j'] (damped s))) = false) → T (i + j) rf (nrm (nxt^[j] (damped s))) = true →
      let o := iterate sys P k i ref s
      o.how = .stopped ∧ damped o.st = nxt^[j] (damped s) ∧ o.files = [] ∧ o.st.lin = G^[j + 1] s.lin ∧
        o.log = (List.range j).flatMap (fun a => dampedLog sys P C (nxt^[a] (damped s))) ++ [sys.query (nxt^[j] (damped s)).1 P.withJ] := by
  intro k
  induction k with
  | zero => intro i ref s j nrm rf hj; omega
  | succ k ih =>
    intro i ref s j nrm rf hj hbefore hat
    unfold iterate
    obtain ⟨b', hc⟩ := h.corr s.x s.damp s.c s.QTr s.lin
    simp only [h.asm, hc, h.test, h.note]
    have hnrm : P.norms (R s.x) (Jf s.x) (C s.x s.damp) = nrm (damped s) := rfl
    have hrf : ref.getD (P.norms (R s.x) (Jf s.x) (C s.x s.damp)) = rf := rfl
    rw [hrf, hnrm]
    cases j with
    | zero =>
      have : T i rf (nrm (damped s)) = true := by simpa using hat
      rw [this]
      exact ⟨rfl, rfl, rfl, rfl, by simp [damped]⟩
    | succ j =>
      have : T i rf (nrm (damped s)) = false := by simpa using hbefore 0 (by omega)
      rw [this]
      have hu := h.upd { s with c := C s.x s.damp, QTr := b', lin := G s.lin } rfl
      rw [← hnrm]
      simp only at hu ⊢
      rw [hu]
      have := ih (i+1) (some rf) { s with x := (nxt (damped s)).1, c := C s.x s.damp, QTr := b', lin := G s.lin, damp := (nxt (damped s)).2.1, nu := (nxt (damped s)).2.2 } j (by omega)
        (by
          intro j' hj'
          have := hbefore (j'+1) (by omega)
          rw [Function.iterate_succ_apply] at this
          have e : i + 1 + (j' : Int) = i + ((j'+1 : Nat) : Int) := by push_cast; ring
          rw [e]; exact this)
        (by
          rw [Function.iterate_succ_apply] at hat
          have e : i + 1 + (j : Int) = i + ((j+1 : Nat) : Int) := by push_cast; ring
          rw [e]; exact hat)
      obtain ⟨g1, g2, g3, g4, g5⟩ := this
      refine ⟨g1, ?_, ?_, ?_, ?_⟩
      · rw [Function.iterate_succ_apply]; exact g2
      · simp only [List.nil_append]; exact g3
      · rw [Function.iterate_succ_apply]; exact g4
      · rw [List.range_succ_eq_map, List.flatMap_cons, List.flatMap_map, List.append_assoc, Function.iterate_succ_apply]
        exact congrArg (dampedLog sys P C (damped s) ++ ·) g5

theorem damped_limit (h : Damped sys P R Jf C G T nxt) :
    ∀ (k : Nat) (i : Int) (ref : Option (Norms K)) (s : St K n L),
      let nrm := fun z : (n → K) × K × K => P.norms (R z.1) (Jf z.1) (C z.1 z.2.1)
      let rf := ref.getD (nrm (damped s))
      (∀ j' < k, T (i + j') rf (nrm (nxt^[j'] (damped s))) = false) →
      let o := iterate sys P k i ref s
      o.how = (if i + k = int32Max + 1 then .threw (.ub "signed overflow of iteration counter") else .limit) ∧ damped o.st = nxt^[k] (damped s) ∧ o.files = [] ∧ o.st.lin = G^[k] s.lin ∧
        o.log = (List.range k).flatMap (fun a => dampedLog sys P C (nxt^[a] (damped s))) := by
  intro k
  induction k with
  | zero =>
    intro i ref s nrm rf _
    unfold iterate
    by_cases hi : i = int32Max + 1
    · simp [hi]
    · simp [hi]
  | succ k ih =>
    intro i ref s nrm rf hbefore
    unfold iterate
    obtain ⟨b', hc⟩ := h.corr s.x s.damp s.c s.QTr s.lin
    simp only [h.asm, hc, h.test, h.note]
    have hnrm : P.norms (R s.x) (Jf s.x) (C s.x s.damp) = nrm (damped s) := rfl
    have hrf : ref.getD (P.norms (R s.x) (Jf s.x) (C s.x s.damp)) = rf := rfl
    rw [hrf, hnrm]
    have : T i rf (nrm (damped s)) = false := by simpa using hbefore 0 (by omega)
    rw [this]
    have hu := h.upd { s with c := C s.x s.damp, QTr := b', lin := G s.lin } rfl
    rw [← hnrm]
    simp only at hu ⊢
    rw [hu]
    have := ih (i+1) (some rf) { s with x := (nxt (damped s)).1, c := C s.x s.damp, QTr := b', lin := G s.lin, damp := (nxt (damped s)).2.1, nu := (nxt (damped s)).2.2 }
      (by
        intro j' hj'
        have := hbefore (j'+1) (by omega)
        rw [Function.iterate_succ_apply] at this
        have e : i + 1 + (j' : Int) = i + ((j'+1 : Nat) : Int) := by push_cast; ring
        rw [e]; exact this)
    obtain ⟨g1, g2, g3, g4, g5⟩ := this
    refine ⟨?_, ?_, ?_, ?_, ?_⟩
    · refine g1.trans ?_
      have e : i + 1 + (k : Int) = i + ((k+1 : Nat) : Int) := by push_cast; ring
      rw [e]
    · rw [Function.iterate_succ_apply]; exact g2
    · simp only [List.nil_append]; exact g3
    · rw [Function.iterate_succ_apply]; exact g4
    · rw [List.range_succ_eq_map, List.flatMap_cons, List.flatMap_map]
      exact congrArg (dampedLog sys P C (damped s) ++ ·) g5

end Pressio.Lemmas.Nonlinear
