import Verif.Lemmas.NonlinearSolve

/-
  Consequences of the specification: iterates of the standard update, invariants along a solve.
-/
namespace Pressio.Lemmas.Nonlinear
set_option autoImplicit false
open Pressio Matrix
open Pressio.Spec.Nonlinear
set_option linter.unusedSectionVars false

variable {K m n p L : Type}

section std
variable [Field K]

/-- A solver with standard updates, a system that does not fail and a correction that is a function of the state. -/
structure Std (sys : Sys K m n) (P : Problem K m n L) (d : K) (R : (n → K) → m → K) (Jf : (n → K) → Matrix m n K) (C : (n → K) → n → K)
    (G : (n → K) → L → L) (T : Int → Norms K → Norms K → Bool) : Prop where
  asm : ∀ x, assembly sys P x = .ok (R x, Jf x)
  corr : ∀ x c b l, ∃ b', P.corr x (R x) (Jf x) d (c, b, l) = .ok () (C x, b', G x l)
  test : ∀ i ref now, P.test i ref now = .ok (T i ref now)
  upd : ∀ s r J now, P.upd s r J now = ⟨[], .moved (s.x + s.c) s.damp s.nu⟩

variable {sys : Sys K m n} {P : Problem K m n L} {d : K} {R : (n → K) → m → K} {Jf : (n → K) → Matrix m n K} {C : (n → K) → n → K}
  {G : (n → K) → L → L} {T : Int → Norms K → Norms K → Bool}

theorem iterate_stop (h : Std sys P d R Jf C G T) :
    ∀ (k : Nat) (i : Int) (ref : Option (Norms K)) (s : St K n L) (j : Nat), s.damp = d →
      let N := fun x => x + C x
      let nrm := fun x => P.norms (R x) (Jf x) (C x)
      let rf := ref.getD (nrm s.x)
      j < k → (∀ j' < j, T (i + j') rf (nrm (N^[j'] s.x)) = false) → T (i + j) rf (nrm (N^[j] s.x)) = true →
      let o := iterate sys P k i ref s
      o.how = .stopped ∧ o.st.x = N^[j] s.x ∧ o.log = (List.range (j+1)).map (fun a => sys.query (N^[a] s.x) P.withJ) ∧
        o.files = (List.range (j+1)).flatMap (fun (a : Nat) => P.note (i + a) rf (nrm (N^[a] s.x))) ∧ o.last = some (rf, nrm (N^[j] s.x)) ∧
        o.st.lin = (List.range (j+1)).foldl (fun l a => G (N^[a] s.x) l) s.lin := by
  intro k
  induction k with
  | zero => intro i ref s j _ N nrm rf hj; omega
  | succ k ih =>
    intro i ref s j hs N nrm rf hj hbefore hat
    unfold iterate
    obtain ⟨b', hc⟩ := h.corr s.x s.c s.QTr s.lin
    simp only [h.asm, hs, hc, h.test]
    have hnrm : P.norms (R s.x) (Jf s.x) (C s.x) = nrm s.x := rfl
    have hrf : ref.getD (P.norms (R s.x) (Jf s.x) (C s.x)) = rf := rfl
    rw [hrf, hnrm]
    cases j with
    | zero =>
      have : T i rf (nrm s.x) = true := by simpa using hat
      rw [this]
      exact ⟨rfl, rfl, by simp, by simp, by simp, by simp⟩
    | succ j =>
      have : T i rf (nrm s.x) = false := by simpa using hbefore 0 (by omega)
      rw [this]
      simp only [h.upd]
      have := ih (i+1) (some rf) { s with x := s.x + C s.x, c := C s.x, QTr := b', lin := G s.x s.lin, damp := d } j rfl (by omega)
        (by
          intro j' hj'
          have := hbefore (j'+1) (by omega)
          rw [Function.iterate_succ_apply] at this
          have e : i + 1 + (j' : Int) = i + ((j'+1 : Nat) : Int) := by push_cast; ring
          rw [e]; exact this)
        (by
          rw [Function.iterate_succ_apply] at hat
          have e : i + 1 + (j : Int) = i + ((j+1 : Nat) : Int) := by push_cast; ring
          rw [e]; exact hat)
      obtain ⟨g1, g2, g3, g4, g5, g6⟩ := this
      refine ⟨g1, ?_, ?_, ?_, ?_, ?_⟩
      · rw [Function.iterate_succ_apply]; exact g2
      · rw [g3, List.range_succ_eq_map (n := j+1)]
        simp only [List.map_cons, List.map_map, List.map_nil, List.cons_append, List.nil_append]
        rfl
      · rw [g4, List.range_succ_eq_map (n := j+1), List.flatMap_cons, List.flatMap_map]
        congr 1
        · simp
        · congr 1
          funext a
          rw [Function.iterate_succ_apply]
          have e : i + 1 + (a : Int) = i + ((a+1 : Nat) : Int) := by push_cast; ring
          rw [e]
          rfl
      · have hk : k ≠ 0 := by omega
        rw [if_neg hk, g5, Function.iterate_succ_apply]
        rfl
      · rw [g6, List.range_succ_eq_map (n := j+1), List.foldl_cons, List.foldl_map]
        rfl

theorem iterate_limit (h : Std sys P d R Jf C G T) :
    ∀ (k : Nat) (i : Int) (ref : Option (Norms K)) (s : St K n L), s.damp = d →
      let N := fun x => x + C x
      let nrm := fun x => P.norms (R x) (Jf x) (C x)
      let rf := ref.getD (nrm s.x)
      (∀ j' < k, T (i + j') rf (nrm (N^[j'] s.x)) = false) →
      let o := iterate sys P k i ref s
      o.how = (if i + k = int32Max + 1 then .threw (.ub "signed overflow of iteration counter") else .limit) ∧ o.st.x = N^[k] s.x ∧
        o.log = (List.range k).map (fun a => sys.query (N^[a] s.x) P.withJ) ∧
        o.files = (List.range k).flatMap (fun (a : Nat) => P.note (i + a) rf (nrm (N^[a] s.x))) ∧
        (∀ j, k = j + 1 → o.last = some (rf, nrm (N^[j] s.x))) ∧
        o.st.lin = (List.range k).foldl (fun l a => G (N^[a] s.x) l) s.lin := by
  intro k
  induction k with
  | zero =>
    intro i ref s hs N nrm rf _
    unfold iterate
    by_cases hi : i = int32Max + 1
    · simp [hi]
    · simp [hi]
  | succ k ih =>
    intro i ref s hs N nrm rf hbefore
    unfold iterate
    obtain ⟨b', hc⟩ := h.corr s.x s.c s.QTr s.lin
    simp only [h.asm, hs, hc, h.test]
    have hnrm : P.norms (R s.x) (Jf s.x) (C s.x) = nrm s.x := rfl
    have hrf : ref.getD (P.norms (R s.x) (Jf s.x) (C s.x)) = rf := rfl
    rw [hrf, hnrm]
    have : T i rf (nrm s.x) = false := by simpa using hbefore 0 (by omega)
    rw [this]
    simp only [h.upd]
    have := ih (i+1) (some rf) { s with x := s.x + C s.x, c := C s.x, QTr := b', lin := G s.x s.lin, damp := d } rfl
      (by
        intro j' hj'
        have := hbefore (j'+1) (by omega)
        rw [Function.iterate_succ_apply] at this
        have e : i + 1 + (j' : Int) = i + ((j'+1 : Nat) : Int) := by push_cast; ring
        rw [e]; exact this)
    obtain ⟨g1, g2, g3, g4, g5, g6⟩ := this
    refine ⟨?_, ?_, ?_, ?_, ?_, ?_⟩
    · rw [g1]
      have e : i + 1 + (k : Int) = i + ((k+1 : Nat) : Int) := by push_cast; ring
      rw [e]
    · rw [Function.iterate_succ_apply]; exact g2
    · rw [g3, List.range_succ_eq_map]
      simp only [List.map_cons, List.map_map, List.map_nil, List.cons_append, List.nil_append]
      rfl
    · rw [g4, List.range_succ_eq_map, List.flatMap_cons, List.flatMap_map]
      congr 1
      · simp
      · congr 1
        funext a
        rw [Function.iterate_succ_apply]
        have e : i + 1 + (a : Int) = i + ((a+1 : Nat) : Int) := by push_cast; ring
        rw [e]
        rfl
    · intro j hj
      have hj : k = j := by omega
      subst hj
      by_cases hk : k = 0
      · subst hk; simp
      · obtain ⟨k', rfl⟩ : ∃ k', k = k' + 1 := ⟨k - 1, by omega⟩
        rw [if_neg (by omega), g5 k' rfl, Function.iterate_succ_apply]
        rfl
    · rw [g6, List.range_succ_eq_map, List.foldl_cons, List.foldl_map]
      rfl

end std
end Pressio.Lemmas.Nonlinear

namespace Pressio.Lemmas.Nonlinear
open Pressio Matrix
open Pressio.Spec.Nonlinear

variable {K m n p L : Type} [Field K]

/-- one accepted iteration takes `x` to `x'` -/
def Moves (sys : Sys K m n) (P : Problem K m n L) (x x' : n → K) : Prop :=
  ∃ r J inn c b l d nu d' nu', assembly sys P x = .ok (r, J) ∧ P.corr x r J d inn = .ok () (c, b, l) ∧
    (P.upd ⟨x, c, b, l, d, nu⟩ r J (P.norms r J c)).val = .moved x' d' nu'

theorem iterate_chain (sys : Sys K m n) (P : Problem K m n L) (hJ : P.withJ = true) :
    ∀ (k : Nat) (i : Int) (ref : Option (Norms K)) (s : St K n L),
      ∃ ys : List (n → K), ys.length ≤ k ∧ List.IsChain (Moves sys P) (s.x :: ys) ∧
        (s.x :: ys).getLast (by simp) = (iterate sys P k i ref s).st.x ∧
        (((iterate sys P k i ref s).log.filter (fun q => q.wantJ)).map (fun q => q.x) =
          if ys.length = k then (s.x :: ys).dropLast else s.x :: ys) := by
  intro k
  induction k with
  | zero =>
    intro i ref s
    refine ⟨[], by simp, by simp, ?_, ?_⟩
    · unfold iterate; split <;> rfl
    · unfold iterate; split <;> rfl
  | succ k ih =>
    intro i ref s
    have hend : ∀ (o : Out K m n L) (tr : List (n → K)), iterate sys P (k+1) i ref s = o → o.st.x = s.x →
        o.log = sys.query s.x P.withJ :: tr.map (fun t => sys.query t false) →
        ∃ ys : List (n → K), ys.length ≤ k+1 ∧ List.IsChain (Moves sys P) (s.x :: ys) ∧
        (s.x :: ys).getLast (by simp) = (iterate sys P (k+1) i ref s).st.x ∧
        (((iterate sys P (k+1) i ref s).log.filter (fun q => q.wantJ)).map (fun q => q.x) =
          if ys.length = k+1 then (s.x :: ys).dropLast else s.x :: ys) := by
      intro o tr ho hx hl
      refine ⟨[], by simp, by simp, by rw [ho, hx]; rfl, ?_⟩
      rw [ho, hl]
      have : (tr.map (fun t => sys.query t false)).filter (fun q => q.wantJ) = [] := by
        rw [List.filter_eq_nil_iff]
        intro q hq
        obtain ⟨t, -, rfl⟩ := List.mem_map.mp hq
        simp [Sys.query]
      rw [List.filter_cons_of_pos (by simp [Sys.query, hJ]), this]
      simp [Sys.query]
    cases hA : assembly sys P s.x with
    | error e =>
      rcases ht : assemblyText e with _ | t
      · exact hend _ [] (by unfold iterate; simp only [hA, ht]; rfl) rfl rfl
      · exact hend _ [] (by unfold iterate; simp only [hA, ht]; rfl) rfl rfl
    | ok rJ =>
      obtain ⟨r, J⟩ := rJ
      rcases hC : P.corr s.x r J s.damp (s.c, s.QTr, s.lin) with ⟨⟨⟩, c, b, l⟩ | ⟨h, c, b, l⟩
      · rcases hT : P.test i (ref.getD (P.norms r J c)) (P.norms r J c) with e | b0
        · exact hend _ [] (by unfold iterate; simp only [hA, hC, hT]; rfl) rfl rfl
        · cases b0 with
          | true => exact hend _ [] (by unfold iterate; simp only [hA, hC, hT]; rfl) rfl rfl
          | false =>
            generalize hU : P.upd { s with c := c, QTr := b, lin := l } r J (P.norms r J c) = U
            rcases hv : U.val with ⟨x', d, nu⟩ | _ | e
            · have ho : iterate sys P (k+1) i ref s =
                  (let o := iterate sys P k (i+1) (some (ref.getD (P.norms r J c))) { s with x := x', c := c, QTr := b, lin := l, damp := d, nu := nu }
                   ⟨o.how, o.st, P.note i (ref.getD (P.norms r J c)) (P.norms r J c) ++ o.files,
                    sys.query s.x P.withJ :: U.trials.map (fun t => sys.query t false) ++ o.log,
                    if k = 0 then some (ref.getD (P.norms r J c), P.norms r J c) else o.last⟩) := by
                conv_lhs => unfold iterate
                simp only [hA, hC, hT, hU, hv]
              obtain ⟨ys, g1, g2, g3, g4⟩ := ih (i+1) (some (ref.getD (P.norms r J c))) { s with x := x', c := c, QTr := b, lin := l, damp := d, nu := nu }
              refine ⟨x' :: ys, by simpa using g1, ?_, ?_, ?_⟩
              · refine List.isChain_cons_cons.mpr ⟨⟨r, J, _, c, b, l, s.damp, s.nu, d, nu, hA, hC, by rw [hU, hv]⟩, g2⟩
              · rw [ho, List.getLast_cons (by simp)]
                exact g3
              · rw [ho]
                have : (U.trials.map (fun t => sys.query t false)).filter (fun q => q.wantJ) = [] := by
                  rw [List.filter_eq_nil_iff]
                  intro q hq
                  obtain ⟨t, -, rfl⟩ := List.mem_map.mp hq
                  simp [Sys.query]
                simp only [List.cons_append]
                rw [List.filter_cons_of_pos (by simp [Sys.query, hJ]), List.filter_append, this, List.nil_append, List.map_cons, g4]
                have hx : (sys.query s.x P.withJ).x = s.x := rfl
                rw [hx]
                by_cases hl : ys.length = k
                · rw [if_pos hl, if_pos (by simpa using hl)]
                  rfl
                · rw [if_neg hl, if_neg (by simpa using hl)]
            · exact hend _ U.trials (by unfold iterate; simp only [hA, hC, hT, hU, hv]; rfl) rfl rfl
            · rcases hb : breakdownText e with _ | t
              · exact hend _ U.trials (by unfold iterate; simp only [hA, hC, hT, hU, hv, hb]; rfl) rfl rfl
              · exact hend _ U.trials (by unfold iterate; simp only [hA, hC, hT, hU, hv, hb]; rfl) rfl rfl
      · exact hend _ [] (by unfold iterate; simp only [hA, hC]; rfl) rfl rfl

/-- an invariant of accepted moves holds at the end -/
theorem iterate_inv (sys : Sys K m n) (P : Problem K m n L) (I : (n → K) → K → K → Prop)
    (hstep : ∀ x d nu r J inn c b l x' d' nu', I x d nu → assembly sys P x = .ok (r, J) → P.corr x r J d inn = .ok () (c, b, l) →
      (P.upd ⟨x, c, b, l, d, nu⟩ r J (P.norms r J c)).val = .moved x' d' nu' → I x' d' nu') :
    ∀ (k : Nat) (i : Int) (ref : Option (Norms K)) (s : St K n L), I s.x s.damp s.nu →
      let o := iterate sys P k i ref s
      I o.st.x o.st.damp o.st.nu := by
  intro k
  induction k with
  | zero => intro i ref s hI; unfold iterate; split <;> exact hI
  | succ k ih =>
    intro i ref s hI
    unfold iterate
    cases hA : assembly sys P s.x with
    | error e =>
      simp only []
      split <;> exact hI
    | ok rJ =>
      obtain ⟨r, J⟩ := rJ
      simp only []
      rcases hC : P.corr s.x r J s.damp (s.c, s.QTr, s.lin) with ⟨⟨⟩, c, b, l⟩ | ⟨h, c, b, l⟩
      · simp only []
        rcases hT : P.test i (ref.getD (P.norms r J c)) (P.norms r J c) with e | b0
        · exact hI
        · cases b0 with
          | true => exact hI
          | false =>
            simp only []
            generalize hU : P.upd { s with c := c, QTr := b, lin := l } r J (P.norms r J c) = U
            rcases hv : U.val with ⟨x', d, nu⟩ | _ | e
            · exact ih _ _ { s with x := x', c := c, QTr := b, lin := l, damp := d, nu := nu }
                (hstep _ _ _ r J _ c b l x' d nu hI hA hC (by rw [hU, hv]))
            · exact hI
            · simp only []
              split <;> exact hI
      · exact hI

/-- what holds when the stopping test succeeded -/
theorem iterate_stopped (sys : Sys K m n) (P : Problem K m n L) :
    ∀ (k : Nat) (i : Int) (ref : Option (Norms K)) (s : St K n L), (iterate sys P k i ref s).how = .stopped →
      ∃ j : Nat, j < k ∧ ∃ r J inn b l rf, assembly sys P (iterate sys P k i ref s).st.x = .ok (r, J) ∧
        P.corr (iterate sys P k i ref s).st.x r J (iterate sys P k i ref s).st.damp inn = .ok () ((iterate sys P k i ref s).st.c, b, l) ∧
        (iterate sys P k i ref s).last = some (rf, P.norms r J (iterate sys P k i ref s).st.c) ∧
        P.test (i + j) rf (P.norms r J (iterate sys P k i ref s).st.c) = .ok true ∧ (∀ r0, ref = some r0 → rf = r0) := by
  intro k
  induction k with
  | zero => intro i ref s h; unfold iterate at h; split at h <;> cases h
  | succ k ih =>
    intro i ref s
    cases hA : assembly sys P s.x with
    | error e =>
      rcases ht : assemblyText e with _ | t
      · have ho : (iterate sys P (k+1) i ref s).how ≠ .stopped := by unfold iterate; simp only [hA, ht]; simp
        exact fun h => absurd h ho
      · have ho : (iterate sys P (k+1) i ref s).how ≠ .stopped := by unfold iterate; simp only [hA, ht]; simp
        exact fun h => absurd h ho
    | ok rJ =>
      obtain ⟨r, J⟩ := rJ
      rcases hC : P.corr s.x r J s.damp (s.c, s.QTr, s.lin) with ⟨⟨⟩, c, b, l⟩ | ⟨h, c, b, l⟩
      · rcases hT : P.test i (ref.getD (P.norms r J c)) (P.norms r J c) with e | b0
        · have ho : (iterate sys P (k+1) i ref s).how ≠ .stopped := by unfold iterate; simp only [hA, hC, hT]; simp
          exact fun h => absurd h ho
        · cases b0 with
          | true =>
            intro _
            have ho : iterate sys P (k+1) i ref s = ⟨.stopped, { s with c := c, QTr := b, lin := l }, P.note i (ref.getD (P.norms r J c)) (P.norms r J c),
              [sys.query s.x P.withJ], some (ref.getD (P.norms r J c), P.norms r J c)⟩ := by unfold iterate; simp only [hA, hC, hT]
            rw [ho]
            exact ⟨0, by omega, r, J, _, b, l, _, hA, hC, rfl, by simpa using hT, by rintro r0 rfl; rfl⟩
          | false =>
            generalize hU : P.upd { s with c := c, QTr := b, lin := l } r J (P.norms r J c) = U
            rcases hv : U.val with ⟨x', d, nu⟩ | _ | e
            · have ho : iterate sys P (k+1) i ref s =
                  (let o := iterate sys P k (i+1) (some (ref.getD (P.norms r J c))) { s with x := x', c := c, QTr := b, lin := l, damp := d, nu := nu }
                   ⟨o.how, o.st, P.note i (ref.getD (P.norms r J c)) (P.norms r J c) ++ o.files,
                    sys.query s.x P.withJ :: U.trials.map (fun t => sys.query t false) ++ o.log,
                    if k = 0 then some (ref.getD (P.norms r J c), P.norms r J c) else o.last⟩) := by
                conv_lhs => unfold iterate
                simp only [hA, hC, hT, hU, hv]
              rw [ho]
              intro h
              obtain ⟨j, hj, r1, J1, inn, b1, l1, rf, g1, g2, g3, g4, g5⟩ := ih (i+1) (some (ref.getD (P.norms r J c))) _ h
              refine ⟨j+1, by omega, r1, J1, inn, b1, l1, rf, g1, g2, ?_, ?_, ?_⟩
              · have : k ≠ 0 := by omega
                simp only [if_neg this]
                exact g3
              · have e : i + ((j + 1 : Nat) : Int) = i + 1 + (j : Int) := by push_cast; ring
                rw [e]; exact g4
              · rintro r0 rfl
                exact g5 _ rfl
            · have ho : (iterate sys P (k+1) i ref s).how ≠ .stopped := by unfold iterate; simp only [hA, hC, hT, hU, hv]; simp
              exact fun h => absurd h ho
            · rcases hb : breakdownText e with _ | t
              · have ho : (iterate sys P (k+1) i ref s).how ≠ .stopped := by unfold iterate; simp only [hA, hC, hT, hU, hv, hb]; simp
                exact fun h => absurd h ho
              · have ho : (iterate sys P (k+1) i ref s).how ≠ .stopped := by unfold iterate; simp only [hA, hC, hT, hU, hv, hb]; simp
                exact fun h => absurd h ho
      · have ho : (iterate sys P (k+1) i ref s).how ≠ .stopped := by unfold iterate; simp only [hA, hC]; simp
        exact fun h => absurd h ho

end Pressio.Lemmas.Nonlinear
