import Verif.Lemmas.LeastSquares

/-
  The norms that a solve leaves in the diagnostics; independence of the past.
-/
namespace Pressio.Lemmas.Nonlinear
set_option autoImplicit false
open Pressio Matrix
open Pressio.Spec.Nonlinear

variable {K m n p L : Type} [Field K]

/-- where the norms of the last iteration come from -/
theorem iterate_last (sys : Sys K m n) (P : Problem K m n L) (hJ : P.withJ = true) :
    ∀ (k : Nat) (i : Int) (ref : Option (Norms K)) (s : St K n L), 1 ≤ k → (iterate sys P k i ref s).how.stop? = none →
      ∃ x1 r0 J0 c0 r1 J1 c1, (((iterate sys P k i ref s).log.filter (fun q => q.wantJ)).map (fun q => q.x)).getLast? = some x1 ∧
        assembly sys P s.x = .ok (r0, J0) ∧ (∃ b l, P.corr s.x r0 J0 s.damp (s.c, s.QTr, s.lin) = .ok () (c0, b, l)) ∧
        assembly sys P x1 = .ok (r1, J1) ∧ (∃ d inn b l, P.corr x1 r1 J1 d inn = .ok () (c1, b, l)) ∧ (iterate sys P k i ref s).st.c = c1 ∧
        (iterate sys P k i ref s).last = some (ref.getD (P.norms r0 J0 c0), P.norms r1 J1 c1) := by
  intro k
  induction k with
  | zero => intro i ref s h; omega
  | succ k ih =>
    intro i ref s _
    apply iterate_cases sys P k i ref s (fun o => o.how.stop? = none → ∃ x1 r0 J0 c0 r1 J1 c1, ((o.log.filter (fun q => q.wantJ)).map (fun q => q.x)).getLast? = some x1 ∧
        assembly sys P s.x = .ok (r0, J0) ∧ (∃ b l, P.corr s.x r0 J0 s.damp (s.c, s.QTr, s.lin) = .ok () (c0, b, l)) ∧
        assembly sys P x1 = .ok (r1, J1) ∧ (∃ d inn b l, P.corr x1 r1 J1 d inn = .ok () (c1, b, l)) ∧ o.st.c = c1 ∧
        o.last = some (ref.getD (P.norms r0 J0 c0), P.norms r1 J1 c1))
    · intro e t _ _ h; cases h
    · intro e _ _ h; cases h
    · intro r J h c b l _ _ hh; cases hh
    · intro r J c b l e _ _ _ hh; cases hh
    · intro r J c b l hA hC hT _
      refine ⟨s.x, r, J, c, r, J, c, ?_, hA, ⟨_, _, hC⟩, hA, ⟨_, _, _, _, hC⟩, rfl, rfl⟩
      rw [List.filter_cons_of_pos (by simp [Sys.query, hJ])]; rfl
    · intro r J c b l t tr hA hC _ _ _ _
      refine ⟨s.x, r, J, c, r, J, c, ?_, hA, ⟨_, _, hC⟩, hA, ⟨_, _, _, _, hC⟩, rfl, rfl⟩
      rw [List.filter_cons_of_pos (by simp [Sys.query, hJ]), filter_trials]; rfl
    · intro r J c b l e tr _ _ _ _ _ _ hh; cases hh
    · intro r J c b l x' d nu tr hA hC hT hv _ hh
      by_cases hk : k = 0
      · subst hk
        have hnil : ∀ (i : Int) rf (t : St K n L), (iterate sys P 0 i rf t).log = [] := by
          intro i rf t; unfold iterate; split <;> rfl
        have hc : ∀ (i : Int) rf (t : St K n L), (iterate sys P 0 i rf t).st = t := by
          intro i rf t; unfold iterate; split <;> rfl
        refine ⟨s.x, r, J, c, r, J, c, ?_, hA, ⟨_, _, hC⟩, hA, ⟨_, _, _, _, hC⟩, ?_, by simp⟩
        · simp only [hnil, List.append_nil]
          rw [List.filter_cons_of_pos (by simp [Sys.query, hJ]), filter_trials]; rfl
        · simp only [hc]
      · obtain ⟨x1, r0, J0, c0, r1, J1, c1, g1, -, -, g4, g5, g6, g7⟩ := ih (i+1) (some (ref.getD (P.norms r J c)))
          { s with x := x', c := c, QTr := b, lin := l, damp := d, nu := nu } (by omega) hh
        refine ⟨x1, r, J, c, r1, J1, c1, ?_, hA, ⟨_, _, hC⟩, g4, g5, g6, ?_⟩
        · simp only [List.cons_append]
          rw [List.filter_cons_of_pos (by simp [Sys.query, hJ]), List.filter_append, filter_trials, List.nil_append, List.map_cons]
          have : (((iterate sys P k (i+1) (some (ref.getD (P.norms r J c))) { s with x := x', c := c, QTr := b, lin := l, damp := d, nu := nu }).log.filter (fun q => q.wantJ)).map
            (fun q => q.x)) ≠ [] := by
              intro h0; rw [h0] at g1; cases g1
          rw [List.getLast?_cons, g1]; rfl
        · simp only [if_neg hk, g7]; rfl

/-- two runs that start at the same state, with related damping, and an inner solver whose answer does not depend on its memory, agree -/
theorem iterate_agree (sys : Sys K m n) (P : Problem K m n L) (E : K → K → K → K → Prop)
    (hcorr : ∀ x r J d nu d' nu' inn inn', E d nu d' nu' → SameAnswer Prod.fst (P.corr x r J d inn) (P.corr x r J d' inn'))
    (hupd : ∀ x c b l d nu b' l' d' nu' r J now, E d nu d' nu' →
      (P.upd ⟨x, c, b, l, d, nu⟩ r J now).trials = (P.upd ⟨x, c, b', l', d', nu'⟩ r J now).trials ∧
      ((P.upd ⟨x, c, b, l, d, nu⟩ r J now).val = (P.upd ⟨x, c, b', l', d', nu'⟩ r J now).val ∧ (∀ y e f, (P.upd ⟨x, c, b, l, d, nu⟩ r J now).val = .moved y e f → E e f e f) ∨
       ∃ y e f e' f', (P.upd ⟨x, c, b, l, d, nu⟩ r J now).val = .moved y e f ∧ (P.upd ⟨x, c, b', l', d', nu'⟩ r J now).val = .moved y e' f' ∧ E e f e' f')) :
    ∀ (k : Nat) (i : Int) (ref : Option (Norms K)) (s s' : St K n L), s.x = s'.x → E s.damp s.nu s'.damp s'.nu →
      let o := iterate sys P k i ref s
      let o' := iterate sys P k i ref s'
      o.how = o'.how ∧ o.st.x = o'.st.x ∧ o.files = o'.files ∧ o.log = o'.log ∧ o.last = o'.last := by
  intro k
  induction k with
  | zero =>
    intro i ref s s' hx _
    unfold iterate
    split <;> refine ⟨?_, ?_, ?_, ?_, ?_⟩ <;> first | rfl | exact hx
  | succ k ih =>
    intro i ref s s' hx hE
    unfold iterate
    rw [← hx]
    cases hA : assembly sys P s.x with
    | error e =>
      rcases ht : assemblyText e with _ | t
      · simp only [ht]; refine ⟨?_, ?_, ?_, ?_, ?_⟩ <;> first | trivial | exact hx
      · simp only [ht]; refine ⟨?_, ?_, ?_, ?_, ?_⟩ <;> first | trivial | exact hx
    | ok rJ =>
      obtain ⟨r, J⟩ := rJ
      have hC := hcorr s.x r J _ _ _ _ (s.c, s.QTr, s.lin) (s'.c, s'.QTr, s'.lin) hE
      simp only []
      rcases h1 : P.corr s.x r J s.damp (s.c, s.QTr, s.lin) with ⟨⟨⟩, c, b, l⟩ | ⟨h, c, b, l⟩ <;>
        rcases h2 : P.corr s.x r J s'.damp (s'.c, s'.QTr, s'.lin) with ⟨⟨⟩, c', b', l'⟩ | ⟨h', c', b', l'⟩ <;>
        rw [h1, h2] at hC <;> simp only [SameAnswer, Res.stop?, Res.state, reduceCtorEq, false_and, true_and, forall_true_left] at hC
      · subst hC
        simp only []
        rcases hT : P.test i (ref.getD (P.norms r J c)) (P.norms r J c) with e | b0
        · refine ⟨?_, ?_, ?_, ?_, ?_⟩ <;> first | rfl | exact hx
        · cases b0 with
          | true => refine ⟨?_, ?_, ?_, ?_, ?_⟩ <;> first | rfl | exact hx
          | false =>
            simp only []
            obtain ⟨u1, u2⟩ := hupd s.x c b l s.damp s.nu b' l' s'.damp s'.nu r J (P.norms r J c) hE
            generalize P.upd ⟨s.x, c, b, l, s.damp, s.nu⟩ r J (P.norms r J c) = U at u1 u2 ⊢
            generalize P.upd ⟨s.x, c, b', l', s'.damp, s'.nu⟩ r J (P.norms r J c) = U' at u1 u2 ⊢
            rcases u2 with ⟨u2, u3⟩ | ⟨y, e, f, e', f', u2, u3, u4⟩
            · rcases hv : U.val with ⟨y, e, f⟩ | _ | e
              · rw [hv] at u2
                simp only [← u2]
                obtain ⟨g1, g2, g3, g4, g5⟩ := ih (i+1) (some (ref.getD (P.norms r J c))) ⟨y, c, b, l, e, f⟩ ⟨y, c, b', l', e, f⟩ rfl (u3 _ _ _ hv)
                refine ⟨g1, g2, by rw [g3], by rw [g4, u1], by rw [g5]⟩
              · rw [hv] at u2
                simp only [← u2]
                refine ⟨?_, ?_, ?_, ?_, ?_⟩ <;> first | trivial | rw [u1]
              · rw [hv] at u2
                simp only [← u2]
                rcases hb : breakdownText e with _ | t
                · refine ⟨?_, ?_, ?_, ?_, ?_⟩ <;> first | trivial | rw [u1]
                · refine ⟨?_, ?_, ?_, ?_, ?_⟩ <;> first | trivial | rw [u1]
            · simp only [u2, u3]
              obtain ⟨g1, g2, g3, g4, g5⟩ := ih (i+1) (some (ref.getD (P.norms r J c))) ⟨y, c, b, l, e, f⟩ ⟨y, c, b', l', e', f'⟩ rfl u4
              refine ⟨g1, g2, by rw [g3], by rw [g4, u1], by rw [g5]⟩
      · simp only [Option.some.injEq] at hC
        obtain ⟨rfl, -⟩ := hC
        refine ⟨?_, ?_, ?_, ?_, ?_⟩ <;> first | rfl | exact hx

/-- the norms when only one iteration is allowed -/
theorem iterate_last_one (sys : Sys K m n) (P : Problem K m n L) (i : Int) (s : St K n L) (h : (iterate sys P 1 i none s).how.stop? = none) :
    ∃ N, (iterate sys P 1 i none s).last = some (N, N) := by
  revert h
  apply iterate_cases sys P 0 i none s (fun o => o.how.stop? = none → ∃ N, o.last = some (N, N))
  · intro e t _ _ h; cases h
  · intro e _ _ h; cases h
  · intro r J h c b l _ _ hh; cases hh
  · intro r J c b l e _ _ _ hh; cases hh
  · intro r J c b l _ _ _ _; exact ⟨_, rfl⟩
  · intro r J c b l t tr _ _ _ _ _ _; exact ⟨_, rfl⟩
  · intro r J c b l e tr _ _ _ _ _ _ hh; cases hh
  · intro r J c b l x' d nu tr _ _ _ _ _ _; exact ⟨P.norms r J c, by simp⟩

/-- the damping parameters only pass through the line search -/
theorem search_damp [LinearOrder K] (f : (n → K) → Except Exc K) (x c : n → K) (bound d nu d' nu' : K) (l : List K) :
    (search f x c bound d nu l).trials = (search f x c bound d' nu' l).trials ∧
    ((search f x c bound d nu l).val = (search f x c bound d' nu' l).val ∧ (∀ y e g, (search f x c bound d nu l).val ≠ .moved y e g) ∨
     ∃ y, (search f x c bound d nu l).val = .moved y d nu ∧ (search f x c bound d' nu' l).val = .moved y d' nu') := by
  induction l with
  | nil => exact ⟨rfl, .inl ⟨rfl, by intro y e g h; cases h⟩⟩
  | cons a l ih =>
    unfold search
    rcases hf : f (x + a • c) with e | v
    · exact ⟨rfl, .inl ⟨rfl, by intro y e g h; cases h⟩⟩
    · simp only []
      by_cases hv : v ≤ bound
      · simp only [hv, if_true]
        exact ⟨trivial, .inr ⟨_, rfl, rfl⟩⟩
      · simp only [hv, if_false]
        exact ⟨by rw [ih.1], ih.2⟩

end Pressio.Lemmas.Nonlinear
