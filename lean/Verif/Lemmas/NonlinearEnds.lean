import Verif.Lemmas.NonlinearIterate

/-
  How solves end: failures of the assembly, and the termination file of the Newton solvers.
-/
namespace Pressio.Lemmas.Nonlinear
set_option autoImplicit false
open Pressio Matrix
open Pressio.Spec.Nonlinear

variable {K m n p L : Type} [Field K]

/-- an accepted point of the line search is the first acceptable one -/
theorem search_moved [LinearOrder K] (f : (n → K) → Except Exc K) (x c : n → K) (bound d nu : K) :
    ∀ (l : List K) (x' : n → K) (d' nu' : K), (search f x c bound d nu l).val = .moved x' d' nu' →
      ∃ l1 a l2, l = l1 ++ a :: l2 ∧ (∀ b ∈ l1, ∃ v, f (x + b • c) = .ok v ∧ ¬ v ≤ bound) ∧ (∃ v, f (x + a • c) = .ok v ∧ v ≤ bound) ∧ x' = x + a • c ∧
        d' = d ∧ nu' = nu ∧ (search f x c bound d nu l).trials = (l1 ++ [a]).map (fun b => x + b • c) := by
  intro l
  induction l with
  | nil => intro x' d' nu' h; cases h
  | cons a l ih =>
    intro x' d' nu' h
    unfold search at h ⊢
    cases hv : f (x + a • c) with
    | error e => rw [hv] at h; cases h
    | ok v =>
      rw [hv] at h
      by_cases hle : v ≤ bound
      · simp only [hle, if_true] at h ⊢
        cases h
        exact ⟨[], a, l, rfl, by simp, ⟨v, hv, hle⟩, rfl, rfl, rfl, rfl⟩
      · simp only [hle, if_false] at h ⊢
        obtain ⟨l1, a', l2, e1, e2, e3, e4, e5, e6, e7⟩ := ih x' d' nu' h
        refine ⟨a :: l1, a', l2, by rw [e1]; rfl, ?_, e3, e4, e5, e6, ?_⟩
        · intro b hb
          rcases List.mem_cons.mp hb with rfl | hb
          · exact ⟨v, hv, hle⟩
          · exact e2 b hb
        · rw [e7]; rfl

theorem mem_steps {a : K} (h : a ∈ (steps : List K)) : ∃ j < 10, a = (1 / 2 : K) ^ j := by
  obtain ⟨j, hj, rfl⟩ := List.mem_map.mp h
  exact ⟨j, List.mem_range.mp hj, rfl⟩

/-- A case analysis of one iteration. -/
theorem iterate_cases (sys : Sys K m n) (P : Problem K m n L) (k : Nat) (i : Int) (ref : Option (Norms K)) (s : St K n L) (Q : Out K m n L → Prop)
    (hasm : ∀ e t, assembly sys P s.x = .error e → assemblyText e = some t →
      Q ⟨.threw (.exc .nonlinearSolveFailure), s, if P.files then [t] else [], [sys.query s.x P.withJ], none⟩)
    (hasm' : ∀ e, assembly sys P s.x = .error e → assemblyText e = none → Q ⟨.threw (.exc e), s, [], [sys.query s.x P.withJ], none⟩)
    (hcorr : ∀ r J h c b l, assembly sys P s.x = .ok (r, J) → P.corr s.x r J s.damp (s.c, s.QTr, s.lin) = .stop h (c, b, l) →
      Q ⟨.threw h, { s with c := c, QTr := b, lin := l }, [], [sys.query s.x P.withJ], none⟩)
    (htest : ∀ r J c b l e, assembly sys P s.x = .ok (r, J) → P.corr s.x r J s.damp (s.c, s.QTr, s.lin) = .ok () (c, b, l) →
      P.test i (ref.getD (P.norms r J c)) (P.norms r J c) = .error e →
      Q ⟨.threw (.exc e), { s with c := c, QTr := b, lin := l }, [], [sys.query s.x P.withJ], some (ref.getD (P.norms r J c), P.norms r J c)⟩)
    (hstop : ∀ r J c b l, assembly sys P s.x = .ok (r, J) → P.corr s.x r J s.damp (s.c, s.QTr, s.lin) = .ok () (c, b, l) →
      P.test i (ref.getD (P.norms r J c)) (P.norms r J c) = .ok true →
      Q ⟨.stopped, { s with c := c, QTr := b, lin := l }, P.note i (ref.getD (P.norms r J c)) (P.norms r J c), [sys.query s.x P.withJ],
        some (ref.getD (P.norms r J c), P.norms r J c)⟩)
    (hbreak : ∀ r J c b l t tr, assembly sys P s.x = .ok (r, J) → P.corr s.x r J s.damp (s.c, s.QTr, s.lin) = .ok () (c, b, l) →
      P.test i (ref.getD (P.norms r J c)) (P.norms r J c) = .ok false →
      (((P.upd { s with c := c, QTr := b, lin := l } r J (P.norms r J c)).val = .breakdown ∧ t = "line search step size too small") ∨
       ∃ e, (P.upd { s with c := c, QTr := b, lin := l } r J (P.norms r J c)).val = .threw e ∧ breakdownText e = some t) →
      tr = (P.upd { s with c := c, QTr := b, lin := l } r J (P.norms r J c)).trials →
      Q ⟨.breakdown, { s with c := c, QTr := b, lin := l }, P.note i (ref.getD (P.norms r J c)) (P.norms r J c) ++ (if P.files then [t] else []),
        sys.query s.x P.withJ :: tr.map (fun t => sys.query t false), some (ref.getD (P.norms r J c), P.norms r J c)⟩)
    (hthrow : ∀ r J c b l e tr, assembly sys P s.x = .ok (r, J) → P.corr s.x r J s.damp (s.c, s.QTr, s.lin) = .ok () (c, b, l) →
      P.test i (ref.getD (P.norms r J c)) (P.norms r J c) = .ok false →
      (P.upd { s with c := c, QTr := b, lin := l } r J (P.norms r J c)).val = .threw e → breakdownText e = none →
      tr = (P.upd { s with c := c, QTr := b, lin := l } r J (P.norms r J c)).trials →
      Q ⟨.threw (.exc e), { s with c := c, QTr := b, lin := l }, P.note i (ref.getD (P.norms r J c)) (P.norms r J c),
        sys.query s.x P.withJ :: tr.map (fun t => sys.query t false), some (ref.getD (P.norms r J c), P.norms r J c)⟩)
    (hmove : ∀ r J c b l x' d nu tr, assembly sys P s.x = .ok (r, J) → P.corr s.x r J s.damp (s.c, s.QTr, s.lin) = .ok () (c, b, l) →
      P.test i (ref.getD (P.norms r J c)) (P.norms r J c) = .ok false →
      (P.upd { s with c := c, QTr := b, lin := l } r J (P.norms r J c)).val = .moved x' d nu →
      tr = (P.upd { s with c := c, QTr := b, lin := l } r J (P.norms r J c)).trials →
      Q (let o := iterate sys P k (i+1) (some (ref.getD (P.norms r J c))) { s with x := x', c := c, QTr := b, lin := l, damp := d, nu := nu }
         ⟨o.how, o.st, P.note i (ref.getD (P.norms r J c)) (P.norms r J c) ++ o.files,
          sys.query s.x P.withJ :: tr.map (fun t => sys.query t false) ++ o.log,
          if k = 0 then some (ref.getD (P.norms r J c), P.norms r J c) else o.last⟩)) :
    Q (iterate sys P (k+1) i ref s) := by
  unfold iterate
  cases hA : assembly sys P s.x with
  | error e =>
    rcases ht : assemblyText e with _ | t
    · simp only [ht]; exact hasm' e hA ht
    · simp only [ht]; exact hasm e t hA ht
  | ok rJ =>
    obtain ⟨r, J⟩ := rJ
    rcases hC : P.corr s.x r J s.damp (s.c, s.QTr, s.lin) with ⟨⟨⟩, c, b, l⟩ | ⟨h, c, b, l⟩
    · rcases hT : P.test i (ref.getD (P.norms r J c)) (P.norms r J c) with e | b0
      · simp only [hC, hT]
        exact htest r J c b l e hA hC hT
      · cases b0 with
        | true =>
          simp only [hC, hT]
          exact hstop r J c b l hA hC hT
        | false =>
          rcases hv : (P.upd { s with c := c, QTr := b, lin := l } r J (P.norms r J c)).val with ⟨x', d, nu⟩ | _ | e
          · simp only [hC, hT, hv]
            exact hmove r J c b l x' d nu _ hA hC hT hv rfl
          · simp only [hC, hT, hv]
            exact hbreak r J c b l _ _ hA hC hT (.inl ⟨hv, rfl⟩) rfl
          · rcases hb : breakdownText e with _ | t
            · simp only [hC, hT, hv, hb]
              exact hthrow r J c b l e _ hA hC hT hv hb rfl
            · simp only [hC, hT, hv, hb]
              exact hbreak r J c b l t _ hA hC hT (.inr ⟨e, hv, hb⟩) rfl
    · simp only [hC]
      exact hcorr r J h c b l hA hC

/-- the answer recorded for the evaluation of an iteration -/
theorem query_error {sys : Sys K m n} {P : Problem K m n L} {x : n → K} {e : Exc} (h : (sys.query x P.withJ).ans = .error e) :
    assembly sys P x = .error e := by
  unfold Sys.query Sys.toF at h
  unfold assembly
  cases hJ : P.withJ
  · rw [hJ] at h
    simp only [Bool.false_eq_true, if_false] at h ⊢
    cases hr : sys.res x with
    | error e' => rw [hr] at h; simp only [Except.map] at h ⊢; cases h; rfl
    | ok r => rw [hr] at h; simp [Except.map] at h
  · rw [hJ] at h
    simp only [if_true] at h ⊢
    cases hr : sys.resJac x with
    | error e' => rw [hr] at h; simp only [Except.map] at h ⊢; cases h; rfl
    | ok r => rw [hr] at h; simp [Except.map] at h

/-- with updates that evaluate nothing, a failing evaluation ends the solve with `NonlinearSolveFailure` -/
theorem iterate_failure (sys : Sys K m n) (P : Problem K m n L) (hupd : ∀ s r J now, ∃ x d nu, P.upd s r J now = ⟨[], .moved x d nu⟩) :
    ∀ (k : Nat) (i : Int) (ref : Option (Norms K)) (s : St K n L), ∀ q ∈ (iterate sys P k i ref s).log, ∀ e t, q.ans = .error e → assemblyText e = some t →
      (iterate sys P k i ref s).how = .threw (.exc .nonlinearSolveFailure) := by
  intro k
  induction k with
  | zero => intro i ref s q hq; unfold iterate at hq; split at hq <;> simp at hq
  | succ k ih =>
    intro i ref s
    apply iterate_cases sys P k i ref s (fun o => ∀ q ∈ o.log, ∀ e t, q.ans = .error e → assemblyText e = some t →
      o.how = .threw (.exc .nonlinearSolveFailure))
    · intros; rfl
    · intro e hA ht q hq e' t' hq' ht'
      simp only [List.mem_singleton] at hq
      subst hq
      have := query_error (P := P) hq'
      rw [hA] at this; cases this
      rw [ht] at ht'; cases ht'
    · intro r J h c b l hA _ q hq e' t' hq' ht'
      simp only [List.mem_singleton] at hq
      subst hq
      have := query_error (P := P) hq'
      rw [hA] at this; cases this
    · intro r J c b l e hA _ _ q hq e' t' hq' ht'
      simp only [List.mem_singleton] at hq
      subst hq
      have := query_error (P := P) hq'
      rw [hA] at this; cases this
    · intro r J c b l hA _ _ q hq e' t' hq' ht'
      simp only [List.mem_singleton] at hq
      subst hq
      have := query_error (P := P) hq'
      rw [hA] at this; cases this
    · intro r J c b l t tr hA _ _ hv
      obtain ⟨x, d, nu, hu⟩ := hupd { s with c := c, QTr := b, lin := l } r J (P.norms r J c)
      rw [hu] at hv
      rcases hv with ⟨hv, -⟩ | ⟨e, hv, -⟩ <;> cases hv
    · intro r J c b l e tr hA _ _ hv
      obtain ⟨x, d, nu, hu⟩ := hupd { s with c := c, QTr := b, lin := l } r J (P.norms r J c)
      rw [hu] at hv
      cases hv
    · intro r J c b l x' d nu tr hA _ _ hv htr q hq e' t' hq' ht'
      obtain ⟨x, d, nu, hu⟩ := hupd { s with c := c, QTr := b, lin := l } r J (P.norms r J c)
      rw [hu] at htr
      subst htr
      simp only [List.map_nil, List.cons_append, List.nil_append, List.mem_cons] at hq
      rcases hq with rfl | hq
      · have := query_error (P := P) hq'
        rw [hA] at this; cases this
      · exact ih _ _ _ q hq e' t' hq' ht'

/-- the residual exceptions come out of a solve only if the inner solver (or an update, or the test) throws them -/
theorem iterate_throws (sys : Sys K m n) (P : Problem K m n L) (e : Exc) (he : assemblyText e ≠ none) :
    ∀ (k : Nat) (i : Int) (ref : Option (Norms K)) (s : St K n L), (iterate sys P k i ref s).how = .threw (.exc e) →
      (∃ x r J d inn inn', P.corr x r J d inn = .stop (.exc e) inn') ∨ (∃ i ref now, P.test i ref now = .error e) ∨
      (∃ s r J now, (P.upd s r J now).val = .threw e) := by
  have hne : e ≠ .nonlinearSolveFailure := by rintro rfl; exact he rfl
  intro k
  induction k with
  | zero => intro i ref s h; unfold iterate at h; split at h <;> cases h
  | succ k ih =>
    intro i ref s
    apply iterate_cases sys P k i ref s (fun o => o.how = .threw (.exc e) →
      (∃ x r J d inn inn', P.corr x r J d inn = .stop (.exc e) inn') ∨ (∃ i ref now, P.test i ref now = .error e) ∨
      (∃ s r J now, (P.upd s r J now).val = .threw e))
    · intro e' t _ _ h; cases h; exact absurd rfl hne
    · intro e' _ ht h; cases h; exact absurd ht he
    · intro r J h c b l _ hC hh; cases hh; exact .inl ⟨_, _, _, _, _, _, hC⟩
    · intro r J c b l e' _ _ hT h; cases h; exact .inr (.inl ⟨_, _, _, hT⟩)
    · intro r J c b l _ _ _ h; cases h
    · intro r J c b l t tr _ _ _ _ _ h; cases h
    · intro r J c b l e' tr _ _ _ hv _ _ h; cases h; exact .inr (.inr ⟨_, _, _, _, hv⟩)
    · intro r J c b l x' d nu tr _ _ _ _ _ h; exact ih _ _ _ h

/-- a Newton solve that returns normally without having written the termination file has met its stopping test -/
theorem newton_no_file [LinearOrder K] [Fintype m] [Fintype n] [Fintype p] (env : Model.Nonlinear.Env K m n p L) (cfg : Model.Nonlinear.Cfg K) (sys : Sys K m n) (mf : Bool) (rule : RootRule K) :
    ∀ (k : Nat) (i : Int) (ref : Option (Norms K)) (s : St K n L), 1 ≤ k → i + k = cfg.maxIters + 1 →
      let o := iterate sys (newtonProblem env cfg sys mf rule) k i ref s
      o.how.stop? = none → o.files = [] → o.how = .stopped := by
  intro k
  induction k with
  | zero => intro i ref s h; omega
  | succ k ih =>
    intro i ref s _ hik
    apply iterate_cases sys (newtonProblem env cfg sys mf rule) k i ref s (fun o => o.how.stop? = none → o.files = [] → o.how = .stopped)
    · intro e' t _ _ h; cases h
    · intro e' _ ht h; cases h
    · intro r J h c b l _ hC hh; cases hh
    · intro r J c b l e' _ _ hT h; cases h
    · intro r J c b l _ _ _ _ _; rfl
    · intro r J c b l t tr _ _ _ _ _ _ h
      simp [newtonProblem] at h
    · intro r J c b l e' tr _ _ _ hv _ _ h; cases h
    · intro r J c b l x' d nu tr _ _ hT _ _ h hf
      by_cases hk : k = 0
      · exfalso
        subst hk
        have hT' : (if rootCriterion cfg.stop then (.ok (below cfg.stop cfg.tol _ _) : Except Exc Bool) else .error .outOfRange) = .ok false := hT
        have hb : below cfg.stop cfg.tol (ref.getD ((newtonProblem env cfg sys mf rule : Problem K m n L).norms r J c)) ((newtonProblem env cfg sys mf rule : Problem K m n L).norms r J c) = false := by
          split at hT'
          · exact Except.ok.inj hT'
          · cases hT'
        have hle : cfg.maxIters ≤ i := by omega
        simp only [List.append_eq_nil_iff] at hf
        have : (newtonProblem env cfg sys mf rule : Problem K m n L).note i (ref.getD ((newtonProblem env cfg sys mf rule : Problem K m n L).norms r J c)) ((newtonProblem env cfg sys mf rule : Problem K m n L).norms r J c) =
          ["reached maximum number of iterations before convergence"] := if_pos ⟨hle, hb⟩
        rw [this] at hf
        exact absurd hf.1 (by simp)
      · exact ih _ _ _ (by omega) (by push_cast at hik; omega) h (List.append_eq_nil_iff.mp hf).2

end Pressio.Lemmas.Nonlinear
