import Verif.Lemmas.NonlinearAgree
import Mathlib.Tactic.NormNum

/-
  The line search: complete description of `search`; failures during assembly and during trials.
-/
namespace Pressio.Lemmas.Nonlinear
set_option autoImplicit false
open Pressio Matrix
open Pressio.Spec.Nonlinear

variable {K m n p L : Type} [Field K]

/-- trial point number `j` -/
def point (x c : n → K) (j : Nat) : n → K := x + (1 / 2 : K) ^ j • c

theorem search_prefix [LinearOrder K] (f : (n → K) → Except Exc K) (x c : n → K) (bound d nu : K) :
    ∀ (l1 l2 : List K), (∀ b ∈ l1, ∃ v, f (x + b • c) = .ok v ∧ ¬ v ≤ bound) →
      search f x c bound d nu (l1 ++ l2) = ⟨l1.map (fun b => x + b • c) ++ (search f x c bound d nu l2).trials, (search f x c bound d nu l2).val⟩ := by
  intro l1
  induction l1 with
  | nil => intro l2 _; rfl
  | cons a l1 ih =>
    intro l2 h
    obtain ⟨v, hv, hlt⟩ := h a (by simp)
    rw [List.cons_append]
    conv_lhs => unfold search
    simp only [hv, if_neg hlt, ih l2 (fun b hb => h b (by simp [hb]))]
    rfl

/-- splitting the step lengths at `j` -/
theorem steps_split (j : Nat) (hj : j < 10) : (steps : List K) = (List.range j).map (fun i => (1 / 2 : K) ^ i) ++ (1 / 2 : K) ^ j :: (List.range' (j+1) (9 - j)).map (fun i => (1 / 2 : K) ^ i) := by
  have : List.range 10 = List.range j ++ j :: List.range' (j+1) (9 - j) := by
    interval_cases j <;> rfl
  unfold steps
  rw [this, List.map_append, List.map_cons]

theorem search_accept [LinearOrder K] (f : (n → K) → Except Exc K) (x c : n → K) (bound d nu : K) (j : Nat) (hj : j < 10)
    (hbefore : ∀ i < j, ∃ v, f (point x c i) = .ok v ∧ ¬ v ≤ bound) (hacc : ∃ v, f (point x c j) = .ok v ∧ v ≤ bound) :
    search f x c bound d nu steps = ⟨(List.range (j+1)).map (point x c), .moved (point x c j) d nu⟩ := by
  rw [steps_split j hj, search_prefix]
  · obtain ⟨v, hv, hle⟩ := hacc
    unfold point at hv
    unfold search
    simp only [hv, if_pos hle]
    rw [List.range_succ, List.map_append, List.map_map]
    rfl
  · intro b hb
    obtain ⟨i, hi, rfl⟩ := List.mem_map.mp hb
    exact hbefore i (List.mem_range.mp hi)

theorem search_none [LinearOrder K] (f : (n → K) → Except Exc K) (x c : n → K) (bound d nu : K)
    (hall : ∀ i < 10, ∃ v, f (point x c i) = .ok v ∧ ¬ v ≤ bound) :
    search f x c bound d nu steps = ⟨(List.range 10).map (point x c), .breakdown⟩ := by
  have := search_prefix f x c bound d nu steps [] (by
    intro b hb
    obtain ⟨i, hi, rfl⟩ := List.mem_map.mp hb
    exact hall i (List.mem_range.mp hi))
  rw [List.append_nil] at this
  rw [this]
  unfold steps
  rw [List.map_map]
  rfl

theorem search_threw [LinearOrder K] (f : (n → K) → Except Exc K) (x c : n → K) (bound d nu : K) (j : Nat) (hj : j < 10) (e : Exc)
    (hbefore : ∀ i < j, ∃ v, f (point x c i) = .ok v ∧ ¬ v ≤ bound) (he : f (point x c j) = .error e) :
    search f x c bound d nu steps = ⟨(List.range (j+1)).map (point x c), .threw e⟩ := by
  rw [steps_split j hj, search_prefix]
  · unfold point at he
    unfold search
    simp only [he]
    rw [List.range_succ, List.map_append, List.map_map]
    rfl
  · intro b hb
    obtain ⟨i, hi, rfl⟩ := List.mem_map.mp hb
    exact hbefore i (List.mem_range.mp hi)

/-- one of the three -/
theorem search_trichotomy [LinearOrder K] (f : (n → K) → Except Exc K) (x c : n → K) (bound : K) :
    (∃ j < 10, (∀ i < j, ∃ v, f (point x c i) = .ok v ∧ ¬ v ≤ bound) ∧ ∃ v, f (point x c j) = .ok v ∧ v ≤ bound) ∨
    (∀ i < 10, ∃ v, f (point x c i) = .ok v ∧ ¬ v ≤ bound) ∨
    (∃ j < 10, ∃ e, (∀ i < j, ∃ v, f (point x c i) = .ok v ∧ ¬ v ≤ bound) ∧ f (point x c j) = .error e) := by
  classical
  by_cases h : ∀ i < 10, ∃ v, f (point x c i) = .ok v ∧ ¬ v ≤ bound
  · exact .inr (.inl h)
  · have hex : ∃ i, i < 10 ∧ ¬ ∃ v, f (point x c i) = .ok v ∧ ¬ v ≤ bound := by
      by_contra hno
      exact h (fun i hi => by by_contra hb; exact hno ⟨i, hi, hb⟩)
    have hm := Nat.find_spec hex
    have hb : ∀ i < Nat.find hex, ∃ v, f (point x c i) = .ok v ∧ ¬ v ≤ bound := by
      intro i hi
      by_contra hb
      exact Nat.find_min hex hi ⟨by omega, hb⟩
    rcases hf : f (point x c (Nat.find hex)) with e | v
    · exact .inr (.inr ⟨_, hm.1, e, hb, hf⟩)
    · refine .inl ⟨_, hm.1, hb, v, hf, ?_⟩
      by_contra hv
      exact hm.2 ⟨v, hf, hv⟩

/-- an accepted point of the line search, by number -/
theorem search_moved_point [LinearOrder K] (f : (n → K) → Except Exc K) (x c : n → K) (bound d nu : K) (x' : n → K) (d' nu' : K)
    (h : (search f x c bound d nu steps).val = .moved x' d' nu') :
    ∃ j < 10, x' = point x c j ∧ (∀ i < j, ∃ v, f (point x c i) = .ok v ∧ ¬ v ≤ bound) ∧ ∃ v, f (point x c j) = .ok v ∧ v ≤ bound := by
  rcases search_trichotomy f x c bound with ⟨j, hj, h1, h2⟩ | h1 | ⟨j, hj, e, h1, h2⟩
  · rw [search_accept f x c bound d nu j hj h1 h2] at h
    cases h
    exact ⟨j, hj, rfl, h1, h2⟩
  · rw [search_none f x c bound d nu h1] at h; cases h
  · rw [search_threw f x c bound d nu j hj e h1 h2] at h; cases h

/-- the points tried -/
theorem search_trials [LinearOrder K] (f : (n → K) → Except Exc K) (x c : n → K) (bound d nu : K) :
    ∃ k, k ≤ 10 ∧ (search f x c bound d nu steps).trials = (List.range k).map (point x c) := by
  rcases search_trichotomy f x c bound with ⟨j, hj, h1, h2⟩ | h1 | ⟨j, hj, e, h1, h2⟩
  · rw [search_accept f x c bound d nu j hj h1 h2]; exact ⟨j+1, by omega, rfl⟩
  · rw [search_none f x c bound d nu h1]; exact ⟨10, le_rfl, rfl⟩
  · rw [search_threw f x c bound d nu j hj e h1 h2]; exact ⟨j+1, by omega, rfl⟩

/-! ### failures -/

/-- a failing assembly evaluation ends the solve with `NonlinearSolveFailure`, whatever the update does -/
theorem iterate_assembly_failure (sys : Sys K m n) (P : Problem K m n L) (hJ : P.withJ = true) :
    ∀ (k : Nat) (i : Int) (ref : Option (Norms K)) (s : St K n L), ∀ q ∈ (iterate sys P k i ref s).log, q.wantJ = true → ∀ e t, q.ans = .error e →
      assemblyText e = some t → (iterate sys P k i ref s).how = .threw (.exc .nonlinearSolveFailure) := by
  intro k
  induction k with
  | zero => intro i ref s q hq; unfold iterate at hq; split at hq <;> simp at hq
  | succ k ih =>
    intro i ref s
    have hlog : ∀ (tr : List (n → K)) (q : Query (n → K) (Model.Nonlinear.Ans K m n)), q ∈ sys.query s.x P.withJ :: tr.map (fun t => sys.query t false) → q.wantJ = true →
        q = sys.query s.x P.withJ := by
      intro tr q hq hw
      rcases List.mem_cons.mp hq with h | h
      · exact h
      · obtain ⟨t, -, rfl⟩ := List.mem_map.mp h
        cases hw
    apply iterate_cases sys P k i ref s (fun o => ∀ q ∈ o.log, q.wantJ = true → ∀ e t, q.ans = .error e → assemblyText e = some t →
      o.how = .threw (.exc .nonlinearSolveFailure))
    · intros; rfl
    · intro e hA ht q hq hw e' t' hq' ht'
      have := hlog [] q hq hw; subst this
      have := query_error (P := P) hq'
      rw [hA] at this; cases this
      rw [ht] at ht'; cases ht'
    · intro r J h c b l hA _ q hq hw e' t' hq' ht'
      have := hlog [] q hq hw; subst this
      have := query_error (P := P) hq'
      rw [hA] at this; cases this
    · intro r J c b l e hA _ _ q hq hw e' t' hq' ht'
      have := hlog [] q hq hw; subst this
      have := query_error (P := P) hq'
      rw [hA] at this; cases this
    · intro r J c b l hA _ _ q hq hw e' t' hq' ht'
      have := hlog [] q hq hw; subst this
      have := query_error (P := P) hq'
      rw [hA] at this; cases this
    · intro r J c b l t tr hA _ _ hv _ q hq hw e' t' hq' ht'
      have := hlog tr q hq hw; subst this
      have := query_error (P := P) hq'
      rw [hA] at this; cases this
    · intro r J c b l e tr hA _ _ hv _ _ q hq hw e' t' hq' ht'
      have := hlog tr q hq hw; subst this
      have := query_error (P := P) hq'
      rw [hA] at this; cases this
    · intro r J c b l x' d nu tr hA _ _ hv htr q hq hw e' t' hq' ht'
      rcases List.mem_append.mp hq with hq | hq
      · have := hlog tr q hq hw; subst this
        have := query_error (P := P) hq'
        rw [hA] at this; cases this
      · exact ih _ _ _ q hq hw e' t' hq' ht'

/-- an update that lets the exception of a failing trial through -/
def LetsThrough (sys : Sys K m n) (P : Problem K m n L) : Prop :=
  ∀ s r J now, ∀ t ∈ (P.upd s r J now).trials, ∀ e, sys.res t = .error e → (P.upd s r J now).val = .threw e

/-- then a failing trial ends the solve with the exception itself -/
theorem iterate_trial_failure (sys : Sys K m n) (P : Problem K m n L) (hJ : P.withJ = true) (hthru : LetsThrough sys P) :
    ∀ (k : Nat) (i : Int) (ref : Option (Norms K)) (s : St K n L), ∀ q ∈ (iterate sys P k i ref s).log, q.wantJ = false → ∀ e, q.ans = .error e →
      breakdownText e = none → (iterate sys P k i ref s).how = .threw (.exc e) := by
  have hans : ∀ (t : n → K) (e : Exc), (sys.query t false).ans = .error e → sys.res t = .error e := by
    intro t e h
    unfold Sys.query Sys.toF at h
    simp only [Bool.false_eq_true, if_false] at h
    cases hr : sys.res t with
    | error e' => rw [hr] at h; simp only [Except.map] at h; cases h; rfl
    | ok r => rw [hr] at h; simp [Except.map] at h
  have hmem : ∀ (x : n → K) (tr : List (n → K)) (q : Query (n → K) (Model.Nonlinear.Ans K m n)), q ∈ sys.query x P.withJ :: tr.map (fun t => sys.query t false) → q.wantJ = false →
      ∃ t ∈ tr, q = sys.query t false := by
    intro x tr q hq hw
    rcases List.mem_cons.mp hq with h | h
    · subst h
      have : P.withJ = false := hw
      rw [hJ] at this; cases this
    · obtain ⟨t, ht, rfl⟩ := List.mem_map.mp h
      exact ⟨t, ht, rfl⟩
  intro k
  induction k with
  | zero => intro i ref s q hq; unfold iterate at hq; split at hq <;> simp at hq
  | succ k ih =>
    intro i ref s
    apply iterate_cases sys P k i ref s (fun o => ∀ q ∈ o.log, q.wantJ = false → ∀ e, q.ans = .error e → breakdownText e = none → o.how = .threw (.exc e))
    · intro e t hA ht q hq hw; obtain ⟨t, ht, -⟩ := hmem s.x [] q hq hw; cases ht
    · intro e hA ht q hq hw; obtain ⟨t, ht, -⟩ := hmem s.x [] q hq hw; cases ht
    · intro r J h c b l hA _ q hq hw; obtain ⟨t, ht, -⟩ := hmem s.x [] q hq hw; cases ht
    · intro r J c b l e hA _ _ q hq hw; obtain ⟨t, ht, -⟩ := hmem s.x [] q hq hw; cases ht
    · intro r J c b l hA _ _ q hq hw; obtain ⟨t, ht, -⟩ := hmem s.x [] q hq hw; cases ht
    · intro r J c b l t tr hA _ _ hv htr q hq hw e he hb
      subst htr
      obtain ⟨t, ht, rfl⟩ := hmem s.x _ q hq hw
      have := hthru _ _ _ _ t ht e (hans t e he)
      rcases hv with ⟨hv, -⟩ | ⟨e', hv, hb'⟩
      · rw [hv] at this; cases this
      · rw [hv] at this; cases this; rw [hb] at hb'; cases hb'
    · intro r J c b l e' tr hA _ _ hv _ htr q hq hw e he hb
      subst htr
      obtain ⟨t, ht, rfl⟩ := hmem s.x _ q hq hw
      have := hthru _ _ _ _ t ht e (hans t e he)
      rw [hv] at this; cases this; rfl
    · intro r J c b l x' d nu tr hA _ _ hv htr q hq hw e he hb
      subst htr
      rcases List.mem_append.mp hq with hq | hq
      · obtain ⟨t, ht, rfl⟩ := hmem s.x _ q hq hw
        have := hthru _ _ _ _ t ht e (hans t e he)
        rw [hv] at this; cases this
      · exact ih _ _ _ q hq hw e he hb

/-- the line search lets exceptions through -/
theorem search_letsThrough [LinearOrder K] (f : (n → K) → Except Exc K) (x c : n → K) (bound d nu : K) (l : List K) :
    ∀ t ∈ (search f x c bound d nu l).trials, ∀ e, f t = .error e → (search f x c bound d nu l).val = .threw e := by
  induction l with
  | nil => intro t ht; cases ht
  | cons a l ih =>
    intro t ht e he
    unfold search at ht ⊢
    rcases hf : f (x + a • c) with e' | v
    · simp only [hf, List.mem_singleton] at ht
      subst ht
      rw [hf] at he; cases he
      rfl
    · simp only [hf] at ht ⊢
      by_cases hv : v ≤ bound
      · simp only [hv, if_true, List.mem_singleton] at ht
        subst ht
        rw [hf] at he; cases he
      · simp only [hv, if_false] at ht ⊢
        rcases List.mem_cons.mp ht with rfl | ht
        · rw [hf] at he; cases he
        · exact ih t ht e he

end Pressio.Lemmas.Nonlinear
