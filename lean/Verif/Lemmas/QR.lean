import Verif.Model.QR
import Mathlib.Algebra.Order.Field.Basic
import Mathlib.Algebra.BigOperators.Fin
import Mathlib.LinearAlgebra.LinearIndependent.Basic
import Mathlib.Tactic.Linarith
import Mathlib.Tactic.FieldSimp
import Mathlib.Tactic.Ring
import Mathlib.Tactic.Abel

/- Helper lemmas for the QR solvers: the loop invariant of modified Gram-Schmidt. -/
namespace Pressio.Lemmas.QR
set_option autoImplicit false
set_option linter.unusedSectionVars false
open Pressio Pressio.Model.QR Matrix

variable {K m : Type} [Field K] [LinearOrder K] [IsStrictOrderedRing K] [Fintype m]

/-- the columns still to be done have been projected -/
theorem inner_run (k : Nat) (Q : MV K m) (hk : k < Q.num) : ∀ (c j : Nat) (s : St K m), s.Q = some Q → j + c = s.A.num →
    mgsInner k c j s = .ok () { s with
      A := { s.A with col := fun i => if j ≤ i ∧ i < j + c then s.A.col i - (Q.col k ⬝ᵥ s.A.col i) • Q.col k else s.A.col i }
      R := { s.R with val := fun x y => if x = k ∧ j ≤ y ∧ y < j + c then Q.col k ⬝ᵥ s.A.col y else s.R.val x y } } := by
  intro c
  induction c with
  | zero =>
    intro j s hQ hj
    have h1 : ∀ i, ¬ (j ≤ i ∧ i < j + 0) := by intro i; omega
    simp only [mgsInner, Prog.pure_run, h1, if_false, and_false]
  | succ c ih =>
    intro j s hQ hj
    have hjn : j < s.A.num := by omega
    simp only [mgsInner, Bind.bind, Prog.bind, colA, MV.get?, hjn, if_true, colQ, hQ, Option.bind_some, hk, setR, setA, Prog.modify_run]
    rw [ih (j + 1) _ (by rfl) (by simp only [MV.set]; omega)]
    congr 1
    simp only [MV.set, RMat.set, St.mk.injEq, MV.mk.injEq, RMat.mk.injEq, true_and]
    refine ⟨?_, ?_⟩
    · funext i
      rcases Nat.lt_trichotomy i j with h | h | h
      · rw [if_neg (by omega), if_neg (by omega), if_neg (by omega)]
      · subst h
        rw [if_neg (by omega), if_pos rfl, if_pos (by omega), one_smul, neg_smul]; abel
      · have e : i ≠ j := by omega
        simp only [e, if_false]
        by_cases hc : i < j + 1 + c
        · rw [if_pos (by omega), if_pos (by omega)]
        · rw [if_neg (by omega), if_neg (by omega)]
    · funext x y
      rcases Nat.lt_trichotomy y j with h | h | h
      · rw [if_neg (by omega), if_neg (by omega), if_neg (by omega)]
      · subst h
        rw [if_neg (by omega)]
        by_cases hx : x = k
        · rw [if_pos (by omega), if_pos (by omega)]
        · rw [if_neg (by omega), if_neg (by omega)]
      · have e : y ≠ j := by omega
        simp only [e, if_false, and_false]
        by_cases hc : x = k ∧ y < j + 1 + c
        · rw [if_pos (by omega), if_pos (by omega)]
        · rw [if_neg (by omega), if_neg (by omega)]

/-- after `k` columns of `a`; `R0` holds the entries below the diagonal, never written -/
structure Inv (a : Nat → m → K) (mp N qn k : Nat) (R0 : Nat → Nat → K) (s : St K m) (Q : MV K m) : Prop where
  q : s.Q = some Q
  qmap : Q.map = mp
  qnum : Q.num = qn
  map : s.A.map = mp
  num : s.A.num = N
  size : s.R.size = N
  low : ∀ i j, j < i → s.R.val i j = R0 i j
  todo : ∀ j, k ≤ j → j < N → s.A.col j = a j - ∑ i ∈ Finset.range k, s.R.val i j • Q.col i
  done : ∀ j < k, a j = ∑ i ∈ Finset.range (j + 1), s.R.val i j • Q.col i
  over : ∀ j < k, s.A.col j = s.R.val j j • Q.col j
  pos : ∀ j < k, 0 < s.R.val j j
  orth : ∀ i < k, ∀ j < k, Q.col i ⬝ᵥ Q.col j = if i = j then 1 else 0
  perp : ∀ i < k, ∀ j, k ≤ j → j < N → Q.col i ⬝ᵥ s.A.col j = 0
  span : ∀ i < k, Q.col i ∈ Submodule.span K (a '' {l | l ≤ i})

variable (norm2 : (m → K) → K)

/-- one column -/
theorem loop_step (hn : ∀ v, 0 ≤ norm2 v ∧ norm2 v * norm2 v = v ⬝ᵥ v) {a : Nat → m → K} {mp N qn k c : Nat} {R0 : Nat → Nat → K} {s : St K m} {Q : MV K m} (h : Inv a mp N qn k R0 s Q)
    (hc : k + (c + 1) = N) (hne : norm2 (s.A.col k) ≠ 0) (hq : k < qn) :
    ∃ s' Q', mgsLoop norm2 (c + 1) k s = mgsLoop norm2 c (k + 1) s' ∧ Inv a mp N qn (k + 1) R0 s' Q' := by
  have hkn : k < s.A.num := by rw [h.num]; omega
  have hkq : k < Q.num := by rw [h.qnum]; exact hq
  set ak := s.A.col k with hak
  set ν := norm2 ak with hν
  set u : m → K := (1 / ν) • ak with hu
  have hνpos : 0 < ν := lt_of_le_of_ne (hn ak).1 (Ne.symm hne)
  set Q' : MV K m := Q.set k u with hQ'
  have hQk : Q'.col k = u := by simp [hQ', MV.set]
  have hQi : ∀ i, i ≠ k → Q'.col i = Q.col i := by intro i hi; simp [hQ', MV.set, hi]
  have huu : u ⬝ᵥ u = 1 := by
    rw [hu, smul_dotProduct, dotProduct_smul, ← (hn ak).2, smul_eq_mul, smul_eq_mul]
    show 1 / ν * (1 / ν * (ν * ν)) = 1
    field_simp
  have hau : ν • u = ak := by rw [hu, smul_smul, mul_one_div, div_self hne, one_smul]
  have hperpu : ∀ i < k, Q.col i ⬝ᵥ u = 0 := by
    intro i hi; rw [hu, dotProduct_smul, h.perp i hi k le_rfl (by omega), smul_zero]
  refine ⟨{ s with
      A := { s.A with col := fun i => if k + 1 ≤ i ∧ i < k + 1 + c then s.A.col i - (u ⬝ᵥ s.A.col i) • u else s.A.col i }
      Q := some Q'
      R := { s.R with val := fun x y => if x = k ∧ k + 1 ≤ y ∧ y < k + 1 + c then u ⬝ᵥ s.A.col y else if x = k ∧ y = k then ν else s.R.val x y } }, Q', ?_, ?_⟩
  · have hne' : ¬ norm2 ak = 0 := hne
    conv_lhs => unfold mgsLoop
    simp only [Bind.bind, Prog.bind, colA, MV.get?, hkn, if_true, setR, Prog.modify_run, if_neg hne', colQ, h.q, Option.bind_some, hkq, setQ, Option.map_some, ← hak]
    have hz : (1 / norm2 ak) • ak + (0:K) • Q.col k = u := by rw [zero_smul, add_zero]
    rw [hz, inner_run k Q' (by exact hkq) c (k + 1) _ (by rfl) (by show k + 1 + c = s.A.num; rw [h.num]; omega)]
    simp only [hQk, RMat.set, hν]
    rfl
  · refine ⟨rfl, h.qmap, h.qnum, h.map, h.num, h.size, ?_, ?_, ?_, ?_, ?_, ?_, ?_, ?_⟩
    · intro i j hij
      show (if i = k ∧ k + 1 ≤ j ∧ j < k + 1 + c then _ else if i = k ∧ j = k then _ else s.R.val i j) = _
      rw [if_neg (by omega), if_neg (by omega), h.low i j hij]
    · intro j hj hjN
      show (if k + 1 ≤ j ∧ j < k + 1 + c then s.A.col j - (u ⬝ᵥ s.A.col j) • u else s.A.col j) = _
      rw [if_pos (by omega), Finset.sum_range_succ]
      have e1 : ∀ i ∈ Finset.range k, (if i = k ∧ k + 1 ≤ j ∧ j < k + 1 + c then u ⬝ᵥ s.A.col j else if i = k ∧ j = k then ν else s.R.val i j) • Q'.col i = s.R.val i j • Q.col i := by
        intro i hi
        have := Finset.mem_range.1 hi
        rw [if_neg (by omega), if_neg (by omega), hQi i (by omega)]
      rw [Finset.sum_congr rfl e1, ← sub_sub, ← h.todo j (by omega) hjN]
      show _ = _ - (if k = k ∧ k + 1 ≤ j ∧ j < k + 1 + c then u ⬝ᵥ s.A.col j else _) • Q'.col k
      rw [if_pos (by omega), hQk]
    · intro j hj
      show a j = ∑ i ∈ Finset.range (j + 1), (if i = k ∧ k + 1 ≤ j ∧ j < k + 1 + c then u ⬝ᵥ s.A.col j else if i = k ∧ j = k then ν else s.R.val i j) • Q'.col i
      rcases Nat.lt_or_ge j k with hjk | hjk
      · rw [h.done j hjk]
        refine Finset.sum_congr rfl fun i hi => ?_
        have := Finset.mem_range.1 hi
        rw [if_neg (by omega), if_neg (by omega), hQi i (by omega)]
      · have : j = k := by omega
        subst this
        rw [Finset.sum_range_succ, if_neg (by omega), if_pos ⟨rfl, rfl⟩, hQk, hau]
        have e1 : ∀ i ∈ Finset.range j, (if i = j ∧ j + 1 ≤ j ∧ j < j + 1 + c then u ⬝ᵥ s.A.col j else if i = j ∧ j = j then ν else s.R.val i j) • Q'.col i = s.R.val i j • Q.col i := by
          intro i hi
          have := Finset.mem_range.1 hi
          rw [if_neg (by omega), if_neg (by omega), hQi i (by omega)]
        rw [Finset.sum_congr rfl e1, hak, h.todo j le_rfl (by omega)]; abel
    · intro j hj
      show (if k + 1 ≤ j ∧ j < k + 1 + c then _ else s.A.col j) = (if j = k ∧ k + 1 ≤ j ∧ j < k + 1 + c then _ else if j = k ∧ j = k then ν else s.R.val j j) • Q'.col j
      rw [if_neg (by omega), if_neg (by omega)]
      rcases Nat.lt_or_ge j k with hjk | hjk
      · rw [if_neg (by omega), hQi j (by omega), h.over j hjk]
      · have : j = k := by omega
        subst this
        rw [if_pos ⟨rfl, rfl⟩, hQk, hau]
    · intro j hj
      show 0 < (if j = k ∧ k + 1 ≤ j ∧ j < k + 1 + c then _ else if j = k ∧ j = k then ν else s.R.val j j)
      rw [if_neg (by omega)]
      by_cases hjk : j = k
      · rw [if_pos ⟨hjk, hjk⟩]; exact hνpos
      · rw [if_neg (by tauto)]; exact h.pos j (by omega)
    · intro i hi j hj
      by_cases hik : i = k <;> by_cases hjk : j = k
      · rw [hik, hjk, hQk, huu, if_pos rfl]
      · rw [hik, hQk, hQi j hjk, dotProduct_comm, hperpu j (by omega), if_neg (by omega)]
      · rw [hjk, hQk, hQi i hik, hperpu i (by omega), if_neg (by omega)]
      · rw [hQi i hik, hQi j hjk, h.orth i (by omega) j (by omega)]
    · intro i hi j hj hjN
      show Q'.col i ⬝ᵥ (if k + 1 ≤ j ∧ j < k + 1 + c then s.A.col j - (u ⬝ᵥ s.A.col j) • u else s.A.col j) = 0
      rw [if_pos (by omega), dotProduct_sub, dotProduct_smul]
      by_cases hik : i = k
      · rw [hik, hQk, huu, smul_eq_mul, mul_one, sub_self]
      · rw [hQi i hik, hperpu i (by omega), h.perp i (by omega) j (by omega) hjN, smul_zero, sub_zero]
    · intro i hi
      by_cases hik : i = k
      · subst hik
        rw [hQk, hu, hak, h.todo i le_rfl (by omega)]
        refine Submodule.smul_mem _ _ (Submodule.sub_mem _ (Submodule.subset_span ⟨i, (le_refl i : i ≤ i), rfl⟩) (Submodule.sum_mem _ fun l hl => Submodule.smul_mem _ _ ?_))
        have hl := Finset.mem_range.1 hl
        exact Submodule.span_mono (Set.image_mono fun x (hx : x ≤ l) => (by show x ≤ i; omega)) (h.span l hl)
      · rw [hQi i hik]; exact h.span i (by omega)

/-- every way the loop can end -/
theorem loop_run (hn : ∀ v, 0 ≤ norm2 v ∧ norm2 v * norm2 v = v ⬝ᵥ v) (a : Nat → m → K) (mp N qn : Nat) (R0 : Nat → Nat → K) : ∀ (c k : Nat) (s : St K m) (Q : MV K m),
    Inv a mp N qn k R0 s Q → k + c = N → k ≤ qn →
    (N ≤ qn ∧ ∃ s' Q', mgsLoop norm2 c k s = .ok () s' ∧ Inv a mp N qn N R0 s' Q') ∨
    (∃ k' s', k ≤ k' ∧ k' < N ∧ mgsLoop norm2 c k s = .stop (.ub "division by zero") s' ∧ a k' ∈ Submodule.span K (a '' {l | l < k'})) ∨
    (qn < N ∧ ∃ s', mgsLoop norm2 c k s = .stop (.ub "no such column of Q") s') := by
  intro c
  induction c with
  | zero =>
    intro k s Q h hc hq
    have : k = N := by omega
    subst this
    exact Or.inl ⟨hq, s, Q, rfl, h⟩
  | succ c ih =>
    intro k s Q h hc hq
    have hkn : k < s.A.num := by rw [h.num]; omega
    by_cases h0 : norm2 (s.A.col k) = 0
    · refine Or.inr (Or.inl ⟨k, { s with R := s.R.set k k (norm2 (s.A.col k)) }, le_rfl, by omega, ?_, ?_⟩)
      · simp only [mgsLoop, Bind.bind, Prog.bind, colA, MV.get?, hkn, if_true, setR, Prog.modify_run, h0, Prog.undef]
      · have hz : s.A.col k = 0 := by
          have := (hn (s.A.col k)).2
          rw [h0, mul_zero] at this
          exact (dotProduct_self_eq_zero).1 this.symm
        have := h.todo k le_rfl (by omega)
        rw [hz] at this
        rw [eq_comm, sub_eq_zero] at this
        rw [this]
        refine Submodule.sum_mem _ fun l hl => Submodule.smul_mem _ _ ?_
        have hl := Finset.mem_range.1 hl
        exact Submodule.span_mono (Set.image_mono fun x (hx : x ≤ l) => (by show x < k; omega)) (h.span l hl)
    · rcases Nat.lt_or_ge k qn with hkq | hkq
      · obtain ⟨s', Q', e, h'⟩ := loop_step norm2 hn h hc h0 hkq
        rw [e]
        rcases ih (k + 1) s' Q' h' (by omega) hkq with g | ⟨k', s'', g1, g2, g3, g4⟩ | g
        · exact Or.inl g
        · exact Or.inr (Or.inl ⟨k', s'', by omega, g2, g3, g4⟩)
        · exact Or.inr (Or.inr g)
      · refine Or.inr (Or.inr ⟨by omega, { s with R := s.R.set k k (norm2 (s.A.col k)) }, ?_⟩)
        have : ¬ k < Q.num := by rw [h.qnum]; omega
        simp only [mgsLoop, Bind.bind, Prog.bind, colA, MV.get?, hkn, if_true, setR, Prog.modify_run, if_neg h0, colQ, h.q, Option.bind_some, this, if_false]

end Pressio.Lemmas.QR
