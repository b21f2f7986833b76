import Verif.Model.Diagnostics
import Mathlib.Data.List.Chain
import Mathlib.Data.List.Nodup
import Mathlib.Algebra.Field.Rat
import Mathlib.Tactic.NormNum

/-
  C44, the container of the diagnostics, for every list of requested diagnostics and every later addition.
-/
namespace Pressio.Props
set_option autoImplicit false
set_option linter.unusedSectionVars false
open Pressio Pressio.Model.Nonlinear

section
variable {K : Type} [Field K] [LinearOrder K]

theorem mem_uniq (d : Diagnostic) : ∀ l, d ∈ uniq l ↔ d ∈ l
  | [] => by simp [uniq]
  | [a] => by simp [uniq]
  | a :: b :: l => by
    have ih := mem_uniq d (b :: l)
    simp only [uniq]
    split
    · rename_i h
      rw [ih, h]
      simp
    · rw [List.mem_cons, ih, List.mem_cons (b := a)]

theorem head_uniq (a : Diagnostic) : ∀ l : List Diagnostic, (uniq (a :: l)).head? = some a
  | [] => rfl
  | b :: l => by
    simp only [uniq]
    split
    · rename_i h
      rw [head_uniq b l, h]
    · rfl

theorem chain_uniq : ∀ l : List Diagnostic, (uniq l).IsChain (· ≠ ·)
  | [] => by simp [uniq]
  | [a] => by simp [uniq]
  | a :: b :: l => by
    have ih := chain_uniq (b :: l)
    simp only [uniq]
    split
    · exact ih
    · rename_i h
      have hh := head_uniq b l
      rw [List.isChain_cons]
      refine ⟨fun y hy => ?_, ih⟩
      rw [hh] at hy
      simp only [Option.mem_def, Option.some.injEq] at hy
      exact hy ▸ h

theorem sublist_uniq : ∀ l : List Diagnostic, (uniq l).Sublist l
  | [] => by simp [uniq]
  | [a] => by simp [uniq]
  | a :: b :: l => by
    have ih := sublist_uniq (b :: l)
    simp only [uniq]
    split
    · exact ih.cons _
    · exact ih.cons_cons _

/-- what holds between the members of a container for the public names `u` -/
structure Indexed (u : List Diagnostic) (names : List InternalDiagnostic) (data : List (DData K)) (index : List (Diagnostic × Nat)) : Prop where
  nodup : names.Nodup
  named : data.map (fun v => v.name) = names
  points : ∀ q ∈ index, names[q.2]? = some (toInternal q.1)
  keys : ∀ d, d ∈ u ↔ d ∈ index.map Prod.fst
  only : ∀ i ∈ names, ∃ d ∈ u, toInternal d = i

theorem indexed_step {u : List Diagnostic} {s : List InternalDiagnostic × List (DData K) × List (Diagnostic × Nat)} (h : Indexed u s.1 s.2.1 s.2.2) (d : Diagnostic) :
    Indexed (u ++ [d]) (prepareStep s d).1 (prepareStep s d).2.1 (prepareStep s d).2.2 := by
  obtain ⟨h1, h2, h3, h4, h5⟩ := h
  obtain ⟨names, data, index⟩ := s
  simp only at h1 h2 h3 h4 h5
  have hlen : data.length = names.length := by rw [← h2, List.length_map]
  simp only [prepareStep]
  cases hf : names.findIdx? (fun q => q = toInternal d) with
  | some k =>
    obtain ⟨hk, he, -⟩ := List.findIdx?_eq_some_iff_getElem.1 hf
    have hk' : names[k]? = some (toInternal d) := by
      rw [List.getElem?_eq_getElem hk]; simpa using he
    refine ⟨h1, h2, ?_, ?_, ?_⟩
    · intro q hq
      simp only at hq
      split at hq
      · exact h3 q hq
      · rcases List.mem_append.1 hq with hq | hq
        · exact h3 q hq
        · simp only [List.mem_singleton] at hq
          subst hq
          exact hk'
    · intro e
      rw [List.mem_append, h4, List.mem_singleton]
      simp only
      split
      · rename_i ha
        simp only [List.any_eq_true, decide_eq_true_eq] at ha
        obtain ⟨q, hq, rfl⟩ := ha
        constructor
        · rintro (h | rfl)
          · exact h
          · exact List.mem_map.2 ⟨q, hq, rfl⟩
        · exact .inl
      · simp [or_comm]
    · intro i hi
      obtain ⟨e, he, hh⟩ := h5 i hi
      exact ⟨e, List.mem_append_left _ he, hh⟩
  | none =>
    have hnot : toInternal d ∉ names := by
      intro hm
      have := List.findIdx?_eq_none_iff.1 hf _ hm
      simp at this
    refine ⟨?_, ?_, ?_, ?_, ?_⟩
    · exact List.nodup_append.2 ⟨h1, by simp, by rintro a ha b hb rfl; simp only [List.mem_singleton] at hb; exact hnot (hb ▸ ha)⟩
    · simp [h2, DData.mk0]
    · have hold : ∀ q ∈ index, (names ++ [toInternal d])[q.2]? = some (toInternal q.1) := fun q hq => by
        have hq' := h3 q hq
        rw [List.getElem?_append_left (List.getElem?_eq_some_iff.1 hq').1]
        exact hq'
      intro q hq
      simp only at hq
      split at hq
      · exact hold q hq
      · rcases List.mem_append.1 hq with hq | hq
        · exact hold q hq
        · simp only [List.mem_singleton] at hq
          subst hq
          simp [hlen]
    · intro e
      rw [List.mem_append, h4, List.mem_singleton]
      simp only
      split
      · rename_i ha
        simp only [List.any_eq_true, decide_eq_true_eq] at ha
        obtain ⟨q, hq, rfl⟩ := ha
        constructor
        · rintro (h | rfl)
          · exact h
          · exact List.mem_map.2 ⟨q, hq, rfl⟩
        · exact .inl
      · simp [or_comm]
    · intro i hi
      rcases List.mem_append.1 hi with hi | hi
      · obtain ⟨e, he, hh⟩ := h5 i hi
        exact ⟨e, List.mem_append_left _ he, hh⟩
      · simp only [List.mem_singleton] at hi
        exact ⟨d, by simp, hi.symm⟩

theorem indexed_fold : ∀ (l u : List Diagnostic) (s : List InternalDiagnostic × List (DData K) × List (Diagnostic × Nat)), Indexed u s.1 s.2.1 s.2.2 →
    Indexed (u ++ l) (l.foldl prepareStep s).1 (l.foldl prepareStep s).2.1 (l.foldl prepareStep s).2.2
  | [], u, s, h => by simpa using h
  | d :: l, u, s, h => by
    have := indexed_fold l (u ++ [d]) _ (indexed_step h d)
    simpa using this

theorem indexed_prepare (pub : List Diagnostic) : Indexed (K := K) (prepare (K := K) pub).publicNames (prepare (K := K) pub).internalNames (prepare pub).data (prepare (K := K) pub).index := by
  have := indexed_fold (K := K) (uniq pub) [] ([], [], []) ⟨by simp, rfl, by simp, by simp, by simp⟩
  simpa [prepare] using this

theorem fold_fresh : ∀ (l : List Diagnostic) (s : List InternalDiagnostic × List (DData K) × List (Diagnostic × Nat)), s.2.1 = s.1.map DData.mk0 →
    (l.foldl prepareStep s).2.1 = (l.foldl prepareStep s).1.map DData.mk0
  | [], s, h => h
  | d :: l, s, h => by
    refine fold_fresh l _ ?_
    simp only [prepareStep]
    split
    · exact h
    · simp [h]

/-- a container in use: created for `pub`, criteria `extra` added, then its entries updated under their internal names -/
def container (pub extra : List Diagnostic) (updates : List (InternalDiagnostic × K × Bool)) : DContainer K :=
  updates.foldl (fun c u => match c.data[c.internalIndex u.1]? with
    | some v => { c with data := c.data.set (c.internalIndex u.1) (v.update u.2.1 u.2.2) }
    | none => c) (extra.foldl DContainer.addIfUnsupported (prepare pub))

/-- the entry for a quantity after these updates: the last value, the last value stored as reference (0 if there was none), and their quotient -/
def tracked (i : InternalDiagnostic) (updates : List (InternalDiagnostic × K × Bool)) : DData K :=
  let mine := updates.filter (fun u => u.1 = i)
  let ref := ((mine.filter (fun u => u.2.2)).getLast?.map (fun u => u.2.1)).getD 0
  match mine.getLast? with
  | none => ⟨i, 0, .fin 0, 0⟩
  | some u => ⟨i, u.2.1, fdiv u.2.1 ref, ref⟩

/-- the container before the updates -/
structure Fresh (pub extra : List Diagnostic) (c : DContainer K) : Prop where
  idx : Indexed c.publicNames c.internalNames c.data c.index
  fresh : c.data = c.internalNames.map DData.mk0
  mem : ∀ d, d ∈ c.publicNames ↔ d ∈ pub ∨ d ∈ extra
  nodup : pub.Nodup → c.publicNames.Nodup

theorem fresh_prepare (pub : List Diagnostic) : Fresh (K := K) pub [] (prepare pub) where
  idx := indexed_prepare pub
  fresh := fold_fresh _ _ rfl
  mem := fun d => by simpa [prepare] using mem_uniq d pub
  nodup := fun h => h.sublist (sublist_uniq pub)

theorem fresh_add {pub extra : List Diagnostic} {c : DContainer K} (h : Fresh pub extra c) (d : Diagnostic) : Fresh pub (extra ++ [d]) (c.addIfUnsupported d) := by
  unfold DContainer.addIfUnsupported
  split
  · rename_i hd
    refine ⟨h.idx, h.fresh, fun e => ?_, h.nodup⟩
    rw [h.mem, List.mem_append, List.mem_singleton]
    have hd' := (h.mem d).1 hd
    constructor
    · rintro (h | h)
      · exact .inl h
      · exact .inr (.inl h)
    · rintro (h | h | rfl)
      · exact .inl h
      · exact .inr h
      · exact hd'
  · rename_i hd
    have hp := fresh_prepare (K := K) (c.publicNames ++ [d])
    refine ⟨hp.idx, hp.fresh, fun e => ?_, fun hn => hp.nodup ?_⟩
    · rw [hp.mem]
      simp only [List.mem_append, List.mem_singleton, List.not_mem_nil, or_false, h.mem]
      tauto
    · exact List.nodup_append.2 ⟨h.nodup hn, by simp, by rintro a ha b hb rfl; simp only [List.mem_singleton] at hb; exact hd (hb ▸ ha)⟩

theorem fresh_container (pub : List Diagnostic) : ∀ (l extra : List Diagnostic) (c : DContainer K), Fresh pub extra c → Fresh pub (extra ++ l) (l.foldl DContainer.addIfUnsupported c)
  | [], extra, c, h => by simpa using h
  | d :: l, extra, c, h => by
    have := fresh_container pub l (extra ++ [d]) _ (fresh_add h d)
    simpa using this

theorem tracked_reference (i : InternalDiagnostic) (us : List (InternalDiagnostic × K × Bool)) :
    (tracked i us).reference = ((((us.filter (fun u => u.1 = i)).filter (fun u => u.2.2)).getLast?.map (fun u => u.2.1)).getD 0) := by
  simp only [tracked]
  split
  · rename_i h
    rw [List.getLast?_eq_none_iff.1 h]
    rfl
  · rfl

theorem tracked_snoc (i : InternalDiagnostic) (us : List (InternalDiagnostic × K × Bool)) (u : InternalDiagnostic × K × Bool) :
    tracked i (us ++ [u]) = if u.1 = i then (tracked i us).update u.2.1 u.2.2 else tracked i us := by
  have hn : (tracked i us).name = i := by simp only [tracked]; split <;> rfl
  have hr := tracked_reference i us
  split
  · rename_i h
    rw [DData.update]
    conv_lhs => unfold tracked
    simp only [List.filter_append, List.filter_cons, h, decide_true, if_true, List.filter_nil, List.getLast?_concat]
    obtain ⟨j, v, b⟩ := u
    cases b
    · simp only [Bool.false_eq_true, if_false, List.append_nil]
      rw [← hr]
      generalize tracked i us = w at hn ⊢
      cases w
      simp only at hn
      subst hn
      rfl
    · simp only [if_true, List.getLast?_concat, Option.map_some, Option.getD_some]
      generalize tracked i us = w at hn ⊢
      cases w
      simp only at hn
      subst hn
      rfl
  · rename_i h
    conv_lhs => unfold tracked
    simp only [List.filter_append, List.filter_cons, h, decide_false, Bool.false_eq_true, if_false, List.filter_nil, List.append_nil]
    rfl

theorem set_map_nodup {α β : Type} [DecidableEq α] (a : α) (f : α → β) (v : β) : ∀ l : List α, l.Nodup → a ∈ l →
    (l.map f).set (l.findIdx (fun q => q = a)) v = l.map (fun x => if a = x then v else f x) ∧ (l.map f)[l.findIdx (fun q => q = a)]? = some (f a)
  | [], _, h => by simp at h
  | b :: l, hn, hm => by
    by_cases hb : b = a
    · subst hb
      have hnot : b ∉ l := (List.nodup_cons.1 hn).1
      simp only [List.findIdx_cons, List.map_cons, decide_true, cond_true, List.set_cons_zero, List.getElem?_cons_zero, if_true, and_true]
      congr 1
      refine List.map_congr_left fun x hx => ?_
      rw [if_neg]
      rintro rfl
      exact hnot hx
    · have hm' : a ∈ l := by
        rcases List.mem_cons.1 hm with h | h
        · exact absurd h.symm hb
        · exact h
      obtain ⟨h1, h2⟩ := set_map_nodup a f v l (List.nodup_cons.1 hn).2 hm'
      simp only [List.findIdx_cons, List.map_cons, hb, decide_false, cond_false, List.set_cons_succ, List.getElem?_cons_succ, h1, h2, and_true, if_neg (Ne.symm hb)]

theorem container_data (pub extra : List Diagnostic) (c0 : DContainer K) (h0 : Fresh pub extra c0) (us : List (InternalDiagnostic × K × Bool)) :
    us.foldl (fun c u => match c.data[c.internalIndex u.1]? with
      | some v => { c with data := c.data.set (c.internalIndex u.1) (v.update u.2.1 u.2.2) }
      | none => c) c0 = { c0 with data := c0.internalNames.map (fun i => tracked i us) } := by
  induction us using List.reverseRecOn with
  | nil =>
    show c0 = { c0 with data := c0.internalNames.map DData.mk0 }
    rw [← h0.fresh]
  | append_singleton us u ih =>
    rw [List.foldl_append, ih]
    simp only [List.foldl_cons, List.foldl_nil, DContainer.internalIndex]
    by_cases hm : u.1 ∈ c0.internalNames
    · obtain ⟨h1, h2⟩ := set_map_nodup u.1 (fun i => tracked i us) ((tracked u.1 us).update u.2.1 u.2.2) c0.internalNames h0.idx.nodup hm
      rw [h2]
      simp only
      rw [h1]
      congr 1
      refine List.map_congr_left fun i _ => ?_
      rw [tracked_snoc]
      split
      · rename_i h; rw [h]
      · rfl
    · have hi : c0.internalNames.findIdx (fun q => q = u.1) = c0.internalNames.length := List.findIdx_eq_length.2 (fun x hx => by
        simp only [decide_eq_false_iff_not]
        rintro rfl
        exact hm hx)
      rw [hi, List.getElem?_eq_none (by simp)]
      simp only
      congr 1
      refine List.map_congr_left fun i hi => ?_
      rw [tracked_snoc, if_neg]
      rintro rfl
      exact hm hi

/-- **C44, the container.** Whatever diagnostics a container is created for (repeated or not) and whatever is added later: exactly the requested diagnostics can be read, others throw
    `std::out_of_range`; a diagnostic that is read reports what was stored for its own quantity, and only that, however the entries of the different quantities were updated. -/
theorem C44_container (pub extra : List Diagnostic) (updates : List (InternalDiagnostic × K × Bool)) (d : Diagnostic) {σ : Type} (s : σ) :
    let c := container pub extra updates
    (d ∈ c.publicNames ↔ d ∈ pub ∨ d ∈ extra) ∧
    (d ∈ pub ∨ d ∈ extra → c.atPublic d s = .ok (tracked (toInternal d) updates) s ∧ c.atInternal (toInternal d) s = .ok (tracked (toInternal d) updates) s) ∧
    (¬ (d ∈ pub ∨ d ∈ extra) → c.atPublic d s = .stop (.exc .outOfRange) s) ∧
    (extra = [] → c.publicNames.IsChain (· ≠ ·)) ∧
    (pub.Nodup → c.publicNames.Nodup) ∧
    (c.data.map (fun v => v.name)).Nodup := by
  intro c
  have h0 := fresh_container (K := K) pub extra [] _ (fresh_prepare pub)
  rw [List.nil_append] at h0
  have hc : c = _ := container_data pub extra _ h0 updates
  set c0 := extra.foldl DContainer.addIfUnsupported (prepare (K := K) pub) with hc0
  have hname : ∀ i, (tracked i updates).name = i := fun i => by simp only [tracked]; split <;> rfl
  have hread : ∀ k i, c0.internalNames[k]? = some i → (c0.internalNames.map (fun i => tracked i updates))[k]? = some (tracked i updates) := fun k i h => by
    rw [List.getElem?_map, h]; rfl
  refine ⟨by rw [hc]; exact h0.mem d, fun hd => ⟨?_, ?_⟩, fun hd => ?_, fun he => ?_, fun hn => by rw [hc]; exact h0.nodup hn, ?_⟩
  · have hk : d ∈ c0.index.map Prod.fst := (h0.idx.keys d).1 ((h0.mem d).2 hd)
    obtain ⟨q, hq, rfl⟩ := List.mem_map.1 hk
    cases hf : c0.index.find? (fun p => p.1 = q.1) with
    | none => exact absurd (List.find?_eq_none.1 hf q hq) (by simp)
    | some p =>
      have hp := h0.idx.points p (List.mem_of_find?_eq_some hf)
      have hpq : p.1 = q.1 := by simpa using List.find?_some hf
      rw [hc]
      simp only [DContainer.atPublic, hf]
      rw [hread _ _ hp, hpq]
      rfl
  · obtain ⟨q, hq, hqd⟩ : ∃ q ∈ c0.index, q.1 = d := by
      simpa using (h0.idx.keys d).1 ((h0.mem d).2 hd)
    have hm : toInternal d ∈ c0.internalNames := by
      have := h0.idx.points q hq
      rw [hqd] at this
      exact List.mem_of_getElem? this
    rw [hc]
    simp only [DContainer.atInternal, DContainer.internalIndex]
    rw [(set_map_nodup (toInternal d) (fun i => tracked i updates) (tracked (toInternal d) updates) c0.internalNames h0.idx.nodup hm).2]
    rfl
  · have hf : c0.index.find? (fun q => q.1 = d) = none := by
      rw [List.find?_eq_none]
      intro q hq he
      simp only [decide_eq_true_eq] at he
      exact hd ((h0.mem d).1 ((h0.idx.keys d).2 (List.mem_map.2 ⟨q, hq, he⟩)))
    rw [hc]
    simp only [DContainer.atPublic, hf]
    rfl
  · rw [hc]
    subst he
    exact chain_uniq pub
  · rw [hc]
    simp only [List.map_map]
    rw [show ((fun v : DData K => v.name) ∘ fun i => tracked i updates) = id from funext hname, List.map_id]
    exact h0.idx.nodup

/-- a container for repeated names with a criterion added, two quantities updated twice each -/
example : (container [.residualRelativel2Norm, .residualRelativel2Norm, .correctionAbsolutel2Norm] [.objectiveAbsolute]
      [(.residual, (8 : ℚ), true), (.objective, 5, true), (.residual, 2, false), (.gradient, 1, true)]).atPublic (σ := Unit) .residualRelativel2Norm () = .ok ⟨.residual, 2, .fin (1 / 4), 8⟩ () := by
  rw [((C44_container _ _ _ _ _).2.1 (by simp)).1]
  simp [tracked, toInternal, fdiv]
  norm_num

end
end Pressio.Props
