import Verif.Spec.Subspace
import Mathlib.Tactic.Ring
import Mathlib.Algebra.Field.Rat
import Mathlib.Algebra.BigOperators.Group.Finset.Basic

/-
  Properties of trial subspaces: C46, C47, C48.
-/
namespace Pressio.Props
set_option autoImplicit false
open Pressio Pressio.Model.Subspace Pressio.Spec.Subspace
open Pressio.Model.Subspace (Sub)

variable {K : Type} [Field K]

/-! ### helpers -/

theorem map_run (s : Sub) (x : DVec K) (out : Nat) (h : Heap K) (ho : (h.vec out).len = (h.mat s.lin.basis).rows) (hx : x.len = (h.mat s.lin.basis).cols)
    (ht : s.isAffine = true → out ≠ s.translation ∧ (h.vec s.translation).len = (h.vec out).len) :
    ∃ h', map s x out h = .ok () h' ∧ OnlyVec out h h' ∧ ∀ i, (h'.vec out).at_ i = image (h.mat s.lin.basis) (h.vec s.translation) s.isAffine x i := by
  unfold map
  rw [Prog.bind_run]
  have e0 : mapNoTranslation s x out h = .ok () (h.setVec out { h.vec out with at_ := fun i => 0 * (h.vec out).at_ i + 1 * ∑ j ∈ Finset.range (h.mat s.lin.basis).cols, (h.mat s.lin.basis).at_ i j * x.at_ j }) := by
    unfold mapNoTranslation product; rw [if_pos ⟨ho, hx⟩]
  rw [e0]
  simp only []
  cases ha : s.isAffine with
  | false =>
    refine ⟨_, rfl, ⟨fun a h1 => by simp [Heap.setVec, h1], rfl, rfl, by simp [Heap.setVec]⟩, fun i => ?_⟩
    simp [Heap.setVec, image, linearImage]
  | true =>
    obtain ⟨h1, h2⟩ := ht ha
    simp only [if_true, update]
    have e1 : ((h.setVec out { h.vec out with at_ := fun i => 0 * (h.vec out).at_ i + 1 * ∑ j ∈ Finset.range (h.mat s.lin.basis).cols, (h.mat s.lin.basis).at_ i j * x.at_ j }).vec out).len =
      ((h.setVec out { h.vec out with at_ := fun i => 0 * (h.vec out).at_ i + 1 * ∑ j ∈ Finset.range (h.mat s.lin.basis).cols, (h.mat s.lin.basis).at_ i j * x.at_ j }).vec s.translation).len := by
      simp [Heap.setVec, Ne.symm h1, h2]
    rw [if_pos e1]
    refine ⟨_, rfl, ⟨fun a h3 => by simp [Heap.setVec, h3], rfl, rfl, by simp [Heap.setVec]⟩, fun i => ?_⟩
    simp [Heap.setVec, image, linearImage, Ne.symm h1]

theorem create_spec (sem : Sem) (mb mt : Bool) (b t : Nat) (affine : Bool) (h0 : Heap K) (hb : b < h0.next) (ht : t < h0.next) :
    ∃ s h1, create sem mb mt b t affine h0 = .ok s h1 ∧ s.isAffine = affine ∧ s.lin.set = .columns ∧ h1.mat s.lin.basis = h0.mat b ∧
      (h1.vec s.translation).len = (h0.vec t).len ∧ (∀ i, (h1.vec s.translation).at_ i = if affine then (h0.vec t).at_ i else 0) ∧
      (s.lin.basis = if mb then b else h0.next) ∧ (mt = true ∨ sem = .view → s.translation = t) ∧ (¬ (mt = true ∨ sem = .view) → h0.next ≤ s.translation) ∧
      (∀ a, a < h0.next → h1.mat a = h0.mat a) ∧ (∀ a, a < h0.next → a ≠ s.translation → h1.vec a = h0.vec a) ∧ s.lin.basis < h1.next ∧ s.translation < h1.next ∧ h0.next ≤ h1.next := by
  cases sem <;> cases mb <;> cases mt <;> cases affine <;>
    refine ⟨_, _, rfl, ?_⟩ <;>
    simp [create, linSub, moveCell, cloneMat, allocMat, cloneVec, allocVec, copyVec, setShiftToZero, fill, Heap.setMat, Heap.setVec, Prog.bind_run] <;>
    (try omega) <;>
    (try (refine ⟨?_, ?_⟩)) <;>
    (try (intros; split <;> (try rfl) <;> (try omega))) <;>
    (try (intros; simp_all <;> omega)) <;>
    (try omega)

theorem mapNo_run (s : Sub) (x : DVec K) (out : Nat) (h : Heap K) (ho : (h.vec out).len = (h.mat s.lin.basis).rows) (hx : x.len = (h.mat s.lin.basis).cols) :
    ∃ h', mapNoTranslation s x out h = .ok () h' ∧ OnlyVec out h h' ∧ ∀ i, (h'.vec out).at_ i = linearImage (h.mat s.lin.basis) x i := by
  unfold mapNoTranslation product
  rw [if_pos ⟨ho, hx⟩]
  refine ⟨_, rfl, ⟨fun a h1 => by simp [Heap.setVec, h1], rfl, rfl, by simp [Heap.setVec]⟩, fun i => ?_⟩
  simp [Heap.setVec, linearImage]

theorem writes_vec (ws : List (Write K)) (h : Heap K) (a : Nat) (ha : ∀ v, Write.vec a v ∉ ws) : (writes h ws).vec a = h.vec a := by
  induction ws generalizing h with
  | nil => rfl
  | cons w ws ih =>
    have := ih (w.apply h) (fun v hv => ha v (List.mem_cons_of_mem _ hv))
    show (writes (w.apply h) ws).vec a = _
    rw [this]
    cases w with
    | vec b v =>
      have hne : a ≠ b := by rintro rfl; exact ha v List.mem_cons_self
      simp [Write.apply, Heap.setVec, hne]
    | mat b m => rfl

theorem writes_mat (ws : List (Write K)) (h : Heap K) (a : Nat) (ha : ∀ v, Write.mat a v ∉ ws) : (writes h ws).mat a = h.mat a := by
  induction ws generalizing h with
  | nil => rfl
  | cons w ws ih =>
    have := ih (w.apply h) (fun v hv => ha v (List.mem_cons_of_mem _ hv))
    show (writes (w.apply h) ws).mat a = _
    rw [this]
    cases w with
    | mat b v =>
      have hne : a ≠ b := by rintro rfl; exact ha v List.mem_cons_self
      simp [Write.apply, Heap.setMat, hne]
    | vec b m => rfl

theorem writes_next (ws : List (Write K)) (h : Heap K) : (writes h ws).next = h.next := by
  induction ws generalizing h with
  | nil => rfl
  | cons w ws ih => show (writes (w.apply h) ws).next = _; rw [ih]; cases w <;> rfl

/-! ### C46 -/

/-- C46: `mapFromReducedState` on any subspace object in any memory, with any content of the output vector (of the right size): the output becomes `Phi x + s`, or `Phi x` if the subspace is not
    affine, and nothing else changes. -/
theorem C46_map (s : Sub) (x : DVec K) (out : Nat) (h : Heap K) (ho : (h.vec out).len = (h.mat s.lin.basis).rows) (hx : x.len = (h.mat s.lin.basis).cols)
    (ht : s.isAffine = true → out ≠ s.translation ∧ (h.vec s.translation).len = (h.vec out).len) :
    ∃ h', map s x out h = .ok () h' ∧ OnlyVec out h h' ∧ ∀ i, (h'.vec out).at_ i = image (h.mat s.lin.basis) (h.vec s.translation) s.isAffine x i :=
  map_run s x out h ho hx ht

/-- C46: `mapFromReducedStateWithoutTranslation` gives `Phi x`. -/
theorem C46_map_without_translation (s : Sub) (x : DVec K) (out : Nat) (h : Heap K) (ho : (h.vec out).len = (h.mat s.lin.basis).rows) (hx : x.len = (h.mat s.lin.basis).cols) :
    ∃ h', mapNoTranslation s x out h = .ok () h' ∧ OnlyVec out h h' ∧ ∀ i, (h'.vec out).at_ i = linearImage (h.mat s.lin.basis) x i :=
  mapNo_run s x out h ho hx

/-- C46: the new objects: `createReducedState` has one zero per basis vector, `createFullState` one zero per row; `createFullStateFromReducedState` is a new vector with the content that
    `mapFromReducedState` gives.  All other memory is unchanged.  (`s.translation` is in use and has as many entries as the basis has rows.) -/
theorem C46_create_states (s : Sub) (h : Heap K) (hs : s.translation < h.next) (hl : (h.vec s.translation).len = (h.mat s.lin.basis).rows) :
    (∀ g, ∃ h', createReducedState s g h = .ok h.next h' ∧ (h'.vec h.next).len = (h.mat s.lin.basis).cols ∧ (∀ i, (h'.vec h.next).at_ i = 0) ∧
      (∀ a, a < h.next → h'.vec a = h.vec a) ∧ h'.mat = h.mat) ∧
    (∃ h', createFullState s h = .ok h.next h' ∧ (h'.vec h.next).len = (h.mat s.lin.basis).rows ∧ (∀ i, (h'.vec h.next).at_ i = 0) ∧
      (∀ a, a < h.next → h'.vec a = h.vec a) ∧ h'.mat = h.mat) ∧
    (∀ x, x.len = (h.mat s.lin.basis).cols → ∃ h', createFullStateFromReduced s x h = .ok h.next h' ∧ (h'.vec h.next).len = (h.mat s.lin.basis).rows ∧
      (∀ i, (h'.vec h.next).at_ i = image (h.mat s.lin.basis) (h.vec s.translation) s.isAffine x i) ∧ (∀ a, a < h.next → h'.vec a = h.vec a) ∧ h'.mat = h.mat) := by
  have hfull : ∃ h', createFullState s h = .ok h.next h' ∧ (h'.vec h.next).len = (h.mat s.lin.basis).rows ∧ (∀ i, (h'.vec h.next).at_ i = 0) ∧
      (∀ a, a < h.next → h'.vec a = h.vec a) ∧ h'.mat = h.mat := by
    refine ⟨_, rfl, ?_, ?_, ?_, ?_⟩
    · simpa [createFullState, cloneVec, allocVec, fill, Heap.setVec, Prog.bind_run] using hl
    · intro i; simp [createFullState, cloneVec, allocVec, fill, Heap.setVec, Prog.bind_run]
    · intro a ha
      simp [createFullState, cloneVec, allocVec, fill, Heap.setVec, Prog.bind_run, show a ≠ h.next by omega]
    · rfl
  refine ⟨fun g => ?_, hfull, fun x hx => ?_⟩
  · refine ⟨_, rfl, ?_, ?_, ?_, ?_⟩
    · simp [allocVec, fill, Heap.setVec, Prog.bind_run]
    · intro i; simp [allocVec, fill, Heap.setVec, Prog.bind_run]
    · intro a ha
      simp [allocVec, fill, Heap.setVec, Prog.bind_run, show a ≠ h.next by omega]
    · rfl
  · obtain ⟨h1, e1, e2, e3, e4, e5⟩ := hfull
    have hne : h.next ≠ s.translation := by omega
    obtain ⟨h2, f1, ⟨f2, f3, f4, f5⟩, f6⟩ := map_run s x h.next h1 (by rw [e2, e5]) (by rw [hx, e5]) (fun _ => ⟨hne, by rw [e4 _ hs, e2, hl]⟩)
    refine ⟨h2, ?_, by rw [f5, e2], ?_, ?_, by rw [f3, e5]⟩
    · unfold createFullStateFromReduced
      rw [Prog.bind_run, e1]
      simp only []
      rw [Prog.bind_run, f1]
      rfl
    · intro i; rw [f6, e5, e4 _ hs]
    · intro a ha; rw [f2 a (by omega), e4 a ha]

/-- C46: `dimension()` of a subspace made by `create_trial_column_subspace` is the number of columns of the basis given (and `LinearSubspace` spanned by rows: the number of rows). -/
theorem C46_dimension (sem : Sem) (mb mt : Bool) (b t : Nat) (affine : Bool) (h0 : Heap K) (hb : b < h0.next) (ht : t < h0.next) :
    ∃ s h1, create sem mb mt b t affine h0 = .ok s h1 ∧ dimension s h1 = .ok (h0.mat b).cols h1 := by
  obtain ⟨s, h1, e1, e2, e3, e4, -⟩ := create_spec sem mb mt b t affine h0 hb ht
  refine ⟨s, h1, e1, ?_⟩
  unfold dimension LinSub.dimension
  rw [e3, e4]

theorem C46_dimension_rows (l : LinSub) (h : Heap K) : (l.set = .rows → l.dimension h = (h.mat l.basis).rows) ∧ (l.set = .columns → l.dimension h = (h.mat l.basis).cols) := by
  constructor <;> intro e <;> simp [LinSub.dimension, e]

/-! ### C47 -/

/-- C47, containers with value semantics: whatever the user writes to its own objects after construction, the subspace maps `x` to `Phi x + s` (`Phi x` if not affine) with the basis and translation given at
    construction; its accessors return them (the translation: zero if not affine); and construction itself changes none of the user's objects. -/
theorem C47_value_semantics (mb mt : Bool) (b t : Nat) (affine : Bool) (h0 : Heap K) (hb : b < h0.next) (ht : t < h0.next) (hl : (h0.vec t).len = (h0.mat b).rows) :
    ∃ s h1, create .value mb mt b t affine h0 = .ok s h1 ∧
      (∀ a, a < h0.next → (mt = true → a ≠ t) → h1.vec a = h0.vec a) ∧ (∀ a, a < h0.next → h1.mat a = h0.mat a) ∧
      ∀ ws : List (Write K), (∀ w ∈ ws, w.ByUser h0.next mb mt b t) →
        (basisOfTranslatedSpace s (writes h1 ws) = .ok (h0.mat b) (writes h1 ws)) ∧
        (∃ v, translationVector s (writes h1 ws) = .ok v (writes h1 ws) ∧ v.len = (h0.vec t).len ∧ ∀ i, v.at_ i = if affine then (h0.vec t).at_ i else 0) ∧
        ∀ x out, x.len = (h0.mat b).cols → out < h0.next → (mt = true → out ≠ t) → ((writes h1 ws).vec out).len = (h0.mat b).rows →
          ∃ h2, map s x out (writes h1 ws) = .ok () h2 ∧ OnlyVec out (writes h1 ws) h2 ∧ ∀ i, (h2.vec out).at_ i = image (h0.mat b) (h0.vec t) affine x i := by
  obtain ⟨s, h1, e1, e2, e3, e4, e5, e6, e7, e8, e9, e10, e11, -⟩ := create_spec .value mb mt b t affine h0 hb ht
  have hown : ∀ a, a < h0.next → (mt = true → a ≠ t) → a ≠ s.translation := by
    intro a ha hm he
    cases mt with
    | true => exact hm rfl (he.trans (e8 (.inl rfl)))
    | false => exact absurd (e9 (by simp)) (by omega)
  refine ⟨s, h1, e1, fun a ha hm => e11 a ha (hown a ha hm), e10, fun ws hws => ?_⟩
  have hB : (writes h1 ws).mat s.lin.basis = h0.mat b := by
    rw [writes_mat, e4]
    intro v hv
    have := hws _ hv
    simp only [Write.ByUser] at this
    rw [e7] at this
    cases mb with
    | true => exact this.2 rfl rfl
    | false => simp at this
  have hT : (writes h1 ws).vec s.translation = h1.vec s.translation := by
    apply writes_vec
    intro v hv
    have := hws _ hv
    simp only [Write.ByUser] at this
    exact hown _ this.1 this.2 rfl
  refine ⟨by unfold basisOfTranslatedSpace; rw [hB], ⟨_, rfl, by rw [hT, e5], by rw [hT]; exact e6⟩, fun x out hx ho hm hlen => ?_⟩
  obtain ⟨h2, f1, f2, f3⟩ := map_run s x out (writes h1 ws) (by rw [hB, hlen]) (by rw [hB, hx]) (fun _ => ⟨hown out ho hm, by rw [hT, e5, hl, hlen]⟩)
  refine ⟨h2, f1, f2, fun i => ?_⟩
  rw [f3, hB, hT, e2]
  unfold image
  cases affine with
  | false => rfl
  | true => simp [e6]

/-- C47 is false for containers with view semantics and an lvalue translation (1): making a non-affine subspace sets the user's translation vector to zero. -/
theorem C47_view_construction_zeroes_argument (mb mt : Bool) (b t : Nat) (h0 : Heap K) (hb : b < h0.next) (ht : t < h0.next) :
    ∃ s h1, create .view mb mt b t false h0 = .ok s h1 ∧ ∀ i, (h1.vec t).at_ i = 0 := by
  obtain ⟨s, h1, e1, e2, e3, e4, e5, e6, e7, e8, -⟩ := create_spec .view mb mt b t false h0 hb ht
  rw [e8 (.inr rfl)] at e6
  exact ⟨s, h1, e1, by simpa using e6⟩

/-- C47 is false for containers with view semantics and an lvalue translation (2): if the user later changes its vector, an affine subspace uses the new content. -/
theorem C47_view_translation_aliased (mb : Bool) (b t : Nat) (h0 : Heap K) (hb : b < h0.next) (ht : t < h0.next) (v : DVec K) (hv : v.len = (h0.mat b).rows) :
    ∃ s h1, create .view mb false b t true h0 = .ok s h1 ∧ ∀ x out, x.len = (h0.mat b).cols → out < h0.next → out ≠ t → (h0.vec out).len = (h0.mat b).rows →
      ∃ h2, map s x out (writes h1 [.vec t v]) = .ok () h2 ∧ ∀ i, (h2.vec out).at_ i = image (h0.mat b) v true x i := by
  obtain ⟨s, h1, e1, e2, e3, e4, e5, e6, e7, e8, e9, e10, e11, -⟩ := create_spec .view mb false b t true h0 hb ht
  have hst := e8 (.inr rfl)
  refine ⟨s, h1, e1, fun x out hx ho hne hlen => ?_⟩
  have hB : (writes h1 [.vec t v]).mat s.lin.basis = h0.mat b := e4
  have hT : (writes h1 [.vec t v]).vec s.translation = v := by simp [writes, Write.apply, Heap.setVec, hst]
  have hO : (writes h1 [.vec t v]).vec out = h0.vec out := by
    simp only [writes, List.foldl, Write.apply, Heap.setVec, if_neg hne]
    exact e11 out ho (by rw [hst]; exact hne)
  obtain ⟨h2, f1, -, f3⟩ := map_run s x out (writes h1 [.vec t v]) (by rw [hB, hO, hlen]) (by rw [hB, hx]) (fun _ => ⟨by rw [hst]; exact hne, by rw [hT, hO, hv, hlen]⟩)
  refine ⟨h2, f1, fun i => ?_⟩
  rw [f3, hB, hT, e2]

/-- C47, what holds for all containers: the basis is a snapshot (lvalue basis), and so is the linear part of the map.  Missing: the translation of view-type containers. -/
theorem C47_basis_snapshot_partial (sem : Sem) (mt : Bool) (b t : Nat) (affine : Bool) (h0 : Heap K) (hb : b < h0.next) (ht : t < h0.next) :
    ∃ s h1, create sem false mt b t affine h0 = .ok s h1 ∧ (∀ a, a < h0.next → h1.mat a = h0.mat a) ∧
      ∀ ws : List (Write K), (∀ a m, Write.mat a m ∈ ws → a < h0.next) →
        basisOfTranslatedSpace s (writes h1 ws) = .ok (h0.mat b) (writes h1 ws) ∧
        ∀ x out, x.len = (h0.mat b).cols → ((writes h1 ws).vec out).len = (h0.mat b).rows →
          ∃ h2, mapNoTranslation s x out (writes h1 ws) = .ok () h2 ∧ ∀ i, (h2.vec out).at_ i = linearImage (h0.mat b) x i := by
  obtain ⟨s, h1, e1, e2, e3, e4, e5, e6, e7, e8, e9, e10, e11, -⟩ := create_spec sem false mt b t affine h0 hb ht
  refine ⟨s, h1, e1, e10, fun ws hws => ?_⟩
  have hB : (writes h1 ws).mat s.lin.basis = h0.mat b := by
    rw [writes_mat, e4]
    intro v hv
    have := hws _ _ hv
    rw [e7] at this
    simp at this
  refine ⟨by unfold basisOfTranslatedSpace; rw [hB], fun x out hx hlen => ?_⟩
  obtain ⟨h2, f1, -, f3⟩ := mapNo_run s x out (writes h1 ws) (by rw [hB, hlen]) (by rw [hB, hx])
  exact ⟨h2, f1, fun i => by rw [f3, hB]⟩

/-- C47, copies of a subspace (any container type): the copy has the same basis, translation and flag, in cells of its own, so that no write to cells that existed before (in particular those of the
    original) changes it; and copying changes nothing that existed before. -/
theorem C47_copies (s : Sub) (h : Heap K) (hb : s.lin.basis < h.next) (ht : s.translation < h.next) (hz : s.isAffine = false → ∀ i, (h.vec s.translation).at_ i = 0) :
    ∃ s' h1, copySub s h = .ok s' h1 ∧ s'.isAffine = s.isAffine ∧ s'.lin.set = s.lin.set ∧ (∀ a, a < h.next → h1.mat a = h.mat a) ∧ (∀ a, a < h.next → h1.vec a = h.vec a) ∧
      ∀ ws : List (Write K), (∀ a m, Write.mat a m ∈ ws → a < h.next) → (∀ a v, Write.vec a v ∈ ws → a < h.next) →
        (writes h1 ws).mat s'.lin.basis = h.mat s.lin.basis ∧ ((writes h1 ws).vec s'.translation).len = (h.vec s.translation).len ∧
        ∀ i, ((writes h1 ws).vec s'.translation).at_ i = (h.vec s.translation).at_ i := by
  have key : ∃ s' h1, copySub s h = .ok s' h1 ∧ s'.isAffine = s.isAffine ∧ s'.lin.set = s.lin.set ∧ (∀ a, a < h.next → h1.mat a = h.mat a) ∧ (∀ a, a < h.next → h1.vec a = h.vec a) ∧
      s'.lin.basis = h.next ∧ s'.translation = h.next + 1 ∧ h1.mat h.next = h.mat s.lin.basis ∧ (h1.vec (h.next+1)).len = (h.vec s.translation).len ∧
        ∀ i, (h1.vec (h.next+1)).at_ i = (h.vec s.translation).at_ i := by
    obtain ⟨l, tr, aff⟩ := s
    cases aff with
    | true =>
      refine ⟨_, _, rfl, ?_⟩
      simp [copySub, copyLinSub, cloneMat, allocMat, cloneVec, allocVec, setShiftToZero, fill, Heap.setMat, Heap.setVec, Prog.bind_run]
      refine ⟨fun a h1 h2 => by omega, fun a h1 h2 => by omega⟩
    | false =>
      refine ⟨_, _, rfl, ?_⟩
      simp [copySub, copyLinSub, cloneMat, allocMat, cloneVec, allocVec, setShiftToZero, fill, Heap.setMat, Heap.setVec, Prog.bind_run]
      refine ⟨fun a h1 h2 => by omega, fun a h1 => by rw [if_neg (by omega), if_neg (by omega)], fun i => (hz rfl i).symm⟩
  obtain ⟨s', h1, e1, e2, e3, e4, e5, e6, e7, e8, e9, e10⟩ := key
  refine ⟨s', h1, e1, e2, e3, e4, e5, fun ws hm hv => ?_⟩
  have hM : (writes h1 ws).mat s'.lin.basis = h1.mat s'.lin.basis := writes_mat _ _ _ (fun v hv' => by have := hm _ _ hv'; omega)
  have hV : (writes h1 ws).vec s'.translation = h1.vec s'.translation := writes_vec _ _ _ (fun v hv' => by have := hv _ _ hv'; omega)
  rw [hM, hV, e6, e7, e8, e9]
  exact ⟨rfl, rfl, e10⟩

/-! ### C48 -/

/-- C48: `basisOfTranslatedSpace()` always, and `basis()` of an affine subspace, return the basis given at construction. -/
theorem C48_accessors_partial (sem : Sem) (mb mt : Bool) (b t : Nat) (affine : Bool) (h0 : Heap K) (hb : b < h0.next) (ht : t < h0.next) :
    ∃ s h1, create sem mb mt b t affine h0 = .ok s h1 ∧ basisOfTranslatedSpace s h1 = .ok (h0.mat b) h1 ∧ (affine = true → basis s h1 = .ok (h0.mat b) h1) := by
  obtain ⟨s, h1, e1, e2, e3, e4, -⟩ := create_spec sem mb mt b t affine h0 hb ht
  refine ⟨s, h1, e1, by unfold basisOfTranslatedSpace; rw [e4], fun ha => ?_⟩
  unfold basis
  rw [e2, ha, if_pos rfl, e4]

/-- C48 is false: `basis()` of every subspace that is not affine dereferences a null pointer. -/
theorem C48_basis_undefined (sem : Sem) (mb mt : Bool) (b t : Nat) (h0 : Heap K) (hb : b < h0.next) (ht : t < h0.next) :
    ∃ s h1, create sem mb mt b t false h0 = .ok s h1 ∧ (basis s h1).stop? = some (.ub "null pointer dereferenced") := by
  obtain ⟨s, h1, e1, e2, -⟩ := create_spec sem mb mt b t false h0 hb ht
  refine ⟨s, h1, e1, ?_⟩
  unfold basis
  rw [e2]
  rfl

/-! ### an instance -/

/-- basis `[[1,0],[0,2],[1,1]]` in cell 0, translation `(1,2,3)` in cell 1, an output vector with old content in cell 2 -/
def heap3 : Heap ℚ where
  vec := fun a => if a = 1 then ⟨3, fun i => [1, 2, 3].getD i 0⟩ else if a = 2 then ⟨3, fun _ => 77⟩ else ⟨0, fun _ => 0⟩
  mat := fun a => if a = 0 then ⟨3, 2, fun i j => ([[1, 0], [0, 2], [1, 1]].getD i []).getD j 0⟩ else ⟨0, 0, fun _ _ => 0⟩
  next := 3

/-- entries of cell `a` after running `p` -/
def entriesAfter {α : Type} (p : Prog (Heap ℚ) α) (h : Heap ℚ) (a : Nat) : List ℚ :=
  let v := (p h).state.vec a
  (List.range v.len).map v.at_

example : entriesAfter (do let s ← create .value false false 0 1 true; map s ⟨2, fun i => [10, 20].getD i 0⟩ 2) heap3 2 = [11, 42, 33] := by decide +kernel
example : entriesAfter (do let s ← create .value false false 0 1 false; map s ⟨2, fun i => [10, 20].getD i 0⟩ 2) heap3 2 = [10, 40, 30] := by decide +kernel
example : entriesAfter (create .value false false 0 1 false) heap3 1 = [1, 2, 3] ∧ entriesAfter (create .view false false 0 1 false) heap3 1 = [0, 0, 0] := by decide +kernel
/-- the size hypotheses matter: an output of the wrong size is undefined behaviour -/
example : ((do let s ← create .value false false 0 1 true; map s ⟨2, fun i => [10, 20].getD i 0⟩ 5 : Prog (Heap ℚ) Unit) heap3).stop? = some (.ub "ops::product: sizes") := by decide +kernel

/-! ### The theorems on `heap3` -/

example := C46_map ⟨⟨0, .columns⟩, 1, true⟩ ⟨2, fun i => [10, 20].getD i 0⟩ 2 heap3 rfl rfl (fun _ => ⟨by decide, rfl⟩)
example := C46_map_without_translation ⟨⟨0, .columns⟩, 1, true⟩ ⟨2, fun i => [10, 20].getD i 0⟩ 2 heap3 rfl rfl
example := C46_create_states ⟨⟨0, .columns⟩, 1, true⟩ heap3 (by decide) rfl
example := C46_dimension .view true false 0 1 true heap3 (by decide) (by decide)
example := C46_dimension_rows ⟨0, .rows⟩ heap3
example := C47_value_semantics true true 0 1 false heap3 (by decide) (by decide) rfl
example := C47_view_construction_zeroes_argument true false 0 1 heap3 (by decide) (by decide)
example := C47_view_translation_aliased true 0 1 heap3 (by decide) (by decide) ⟨3, fun _ => 5⟩ rfl
example := C47_basis_snapshot_partial .view true 0 1 true heap3 (by decide) (by decide)
example := C47_copies ⟨⟨0, .columns⟩, 1, true⟩ heap3 (by decide) (by decide) (by simp)
example := C48_accessors_partial .value false true 0 1 true heap3 (by decide) (by decide)


end Pressio.Props
