import Verif.Model.Stencil
import Mathlib.Tactic.Linarith
import Mathlib.Data.List.Nodup

/-
  C60: stencil containers.
-/
namespace Pressio.Props
set_option autoImplicit false
set_option linter.unusedSectionVars false
open Pressio Pressio.Model.Stencil

namespace Stencil

/-- how far back a time index lies, counted from `n+1` -/
def age : Tag → Nat
  | .nPlusOne => 0
  | .n => 1
  | .nMinusOne => 2
  | .nMinusTwo => 3
  | .nMinusThree => 4

/-- the first time index of a stencil -/
def first : Start → Tag
  | .nPlusOne => .nPlusOne
  | .n => .n

/-- the time indices of a stencil of `N` entries (at most four are accessible) -/
def Available (start : Start) (N : Nat) (t : Tag) : Prop := age (first start) ≤ age t ∧ age t < age (first start) + min N 4

instance (start : Start) (N : Nat) (t : Tag) : Decidable (Available start N t) := by unfold Available; infer_instance

inductive Op (V : Type)
  | write (t : Tag) (v : V)
  | read (t : Tag)

def Op.tag {V : Type} : Op V → Tag
  | .write t _ => t
  | .read t => t

/-- a program of writes and reads; the values read -/
def runOps {V : Type} (c : Cont) : List (Op V) → Prog (Heap V) (List V)
  | [] => pure []
  | .write t v :: rest => do
    Model.Stencil.put c t v
    runOps c rest
  | .read t :: rest => do
    let v ← Model.Stencil.get c t
    let vs ← runOps c rest
    pure (v :: vs)

/-- what must be read: for each time index the last value written -/
def reads {V : Type} (last : Tag → V) : List (Op V) → List V
  | [] => []
  | .write t v :: rest => reads (fun t' => if t' = t then v else last t') rest
  | .read t :: rest => last t :: reads last rest

end Stencil
open Stencil

section
variable {V : Type}

theorem slot_available (start : Start) (N : Nat) (t : Tag) (h : Available start N t) : ∃ k, slot start t = some k ∧ k < N ∧ k = age t - age (first start) := by
  obtain ⟨h1, h2⟩ := h
  cases start <;> cases t <;> simp_all [age, first, slot] <;> omega

theorem slot_unavailable (start : Start) (N : Nat) (t : Tag) (h : ¬ Available start N t) : slot start t = none ∨ ∃ k, slot start t = some k ∧ N ≤ k := by
  simp only [Available, not_and_or, not_le, not_lt] at h
  cases start <;> cases t <;> simp_all [age, first, slot] <;> omega

theorem available_inj (start : Start) (N : Nat) (t t' : Tag) (h : Available start N t) (h' : Available start N t') (e : age t - age (first start) = age t' - age (first start)) : t = t' := by
  obtain ⟨h1, -⟩ := h
  obtain ⟨h2, -⟩ := h'
  have : age t = age t' := by omega
  cases t <;> cases t' <;> simp_all [age]

/-- a container whose entries are distinct live objects -/
structure Sound (c : Cont) (h : Heap V) : Prop where
  size : c.size = some c.data.length
  live : ∀ a ∈ c.data, a < h.length
  nodup : c.data.Nodup

theorem runOps_sound (c : Cont) (ops : List (Op V)) : ∀ (h : Heap V) (last : Tag → V), Sound c h → (∀ o ∈ ops, Available c.start c.data.length o.tag) →
    (∀ t, Available c.start c.data.length t → ∀ a, c.data[age t - age (first c.start)]? = some a → h[a]? = some (last t)) →
    ∃ h', runOps c ops h = .ok (reads last ops) h' ∧ h'.length = h.length ∧ ∀ a, a ∉ c.data → h'[a]? = h[a]? := by
  induction ops with
  | nil => intro h last _ _ _; exact ⟨h, rfl, rfl, fun _ _ => rfl⟩
  | cons o rest ih =>
    intro h last hs hav hl
    have hav' : ∀ o ∈ rest, Available c.start c.data.length o.tag := fun o ho => hav o (List.mem_cons_of_mem _ ho)
    have ho := hav o (List.mem_cons_self ..)
    obtain ⟨k, hk, hk2, hk3⟩ := slot_available _ _ _ ho
    have hent : ∀ h : Heap V, entry c o.tag h = .ok c.data[k] h := by
      intro h
      simp only [entry, hk, hs.size, hk2, if_true, List.getElem?_eq_getElem hk2]
    have hmem : c.data[k] ∈ c.data := List.getElem_mem hk2
    have hlive := hs.live _ hmem
    cases o with
    | write t v =>
      simp only [Op.tag] at hent ho hk3 hk
      have hs' : Sound c (h.set c.data[k] v) := ⟨hs.size, fun a ha => by simpa using hs.live a ha, hs.nodup⟩
      obtain ⟨h', e1, e2, e3⟩ := ih (h.set c.data[k] v) (fun t' => if t' = t then v else last t') hs' hav' (by
        intro t' ht' a ha
        by_cases htt : t' = t
        · subst htt
          rw [← hk3, List.getElem?_eq_getElem hk2] at ha
          cases ha
          simp [hlive]
        · rw [if_neg htt]
          obtain ⟨k', -, hk2', hk3'⟩ := slot_available _ _ _ ht'
          rw [← hk3', List.getElem?_eq_getElem hk2'] at ha
          cases ha
          have hne : c.data[k] ≠ c.data[k'] := by
            intro e
            have := (List.Nodup.getElem_inj_iff hs.nodup).mp e
            exact htt (available_inj _ _ _ _ ht' ho (by omega))
          rw [List.getElem?_set_ne hne]
          exact hl t' ht' _ (by rw [← hk3', List.getElem?_eq_getElem hk2']))
      refine ⟨h', ?_, by simpa using e2, fun a ha => ?_⟩
      · simp only [runOps, reads, Model.Stencil.put, Prog.bind_run, hent, store, hlive, if_true, e1]
      · rw [e3 a ha, List.getElem?_set_ne]
        intro e
        exact ha (e ▸ hmem)
    | read t =>
      simp only [Op.tag] at hent ho hk3 hk
      obtain ⟨h', e1, e2, e3⟩ := ih h last hs hav' hl
      refine ⟨h', ?_, e2, e3⟩
      have := hl t ho c.data[k] (by rw [← hk3, List.getElem?_eq_getElem hk2])
      simp only [runOps, reads, Model.Stencil.get, Prog.bind_run, hent, load, this, e1, Prog.pure_run]

/-! ### construction -/

theorem copyAll_value (il : List Nat) : ∀ (h : Heap V), (∀ a ∈ il, a < h.length) → ∃ new : List V, new.length = il.length ∧ copyAll .value il h = .ok (List.range' h.length il.length) (h ++ new) ∧
    ∀ i (hi : i < il.length), new[i]? = h[il[i]]? := by
  induction il with
  | nil => intro h _; exact ⟨[], rfl, by simp [copyAll], by simp⟩
  | cons a il ih =>
    intro h hl
    have ha := hl a (List.mem_cons_self ..)
    obtain ⟨new, e1, e2, e3⟩ := ih (h ++ [h[a]]) (fun b hb => by simpa using Nat.lt_succ_of_lt (hl b (List.mem_cons_of_mem _ hb)))
    refine ⟨h[a] :: new, by simp [e1], ?_, ?_⟩
    · simp only [copyAll, copyElem, Prog.bind_run, load, List.getElem?_eq_getElem ha, alloc, e2, Prog.pure_run]
      simp [List.range'_succ]
    · intro i hi
      cases i with
      | zero => simp [List.getElem?_eq_getElem ha]
      | succ i =>
        simp only [List.length_cons] at hi
        have hi' : i < il.length := by omega
        have := hl il[i] (List.mem_cons_of_mem _ (List.getElem_mem hi'))
        simp only [List.getElem?_cons_succ, List.getElem_cons_succ]
        rw [e3 i hi', List.getElem?_append_left this]

theorem copyAll_view (il : List Nat) : ∀ (h : Heap V), (∀ a ∈ il, a < h.length) → copyAll .view il h = .ok il h := by
  induction il with
  | nil => intro h _; rfl
  | cons a il ih =>
    intro h hl
    have ha := hl a (List.mem_cons_self ..)
    simp only [copyAll, copyElem, Prog.bind_run, load, List.getElem?_eq_getElem ha, Prog.pure_run, ih h (fun b hb => hl b (List.mem_cons_of_mem _ hb))]

theorem cloneN_run (y N : Nat) : ∀ (h : Heap V), y < h.length → ∃ h', cloneN y N h = .ok (List.range' h.length N) h' ∧ h'.length = h.length + N ∧ ∀ a < h.length, h'[a]? = h[a]? := by
  induction N with
  | zero => intro h _; exact ⟨h, rfl, rfl, fun _ _ => rfl⟩
  | succ N ih =>
    intro h hy
    obtain ⟨h', e1, e2, e3⟩ := ih (h ++ [h[y]]) (by simp; omega)
    refine ⟨h', ?_, by simp at e2; omega, fun a ha => ?_⟩
    · simp only [cloneN, clone, Prog.bind_run, load, List.getElem?_eq_getElem hy, alloc, e1, Prog.pure_run]
      simp [List.range'_succ]
    · rw [e3 a (by simp; omega), List.getElem?_append_left ha]

theorem zeroAll_run [Zero V] (as : List Nat) : ∀ (h : Heap V), (∀ a ∈ as, a < h.length) → ∃ h', zeroAll as h = .ok () h' ∧ h'.length = h.length ∧ (∀ a ∈ as, h'[a]? = some 0) ∧ ∀ a, a ∉ as → h'[a]? = h[a]? := by
  induction as with
  | nil => intro h _; exact ⟨h, rfl, rfl, by simp, fun _ _ => rfl⟩
  | cons a as ih =>
    intro h hl
    have ha := hl a (List.mem_cons_self ..)
    obtain ⟨h', e1, e2, e3, e4⟩ := ih (h.set a 0) (fun b hb => by simpa using hl b (List.mem_cons_of_mem _ hb))
    refine ⟨h', ?_, by simpa using e2, ?_, ?_⟩
    · simp only [zeroAll, Prog.bind_run, store, ha, if_true, e1]
    · intro b hb
      by_cases hba : b ∈ as
      · exact e3 b hba
      · have : b = a := by simpa [hba] using hb
        subst this
        rw [e4 b hba]
        simp [ha]
    · intro b hb
      simp only [List.mem_cons, not_or] at hb
      rw [e4 b hb.2, List.getElem?_set_ne (Ne.symm hb.1)]

/-- **C60.** The dynamic container, value types with value semantics: for every stencil, arguments of the constructor, and every sequence of writes and reads at the time indices of the stencil: each read gives the last value
    written at that time index, zero if there was none; no object of the caller changes. -/
theorem C60_dynamic [Zero V] (start : Start) (il : List Nat) (h : Heap V) (hil : ∀ a ∈ il, a < h.length) (ops : List (Op V)) (hops : ∀ o ∈ ops, Available start il.length o.tag) :
    ∃ c h' h'', dynCreate start .value il h = .ok c h' ∧ c.size = some il.length ∧ runOps c ops h' = .ok (reads (fun _ => 0) ops) h'' ∧ ∀ a < h.length, h''[a]? = h[a]? := by
  obtain ⟨new, n1, n2, -⟩ := copyAll_value il h hil
  have hr : ∀ a ∈ List.range' h.length il.length, a < (h ++ new).length := by
    intro a ha; simp only [List.mem_range'_1] at ha; simp; omega
  obtain ⟨h', e1, e2, e3, e4⟩ := zeroAll_run (List.range' h.length il.length) (h ++ new) hr
  have hs : Sound (⟨start, List.range' h.length il.length, some (List.range' h.length il.length).length⟩ : Cont) h' := ⟨rfl, fun a ha => by rw [e2]; exact hr a ha, List.nodup_range'⟩
  obtain ⟨h'', r1, r2, r3⟩ := runOps_sound _ ops h' (fun _ => 0) hs (by simpa using hops) (fun t _ a ha => e3 a (List.mem_of_getElem? ha))
  refine ⟨_, h', h'', ?_, ?_, r1, fun a ha => ?_⟩
  · simp only [dynCreate, Prog.bind_run, n2, e1, Prog.pure_run]
  · simp
  · have : a ∉ List.range' h.length il.length := by simp only [List.mem_range'_1]; omega
    rw [r3 a this, e4 a this, List.getElem?_append_left ha]

/-- The dynamic container of views of distinct objects behaves in the same way, but its entries *are* the objects given to the constructor: they are set to zero, and show every write. -/
theorem C60_dynamic_views [Zero V] (start : Start) (il : List Nat) (h : Heap V) (hil : ∀ a ∈ il, a < h.length) (hnd : il.Nodup) (ops : List (Op V)) (hops : ∀ o ∈ ops, Available start il.length o.tag) :
    ∃ c h' h'', dynCreate start .view il h = .ok c h' ∧ c.data = il ∧ (∀ a ∈ il, h'[a]? = some 0) ∧ runOps c ops h' = .ok (reads (fun _ => 0) ops) h'' ∧ ∀ a, a ∉ il → h''[a]? = h[a]? := by
  obtain ⟨h', e1, e2, e3, e4⟩ := zeroAll_run il h hil
  have hs : Sound (⟨start, il, some il.length⟩ : Cont) h' := ⟨rfl, fun a ha => by rw [e2]; exact hil a ha, hnd⟩
  obtain ⟨h'', r1, r2, r3⟩ := runOps_sound _ ops h' (fun _ => 0) hs hops (fun t _ a ha => e3 a (List.mem_of_getElem? ha))
  refine ⟨_, h', h'', ?_, rfl, e3, r1, fun a ha => by rw [r3 a ha, e4 a ha]⟩
  simp only [dynCreate, Prog.bind_run, copyAll_view il h hil, e1, Prog.pure_run]

/-- Views of the *same* object in two places: the two time indices are one slot.  For every value `v ≠ 0`: writing it at `n+1` shows at `n`. -/
theorem C60_same_view_twice [Zero V] (x v : V) : ∃ c h' h'', dynCreate .nPlusOne .view [0, 0] [x] = .ok c h' ∧ runOps c [.write .nPlusOne v, .read .n] h' = .ok [v] h'' := ⟨_, _, _, rfl, rfl⟩

/-- **C60, static container**: built from any state for any `N ≤ 4`, with any copy semantics (the constructor clones). -/
theorem C60_static [Zero V] (start : Start) (N : Nat) (y : Nat) (h : Heap V) (hy : y < h.length) (ops : List (Op V)) (hops : ∀ o ∈ ops, Available start N o.tag) :
    ∃ c h' h'', staticCreate start N y h = .ok c h' ∧ c.size = some N ∧ runOps c ops h' = .ok (reads (fun _ => 0) ops) h'' ∧ ∀ a < h.length, h''[a]? = h[a]? := by
  obtain ⟨h1, n1, n2, n3⟩ := cloneN_run y N h hy
  have hr : ∀ a ∈ List.range' h.length N, a < h1.length := by
    intro a ha; simp only [List.mem_range'_1] at ha; omega
  obtain ⟨h', e1, e2, e3, e4⟩ := zeroAll_run (List.range' h.length N) h1 hr
  have hs : Sound (⟨start, List.range' h.length N, some N⟩ : Cont) h' := ⟨by simp, fun a ha => by rw [e2]; exact hr a ha, List.nodup_range'⟩
  obtain ⟨h'', r1, r2, r3⟩ := runOps_sound _ ops h' (fun _ => 0) hs (by simpa using hops) (fun t _ a ha => e3 a (List.mem_of_getElem? ha))
  refine ⟨_, h', h'', ?_, rfl, r1, fun a ha => ?_⟩
  · simp only [staticCreate, Prog.bind_run, n1, e1, Prog.pure_run]
  · have : a ∉ List.range' h.length N := by simp only [List.mem_range'_1]; omega
    rw [r3 a this, e4 a this, n3 a ha]

/-- A time index outside of the stencil is a failed (static) assertion or a call that does not compile. -/
theorem C60_unavailable (c : Cont) (hc : c.size = some c.data.length) (t : Tag) (ht : ¬ Available c.start c.data.length t) (h : Heap V) (v : V) :
    (∃ w, Model.Stencil.get c t h = .stop (.ub w) h) ∧ ∃ w, Model.Stencil.put c t v h = .stop (.ub w) h := by
  rcases slot_unavailable _ _ _ ht with e | ⟨k, e, hk⟩
  · simp [Model.Stencil.get, Model.Stencil.put, Prog.bind_run, entry, e]
  · simp [Model.Stencil.get, Model.Stencil.put, Prog.bind_run, entry, e, hc, Nat.not_lt.mpr hk]

/-- `size()`: the number of entries the container was built with; undefined for a default-constructed dynamic container; a dynamic container that has been moved from still reports its old size, so that the assertion on the time index
    does not catch an access to it: the access is beyond the end of the storage. -/
theorem C60_size [Zero V] (start : Start) (k : Kind) (il : List Nat) (N y : Nat) (h : Heap V) :
    (∀ c h', dynCreate start k il h = .ok c h' → ∀ g : Heap V, contSize c g = .ok il.length g) ∧ (∀ c h', staticCreate start N y h = .ok c h' → ∀ g : Heap V, contSize c g = .ok N g) ∧
    (∀ g : Heap V, contSize (dynDefault start) g = .stop (.ub "size_ is not initialised") g) ∧
    (∀ c h', dynCreate start k il h = .ok c h' → ∀ g : Heap V, contSize (moveDyn c).2 g = .ok il.length g ∧
      ∀ t, Available start il.length t → (Model.Stencil.get (moveDyn c).2 t g : Res (Heap V) V) = .stop (.ub "index beyond data_") g) := by
  have hlen : ∀ (il : List Nat) (h : Heap V) l h', copyAll k il h = .ok l h' → l.length = il.length := by
    intro il
    induction il with
    | nil => intro h l h' e; simp [copyAll] at e; simp [← e.1]
    | cons a as ih =>
      intro h l h' e
      rw [copyAll, Prog.bind_run] at e
      split at e
      · rw [Prog.bind_run] at e
        split at e
        · rename_i heq; simp at e; rw [← e.1, List.length_cons, List.length_cons, ih _ _ _ heq]
        · simp at e
      · simp at e
  have hdyn : ∀ c h', dynCreate start k il h = .ok c h' → c.size = some il.length ∧ c.start = start ∧ c.data.length = il.length := by
    intro c h' e
    rw [dynCreate, Prog.bind_run] at e
    split at e
    · rename_i heq
      rw [Prog.bind_run] at e
      split at e
      · simp at e; rw [← e.1]; simp [hlen _ _ _ _ heq]
      · simp at e
    · simp at e
  refine ⟨fun c h' e g => ?_, fun c h' e g => ?_, fun g => rfl, fun c h' e g => ⟨?_, fun t ht => ?_⟩⟩
  · simp [contSize, (hdyn c h' e).1]
  · rw [staticCreate, Prog.bind_run] at e
    split at e
    · rw [Prog.bind_run] at e
      split at e
      · simp at e; rw [← e.1]; simp [contSize]
      · simp at e
    · simp at e
  · simp [contSize, moveDyn, (hdyn c h' e).1]
  · obtain ⟨e1, e2, e3⟩ := hdyn c h' e
    obtain ⟨j, hj, hj2, -⟩ := slot_available start il.length t ht
    simp [Model.Stencil.get, Prog.bind_run, entry, moveDyn, e1, e2, hj, hj2]

/-- The default constructor leaves `size_` uninitialised: every access is undefined; and so is every access to a dynamic container after it has been moved from. -/
theorem C60_default_and_moved (start : Start) (c : Cont) (t : Tag) (h : Heap V) :
    (∃ w, (Model.Stencil.get (dynDefault start) t h : Res (Heap V) V) = .stop (.ub w) h) ∧ ∃ w, (Model.Stencil.get (moveDyn c).2 t h : Res (Heap V) V) = .stop (.ub w) h := by
  constructor
  · simp only [Model.Stencil.get, Prog.bind_run, entry, dynDefault]
    cases slot start t <;> simp
  · simp only [Model.Stencil.get, Prog.bind_run, entry, moveDyn]
    cases slot c.start t with
    | none => simp
    | some k =>
      cases c.size with
      | none => simp
      | some sz => by_cases hk : k < sz <;> simp [hk]

/-- **Copies.** With value semantics the copy starts with the values of the original, and neither sees what is written to the other, whatever the order. -/
theorem C60_copy_value (c : Cont) (h : Heap V) (hs : Sound c h) : ∃ c' h', copyCont .value c h = .ok c' h' ∧ Sound c h' ∧ Sound c' h' ∧ c'.start = c.start ∧ c'.data.length = c.data.length ∧
    (∀ a ∈ c.data, a ∉ c'.data) ∧ (∀ a < h.length, h'[a]? = h[a]?) ∧ ∀ i (hi : i < c.data.length), (c'.data[i]?.bind fun a => h'[a]?) = h[c.data[i]]? := by
  obtain ⟨new, n1, n2, n3⟩ := copyAll_value c.data h hs.live
  refine ⟨⟨c.start, List.range' h.length c.data.length, c.size⟩, h ++ new, ?_, ?_, ?_, rfl, by simp, ?_, ?_, ?_⟩
  · simp only [copyCont, Prog.bind_run, n2, Prog.pure_run]
  · exact ⟨hs.size, fun a ha => by have := hs.live a ha; simp; omega, hs.nodup⟩
  · refine ⟨by simp [hs.size], fun a ha => ?_, List.nodup_range'⟩
    simp only [List.mem_range'_1] at ha
    simp; omega
  · intro a ha h'
    have := hs.live a ha
    simp only [List.mem_range'_1] at h'
    omega
  · intro a ha
    rw [List.getElem?_append_left ha]
  · intro i hi
    rw [List.getElem?_range' (by simpa using hi)]
    simp only [Option.bind_some, Nat.one_mul]
    rw [List.getElem?_append_right (by omega), Nat.add_sub_cancel_left]
    exact n3 i hi

/-- With view semantics the copy is the same container. -/
theorem C60_copy_view (c : Cont) (h : Heap V) (hs : Sound c h) : copyCont .view c h = .ok c h := by
  simp only [copyCont, Prog.bind_run, copyAll_view c.data h hs.live, Prog.pure_run]

end

/-- a stencil n+1, n, n-1 over the integers -/
example : (match dynCreate .nPlusOne .value [0, 0, 0] ([7] : Heap Int) with | .ok c h => (runOps c [.write .n 5, .read .n, .read .nPlusOne, .write .n 6, .write .nMinusOne 1, .read .n] h).state | .stop _ h => h) = [7, 0, 6, 1] := by decide
example : ∀ o ∈ ([.write .n 5, .read .n, .read .nPlusOne, .write .n 6, .write .nMinusOne 1, .read .n] : List (Op Int)), Available .nPlusOne 3 o.tag := by decide
example : ¬ Available .nPlusOne 3 .nMinusTwo := by decide
example : Available .n 4 .nMinusThree := by decide

example := C60_dynamic .nPlusOne [0, 0, 0] ([7] : Heap Int) (by decide) [.write .n 5, .read .n, .read .nPlusOne, .write .n 6, .write .nMinusOne 1, .read .n] (by decide)
example := C60_dynamic_views .n [2, 0, 1] ([7, 8, 9, 10] : Heap Int) (by decide) (by decide) [.write .n 5, .read .nMinusOne, .write .nMinusTwo 3, .read .n] (by decide)
example := C60_same_view_twice (7 : Int) 5
example := C60_static .n 4 0 ([7] : Heap Int) (by decide) [.write .n 5, .read .nMinusThree, .write .nMinusThree 3, .read .nMinusThree] (by decide)
example := C60_unavailable ⟨.nPlusOne, [0, 1, 2], some 3⟩ rfl .nMinusTwo (by decide) ([7, 8, 9] : Heap Int) 5
example := C60_size .nPlusOne .value [0, 0] 3 0 ([7] : Heap Int)
example := C60_default_and_moved .n ⟨.nPlusOne, [0, 1, 2], some 3⟩ .n ([7, 8, 9] : Heap Int)
example := C60_copy_value ⟨.nPlusOne, [0, 2], some 2⟩ ([7, 8, 9] : Heap Int) ⟨rfl, by decide, by decide⟩


end Pressio.Props
