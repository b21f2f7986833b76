import Verif.Spec.Advance
import Mathlib.Tactic.Ring
import Mathlib.Tactic.Linarith

namespace Pressio.Lemmas.Advance
set_option autoImplicit false
open Pressio Pressio.Model.Advance Pressio.Spec.Advance

variable {W T Y : Type}

/-- prepend a step to a trace -/
def Trace.cons (t0 d0 : T) (y0 g0 : Y) (a b c d : W) (tr : Trace W T Y) : Trace W T Y where
  t := fun n => Nat.casesOn n t0 tr.t
  dt := fun n => Nat.casesOn n d0 tr.dt
  y := fun n => Nat.casesOn n y0 tr.y
  g := fun n => Nat.casesOn n g0 tr.g
  wA := fun n => Nat.casesOn n a tr.wA
  wB := fun n => Nat.casesOn n b tr.wB
  wC := fun n => Nat.casesOn n c tr.wC
  wD := fun n => Nat.casesOn n d tr.wD

theorem blocks_cons (first : Int) (t0 d0 : T) (y0 g0 : Y) (a b c d : W) (tr : Trace W T Y) (n : Nat) :
    blocks first (Trace.cons t0 d0 y0 g0 a b c d tr) (n+1)
      = [.setDt first t0 d0, .guess first t0 y0, .step first t0 d0 g0, .obs first (tr.t 0) (tr.y 0)]
        ++ blocks (first+1) tr n := by
  unfold blocks
  rw [List.range_succ_eq_map, List.flatMap_cons, List.flatMap_map]
  congr 1
  · simp [block, Trace.cons]
  · congr 1
    funext k
    have e : first + ((k : Int) + 1) = first + 1 + (k : Int) := by ring
    simp [block, Trace.cons, e]

variable [Add T]

theorem stepOk_cons_succ {c : Calls W T Y} {first : Int} {dt0 t0 d0 : T} {y0 g0 : Y} {a b cc d : W}
    {tr : Trace W T Y} {k : Nat} (h : StepOk c (first+1) d0 tr k) :
    StepOk c first dt0 (Trace.cons t0 d0 y0 g0 a b cc d tr) (k+1) := by
  have e : first + ((k+1 : Nat) : Int) = first + 1 + (k : Int) := by push_cast; ring
  have hb : (Trace.cons t0 d0 y0 g0 a b cc d tr).dtBefore dt0 (k+1) = tr.dtBefore d0 k := by
    cases k <;> rfl
  constructor
  · rw [e, hb]; exact h.policy
  · rw [e]; exact h.guesser
  · rw [e]; exact h.stepper
  · exact h.time
  · rw [e]; exact h.observer

theorem failsAt_cons_succ {c : Calls W T Y} {first : Int} {dt0 t0 d0 : T} {y0 g0 : Y} {a b cc d : W}
    {tr : Trace W T Y} {k : Nat} {h : Stop} {evs : List (Ev T Y)} {y' : Y} {w' : W}
    (hf : FailsAt c (first+1) d0 tr k h evs y' w') :
    FailsAt c first dt0 (Trace.cons t0 d0 y0 g0 a b cc d tr) (k+1) h evs y' w' := by
  have e : first + 1 + (k : Int) = first + ((k+1 : Nat) : Int) := by push_cast; ring
  have hb : tr.dtBefore d0 k = (Trace.cons t0 d0 y0 g0 a b cc d tr).dtBefore dt0 (k+1) := by
    cases k <;> rfl
  cases hf with
  | policy h1 => rw [e, hb] at h1; exact .policy h1
  | guesser h1 h2 => rw [e, hb] at h1; rw [e] at h2 ⊢; exact .guesser h1 h2
  | stepper h1 h2 h3 =>
    rw [e, hb] at h1; rw [e] at h2 h3 ⊢; exact .stepper h1 h2 h3
  | observer h1 h2 h3 h4 =>
    rw [e, hb] at h1; rw [e] at h2 h3 h4 ⊢; exact .observer h1 h2 h3 h4

/-- a trace all of whose entries are the given values -/
def Trace.const (t0 d0 : T) (y0 g0 : Y) (a b c d : W) (y1 : Y): Trace W T Y where
  t := fun _ => t0
  dt := fun _ => d0
  y := fun n => Nat.casesOn n y0 (fun _ => y1)
  g := fun _ => g0
  wA := fun _ => a
  wB := fun _ => b
  wC := fun _ => c
  wD := fun _ => d

/-- complete description of the loop, when the counter cannot overflow -/
theorem nLoop_spec (c : Calls W T Y) (k : Nat) : ∀ (first : Int) (time dt0 : T) (s : St W T Y),
    first + k ≤ int32Max →
    (∃ tr : Trace W T Y, tr.t 0 = time ∧ tr.y 0 = s.y ∧ tr.wA 0 = s.w ∧
      (∀ j < k, StepOk c first dt0 tr j) ∧
      nLoop c k first time dt0 s = .ok () ⟨tr.wA k, tr.y k, s.log ++ blocks first tr k⟩) ∨
    (∃ (tr : Trace W T Y) (K : Nat) (h : Stop) (evs : List (Ev T Y)) (y' : Y) (w' : W),
      tr.t 0 = time ∧ tr.y 0 = s.y ∧ tr.wA 0 = s.w ∧ K < k ∧
      (∀ j < K, StepOk c first dt0 tr j) ∧ FailsAt c first dt0 tr K h evs y' w' ∧
      nLoop c k first time dt0 s = .stop h ⟨w', y', s.log ++ blocks first tr K ++ evs⟩) := by
  induction k with
  | zero =>
    intro first time dt0 s _
    left
    refine ⟨Trace.const time dt0 s.y s.y s.w s.w s.w s.w s.y, rfl, rfl, rfl, by simp, ?_⟩
    simp [nLoop, blocks, Trace.const]
  | succ k ih =>
    intro first time dt0 s hover
    have hne : first ≠ int32Max := by push_cast at hover; omega
    have hover' : first + 1 + (k : Int) ≤ int32Max := by push_cast at hover; omega
    rw [nLoop]
    simp only [Prog.bind_run, onW]
    rcases hp : c.dtPolicy3 first time dt0 s.w with ⟨d, w1⟩ | ⟨h, w1⟩
    · simp only [emit, callGuess, Prog.bind_run, onYW]
      rcases hg : c.guesser first time (s.y, w1) with ⟨⟨⟩, y2, w2⟩ | ⟨h, y2, w2⟩
      · simp only [callStep, Prog.bind_run, emit, onYW]
        rcases hs : c.stepper time first d (y2, w2) with ⟨⟨⟩, y3, w3⟩ | ⟨h, y3, w3⟩
        · simp only [callObs, Prog.bind_run, emit, onW]
          rcases ho : c.observer first (time + d) y3 w3 with ⟨⟨⟩, w4⟩ | ⟨h, w4⟩
          · simp only [if_neg hne]
            rcases ih (first+1) (time + d) d ⟨w4, y3, s.log ++ [.setDt first time d] ++
                [.guess first time s.y] ++ [.step first time d y2] ++ [.obs first (time + d) y3]⟩ hover' with
              ⟨tr, ht, hy, hw, hall, hres⟩ | ⟨tr, K, h, evs, y', w', ht, hy, hw, hK, hall, hf, hres⟩
            · left
              refine ⟨Trace.cons time d s.y y2 s.w w1 w2 w3 tr, rfl, rfl, rfl, ?_, ?_⟩
              · intro j hj
                cases j with
                | zero =>
                  constructor
                  · simpa [Trace.cons, Trace.dtBefore] using hp
                  · simpa [Trace.cons] using hg
                  · have : tr.y 0 = y3 := hy
                    simpa [Trace.cons, this] using hs
                  · exact ht
                  · have h1 : tr.y 0 = y3 := hy
                    have h2 : tr.wA 0 = w4 := hw
                    simpa [Trace.cons, h1, h2, ht] using ho
                | succ j => exact stepOk_cons_succ (hall j (by omega))
              · rw [hres, blocks_cons]
                have h1 : tr.y 0 = y3 := hy
                simp [Trace.cons, h1, ht]
            · right
              refine ⟨Trace.cons time d s.y y2 s.w w1 w2 w3 tr, K+1, h, evs, y', w', rfl, rfl, rfl, by omega, ?_, ?_, ?_⟩
              · intro j hj
                cases j with
                | zero =>
                  constructor
                  · simpa [Trace.cons, Trace.dtBefore] using hp
                  · simpa [Trace.cons] using hg
                  · have : tr.y 0 = y3 := hy
                    simpa [Trace.cons, this] using hs
                  · exact ht
                  · have h1 : tr.y 0 = y3 := hy
                    have h2 : tr.wA 0 = w4 := hw
                    simpa [Trace.cons, h1, h2, ht] using ho
                | succ j => exact stepOk_cons_succ (hall j (by omega))
              · exact failsAt_cons_succ hf
              · rw [hres, blocks_cons]
                have h1 : tr.y 0 = y3 := hy
                simp [h1, ht]
          · right
            refine ⟨Trace.const time d s.y y2 s.w w1 w2 w3 y3, 0, h, _, _, _, rfl, rfl, rfl, by omega, by simp,
              FailsAt.observer (w' := w4) ?_ ?_ ?_ ?_, ?_⟩
            · simpa [Trace.const, Trace.dtBefore] using hp
            · simpa [Trace.const] using hg
            · simpa [Trace.const] using hs
            · simpa [Trace.const] using ho
            · simp [blocks, Trace.const]
        · right
          refine ⟨Trace.const time d s.y y2 s.w w1 w2 w2 y3, 0, h, _, _, _, rfl, rfl, rfl, by omega, by simp,
            FailsAt.stepper (y' := y3) (w' := w3) ?_ ?_ ?_, ?_⟩
          · simpa [Trace.const, Trace.dtBefore] using hp
          · simpa [Trace.const] using hg
          · simpa [Trace.const] using hs
          · simp [blocks, Trace.const]
      · right
        refine ⟨Trace.const time d s.y y2 s.w w1 w1 w1 s.y, 0, h, _, _, _, rfl, rfl, rfl, by omega, by simp,
          FailsAt.guesser (y' := y2) (w' := w2) ?_ ?_, ?_⟩
        · simpa [Trace.const, Trace.dtBefore] using hp
        · simpa [Trace.const] using hg
        · simp [blocks, Trace.const]
    · right
      refine ⟨Trace.const time dt0 s.y s.y s.w w1 w1 w1 s.y, 0, h, _, _, _, rfl, rfl, rfl, by omega, by simp,
        FailsAt.policy (w' := w1) ?_, ?_⟩
      · simpa [Trace.const, Trace.dtBefore] using hp
      · simp [blocks, Trace.const]

end Pressio.Lemmas.Advance

namespace Pressio.Lemmas.Advance
open Pressio Pressio.Model.Advance Pressio.Spec.Advance

variable {W T Y : Type}

/-- drop the first step of a trace -/
def Trace.tail (tr : Trace W T Y) : Trace W T Y where
  t := fun n => tr.t (n+1)
  dt := fun n => tr.dt (n+1)
  y := fun n => tr.y (n+1)
  g := fun n => tr.g (n+1)
  wA := fun n => tr.wA (n+1)
  wB := fun n => tr.wB (n+1)
  wC := fun n => tr.wC (n+1)
  wD := fun n => tr.wD (n+1)

theorem Trace.cons_tail (tr : Trace W T Y) :
    Trace.cons (tr.t 0) (tr.dt 0) (tr.y 0) (tr.g 0) (tr.wA 0) (tr.wB 0) (tr.wC 0) (tr.wD 0) (Trace.tail tr) = tr := by
  cases tr
  simp only [Trace.cons, Trace.tail, Trace.mk.injEq]
  refine ⟨?_, ?_, ?_, ?_, ?_, ?_, ?_, ?_⟩ <;> (funext n; cases n <;> rfl)

theorem blocks_succ (first : Int) (tr : Trace W T Y) (n : Nat) :
    blocks first tr (n+1) = [.setDt first (tr.t 0) (tr.dt 0), .guess first (tr.t 0) (tr.y 0),
      .step first (tr.t 0) (tr.dt 0) (tr.g 0), .obs first (tr.t 1) (tr.y 1)] ++ blocks (first+1) (Trace.tail tr) n := by
  conv_lhs => rw [← Trace.cons_tail tr]
  rw [blocks_cons]
  rfl

variable [Add T]

theorem stepOk_tail {c : Calls W T Y} {first : Int} {dt0 : T} {tr : Trace W T Y} {k : Nat}
    (h : StepOk c first dt0 tr (k+1)) : StepOk c (first+1) (tr.dt 0) (Trace.tail tr) k := by
  have e : first + ((k+1 : Nat) : Int) = first + 1 + (k : Int) := by push_cast; ring
  have hb : (Trace.tail tr).dtBefore (tr.dt 0) k = tr.dtBefore dt0 (k+1) := by
    cases k <;> rfl
  constructor
  · rw [hb, ← e]; exact h.policy
  · rw [← e]; exact h.guesser
  · rw [← e]; exact h.stepper
  · exact h.time
  · rw [← e]; exact h.observer

/-- a valid trace of `k` steps is what the loop does; the counter is incremented after each -/
theorem nLoop_of_trace (c : Calls W T Y) (k : Nat) : ∀ (first : Int) (dt0 : T) (tr : Trace W T Y) (log : List (Ev T Y)),
    first + k ≤ int32Max → (∀ j < k, StepOk c first dt0 tr j) →
    nLoop c k first (tr.t 0) dt0 ⟨tr.wA 0, tr.y 0, log⟩ = .ok () ⟨tr.wA k, tr.y k, log ++ blocks first tr k⟩ := by
  induction k with
  | zero => intro first dt0 tr log _ _; simp [nLoop, blocks]
  | succ k ih =>
    intro first dt0 tr log hover hall
    have hne : first ≠ int32Max := by push_cast at hover; omega
    have hover' : first + 1 + (k : Int) ≤ int32Max := by push_cast at hover; omega
    have h0 := hall 0 (by omega)
    have hp := h0.policy; have hg := h0.guesser; have hs := h0.stepper; have ht := h0.time; have ho := h0.observer
    simp only [Nat.cast_zero, add_zero, Trace.dtBefore, Nat.zero_add] at hp hg hs ht ho
    rw [ht] at ho
    have := ih (first+1) (tr.dt 0) (Trace.tail tr) (log ++ [.setDt first (tr.t 0) (tr.dt 0)] ++ [.guess first (tr.t 0) (tr.y 0)] ++
      [.step first (tr.t 0) (tr.dt 0) (tr.g 0)] ++ [.obs first (tr.t 1) (tr.y 1)]) hover'
      (fun j hj => stepOk_tail (hall (j+1) (by omega)))
    rw [nLoop, blocks_succ]
    simp only [Prog.bind_run, onW, hp, emit, callGuess, onYW, hg, callStep, hs, callObs, ho, if_neg hne]
    simp only [Trace.tail, Nat.zero_add, ht] at this
    simp only [List.append_assoc] at this ⊢
    rw [this]
    simp [ht, Trace.tail]

/-- same, when the last increment overflows -/
theorem nLoop_of_trace_overflow (c : Calls W T Y) (k : Nat) : ∀ (first : Int) (dt0 : T) (tr : Trace W T Y) (log : List (Ev T Y)),
    first + k = int32Max → (∀ j < k+1, StepOk c first dt0 tr j) →
    nLoop c (k+1) first (tr.t 0) dt0 ⟨tr.wA 0, tr.y 0, log⟩ =
      .stop (.ub "signed overflow of step counter") ⟨tr.wA (k+1), tr.y (k+1), log ++ blocks first tr (k+1)⟩ := by
  induction k with
  | zero =>
    intro first dt0 tr log he hall
    have h0 := hall 0 (by omega)
    have hp := h0.policy; have hg := h0.guesser; have hs := h0.stepper; have ht := h0.time; have ho := h0.observer
    simp only [Nat.cast_zero, add_zero, Trace.dtBefore, Nat.zero_add] at hp hg hs ht ho he
    rw [ht] at ho
    rw [nLoop, blocks_succ]
    simp only [Prog.bind_run, onW, hp, emit, callGuess, onYW, hg, callStep, hs, callObs, ho]
    rw [if_pos he]
    simp [ht, blocks]
  | succ k ih =>
    intro first dt0 tr log hover hall
    have hne : first ≠ int32Max := by push_cast at hover; omega
    have hover' : first + 1 + (k : Int) = int32Max := by push_cast at hover; omega
    have h0 := hall 0 (by omega)
    have hp := h0.policy; have hg := h0.guesser; have hs := h0.stepper; have ht := h0.time; have ho := h0.observer
    simp only [Nat.cast_zero, add_zero, Trace.dtBefore, Nat.zero_add] at hp hg hs ht ho
    rw [ht] at ho
    have := ih (first+1) (tr.dt 0) (Trace.tail tr) (log ++ [.setDt first (tr.t 0) (tr.dt 0)] ++ [.guess first (tr.t 0) (tr.y 0)] ++
      [.step first (tr.t 0) (tr.dt 0) (tr.g 0)] ++ [.obs first (tr.t 1) (tr.y 1)]) hover'
      (fun j hj => stepOk_tail (hall (j+1) (by omega)))
    rw [nLoop, blocks_succ]
    simp only [Prog.bind_run, onW, hp, emit, callGuess, onYW, hg, callStep, hs, callObs, ho, if_neg hne]
    simp only [Trace.tail, Nat.zero_add, ht] at this
    simp only [List.append_assoc] at this ⊢
    rw [this]
    simp [ht, Trace.tail]

/-- callbacks that never throw produce a valid trace of any length -/
theorem trace_exists (c : Calls W T Y)
    (hp : ∀ n t d w, (c.dtPolicy3 n t d w).isOk = true) (hg : ∀ n t s, (c.guesser n t s).isOk = true)
    (hs : ∀ t n d s, (c.stepper t n d s).isOk = true) (ho : ∀ n t y w, (c.observer n t y w).isOk = true) (k : Nat) :
    ∀ (first : Int) (dt0 time : T) (y : Y) (w : W), ∃ tr : Trace W T Y, tr.t 0 = time ∧ tr.y 0 = y ∧ tr.wA 0 = w ∧
      ∀ j < k, StepOk c first dt0 tr j := by
  induction k with
  | zero =>
    intro first dt0 time y w
    exact ⟨Trace.const time dt0 y y w w w w y, rfl, rfl, rfl, by simp⟩
  | succ k ih =>
    intro first dt0 time y w
    rcases ep : c.dtPolicy3 first time dt0 w with ⟨d, w1⟩ | ⟨h, w1⟩
    swap
    · have := hp first time dt0 w; rw [ep] at this; simp at this
    rcases eg : c.guesser first time (y, w1) with ⟨⟨⟩, y2, w2⟩ | ⟨h, y2, w2⟩
    swap
    · have := hg first time (y, w1); rw [eg] at this; simp at this
    rcases es : c.stepper time first d (y2, w2) with ⟨⟨⟩, y3, w3⟩ | ⟨h, y3, w3⟩
    swap
    · have := hs time first d (y2, w2); rw [es] at this; simp at this
    rcases eo : c.observer first (time + d) y3 w3 with ⟨⟨⟩, w4⟩ | ⟨h, w4⟩
    swap
    · have := ho first (time+d) y3 w3; rw [eo] at this; simp at this
    obtain ⟨tr, h1, h2, h3, h4⟩ := ih (first+1) d (time + d) y3 w4
    refine ⟨Trace.cons time d y y2 w w1 w2 w3 tr, rfl, rfl, rfl, ?_⟩
    intro j hj
    cases j with
    | zero =>
      constructor
      · simpa [Trace.cons, Trace.dtBefore] using ep
      · simpa [Trace.cons] using eg
      · simpa [Trace.cons, h2] using es
      · exact h1
      · simpa [Trace.cons, h2, h3, h1] using eo
    | succ j => exact stepOk_cons_succ (h4 j (by omega))

end Pressio.Lemmas.Advance
