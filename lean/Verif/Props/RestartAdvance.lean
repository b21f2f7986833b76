import Verif.Props.RestartExamples
import Verif.Props.AdvanceImplicit

/-
  C107 for calls of `advance_n_steps`.
-/
namespace Pressio.Props
set_option autoImplicit false
set_option linter.unusedSectionVars false
open Pressio Matrix
open Pressio.Model.Advance Pressio.Spec.AdvanceDrive Pressio.Spec.AdvanceTarget
open Pressio.Model.Nonlinear (Env Cfg Reg StopCrit Update Tag Ans SP)
open Pressio.Spec.Nonlinear Pressio.Spec.Restart
open Pressio.Model.Implicit Pressio.Spec.Implicit Pressio.Spec.SolverRun

section
variable {K Y M U : Type}

/-- an attempt without its number -/
def unnumbered (a : Att K Y) : Att K Y := { a with num := 0 }

/-- a list of attempts is all that happens in a call with at most `B` attempts that ends with `stop` -/
structure Complete (B : Nat) (stop : Option Stop) (l : List (Att K Y)) : Prop where
  fails : ∀ pre a post, l = pre ++ a :: post → a.stop = none ∨ (post = [] ∧ stop = a.stop)
  bound : l.length ≤ B
  full : stop = none → l.length = B
  last : ∀ h, stop = some h → ∃ pre a, l = pre ++ [a] ∧ a.stop = some h

theorem Complete.prefix_eq {B : Nat} {s s' : Option Stop} {l l' : List (Att K Y)} (h : Complete B s l) (h' : Complete B s' l') (hp : l <+: l') : l = l' ∧ s = s' := by
  obtain ⟨T, rfl⟩ := hp
  rcases s with _ | z
  · have hT : T = [] := by
      have h1 := h.full rfl
      have h2 := h'.bound
      rw [List.length_append] at h2
      exact List.length_eq_zero_iff.1 (by omega)
    subst hT
    rw [List.append_nil] at h'
    refine ⟨(List.append_nil _).symm, ?_⟩
    rcases s' with _ | z
    · rfl
    · obtain ⟨pre, a, e, ha⟩ := h'.last z rfl
      rcases h.fails pre a [] e with h1 | h1
      · rw [h1] at ha; cases ha
      · rw [← h1.2] at ha; cases ha
  · obtain ⟨pre, a, rfl, ha⟩ := h.last z rfl
    rcases h'.fails pre a T (by simp) with h1 | ⟨rfl, h1⟩
    · rw [h1] at ha; cases ha
    · exact ⟨(List.append_nil _).symm, by rw [h1, ha]⟩

theorem Complete.unnumbered {B : Nat} {s : Option Stop} {l : List (Att K Y)} (h : Complete B s l) : Complete B s (l.map unnumbered) where
  fails := by
    intro pre a post e
    obtain ⟨l1, l2, rfl, h1, h2⟩ := List.map_eq_append_iff.1 e
    obtain ⟨b, l3, rfl, h3, h4⟩ := List.map_eq_cons_iff.1 h2
    rcases h.fails l1 b l3 rfl with h5 | ⟨rfl, h5⟩
    · exact .inl (by rw [← h3]; exact h5)
    · exact .inr ⟨by rw [← h4]; rfl, by rw [h5, ← h3]; rfl⟩
  bound := by rw [List.length_map]; exact h.bound
  full := by rw [List.length_map]; exact h.full
  last := by
    intro z hz
    obtain ⟨pre, a, rfl, ha⟩ := h.last z hz
    exact ⟨pre.map Props.unnumbered, Props.unnumbered a, by simp, ha⟩

theorem Complete.after {B : Nat} {s : Option Stop} {l first : List (Att K Y)} (h : Complete B s l) (hf : ∀ a ∈ first, a.stop = none) : Complete (first.length + B) s (first ++ l) where
  fails := by
    intro pre a post e
    rcases List.append_eq_append_iff.1 e with ⟨x, rfl, e2⟩ | ⟨x, rfl, e2⟩
    · exact h.fails x a post e2
    · cases x with
      | nil => exact h.fails [] a post e2.symm
      | cons b x => simp only [List.cons_append, List.cons.injEq] at e2; exact .inl (by rw [e2.1]; exact hf b (by simp))
  bound := by rw [List.length_append]; have := h.bound; omega
  full := fun hs => by rw [List.length_append, h.full hs]
  last := by
    intro z hz
    obtain ⟨pre, a, rfl, ha⟩ := h.last z hz
    exact ⟨first ++ pre, a, by simp, ha⟩

theorem attempts_prefix [Add K] (st : K → Int → K → Prog (Y × M) Unit) (l l' : List K) : ∀ c, attempts st l c <+: attempts st (l ++ l') c := by
  induction l with
  | nil => intro c; exact List.nil_prefix
  | cons d l ih =>
    intro c
    simp only [attempts, List.cons_append]
    refine (List.prefix_cons_inj _).2 ?_
    rcases (attemptAt st c d).2 with _ | c'
    · exact List.prefix_refl _
    · exact ih c'

/-- `advance_n_steps` with a fixed step size and an observer that does not throw: the attempts -/
theorem fixed_attempts [Add K] (zero : K) (st : K → Int → K → Prog (Y × M) Unit) (h : K) (pol5 : Int → K → DtVars K → Prog U (DtVars K)) (obs : Int → K → Y → Prog U Unit) (hobs : Patient obs) (N : Nat) (hN : (N : Int) < int32Max) (start : K) (y0 : Y) (m : M) (u : U) :
    let r := advanceN zero (userObjects st (fun _ _ _ => pure h) pol5 obs) N start ⟨(m, u), y0, []⟩
    ∃ L, let atts := attempts st (List.replicate L h) ⟨start, 1, y0, m⟩
      Complete N r.stop? atts ∧ observations r.state.log = (0, start, y0) :: Spec.AdvanceDrive.seen atts ∧ r.state.y = stateAfter y0 atts ∧ (r.stop? = none → L = N) := by
  intro r
  obtain ⟨dts, h1, h2, h3, h4, h5, h6⟩ := C92_n_steps zero st (fun _ _ _ => pure h) pol5 obs N start y0 m u
  have hrep : dts = List.replicate dts.length h := by
    refine List.eq_replicate_of_mem (fun d hd => ?_)
    obtain ⟨i, t, d0, u, u', e⟩ := h4 d hd
    simp only [Prog.pure_run, Res.ok.injEq] at e
    exact e.1.symm
  rw [hrep] at h1 h2 h6
  rw [List.length_replicate] at h2
  rw [Int.toNat_natCast] at h3 h5
  refine ⟨dts.length, ⟨?_, by rw [h2]; exact h3, fun hs => by rw [h2]; exact h5 hs, ?_⟩, h1.observer, h1.state, h5⟩
  · intro pre a post e
    rcases h1.fails pre a post e with h7 | ⟨h7, -⟩ | h7
    · exact .inl h7
    · cases h7
    · exact .inr h7
  · intro z hz
    rcases h6 z hz with ⟨pre, a, e1, e2⟩ | ⟨i, t, d, u, e⟩ | ⟨i, t, y, u, e⟩ | e
    · exact ⟨pre, a, e1, e2⟩
    · simp [Prog.pure_run] at e
    · rw [hobs i t y u] at e; cases e
    · rw [Int.toNat_natCast] at e; omega

theorem stateAfter_unnumbered (y : Y) (l : List (Att K Y)) : stateAfter y (l.map unnumbered) = stateAfter y l := by
  unfold stateAfter
  rw [List.getLast?_map, Option.map_map]
  rfl
theorem seen_unnumbered [Add K] (l : List (Att K Y)) : (Spec.AdvanceDrive.seen (l.map unnumbered)).map (·.2) = (Spec.AdvanceDrive.seen l).map (·.2) := by
  unfold Spec.AdvanceDrive.seen
  rw [List.filter_map, List.map_map, List.map_map, List.map_map]
  rfl
theorem seen_append [Add K] (l l' : List (Att K Y)) : Spec.AdvanceDrive.seen (l ++ l') = Spec.AdvanceDrive.seen l ++ Spec.AdvanceDrive.seen l' := by simp [Spec.AdvanceDrive.seen]
theorem stateAfter_append (y : Y) (l l' : List (Att K Y)) : stateAfter y (l ++ l') = stateAfter (stateAfter y l) l' := by
  unfold stateAfter
  rcases h : l'.getLast? with _ | a
  · rw [List.getLast?_eq_none_iff.1 h]; simp
  · rw [List.getLast?_append, h]; simp

/-- a run that can be continued by other objects, in calls of `advance_n_steps` -/
theorem n_steps_continued [Add K] (zero : K) (st : K → Int → K → Prog (Y × M) Unit) (h : K) (pol5 : Int → K → DtVars K → Prog U (DtVars K)) (obs : Int → K → Y → Prog U Unit) (hobs : Patient obs) (N N' : Nat) (hN : ((N + N' : Nat) : Int) < int32Max) (start : K) (y0 : Y) (m m' : M) (u u' : U) (t1 : K)
    (hres : let first := attempts st (List.replicate N h) ⟨start, 1, y0, m⟩
      (∀ a ∈ first, a.stop = none) → first.length = N → ∀ k, (attempts st (List.replicate (N + k) h) ⟨start, 1, y0, m⟩).map unnumbered =
        first.map unnumbered ++ (attempts st (List.replicate k h) ⟨t1, 1, stateAfter y0 first, m'⟩).map unnumbered) :
    let first := advanceN zero (userObjects st (fun _ _ _ => pure h) pol5 obs) N start ⟨(m, u), y0, []⟩
    let second := advanceN zero (userObjects st (fun _ _ _ => pure h) pol5 obs) N' t1 ⟨(m', u'), first.state.y, []⟩
    let whole := advanceN zero (userObjects st (fun _ _ _ => pure h) pol5 obs) (N + N' : Nat) start ⟨(m, u), y0, []⟩
    first.stop? = none → whole.stop? = second.stop? ∧ whole.state.y = second.state.y ∧ (observations whole.state.log).map (·.2) = (observations first.state.log).map (·.2) ++ ((observations second.state.log).map (·.2)).tail := by
  intro first second whole hs
  obtain ⟨L1, a1, a2, a3, a4⟩ := fixed_attempts zero st h pol5 obs hobs N (by omega) start y0 m u
  obtain ⟨L2, b1, b2, b3, -⟩ := fixed_attempts zero st h pol5 obs hobs N' (by omega) t1 first.state.y m' u'
  obtain ⟨L, c1, c2, c3, -⟩ := fixed_attempts zero st h pol5 obs hobs (N + N') hN start y0 m u
  obtain rfl : L1 = N := a4 hs
  have hnone : ∀ a ∈ attempts st (List.replicate L1 h) ⟨start, 1, y0, m⟩, a.stop = none := by
    intro a ha
    obtain ⟨pre, post, e⟩ := List.append_of_mem ha
    rcases a1.fails pre a post e with h1 | ⟨-, h1⟩
    · exact h1
    · exact h1.symm.trans hs
  have hlen := a1.full hs
  have hk := hres hnone hlen L2
  rw [← a3] at hk
  have hZ := (b1.unnumbered.after (first := (attempts st (List.replicate L1 h) ⟨start, 1, y0, m⟩).map unnumbered) (fun a ha => by
    obtain ⟨b, hb, rfl⟩ := List.mem_map.1 ha
    exact hnone b hb))
  rw [List.length_map, hlen] at hZ
  have hX := c1.unnumbered
  have key : (attempts st (List.replicate L h) ⟨start, 1, y0, m⟩).map unnumbered = (attempts st (List.replicate L1 h) ⟨start, 1, y0, m⟩).map unnumbered ++ (attempts st (List.replicate L2 h) ⟨t1, 1, first.state.y, m'⟩).map unnumbered ∧ whole.stop? = second.stop? := by
    rw [← hk] at hZ ⊢
    rcases Nat.le_total L (L1 + L2) with hle | hle
    · refine hX.prefix_eq hZ (List.IsPrefix.map _ ?_)
      have := attempts_prefix st (List.replicate L h) (List.replicate (L1 + L2 - L) h) ⟨start, 1, y0, m⟩
      rwa [List.replicate_append_replicate, show L + (L1 + L2 - L) = L1 + L2 by omega] at this
    · have := attempts_prefix st (List.replicate (L1 + L2) h) (List.replicate (L - (L1 + L2)) h) ⟨start, 1, y0, m⟩
      rw [List.replicate_append_replicate, show L1 + L2 + (L - (L1 + L2)) = L by omega] at this
      have := hZ.prefix_eq hX (List.IsPrefix.map _ this)
      exact ⟨this.1.symm, this.2.symm⟩
  refine ⟨key.2, ?_, ?_⟩
  · rw [c3, b3, ← stateAfter_unnumbered, key.1, stateAfter_append, stateAfter_unnumbered, stateAfter_unnumbered, ← a3]
  · rw [c2, b2, a2, List.map_cons, List.map_cons, List.map_cons, List.tail_cons, ← seen_unnumbered, key.1, seen_append, List.map_append, seen_unnumbered, seen_unnumbered]
    rfl
end

section
variable {K m n p L S U : Type} [Add K]

theorem unnumbered_told (l : List (Record K (n → K) (Ans K m n))) : (l.map toAtt).map unnumbered = (l.map told).map (fun a => (⟨0, a.1, a.2.1, a.2.2.1, a.2.2.2.1⟩ : Att K (n → K))) := by
  rw [List.map_map, List.map_map]; rfl

theorem time_fixed (h : K) : ∀ (l : List (Record K (n → K) (Ans K m n))) (t : K), (∀ r ∈ l, r.stop = none ∧ r.dt = h) → timeAfter t l = (fun t => t + h)^[l.length] t := by
  intro l
  induction l with
  | nil => intros; rfl
  | cons r l ih =>
    intro t hl
    have h1 := hl r List.mem_cons_self
    have h2 := ih (t + r.dt) (fun r hr => hl r (List.mem_cons_of_mem _ hr))
    unfold timeAfter at h2 ⊢
    rw [List.filter_cons_of_pos (by rw [h1.1]; rfl), List.foldl_cons, h2, h1.2]
    rfl

/-- runs of a stepper object that can be restarted: calls of `advance_n_steps` -/
theorem n_steps_restarted (zero : K) (step : ((n → K) → SolveTree (n → K) (Ans K m n)) → K → K → Int → Prog (SolveSt (n → K) S (Ans K m n)) Unit) (solve : SP K m n p L Unit) (h : K) (pol5 : Int → K → DtVars K → Prog U (DtVars K)) (obs : Int → K → (n → K) → Prog U Unit) (hobs : Patient obs)
    (N N' : Nat) (hN : ((N + N' : Nat) : Int) < int32Max) (start : K) (y0 : n → K) (mem mem' : S) (reg reg' : Reg K m n p L) (u u' : U)
    (hres : ∀ k, let first := driveObj step solve (List.replicate N h) start [y0] y0 mem reg
      Alive first → (driveObj step solve (List.replicate N h ++ List.replicate k h) start [y0] y0 mem reg).map told =
        first.map told ++ (driveObj step solve (List.replicate k h) (timeAfter start first) [stateOf y0 first] (stateOf y0 first) mem' reg').map told) :
    let first := advanceN zero (userObjects (objStepper step solve) (fun _ _ _ => pure h) pol5 obs) N start ⟨((mem, reg), u), y0, []⟩
    let second := advanceN zero (userObjects (objStepper step solve) (fun _ _ _ => pure h) pol5 obs) N' ((fun t => t + h)^[N] start) ⟨((mem', reg'), u'), first.state.y, []⟩
    let whole := advanceN zero (userObjects (objStepper step solve) (fun _ _ _ => pure h) pol5 obs) (N + N' : Nat) start ⟨((mem, reg), u), y0, []⟩
    first.stop? = none → whole.stop? = second.stop? ∧ whole.state.y = second.state.y ∧ (observations whole.state.log).map (·.2) = (observations first.state.log).map (·.2) ++ ((observations second.state.log).map (·.2)).tail := by
  refine n_steps_continued zero (objStepper step solve) h pol5 obs hobs N N' hN start y0 (mem, reg) (mem', reg') u u' _ ?_
  dsimp only
  intro hnone hlen k
  rw [← C92_runs] at hnone hlen ⊢
  rw [List.length_map] at hlen
  have hs : ∀ r ∈ driveObj step solve (List.replicate N h) start [y0] y0 mem reg, r.stop = none := fun r hr => hnone (toAtt r) (List.mem_map_of_mem hr)
  have := hres k (fun r hr => .inl (hs r hr))
  rw [← List.replicate_append_replicate, ← C92_runs, unnumbered_told, this, List.map_append, ← unnumbered_told, ← unnumbered_told, C92_runs step solve (List.replicate k h), time_fixed h _ _ (fun r hr => ⟨hs r hr, ?_⟩), hlen]
  · unfold stateOf stateAfter
    rw [List.getLast?_map, Option.map_map]
    rfl
  · exact List.eq_of_mem_replicate (Lemmas.SolverRun.driveObj_dts step solve _ _ _ _ _ _ r hr)
end

section
variable {K n p L U : Type} [Field K] [LinearOrder K] [IsStrictOrderedRing K] [Fintype n] [DecidableEq n] [Fintype p]

/-- **C107, `advance_n_steps`** with a fixed step size `h` and BDF1 or Crank-Nicolson: `N + N'` steps in one call, or `N` steps in a call that returns and then, from the state and the time reached, `N'` steps in another call with a new stepper object and any other solver object with the same options:
    same outcome (return or exception), same state, and the observers see the same times and states (the state between the two calls twice). -/
theorem C107_n_steps (P : Evolution K n) (hP : P.Fits) (h1 : P.OneStep) (kind : SolverKind) (env : Env K n n p L) (cfg : Cfg K) (he : kind.Honest env) (hc : kind.NoWarm env) (stepper stepper' : P.Mem) (hnew : P.New stepper) (hnew' : P.New stepper') (reg reg' : Reg K n n p L) (hreg : kind.Idle reg) (hreg' : kind.Idle reg')
    (zero h : K) (pol5 : Int → K → DtVars K → Prog U (DtVars K)) (obs : Int → K → (n → K) → Prog U Unit) (hobs : Patient obs) (N N' : Nat) (hN : ((N + N' : Nat) : Int) < int32Max) (start : K) (y0 : n → K) (u u' : U) :
    let st := objStepper P.step (kind.solve env cfg)
    let first := advanceN zero (userObjects st (fun _ _ _ => pure h) pol5 obs) N start ⟨((stepper, reg), u), y0, []⟩
    let second := advanceN zero (userObjects st (fun _ _ _ => pure h) pol5 obs) N' ((fun t => t + h)^[N] start) ⟨((stepper', reg'), u'), first.state.y, []⟩
    let whole := advanceN zero (userObjects st (fun _ _ _ => pure h) pol5 obs) (N + N' : Nat) start ⟨((stepper, reg), u), y0, []⟩
    first.stop? = none → whole.stop? = second.stop? ∧ whole.state.y = second.state.y ∧ (observations whole.state.log).map (·.2) = (observations first.state.log).map (·.2) ++ ((observations second.state.log).map (·.2)).tail :=
  n_steps_restarted zero P.step (kind.solve env cfg) h pol5 obs hobs N N' hN start y0 stepper stepper' reg reg' u u'
    (fun k => C107_implicit P hP h1 kind env cfg he hc stepper stepper' hnew hnew' reg reg' hreg hreg' start y0 (List.replicate N h) (List.replicate k h))
end

section
variable {K m q n p L U : Type} [Field K] [LinearOrder K] [IsStrictOrderedRing K] [Fintype m] [DecidableEq m] [Fintype q] [DecidableEq q] [Fintype n] [DecidableEq n] [Fintype p]

/-- **C107, `advance_n_steps`** with LSPG problems and BDF1. -/
theorem C107_n_steps_lspg (P : LspgProblem K m q n) (hP : P.Fits) (h1 : P.OneStep) (tag : Tag) (env : Env K q n p L) (cfg : Cfg K) (hi : 1 ≤ cfg.maxIters) (he : InnerHonest env tag) (hc : NoWarmStart env tag) (stepper stepper' : P.Mem) (hnew : P.New stepper) (hnew' : P.New stepper') (reg reg' : Reg K q n p L)
    (hreg : LsIdle reg) (hreg' : LsIdle reg') (zero h : K) (pol5 : Int → K → DtVars K → Prog U (DtVars K)) (obs : Int → K → (n → K) → Prog U Unit) (hobs : Patient obs) (N N' : Nat) (hN : ((N + N' : Nat) : Int) < int32Max) (start : K) (y0 : n → K) (u u' : U) :
    let st := objStepper P.step (Model.Nonlinear.lsSolve env cfg tag)
    let first := advanceN zero (userObjects st (fun _ _ _ => pure h) pol5 obs) N start ⟨((stepper, reg), u), y0, []⟩
    let second := advanceN zero (userObjects st (fun _ _ _ => pure h) pol5 obs) N' ((fun t => t + h)^[N] start) ⟨((stepper', reg'), u'), first.state.y, []⟩
    let whole := advanceN zero (userObjects st (fun _ _ _ => pure h) pol5 obs) (N + N' : Nat) start ⟨((stepper, reg), u), y0, []⟩
    first.stop? = none → whole.stop? = second.stop? ∧ whole.state.y = second.state.y ∧ (observations whole.state.log).map (·.2) = (observations first.state.log).map (·.2) ++ ((observations second.state.log).map (·.2)).tail :=
  n_steps_restarted zero P.step _ h pol5 obs hobs N N' hN start y0 stepper stepper' reg reg' u u'
    (fun k => C107_lspg P hP h1 tag env cfg hi he hc stepper stepper' hnew hnew' reg reg' hreg hreg' start y0 (List.replicate N h) (List.replicate k h))
end

/-- two steps of Crank-Nicolson, then three more in another call: the last one throws -/
example := C107_n_steps (U := Unit) (three 1) (three_fits 1) (by simp [Evolution.OneStep, three]) .newton env11N cfg11N (by intro A b st; simp [env11N, env11]) (fun A b st st' => ⟨rfl, fun _ => rfl⟩) (threeMem 1) (threeMem 1) (three_new 1) (three_new 1) newtonReg newtonReg (fun _ => .created _ rfl) (fun _ => .created _ rfl)
  0 (1/4) (fun _ _ v => pure v) (fun _ _ _ => pure ()) (fun _ _ _ _ => rfl) 2 3 (by decide) 0 ![1] () ()
example : (advanceN 0 (userObjects (U := Unit) (objStepper (three 1).step (SolverKind.newton.solve env11N cfg11N)) (fun _ _ _ => pure (1/4)) (fun _ _ v => pure v) (fun _ _ _ => pure ())) 2 0 ⟨((threeMem 1, newtonReg), ()), ![1], []⟩).stop? = none ∧
    (advanceN 0 (userObjects (U := Unit) (objStepper (three 1).step (SolverKind.newton.solve env11N cfg11N)) (fun _ _ _ => pure (1/4)) (fun _ _ v => pure v) (fun _ _ _ => pure ())) 5 0 ⟨((threeMem 1, newtonReg), ()), ![1], []⟩).stop? = some (.exc (.other 3)) := by
  decide +kernel
example := C107_n_steps_lspg (U := Unit) (threeLspg 0) (threeLspg_fits 0) rfl .gn env11 cfgGN11 (by decide) (by intro A b st; simp [env11]) (fun A b st st' => ⟨rfl, fun _ => rfl⟩) (threeLspgMem 0) (threeLspgMem 0) (threeLspg_new 0) (threeLspg_new 0) reg11 reg11 reg11_idle reg11_idle
  0 (1/4) (fun _ _ v => pure v) (fun _ _ _ => pure ()) (fun _ _ _ _ => rfl) 2 3 (by decide) 0 ![1] () ()
end Pressio.Props
