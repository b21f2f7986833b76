import Mathlib.Algebra.Order.Ring.Rat
import Mathlib.Algebra.Field.Rat
import Mathlib.Tactic.Ring
import Mathlib.Algebra.Order.Group.Unbundled.Abs
import Verif.Model.LinSolvers
import Mathlib.Tactic.Common

/-
  C61: state of the linear solvers.
-/
namespace Pressio.Props
set_option autoImplicit false
set_option linter.unusedSectionVars false
open Pressio Pressio.Model.LinSolvers

namespace LinHist

/-- what a caller can do with a solver and with its own matrices -/
inductive Op (M B : Type)
  | change (a : Nat) (A : M)
  | destroy (a : Nat)
  | setMax (k : Nat)
  | set (a : Nat)
  | solve (b : B)
  | solveWith (a : Nat) (b : B)

end LinHist
open LinHist

section
variable {M B F R : Type}

/-! ### Eigen direct -/

/-- one operation of the caller -/
def dOp (E : Direct M B F) : Op M B → Prog (DSt M F) (Option B)
  | .change a A => do Prog.modify (fun s => { s with mats := fun i => if i = a then A else s.mats i }); pure none
  | .destroy _ => pure none
  | .setMax _ => pure none
  | .set a => do dReset E a; pure none
  | .solve b => do let y ← dSolve E b; pure (some y)
  | .solveWith a b => do let y ← dSolveWith E a b; pure (some y)

def dRun (E : Direct M B F) : List (Op M B) → Prog (DSt M F) (List (Option B))
  | [] => pure []
  | o :: os => do
    let y ← dOp E o
    let ys ← dRun E os
    pure (y :: ys)

/-- The answers a caller counts on: the last matrix given to the solver, with the contents it had when it was given, is the one that `solve(b,x)` uses; `solve(A,b,x)` uses the contents of `A`.
    `sol A b` is the solution; `none` as a whole: some `solve(b,x)` came before any matrix. -/
def answers (sol : M → B → B) (mats : Nat → M) (given : Option M) : List (Op M B) → Option (List (Option B))
  | [] => some []
  | .change a A :: os => (answers sol (fun i => if i = a then A else mats i) given os).map (none :: ·)
  | .destroy _ :: os => (answers sol mats given os).map (none :: ·)
  | .setMax _ :: os => (answers sol mats given os).map (none :: ·)
  | .set a :: os => (answers sol mats (some (mats a)) os).map (none :: ·)
  | .solve b :: os => given.bind (fun A => (answers sol mats given os).map (some (sol A b) :: ·))
  | .solveWith a b :: os => (answers sol mats (some (mats a)) os).map (some (sol (mats a) b) :: ·)

/-- the caller's matrices after a history: changed by the caller only -/
def matsAfter (mats : Nat → M) : List (Op M B) → Nat → M
  | [] => mats
  | .change a A :: os => matsAfter (fun i => if i = a then A else mats i) os
  | _ :: os => matsAfter mats os

theorem direct_hist (E : Direct M B F) (ops : List (Op M B)) : ∀ (mats : Nat → M) (given : Option M),
    match answers (fun A b => E.solve (E.compute A) b) mats given ops with
    | some ys => ∃ s', dRun E ops ⟨mats, given.map E.compute⟩ = .ok ys s' ∧ s'.mats = matsAfter mats ops
    | none => ∃ w s', dRun E ops ⟨mats, given.map E.compute⟩ = .stop (.ub w) s' := by
  induction ops with
  | nil => intro mats given; exact ⟨_, rfl, rfl⟩
  | cons o os ih =>
    intro mats given
    cases o with
    | change a A =>
      have := ih (fun i => if i = a then A else mats i) given
      simp only [answers, matsAfter, dRun, dOp, Prog.bind_run, Prog.modify, Prog.pure_run]
      rcases h : answers (fun A b => E.solve (E.compute A) b) (fun i => if i = a then A else mats i) given os with _ | ys
      · rw [h] at this; obtain ⟨w, s', e⟩ := this; exact ⟨w, s', by simp only [e]⟩
      · rw [h] at this; obtain ⟨s', e1, e2⟩ := this; exact ⟨s', by simp only [e1], e2⟩
    | destroy a =>
      have := ih mats given
      simp only [answers, matsAfter, dRun, dOp, Prog.bind_run, Prog.pure_run]
      rcases h : answers (fun A b => E.solve (E.compute A) b) mats given os with _ | ys
      · rw [h] at this; obtain ⟨w, s', e⟩ := this; exact ⟨w, s', by simp only [e]⟩
      · rw [h] at this; obtain ⟨s', e1, e2⟩ := this; exact ⟨s', by simp only [e1], e2⟩
    | setMax a =>
      have := ih mats given
      simp only [answers, matsAfter, dRun, dOp, Prog.bind_run, Prog.pure_run]
      rcases h : answers (fun A b => E.solve (E.compute A) b) mats given os with _ | ys
      · rw [h] at this; obtain ⟨w, s', e⟩ := this; exact ⟨w, s', by simp only [e]⟩
      · rw [h] at this; obtain ⟨s', e1, e2⟩ := this; exact ⟨s', by simp only [e1], e2⟩
    | set a =>
      have := ih mats (some (mats a))
      simp only [answers, matsAfter, dRun, dOp, Prog.bind_run, dReset, Prog.modify, Prog.pure_run]
      rcases h : answers (fun A b => E.solve (E.compute A) b) mats (some (mats a)) os with _ | ys
      · rw [h] at this; obtain ⟨w, s', e⟩ := this; exact ⟨w, s', by simp only [Option.map_some] at e; simp only [e]⟩
      · rw [h] at this; obtain ⟨s', e1, e2⟩ := this; exact ⟨s', by simp only [Option.map_some] at e1; simp only [e1], e2⟩
    | solve b =>
      cases given with
      | none =>
        simp only [answers, Option.bind_none, dRun, dOp, Prog.bind_run, dSolve, Option.map_none]
        exact ⟨_, _, rfl⟩
      | some A =>
        have := ih mats (some A)
        simp only [answers, matsAfter, dRun, dOp, Prog.bind_run, dSolve, Prog.pure_run, Option.bind_some, Option.map_some]
        rcases h : answers (fun A b => E.solve (E.compute A) b) mats (some A) os with _ | ys
        · rw [h] at this; obtain ⟨w, s', e⟩ := this; exact ⟨w, s', by simp only [Option.map_some] at e; simp only [e]⟩
        · rw [h] at this; obtain ⟨s', e1, e2⟩ := this; exact ⟨s', by simp only [Option.map_some] at e1; simp only [e1], e2⟩
    | solveWith a b =>
      have := ih mats (some (mats a))
      simp only [answers, matsAfter, dRun, dOp, Prog.bind_run, dSolveWith, dReset, Prog.modify, dSolve, Prog.pure_run]
      rcases h : answers (fun A b => E.solve (E.compute A) b) mats (some (mats a)) os with _ | ys
      · rw [h] at this; obtain ⟨w, s', e⟩ := this; exact ⟨w, s', by simp only [Option.map_some] at e; simp only [e]⟩
      · rw [h] at this; obtain ⟨s', e1, e2⟩ := this; exact ⟨s', by simp only [Option.map_some] at e1; simp only [e1], e2⟩

/-- **C61, direct solvers.** For every history of a new solver that never solves before a matrix was given: the answers are the expected ones (`solve(A,b,x)` the solution for `A`, whatever came before; `solve(b,x)` the solution
    for the last matrix given, with its contents at that time), and the caller's matrices are as the caller left them. -/
theorem C61_direct (E : Direct M B F) (sol : M → B → B) (hE : ∀ A b, E.solve (E.compute A) b = sol A b) (mats : Nat → M) (ops : List (Op M B)) (ys : List (Option B)) (h : answers sol mats none ops = some ys) :
    ∃ s', dRun E ops ⟨mats, none⟩ = .ok ys s' ∧ s'.mats = matsAfter mats ops := by
  have := direct_hist E ops mats none
  rw [show (fun A b => E.solve (E.compute A) b) = sol from funext fun A => funext fun b => hE A b, h] at this
  exact this

/-- Solving before any matrix was given is undefined. -/
theorem C61_direct_uninitialised (E : Direct M B F) (mats : Nat → M) (ops : List (Op M B)) (h : answers (fun A b => E.solve (E.compute A) b) mats none ops = none) :
    ∃ w s', dRun E ops ⟨mats, none⟩ = .stop (.ub w) s' := by
  have := direct_hist E ops mats none
  rw [h] at this
  exact this

/-! ### Eigen iterative -/

def iOp (E : Iter M B F R) : Op M B → Prog (ISt M F R) (Option B)
  | .change a A => do Prog.modify (fun s => { s with mats := fun i => if i = a then some A else s.mats i }); pure none
  | .destroy a => do Prog.modify (fun s => { s with mats := fun i => if i = a then none else s.mats i }); pure none
  | .setMax k => do iSetMax k; pure none
  | .set a => do iReset E a; pure none
  | .solve b => do let y ← iSolve E b; pure (some y)
  | .solveWith a b => do let y ← iSolveWith E a b; pure (some y)

/-- a history; gives the answers and, for each, the number of iterations of the solve (`numIterationsExecuted`) -/
def iRun (E : Iter M B F R) : List (Op M B) → Prog (ISt M F R) (List (Option B))
  | [] => pure []
  | o :: os => do
    let y ← iOp E o
    let ys ← iRun E os
    pure (y :: ys)

/-- the maximum a caller counts on: the last one set -/
def lastMax (k : Nat) : List (Op M B) → Nat
  | [] => k
  | .setMax k' :: os => lastMax k' os
  | _ :: os => lastMax k os

/-- A matrix that was given is referred to by its place: it is neither changed nor destroyed before the next one is given.  `none`: no matrix yet. -/
def KeepsGiven : Option Nat → List (Op M B) → Prop
  | _, [] => True
  | g, .change a _ :: os => g ≠ some a ∧ KeepsGiven g os
  | g, .destroy a :: os => g ≠ some a ∧ KeepsGiven g os
  | g, .setMax _ :: os => KeepsGiven g os
  | _, .set a :: os => KeepsGiven (some a) os
  | g, .solve _ :: os => KeepsGiven g os
  | _, .solveWith a _ :: os => KeepsGiven (some a) os

/-- the answers a caller counts on, with the maximal number of iterations in force; `none` as a whole: a matrix that does not exist was used, or none was given -/
def answersI (sol : Nat → M → B → B) (mats : Nat → Option M) (given : Option M) (k : Nat) : List (Op M B) → Option (List (Option B))
  | [] => some []
  | .change a A :: os => (answersI sol (fun i => if i = a then some A else mats i) given k os).map (none :: ·)
  | .destroy a :: os => (answersI sol (fun i => if i = a then none else mats i) given k os).map (none :: ·)
  | .setMax k' :: os => (answersI sol mats given k' os).map (none :: ·)
  | .set a :: os => (mats a).bind (fun A => (answersI sol mats (some A) k os).map (none :: ·))
  | .solve b :: os => given.bind (fun A => (answersI sol mats given k os).map (some (sol k A b) :: ·))
  | .solveWith a b :: os => (mats a).bind (fun A => (answersI sol mats (some A) k os).map (some (sol k A b) :: ·))

theorem iter_hist (E : Iter M B F R) (ops : List (Op M B)) : ∀ (s : ISt M F R) (given : Option (Nat × M)), KeepsGiven (given.map Prod.fst) ops → (∀ a A, given = some (a, A) → s.mats a = some A) → s.nat = given.map (fun g => (g.1, E.precond g.2)) →
    ∀ ys, answersI (fun k A b => (E.solve A (E.precond A) k b).1) s.mats (given.map Prod.snd) s.maxIters ops = some ys → ∃ s', iRun E ops s = .ok ys s' ∧ s'.maxIters = lastMax s.maxIters ops := by
  induction ops with
  | nil => intro s given _ _ _ ys h; cases h; exact ⟨_, rfl, rfl⟩
  | cons o os ih =>
    intro s given hk hg hn ys h
    obtain ⟨mats, mx, nt, nm, la⟩ := s
    simp only at hg hn h
    subst hn
    cases o with
    | change a A =>
      obtain ⟨hk1, hk2⟩ := hk
      simp only [answersI, Option.map_eq_some_iff] at h
      obtain ⟨ys', h1, rfl⟩ := h
      obtain ⟨s', e1, e2⟩ := ih ⟨fun i => if i = a then some A else mats i, mx, given.map (fun g => (g.1, E.precond g.2)), nm, la⟩ given hk2 (by
        intro a' A' hh
        subst hh
        simp only [Option.map_some, ne_eq, Option.some.injEq] at hk1
        simp only [if_neg hk1]
        exact hg a' A' rfl) rfl ys' h1
      exact ⟨s', by simp only [iRun, iOp, Prog.bind_run, Prog.modify, Prog.pure_run, e1], e2⟩
    | destroy a =>
      obtain ⟨hk1, hk2⟩ := hk
      simp only [answersI, Option.map_eq_some_iff] at h
      obtain ⟨ys', h1, rfl⟩ := h
      obtain ⟨s', e1, e2⟩ := ih ⟨fun i => if i = a then none else mats i, mx, given.map (fun g => (g.1, E.precond g.2)), nm, la⟩ given hk2 (by
        intro a' A' hh
        subst hh
        simp only [Option.map_some, ne_eq, Option.some.injEq] at hk1
        simp only [if_neg hk1]
        exact hg a' A' rfl) rfl ys' h1
      exact ⟨s', by simp only [iRun, iOp, Prog.bind_run, Prog.modify, Prog.pure_run, e1], e2⟩
    | setMax k =>
      simp only [answersI, Option.map_eq_some_iff] at h
      obtain ⟨ys', h1, rfl⟩ := h
      obtain ⟨s', e1, e2⟩ := ih ⟨mats, k, given.map (fun g => (g.1, E.precond g.2)), nm, la⟩ given hk hg rfl ys' h1
      exact ⟨s', by simp only [iRun, iOp, iSetMax, Prog.bind_run, Prog.modify, Prog.pure_run, e1], e2⟩
    | set a =>
      simp only [answersI, Option.bind_eq_some_iff, Option.map_eq_some_iff] at h
      obtain ⟨A, hA, ys', h1, rfl⟩ := h
      obtain ⟨s', e1, e2⟩ := ih ⟨mats, mx, some (a, E.precond A), some mx, la⟩ (some (a, A)) hk (by
        intro a' A' hh; cases hh; exact hA) rfl ys' h1
      exact ⟨s', by simp only [iRun, iOp, iReset, hA, Prog.bind_run, Prog.pure_run, e1], e2⟩
    | solve b =>
      cases given with
      | none => simp [answersI] at h
      | some g =>
        obtain ⟨a, A⟩ := g
        simp only [answersI, Option.map_some, Option.bind_some, Option.map_eq_some_iff] at h
        obtain ⟨ys', h1, rfl⟩ := h
        have hA := hg a A rfl
        obtain ⟨s', e1, e2⟩ := ih ⟨mats, mx, some (a, E.precond A), some mx, some (E.solve A (E.precond A) mx b).2⟩ (some (a, A)) hk hg rfl ys' h1
        exact ⟨s', by simp only [iRun, iOp, iSolve, Option.map_some, hA, Prog.bind_run, Prog.pure_run, e1], e2⟩
    | solveWith a b =>
      simp only [answersI, Option.bind_eq_some_iff, Option.map_eq_some_iff] at h
      obtain ⟨A, hA, ys', h1, rfl⟩ := h
      obtain ⟨s', e1, e2⟩ := ih ⟨mats, mx, some (a, E.precond A), some mx, some (E.solve A (E.precond A) mx b).2⟩ (some (a, A)) hk (by
        intro a' A' hh; cases hh; exact hA) rfl ys' h1
      exact ⟨s', by simp only [iRun, iOp, iSolveWith, iReset, iSolve, hA, Prog.bind_run, Prog.pure_run, e1], e2⟩

/-- **C61, iterative solvers.** For every history in which the matrix last given is not changed or destroyed: the answers are the expected ones, each solve running with the maximum last set (100 at first). -/
theorem C61_iterative_partial (E : Iter M B F R) (mats : Nat → Option M) (ops : List (Op M B)) (hk : KeepsGiven none ops) (ys : List (Option B))
    (h : answersI (fun k A b => (E.solve A (E.precond A) k b).1) mats none 100 ops = some ys) : ∃ s', iRun E ops (iFresh mats) = .ok ys s' := by
  obtain ⟨s', e, -⟩ := iter_hist E ops (iFresh mats) none hk (by simp) rfl ys h
  exact ⟨s', e⟩

/-- `solve(A,b,x)` needs no such condition: after any history (any state of the solver) it uses the contents of `A`. -/
theorem C61_iterative_solve_with (E : Iter M B F R) (s : ISt M F R) (a : Nat) (A : M) (hA : s.mats a = some A) (b : B) :
    ∃ s', iSolveWith E a b s = .ok (E.solve A (E.precond A) s.maxIters b).1 s' ∧ s'.mats = s.mats := by
  simp only [iSolveWith, Prog.bind_run, iReset, hA, iSolve]
  exact ⟨_, rfl, rfl⟩

/-- **The limit on the iterations**: if the library keeps its own limit then after any history every solve reports at most as many iterations as the limit last set. -/
theorem C61_iteration_limit (E : Iter M B F R) (hE : ∀ A p k b, (E.solve A p k b).2.1 ≤ k) (mats : Nat → Option M) (ops : List (Op M B)) (ys : List (Option B)) (s : ISt M F R) (hrun : iRun E ops (iFresh mats) = .ok ys s)
    (b : B) (y : B) (s' : ISt M F R) (hs : iSolve E b s = .ok y s') : ∃ i r, s'.last = some (i, r) ∧ i ≤ lastMax 100 ops := by
  have key : ∀ (ops : List (Op M B)) (s0 s1 : ISt M F R) (ys : List (Option B)), iRun E ops s0 = .ok ys s1 → s1.maxIters = lastMax s0.maxIters ops := by
    intro ops
    induction ops with
    | nil => intro s0 s1 ys h; cases h; rfl
    | cons o os ih =>
      intro s0 s1 ys h
      simp only [iRun, Prog.bind_run] at h
      rcases ho : iOp E o s0 with ⟨y, s2⟩ | ⟨e, s2⟩
      · rw [ho] at h
        simp only at h
        rcases ht : iRun E os s2 with ⟨ys', s3⟩ | ⟨e, s3⟩
        · rw [ht] at h
          simp only [Prog.pure_run] at h
          cases h
          have := ih s2 s1 ys' ht
          rw [this]
          cases o with
          | change a A => cases ho; rfl
          | destroy a => cases ho; rfl
          | setMax k => cases ho; rfl
          | set a =>
            simp only [iOp, Prog.bind_run, iReset] at ho
            cases hm : s0.mats a with
            | none => rw [hm] at ho; cases ho
            | some A => rw [hm] at ho; cases ho; rfl
          | solve b =>
            simp only [iOp, Prog.bind_run, iSolve] at ho
            cases hn : s0.nat with
            | none => rw [hn] at ho; cases ho
            | some g =>
              cases hm : s0.mats g.1 with
              | none => rw [hn] at ho; simp only [hm] at ho; cases ho
              | some A => rw [hn] at ho; simp only [hm] at ho; cases ho; rfl
          | solveWith a b =>
            simp only [iOp, Prog.bind_run, iSolveWith, iReset] at ho
            cases hm : s0.mats a with
            | none => rw [hm] at ho; cases ho
            | some A => rw [hm] at ho; simp only [iSolve, hm] at ho; cases ho; rfl
        · rw [ht] at h; cases h
      · rw [ho] at h; cases h
  have hm := key ops (iFresh mats) s ys hrun
  simp only [iSolve] at hs
  cases hn : s.nat with
  | none => rw [hn] at hs; cases hs
  | some g =>
    cases hmat : s.mats g.1 with
    | none => rw [hn] at hs; simp only [hmat] at hs; cases hs
    | some A =>
      rw [hn] at hs; simp only [hmat] at hs; cases hs
      refine ⟨_, _, rfl, ?_⟩
      have := hE A g.2 s.maxIters b
      rw [hm] at this
      rw [hm]
      exact this

/-- **False for a matrix that is changed after it was given**: for every library, `solve(b,x)` then uses the new contents (with what was derived from the old ones). -/
theorem C61_iterative_reference (E : Iter M B F R) (A A' : M) (b : B) : ∃ s', iRun E [.set 0, .change 0 A', .solve b] (iFresh (fun _ => some A)) = .ok [none, none, some (E.solve A' (E.precond A) 100 b).1] s' ∧
    answersI (fun k A b => (E.solve A (E.precond A) k b).1) (fun _ => some A) none 100 [.set 0, .change 0 A', .solve b] = some [none, none, some (E.solve A (E.precond A) 100 b).1] :=
  ⟨_, rfl, rfl⟩

/-- And it is undefined when the matrix is gone. -/
theorem C61_iterative_dangling (E : Iter M B F R) (A : M) (b : B) : ∃ w s', iRun E [.set 0, .destroy 0, .solve b] (iFresh (fun _ => some A)) = .stop (.ub w) s' := ⟨_, _, rfl⟩

/-! ### Kokkos direct -/

/-- **C61, getrs and potrs.** After any history (any state): `solve(A,b,x)` gives the solution for `A` and leaves the caller's matrices alone. -/
theorem C61_kokkos (L : Lapack M B F) (sol : M → B → B) (hL : ∀ A b, L.solve (L.factor A).1 (L.factor A).2 b = sol A b) (s : KSt M) (a : Nat) (b : B) :
    ∃ s', kSolve L a b s = .ok (sol (s.mats a) b) s' ∧ s'.mats = s.mats := by
  refine ⟨{ s with aux := (L.factor (s.mats a)).1 }, ?_, rfl⟩
  simp only [kSolve, kOverwrite, Prog.bind_run, Prog.modify, Prog.get, KSt.read, KSt.write, Prog.pure_run, hL]

/-- The overwriting variant gives the same solution, and replaces `A` by its factorisation. -/
theorem C61_kokkos_overwrite (L : Lapack M B F) (sol : M → B → B) (hL : ∀ A b, L.solve (L.factor A).1 (L.factor A).2 b = sol A b) (s : KSt M) (a : Nat) (b : B) :
    ∃ s', kOverwrite L (.mat a) b s = .ok (sol (s.mats a) b) s' ∧ s'.mats a = (L.factor (s.mats a)).1 ∧ ∀ i, i ≠ a → s'.mats i = s.mats i := by
  refine ⟨s.write (L.factor (s.mats a)).1 (.mat a), ?_, by simp [KSt.write], fun i hi => by simp [KSt.write, hi]⟩
  simp only [kOverwrite, Prog.bind_run, Prog.modify, Prog.get, KSt.read, Prog.pure_run, hL]

/-- a sequence of solves with the geqrf solver -/
def qRun (L : Lapack M B F) (opt : Nat → Nat) : List (Nat × B) → Prog (KSt M) (List B)
  | [] => pure []
  | (a, b) :: rest => do
    let y ← qSolve L opt a b
    let ys ← qRun L opt rest
    pure (y :: ys)

theorem qSolve_run (L : Lapack M B F) (opt : Nat → Nat) (sol : M → B → B) (hL : ∀ A b, L.solve (L.factor A).1 (L.factor A).2 b = sol A b) (s : KSt M) (a : Nat) (b : B) :
    (s.lwork.getD (opt (L.size (s.mats a))) < max 1 (L.size (s.mats a)) → ∃ w s', qSolve L opt a b s = .stop (.ub w) s') ∧
    (max 1 (L.size (s.mats a)) ≤ s.lwork.getD (opt (L.size (s.mats a))) → ∃ s', qSolve L opt a b s = .ok (sol (s.mats a) b) s' ∧ s'.mats = s.mats ∧ s'.lwork = some (s.lwork.getD (opt (L.size (s.mats a))))) := by
  obtain ⟨mats, aux, lw⟩ := s
  simp only
  have hq : qQuery L opt .aux (⟨mats, mats a, lw⟩ : KSt M) = .ok () ⟨mats, mats a, some (lw.getD (opt (L.size (mats a))))⟩ := by
    cases lw <;> rfl
  constructor
  · intro h
    simp only [qSolve, qOverwrite, Prog.bind_run, Prog.modify, hq, qFactor, KSt.read, Option.getD_some, h, if_true]
    exact ⟨_, _, rfl⟩
  · intro h
    simp only [qSolve, qOverwrite, Prog.bind_run, Prog.modify, hq, qFactor, KSt.read, Option.getD_some, Nat.not_lt.mpr h, if_false, kOverwrite, Prog.get, KSt.write, Prog.pure_run, hL]
    exact ⟨_, rfl, rfl, rfl⟩

/-- **C61, geqrf, the part that holds**: a new solver used for matrices none of which is larger than the work array that the first one asked for (in particular: matrices of the same size, or smaller): every solve gives the solution. -/
theorem C61_geqrf_partial (L : Lapack M B F) (opt : Nat → Nat) (hopt : ∀ n, max 1 n ≤ opt n) (sol : M → B → B) (hL : ∀ A b, L.solve (L.factor A).1 (L.factor A).2 b = sol A b) (mats : Nat → M) (aux : M)
    (first : Nat × B) (rest : List (Nat × B)) (hsz : ∀ p ∈ rest, max 1 (L.size (mats p.1)) ≤ opt (L.size (mats first.1))) :
    ∃ s', qRun L opt (first :: rest) ⟨mats, aux, none⟩ = .ok ((first :: rest).map (fun p => sol (mats p.1) p.2)) s' ∧ s'.mats = mats := by
  have key : ∀ (l : List (Nat × B)) (s : KSt M), s.mats = mats → s.lwork = some (opt (L.size (mats first.1))) → (∀ p ∈ l, max 1 (L.size (mats p.1)) ≤ opt (L.size (mats first.1))) →
      ∃ s', qRun L opt l s = .ok (l.map (fun p => sol (mats p.1) p.2)) s' ∧ s'.mats = mats := by
    intro l
    induction l with
    | nil => intro s hs _ _; exact ⟨s, rfl, hs⟩
    | cons p l ih =>
      intro s hs hw hp
      obtain ⟨-, h2⟩ := qSolve_run L opt sol hL s p.1 p.2
      rw [hw, hs] at h2
      obtain ⟨s1, e1, e2, e3⟩ := h2 (by simpa using hp p (List.mem_cons_self ..))
      obtain ⟨s2, e4, e5⟩ := ih s1 e2 (by simpa using e3) (fun p hp' => hp p (List.mem_cons_of_mem _ hp'))
      refine ⟨s2, ?_, e5⟩
      simp only [qRun, Prog.bind_run, e1, e4, Prog.pure_run, List.map_cons]
  obtain ⟨-, h2⟩ := qSolve_run L opt sol hL ⟨mats, aux, none⟩ first.1 first.2
  obtain ⟨s1, e1, e2, e3⟩ := h2 (hopt _)
  obtain ⟨s2, e4, e5⟩ := key rest s1 e2 e3 hsz
  refine ⟨s2, ?_, e5⟩
  simp only [qRun, Prog.bind_run, e1, e4, Prog.pure_run, List.map_cons]

/-- **False in general for geqrf**: a matrix larger than the work array that the first call asked for makes the factorisation fail, although a new solver would solve it. -/
theorem C61_geqrf_refuted (L : Lapack M B F) (opt : Nat → Nat) (hopt : ∀ n, max 1 n ≤ opt n) (sol : M → B → B) (hL : ∀ A b, L.solve (L.factor A).1 (L.factor A).2 b = sol A b) (mats : Nat → M) (aux : M) (b1 b2 : B)
    (h : opt (L.size (mats 0)) < L.size (mats 1)) :
    (∃ w s', qRun L opt [(0, b1), (1, b2)] ⟨mats, aux, none⟩ = .stop (.ub w) s') ∧ ∃ s', qRun L opt [(1, b2)] ⟨mats, aux, none⟩ = .ok [sol (mats 1) b2] s' := by
  constructor
  · obtain ⟨-, h2⟩ := qSolve_run L opt sol hL ⟨mats, aux, none⟩ 0 b1
    obtain ⟨s1, e1, e2, e3⟩ := h2 (hopt _)
    obtain ⟨h1, -⟩ := qSolve_run L opt sol hL s1 1 b2
    obtain ⟨w, s2, e4⟩ := h1 (by rw [e3, e2]; simp; omega)
    exact ⟨w, s2, by simp only [qRun, Prog.bind_run, e1, e4]⟩
  · obtain ⟨s', e, -⟩ := C61_geqrf_partial L opt hopt sol hL mats aux (1, b2) [] (by simp)
    exact ⟨s', e⟩

end

/-- a direct solver of `a x = b` over the integers, as a stand-in: histories with several matrices -/
example : (answers (fun A b => b - A) (fun i => (i : Int)) none [.set 3, .change 3 10, .solve 5, .solveWith 3 5, .solve 7] : Option (List (Option Int))) = some [none, none, some 2, some (-5), some (-3)] := by decide
example : KeepsGiven none ([.set 3, .change 4 10, .solve 5, .solveWith 4 5, .setMax 7, .solve 7] : List (Op Int Int)) := by simp [KeepsGiven]
/-- work array of 32 per column: first a `1 × 1` matrix, then a `40 × 40` one -/
example : (fun n => max 1 (32 * n)) 1 < 40 ∧ ∀ n, max 1 n ≤ (fun n => max 1 (32 * n)) n := ⟨by decide, fun n => by simp only; omega⟩

/-! ### The theorems on concrete solvers: numbers as matrices, division as solve, the factor being the inverse -/

def divDirect : Direct ℚ ℚ ℚ := ⟨fun A => A⁻¹, fun F b => F * b⟩
/-- one iteration per unit of the right-hand side -/
def divIter : Iter ℚ ℚ ℚ ℚ := ⟨fun A => A⁻¹, fun A P k b => if b = 0 then (0, 0, 0) else (P * b, min k 3, |A * (P * b) - b|)⟩
def divLapack : Lapack ℚ ℚ Unit := ⟨fun A => A.num.toNat, fun A => (A⁻¹, ()), fun F _ b => F * b⟩
theorem divDirect_exact (A b : ℚ) : divDirect.solve (divDirect.compute A) b = b / A := by simp only [divDirect]; ring
theorem divLapack_exact (A b : ℚ) : divLapack.solve (divLapack.factor A).1 (divLapack.factor A).2 b = b / A := by simp only [divLapack]; ring
example := C61_direct divDirect (fun A b => b / A) divDirect_exact (fun i => (i : ℚ)) [.set 3, .change 3 10, .solve 6, .solveWith 3 5, .solve 7] [none, none, some 2, some (1/2), some (7/10)] (by decide +kernel)
example := C61_direct_uninitialised divDirect (fun i => (i : ℚ)) [.change 3 10, .solve 6] rfl
example := C61_iterative_partial divIter (fun i => some (i : ℚ)) [.set 3, .change 4 10, .solve 6, .solveWith 4 5, .setMax 7, .solve 7] (by simp [KeepsGiven])
  [none, none, some 2, some (1/2), none, some (7/10)] (by decide +kernel)
example := C61_iterative_solve_with divIter (iFresh fun i => some (i : ℚ)) 3 3 rfl 6
/-- the limit was set to 2 before the matrix was given: the next solve makes two iterations -/
def intIter : Iter Int Int Int Int := ⟨fun A => A, fun A P k b => (b - A, min k 3, P)⟩
example := C61_iteration_limit intIter (fun _ _ k _ => Nat.min_le_left k 3) (fun i => some (i : Int)) [.set 3, .setMax 2, .set 3] [none, none, none] _ rfl 5 2
  ⟨fun i => some (i : Int), 2, some (3, 3), some 2, some (2, 3)⟩ rfl
example := C61_iterative_reference divIter 2 3 6
example := C61_iterative_dangling divIter 2 6
example := C61_kokkos divLapack (fun A b => b / A) divLapack_exact ⟨fun i => (i : ℚ), 0, none⟩ 3 6
example := C61_kokkos_overwrite divLapack (fun A b => b / A) divLapack_exact ⟨fun i => (i : ℚ), 0, none⟩ 3 6
example := C61_geqrf_partial divLapack (fun n => max 1 (32 * n)) (fun n => by omega) (fun A b => b / A) divLapack_exact (fun i => (i : ℚ)) 0 (3, 6) [(1, 4), (90, 7)] (by decide +kernel)


end Pressio.Props
