import Verif.Lemmas.SolverRun
import Verif.Lemmas.Lspg

/-
  Solvers do not return without having evaluated the system (unless no iteration is allowed); runs of problems with a policy, driven by one solver object.
-/
namespace Pressio.Lemmas.SolverRun
set_option autoImplicit false
open Pressio Pressio.Spec.Implicit Pressio.Spec.SolverRun Pressio.Lemmas.SolverTree Pressio.Lemmas.Implicit
open Pressio.Model.Nonlinear
open Pressio.Model.Implicit (SMem Policy)
set_option linter.unusedSectionVars false

section
variable {K m n p L : Type}

/-- either asks, or stops without value -/
def Busy {α : Type} (q : SP K m n p L α) : Prop := ∀ s, match q s with | .ret (.ok _ _) => False | _ => True

/-- asks first -/
def AskFirst {α : Type} (q : SP K m n p L α) : Prop := ∀ s, match q s with | .ret _ => False | .ask _ _ _ => True

theorem AskFirst.busy {α : Type} {q : SP K m n p L α} (h : AskFirst q) : Busy q := by
  intro s
  have := h s
  rcases hq : q s with r | ⟨x, w, k⟩
  · rw [hq] at this; exact this.elim
  · trivial

theorem AskFirst.bind {α β : Type} {q : SP K m n p L α} (f : α → SP K m n p L β) (h : AskFirst q) : AskFirst (q >>= f) := by
  intro s
  have := h s
  simp only [Bind.bind, SM.bind]
  rcases hq : q s with r | ⟨x, w, k⟩
  · rw [hq] at this; exact this.elim
  · trivial

theorem AskFirst.catchE {α : Type} {q : SP K m n p L α} (f : Exc → Option (SP K m n p L α)) (h : AskFirst q) : AskFirst (SM.catchE q f) := by
  intro s
  have := h s
  simp only [SM.catchE]
  rcases hq : q s with r | ⟨x, w, k⟩
  · rw [hq] at this; exact this.elim
  · trivial

theorem AskFirst.get {α : Type} {f : Reg K m n p L → SP K m n p L α} (h : ∀ s, AskFirst (f s)) : AskFirst (SM.lift Prog.get >>= f) := by
  intro s
  exact h s s

theorem Busy.bind {α β : Type} {q : SP K m n p L α} (f : α → SP K m n p L β) (h : Busy q) : Busy (q >>= f) := by
  intro s
  have := h s
  simp only [Bind.bind, SM.bind]
  rcases hq : q s with (⟨a, s'⟩ | ⟨st, s'⟩) | ⟨x, w, k⟩
  · rw [hq] at this; exact this.elim
  · trivial
  · trivial

theorem Busy.after {α β : Type} (q : Prog (Reg K m n p L) α) {f : α → SP K m n p L β} (h : ∀ a, Busy (f a)) : Busy (SM.lift q >>= f) := by
  intro s
  simp only [Bind.bind, SM.bind, SM.lift, Ask.bind]
  rcases hq : q s with ⟨a, s'⟩ | ⟨st, s'⟩
  · exact h a s'
  · trivial

theorem busy_throw {α : Type} (e : Exc) : Busy (SM.lift (Prog.throwE e) : SP K m n p L α) := fun _ => trivial

theorem asks_solverOf (solve : SP K m n p L Unit) (h : Busy solve) (reg : Reg K m n p L) (y : n → K) : Asks (solverOf solve reg y) := by
  have := h { reg with x := y }
  unfold solverOf
  rcases hq : solve { reg with x := y } with (⟨a, s'⟩ | ⟨st, s'⟩) | ⟨x, w, k⟩
  · rw [hq] at this; exact this.elim
  · trivial
  · trivial

theorem askFirst_evalSys (x : n → K) (w : Bool) : AskFirst (evalSys x w : SP K m n p L Unit) := by
  intro s; trivial

end

section
variable {K m n p L : Type} [Field K] [LinearOrder K] [IsStrictOrderedRing K] [Fintype m] [Fintype n] [Fintype p]

theorem busy_lsLoop [DecidableEq n] (env : Env K m n p L) (cfg : Cfg K) (tag : Tag) (upd) (k : Nat) (i : Int) : Busy (lsLoop env cfg tag upd (k + 1) i) :=
  Busy.bind _ (AskFirst.busy (AskFirst.catchE _ (AskFirst.get (fun s => AskFirst.bind _ (askFirst_evalSys s.x true)))))

theorem busy_newtonLoop (env : Env K m n p L) (cfg : Cfg K) (mf : Bool) (upd) (k : Nat) (i : Int) : Busy (newtonLoop env cfg mf upd (k + 1) i) :=
  Busy.bind _ (AskFirst.busy (AskFirst.catchE _ (AskFirst.get (fun s => askFirst_evalSys s.x _))))

theorem busy_lsSolve [DecidableEq n] (env : Env K m n p L) (cfg : Cfg K) (tag : Tag) (h1 : 1 ≤ cfg.maxIters) : Busy (lsSolve env cfg tag) := by
  obtain ⟨k, hk⟩ : ∃ k, cfg.maxIters.toNat = k + 1 := ⟨cfg.maxIters.toNat - 1, by omega⟩
  unfold lsSolve
  rw [hk]
  split
  · exact Busy.after _ (fun _ => busy_lsLoop _ _ _ _ _ _)
  · exact Busy.after _ (fun _ => Busy.after _ (fun _ => Busy.after _ (fun _ => busy_lsLoop _ _ _ _ _ _)))
  · exact Busy.after _ (fun _ => Busy.after _ (fun _ => Busy.after _ (fun _ => busy_lsLoop _ _ _ _ _ _)))
  · split
    · exact Busy.after _ (fun _ => Busy.after _ (fun _ => Busy.after _ (fun _ => busy_lsLoop _ _ _ _ _ _)))
    · exact busy_throw _
  · split
    · exact Busy.after _ (fun _ => Busy.after _ (fun _ => Busy.after _ (fun _ => busy_lsLoop _ _ _ _ _ _)))
    · exact busy_throw _
  · exact busy_throw _

end

section
variable {K m n p L : Type} [Field K]

/-- from the contract of a policy to runs with one solver object -/
theorem policyObj_record {P : Type} (name : Pressio.Model.Explicit.Scheme) (hname : name = .BDF1 ∨ name = .BDF2) (policy : Policy K (n → K) (n → K) P (Ans K m n))
    (F : List (n → K) → K → K → (n → K) → Bool → Except Exc (Ans K m n)) (PI PD : List (n → K) → List (n → K) → P → Prop)
    (h : PolicyRefinesA name policy F (Lspg.StOf name) PI PD) (hF : ∀ hist t dt x w, F hist t dt x w ≠ .error .timeStepFailure)
    (solve : SP K m n p L Unit) (hs : Fine solve) (hb : Busy solve) (Q : Reg K m n p L → Prop) (hQ : ∀ reg y hist t dt, Q reg → Q (SM.run (F hist t dt) solve { reg with x := y }).state)
    (dts : List K) (t0 : K) (y0 : n → K) (mem : SMem K (n → K) (n → K) P) (hmem : Lspg.Sized name mem) (hp : PI [y0] mem.rhs mem.pol) (reg : Reg K m n p L) (hreg : Q reg)
    (pre post : List (Record K (n → K) (Ans K m n))) (r : Record K (n → K) (Ans K m n))
    (hr : driveObj (Lspg.stepWith name policy) solve dts t0 [y0] y0 mem reg = pre ++ r :: post) :
    ∃ yn older reg', Q reg' ∧ accepted y0 pre = yn :: older ∧ r.hist = yn :: older ∧ r.t = timeAfter t0 pre ∧ r.dt ∈ dts ∧
      (let res := SM.run (F (yn :: older) r.t r.dt) solve { reg' with x := yn }
       res.state.log = reg'.log ++ r.queries ∧ r.stop = stepStop res.stop? ∧ r.y = if res.stop? = some (.exc .nonlinearSolveFailure) then yn else res.state.x) := by
  rcases hname with rfl | rfl
  · exact driveObj_record Asks _ F _ (refinesOn_asks (refines_bdf1_asked policy F PI PD h)) hF solve hs (asks_solverOf solve hb) Q hQ
      (fun atts ha t y mem hI => drive_eq_ideal_asked _ _ _ (refines_bdf1_asked policy F PI PD h) hF atts
        (fun a haa y => by obtain ⟨rg, -, hs'⟩ := ha a haa; rw [hs']; exact honest_solverOf _ hs rg y)
        (fun a haa y => by obtain ⟨rg, -, hs'⟩ := ha a haa; rw [hs']; exact asks_solverOf _ hb rg y) t y [] mem hI)
      dts t0 y0 mem reg ⟨hmem, hp⟩ hreg pre post r hr
  · obtain ⟨a, b, hab⟩ := List.length_eq_two.1 hmem
    exact driveObj_record Asks _ F _ (refinesOn_asks (refines_bdf2_asked policy F PI PD h)) hF solve hs (asks_solverOf solve hb) Q hQ
      (fun atts ha t y mem hI => drive_eq_ideal_asked _ _ _ (refines_bdf2_asked policy F PI PD h) hF atts
        (fun a haa y => by obtain ⟨rg, -, hs'⟩ := ha a haa; rw [hs']; exact honest_solverOf _ hs rg y)
        (fun a haa y => by obtain ⟨rg, -, hs'⟩ := ha a haa; rw [hs']; exact asks_solverOf _ hb rg y) t y [] mem hI)
      dts t0 y0 mem reg ⟨⟨a, b, hab, by simp⟩, hp⟩ hreg pre post r hr

end
end Pressio.Lemmas.SolverRun
