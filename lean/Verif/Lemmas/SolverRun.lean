import Verif.Lemmas.SolverTree

/-
  Runs with one solver object: they are runs of `Spec.Implicit.drive` whose attempts use that object with the memory it has at the time.
-/
namespace Pressio.Lemmas.SolverRun
set_option autoImplicit false
set_option linter.unusedSectionVars false
open Pressio Matrix
open Pressio.Model.Nonlinear Pressio.Spec.Nonlinear Pressio.Spec.SolverRun Pressio.Spec.Implicit Pressio.Lemmas.Implicit Pressio.Lemmas.SolverTree

variable {K m n p L S : Type}

theorem outcome_solverOf (solve : SP K m n p L Unit) (reg : Reg K m n p L) (y : n → K) (F : (n → K) → Bool → Except Exc (Ans K m n)) :
    outcome F (solverOf solve reg y) = ⟨(SM.run F solve { reg with x := y }).stop?, (SM.run F solve { reg with x := y }).state.x, (solve { reg with x := y }).asked F⟩ :=
  outcome_toTree F Reg.x _

theorem honest_solverOf (solve : SP K m n p L Unit) (hs : Fine solve) (reg : Reg K m n p L) (y : n → K) : Honest (solverOf solve reg y) :=
  honest_toTree _ _ (hs _).1

/-- the evaluations are the new entries of the record in the memory -/
theorem log_run (solve : SP K m n p L Unit) (hs : Fine solve) (F : (n → K) → Bool → Except Exc (Ans K m n)) (s : Reg K m n p L) :
    (SM.run F solve s).state.log = s.log ++ (solve s).asked F := (hs s).2 F

/-- an attempt does what the ideal attempt does, for solvers with property `Q` -/
def RefinesOn {Y A : Type} [Add K] (Q : SolveTree Y A → Prop) (step : (Y → SolveTree Y A) → K → K → Int → Prog (SolveSt Y S A) Unit)
    (F : List Y → K → K → Y → Bool → Except Exc A) (Inv : K → List Y → S → Prop) : Prop :=
  ∀ (solver : Y → SolveTree Y A) (t dt : K) (y : Y) (prev : List Y) (mem : S), Inv t (y :: prev) mem → Q (solver y) →
    ∃ m', (match (outcome (F (y :: prev) t dt) (solver y)).stop with
      | none => Inv (t + dt) ((outcome (F (y :: prev) t dt) (solver y)).y :: y :: prev) m'
      | some (.exc .nonlinearSolveFailure) => Inv t (y :: prev) m'
      | some _ => True) ∧
    step solver t dt (y :: prev).length ⟨y, mem, []⟩ =
      (match (outcome (F (y :: prev) t dt) (solver y)).stop with
      | none => .ok () ⟨(outcome (F (y :: prev) t dt) (solver y)).y, m', (outcome (F (y :: prev) t dt) (solver y)).queries⟩
      | some (.exc .nonlinearSolveFailure) =>
        .stop (.exc .timeStepFailure) ⟨y, m', (outcome (F (y :: prev) t dt) (solver y)).queries⟩
      | some h => .stop h ⟨(outcome (F (y :: prev) t dt) (solver y)).y, m', (outcome (F (y :: prev) t dt) (solver y)).queries⟩)

theorem refinesOn_true {Y A : Type} [Add K] {step : (Y → SolveTree Y A) → K → K → Int → Prog (SolveSt Y S A) Unit}
    {F : List Y → K → K → Y → Bool → Except Exc A} {Inv : K → List Y → S → Prop} (h : Refines step F Inv) : RefinesOn (fun _ => True) step F Inv :=
  fun solver t dt y prev mem hI _ => h solver t dt y prev mem hI

theorem refinesOn_asks {Y A : Type} [Add K] {step : (Y → SolveTree Y A) → K → K → Int → Prog (SolveSt Y S A) Unit}
    {F : List Y → K → K → Y → Bool → Except Exc A} {Inv : K → List Y → S → Prop} (h : RefinesAsked step F Inv) : RefinesOn Asks step F Inv :=
  fun solver t dt y prev mem hI ha => h solver t dt y prev mem hI ha

theorem driveObj_eq_drive [Add K] (Q : SolveTree (n → K) (Ans K m n) → Prop) (step : ((n → K) → SolveTree (n → K) (Ans K m n)) → K → K → Int → Prog (SolveSt (n → K) S (Ans K m n)) Unit)
    (F : List (n → K) → K → K → (n → K) → Bool → Except Exc (Ans K m n)) (Inv : K → List (n → K) → S → Prop) (h : RefinesOn Q step F Inv)
    (hF : ∀ hist t dt x w, F hist t dt x w ≠ .error .timeStepFailure) (solve : SP K m n p L Unit) (hs : Fine solve) (hQ : ∀ reg y, Q (solverOf solve reg y))
    (P : Reg K m n p L → Prop) (hP : ∀ reg y hist t dt, P reg → P (SM.run (F hist t dt) solve { reg with x := y }).state)
    (dts : List K) (t : K) (y : n → K) (prev : List (n → K)) (mem : S) (reg : Reg K m n p L) (hI : Inv t (y :: prev) mem) (hreg : P reg) :
    ∃ atts : List (Attempt K (n → K) (Ans K m n)), (∀ a ∈ atts, ∃ reg, P reg ∧ a.solver = solverOf solve reg) ∧ atts.map (·.dt) = dts ∧
      driveObj step solve dts t (y :: prev) y mem reg = drive step atts t (y :: prev) y mem := by
  induction dts generalizing t y prev mem reg with
  | nil => exact ⟨[], by simp, rfl, rfl⟩
  | cons dt rest ih =>
    obtain ⟨m', hm', e⟩ := h (solverOf solve reg) t dt y prev mem hI (hQ reg y)
    have hh := honest_outcome (F (y :: prev) t dt) (hF _ _ _) (solverOf solve reg y) (honest_solverOf solve hs reg y)
    have hrep : (solve { reg with x := y }).replay reg ((outcome (F (y :: prev) t dt) (solverOf solve reg y)).queries.map (·.ans)) = (SM.run (F (y :: prev) t dt) solve { reg with x := y }).state := by
      rw [outcome_solverOf]; exact replay_asked _ _ _
    have hnext := hP reg y (y :: prev) t dt hreg
    simp only [driveObj]
    rw [e]
    have same : ∀ x : List (Attempt K (n → K) (Ans K m n)), (∀ a ∈ x, ∃ reg, P reg ∧ a.solver = solverOf solve reg) → ∀ a ∈ (⟨dt, solverOf solve reg⟩ :: x : List (Attempt K (n → K) (Ans K m n))),
        ∃ reg, P reg ∧ a.solver = solverOf solve reg := by
      intro x hx a ha
      rcases List.mem_cons.1 ha with rfl | ha
      · exact ⟨reg, hreg, rfl⟩
      · exact hx a ha
    have over : (∃ x : List (Attempt K (n → K) (Ans K m n)), (∀ a ∈ x, ∃ reg, P reg ∧ a.solver = solverOf solve reg) ∧ x.map (·.dt) = rest) := by
      refine ⟨rest.map (fun d => ⟨d, solverOf solve reg⟩), ?_, by simp [Function.comp_def]⟩
      intro a ha
      obtain ⟨d, -, rfl⟩ := List.mem_map.1 ha
      exact ⟨reg, hreg, rfl⟩
    generalize hst : (outcome (F (y :: prev) t dt) (solverOf solve reg y)).stop = st at *
    match st with
    | none =>
      simp only at hm' e ⊢
      rw [hrep]
      obtain ⟨x, h1, h2, h3⟩ := ih _ _ _ _ _ hm' hnext
      refine ⟨⟨dt, solverOf solve reg⟩ :: x, same x h1, by simp [h2], ?_⟩
      simp only [drive]
      rw [e]
      simp only [h3]
    | some (.exc ex) =>
      cases ex with
      | nonlinearSolveFailure =>
        simp only at hm' e ⊢
        rw [hrep]
        obtain ⟨x, h1, h2, h3⟩ := ih _ _ _ _ _ hm' hnext
        refine ⟨⟨dt, solverOf solve reg⟩ :: x, same x h1, by simp [h2], ?_⟩
        simp only [drive]
        rw [e]
        simp only [h3]
      | timeStepFailure => exact absurd rfl hh
      | _ =>
        obtain ⟨x, h1, h2⟩ := over
        refine ⟨⟨dt, solverOf solve reg⟩ :: x, same x h1, by simp [h2], ?_⟩
        simp only [drive]
        rw [e]
    | some (.ub w) =>
      obtain ⟨x, h1, h2⟩ := over
      refine ⟨⟨dt, solverOf solve reg⟩ :: x, same x h1, by simp [h2], ?_⟩
      simp only [drive]
      rw [e]
    | some .fuel =>
      obtain ⟨x, h1, h2⟩ := over
      refine ⟨⟨dt, solverOf solve reg⟩ :: x, same x h1, by simp [h2], ?_⟩
      simp only [drive]
      rw [e]

/-- the step sizes of the records are among the given ones -/
theorem driveObj_dts [Add K] (step : ((n → K) → SolveTree (n → K) (Ans K m n)) → K → K → Int → Prog (SolveSt (n → K) S (Ans K m n)) Unit) (solve : SP K m n p L Unit) (dts : List K) :
    ∀ (t : K) (hist : List (n → K)) (y : n → K) (mem : S) (reg : Reg K m n p L), ∀ r ∈ driveObj step solve dts t hist y mem reg, r.dt ∈ dts := by
  induction dts with
  | nil => intro t hist y mem reg r hr; simp [driveObj] at hr
  | cons dt rest ih =>
    intro t hist y mem reg r hr
    simp only [driveObj] at hr
    split at hr
    · rcases List.mem_cons.1 hr with rfl | hr
      · exact List.mem_cons_self
      · exact List.mem_cons_of_mem _ (ih _ _ _ _ _ r hr)
    · rcases List.mem_cons.1 hr with rfl | hr
      · exact List.mem_cons_self
      · exact List.mem_cons_of_mem _ (ih _ _ _ _ _ r hr)
    · rw [List.mem_singleton] at hr
      subst hr; exact List.mem_cons_self

/-- each record of a run with a solver object is a solve of the ideal equations by that object -/
theorem driveObj_record [Add K] (Q : SolveTree (n → K) (Ans K m n) → Prop) (step : ((n → K) → SolveTree (n → K) (Ans K m n)) → K → K → Int → Prog (SolveSt (n → K) S (Ans K m n)) Unit)
    (F : List (n → K) → K → K → (n → K) → Bool → Except Exc (Ans K m n)) (Inv : K → List (n → K) → S → Prop) (h : RefinesOn Q step F Inv)
    (hF : ∀ hist t dt x w, F hist t dt x w ≠ .error .timeStepFailure) (solve : SP K m n p L Unit) (hs : Fine solve) (hQ : ∀ reg y, Q (solverOf solve reg y))
    (P : Reg K m n p L → Prop) (hP : ∀ reg y hist t dt, P reg → P (SM.run (F hist t dt) solve { reg with x := y }).state)
    (hid : ∀ atts : List (Attempt K (n → K) (Ans K m n)), (∀ a ∈ atts, ∃ reg, P reg ∧ a.solver = solverOf solve reg) → ∀ t y mem, Inv t [y] mem →
      drive step atts t [y] y mem = ideal F atts t y [])
    (dts : List K) (t0 : K) (y0 : n → K) (mem : S) (reg : Reg K m n p L) (hI : Inv t0 [y0] mem) (hreg : P reg)
    (pre post : List (Record K (n → K) (Ans K m n))) (r : Record K (n → K) (Ans K m n)) (hr : driveObj step solve dts t0 [y0] y0 mem reg = pre ++ r :: post) :
    ∃ yn older reg', P reg' ∧ accepted y0 pre = yn :: older ∧ r.hist = yn :: older ∧ r.t = timeAfter t0 pre ∧ r.dt ∈ dts ∧
      (let res := SM.run (F (yn :: older) r.t r.dt) solve { reg' with x := yn }
       res.state.log = reg'.log ++ r.queries ∧ r.stop = stepStop res.stop? ∧ r.y = if res.stop? = some (.exc .nonlinearSolveFailure) then yn else res.state.x) := by
  obtain ⟨atts, h1, h2, h3⟩ := driveObj_eq_drive Q step F Inv h hF solve hs hQ P hP dts t0 y0 [] mem reg hI hreg
  rw [h3] at hr
  obtain ⟨g1, g2⟩ := drive_split _ _ _ _ _ _ _ _ _ hr
  rw [hid atts h1 _ _ _ hI] at hr
  obtain ⟨a, ha, yn, pv, e1, e2, e3, e4, e5⟩ := ideal_record _ _ _ _ _ r (by rw [hr]; simp)
  obtain ⟨reg', hr', hsol⟩ := h1 a ha
  rw [hsol, outcome_solverOf, e1] at e3 e4 e5
  refine ⟨yn, pv, reg', hr', by rw [← e1]; exact g1.symm, e1, g2, by rw [e2, ← h2]; exact List.mem_map_of_mem ha, ?_, ?_, ?_⟩
  · rw [log_run solve hs, e3]
  · rw [e4]; rfl
  · rw [e5]
    simp only []
    generalize (SM.run (F (yn :: pv) r.t r.dt) solve { reg' with x := yn }).stop? = st
    match st with
    | none => rfl
    | some (.exc e) => cases e <;> simp
    | some (.ub w) => simp
    | some .fuel => simp

end Pressio.Lemmas.SolverRun
