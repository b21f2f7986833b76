import Verif.Lemmas.NonlinearLoop

/-
  `solve` of the solver objects refines `solve` of the specification.
-/
namespace Pressio.Lemmas.Nonlinear
set_option autoImplicit false
open Pressio Matrix
open Pressio.Model.Nonlinear Pressio.Spec.Nonlinear
set_option linter.unusedSectionVars false

variable {K m n p L : Type}
variable [Field K] [LinearOrder K] [IsStrictOrderedRing K] [Fintype m] [Fintype n] [Fintype p]

theorem objective_ok (env : Env K m n p L) (sys : Sys K m n) (tag : Tag) : Objective sys (lsObjective env tag) (objAt env sys tag) :=
  fun x s => objective_run env sys tag x s
theorem newtonObjective_ok (env : Env K m n p L) (sys : Sys K m n) : Objective sys (newtonObjective env) (fun x => (sys.res x).map env.normM) :=
  fun x s => newtonObjective_run env sys x s

/-- changing scratch before a loop -/
theorem Refines.congr {D : DContainer K → Prop} {full : Norms K → Norms K → DContainer K} {s s' : Reg K m n p L} {R : Res (Reg K m n p L) Unit} {o : Out K m n L}
    (h : Refines D full s' R o) (hf : s'.files = s.files) (hl : s'.log = s.log) : Refines D full s R o := by
  obtain ⟨h1, h2, h3, h4, h5, h6⟩ := h
  exact ⟨h1, h2, by rw [h3, hf], by rw [h4, hl], h5, h6⟩

theorem reset_run (tag : Tag) (s : Reg K m n p L) :
    resetForNewSolve tag s = .ok () { s with damp := if tag = .lm then 1 else s.damp } := by
  cases tag <;> rfl

theorem lsSolve_refines [DecidableEq n] (env : Env K m n p L) (cfg : Cfg K) (sys : Sys K m n) (tag : Tag) (s : Reg K m n p L) (hd : LsDiag none s.diag) :
    Refines (LsDiag none) lsFull s (SM.run sys.toF (Model.Nonlinear.lsSolve env cfg tag) s) (Spec.Nonlinear.lsSolve env cfg sys tag (absR s)) := by
  have loop := fun rule upd hupd s1 (h : LsDiag none s1.diag) =>
    lsLoop_refines env cfg sys tag rule upd hupd cfg.maxIters.toNat 1 none s1 (by omega) rfl h
  have hback : ∀ z (s1 : Reg K m n p L) r J now, s1.g = gradOf env tag r J → (tag = .lm → s1.H0 = Jᵀ * J) →
      Matches sys s1 (SM.run sys.toF (backtrackUpdater z (lsObjective env tag) now.obj) s1) (lsUpd env sys tag (.backtrack z) (absR s1) r J now) :=
    fun z s1 r J now _ _ => backtrack_matches sys _ _ (objective_ok env sys tag) z now.obj s1
  have hline : ∀ o, (o = match cfg.params with
        | none => iterate sys (lsProblem env cfg sys tag (.backtrack 1)) cfg.maxIters.toNat 1 none (lsStart tag (.backtrack 1) (absR s))
        | some (z :: _) => iterate sys (lsProblem env cfg sys tag (.backtrack z)) cfg.maxIters.toNat 1 none (lsStart tag (.backtrack z) (absR s))
        | some [] => ⟨.threw (.ub "front() of an empty vector"), lsStart tag .standard (absR s), [], [], none⟩) →
      Refines (LsDiag none) lsFull s (SM.run sys.toF (do
        SM.lift (Prog.modify (fun s => { s with trial := env.createState }))
        SM.lift (resetForNewSolve tag)
        let z ← SM.lift (backtrackZeta cfg.params)
        lsLoop env cfg tag (backtrackUpdater z) cfg.maxIters.toNat 1) s) o := by
    rintro o rfl
    simp only [SM.run_bind, SM.run_lift, Prog.bind_run, Prog.modify_run, reset_run]
    rcases hp : cfg.params with _ | _ | ⟨z, zs⟩
    · exact (loop (.backtrack 1) (backtrackUpdater 1) (hback 1)
        { s with trial := env.createState, damp := if tag = .lm then 1 else s.damp } hd).congr rfl rfl
    · exact ⟨rfl, rfl, by simp [backtrackZeta], by simp [backtrackZeta], hd, by simp⟩
    · exact (loop (.backtrack z) (backtrackUpdater z) (hback z)
        { s with trial := env.createState, damp := if tag = .lm then 1 else s.damp } hd).congr rfl rfl
  unfold Model.Nonlinear.lsSolve Spec.Nonlinear.lsSolve lsRule
  rcases hu : cfg.update with _ | _ | _ | _ | _ | _
  · simp only [SM.run_bind, SM.run_lift, Prog.bind_run, reset_run]
    refine (loop .standard (fun _ _ => defaultUpdater) (fun s1 r J now _ _ => default_matches sys s1)
      { s with damp := if tag = .lm then 1 else s.damp } hd).congr rfl rfl
  · refine hline _ ?_
    rcases cfg.params with _ | _ | ⟨z, zs⟩ <;> rfl
  · refine hline _ ?_
    rcases cfg.params with _ | _ | ⟨z, zs⟩ <;> rfl
  · simp only []
    by_cases ht : tag = .lm
    · subst ht
      simp only [if_true, SM.run_bind, SM.run_lift, Prog.bind_run, Prog.modify_run, reset_run]
      refine (loop .lm1 lm1Updater (fun s1 r J now hg hH => ?_)
        { s with trial := env.createState, damp := 1, nu := 2, cDiagH := s.x } hd).congr rfl rfl
      have := lm1_matches env sys now.obj s1 J (hH rfl) .lm
      rw [hg] at this
      exact this
    · simp only [if_neg ht]
      exact ⟨rfl, rfl, by simp, by simp, hd, by simp⟩
  · simp only []
    by_cases ht : tag = .lm
    · subst ht
      simp only [if_true, SM.run_bind, SM.run_lift, Prog.bind_run, Prog.modify_run, reset_run]
      refine (loop .lm2 lm2Updater (fun s1 r J now hg hH => ?_)
        { s with trial := env.createState, damp := 1, cDiagH := s.x } hd).congr rfl rfl
      have := lm2_matches env sys now.obj s1 J (hH rfl) .lm
      rw [hg] at this
      exact this
    · simp only [if_neg ht]
      exact ⟨rfl, rfl, by simp, by simp, hd, by simp⟩
  · exact ⟨rfl, rfl, by simp, by simp, hd, by simp⟩

theorem newtonSolve_refines (env : Env K m n p L) (cfg : Cfg K) (sys : Sys K m n) (s : Reg K m n p L) (hd : NewtonDiag none s.diag) :
    Refines (NewtonDiag none) newtonFull s (SM.run sys.toF (Model.Nonlinear.newtonSolve env cfg) s) (Spec.Nonlinear.newtonSolve env cfg sys (absR s)) := by
  unfold Model.Nonlinear.newtonSolve Spec.Nonlinear.newtonSolve newtonRule
  rcases hu : cfg.update with _ | _ | _ | _ | _ | _
  · exact newtonLoop_refines env cfg sys false .standard _ (fun s1 r J now => default_matches sys s1) _ 1 none s (by omega) rfl hd
  · exact ⟨rfl, rfl, by simp, by simp, hd, by simp⟩
  · simp only [SM.run_bind, SM.run_lift, Prog.bind_run, Prog.modify_run]
    have hback : ∀ z (s1 : Reg K m n p L) r J now,
      Matches sys s1 (SM.run sys.toF (backtrackUpdater z (newtonObjective env) now.resid) s1) ((newtonProblem env cfg sys false (.backtrack z)).upd (absR s1) r J now) :=
      fun z s1 r J now => backtrack_matches sys _ _ (newtonObjective_ok env sys) z now.resid s1
    rcases hp : cfg.params with _ | _ | ⟨z, zs⟩
    · exact (newtonLoop_refines env cfg sys false (.backtrack 1) _ (hback 1) _ 1 none { s with trial := env.createState } (by omega) rfl hd).congr rfl rfl
    · exact ⟨rfl, rfl, by simp [backtrackZeta], by simp [backtrackZeta], hd, by simp⟩
    · exact (newtonLoop_refines env cfg sys false (.backtrack z) _ (hback z) _ 1 none { s with trial := env.createState } (by omega) rfl hd).congr rfl rfl
  all_goals exact ⟨rfl, rfl, by simp, by simp, hd, by simp⟩

theorem matrixFreeSolve_refines (env : Env K m n p L) (cfg : Cfg K) (sys : Sys K m n) (s : Reg K m n p L) (hd : NewtonDiag none s.diag) :
    Refines (NewtonDiag none) newtonFull s (SM.run sys.toF (Model.Nonlinear.matrixFreeSolve env cfg) s) (Spec.Nonlinear.matrixFreeSolve env cfg sys (absR s)) :=
  newtonLoop_refines env cfg sys true .standard _ (fun s1 r J now => default_matches sys s1) _ 1 none s (by omega) rfl hd

end Pressio.Lemmas.Nonlinear
