import Verif.Lemmas.RecoveryRuns
import Verif.Lemmas.NewtonDomain
import Verif.Props.AdvanceImplicit

/-
  C97: with step recovery, runs reach the target whenever small steps succeed; in particular implicit runs of models that can only be evaluated on a domain.
-/
namespace Pressio.Props
set_option autoImplicit false
set_option linter.unusedSectionVars false
open Pressio Pressio.Model.Advance Pressio.Spec.AdvanceTarget Pressio.Spec.AdvanceDrive Pressio.Lemmas.AdvanceDrive Pressio.Spec.RecoveryRuns
open Pressio.Spec.Implicit (accepted timeAfter Record)
open Pressio.Spec.SolverRun (driveObj)

section
variable {K Y M U : Type} [Field K] [LinearOrder K] [IsStrictOrderedRing K]

/-- **C97.** `advance_to_target_point_with_step_recovery` with any stepper object of which attempts of sizes up to `h0` succeed, and larger attempts succeed or throw `TimeStepFailure`, as long as the sizes are in `[lo, H]` and the steps start before
    the target; and with a policy whose minimum size leaves room for one reduction of a size above `h0`. The call returns, at a time not before `final - eps` and not after `final + H`, after at most `k` accepted steps and at most
    `k * (J + 1)` attempts, where `k * lo` covers the distance and `J` reductions bring `H` down to `h0`; what happened is the run of attempts of sizes in `[lo, H]`. -/
theorem C97_recovery (st : K → Int → K → Prog (Y × M) Unit) (pol3 : Int → K → K → Prog U K) (pol5 : Int → K → DtVars K → Prog U (DtVars K)) (obs : Int → K → Y → Prog U Unit)
    (eps start final δ H ρ Φ h0 lo : K) (heps : 0 ≤ eps) (hlt : start < final) (hlo0 : 0 < lo) (hρ : 1 < ρ) (h00 : 0 < h0) (hlo : lo * Φ ≤ h0) (hlδ : lo ≤ δ) (J : Nat) (hJ : H ≤ h0 * ρ ^ J)
    (hpol : Recovering pol5 δ H ρ Φ h0) (hobs : Patient obs) (k fuel : Nat) (hk : final - start ≤ k * lo) (hk' : (k : Int) < int32Max) (hfuel : k + J ≤ fuel) (y0 : Y) (m : M) (u : U)
    (hst : ∀ dts, (∀ d ∈ dts, lo ≤ d ∧ d ≤ H) → (∀ a ∈ attempts st dts ⟨start, 1, y0, m⟩, a.t < final) → ∀ a ∈ attempts st dts ⟨start, 1, y0, m⟩, a.stop = none ∨ (a.stop = some (.exc .timeStepFailure) ∧ h0 < a.dt)) :
    let r := advanceT true eps (userObjects st pol3 pol5 obs) fuel start final ⟨(m, u), y0, []⟩
    ∃ t dts, r = .ok t r.state ∧ final - eps ≤ t ∧ t ≤ final + H ∧ (∀ d ∈ dts, lo ≤ d ∧ d ≤ H) ∧
      let atts := attempts st dts ⟨start, 1, y0, m⟩
      IsRunOf atts start y0 true r ∧ atts.length ≤ k * (J + 1) ∧ (atts.filter (fun a => a.stop.isNone)).length ≤ k ∧ ∀ a ∈ atts, a.t < final := by
  intro r
  have hc := callObs_start st pol3 pol5 obs start y0 m u
  rcases eo : obs 0 start y0 u with ⟨_, u'⟩ | ⟨h, u'⟩
  swap
  · have := hobs 0 start y0 u
    rw [eo] at this
    simp at this
  rw [eo] at hc
  have hr : r = tLoop true eps final (userObjects st pol3 pol5 obs) fuel 1 start ⟨0, 0, 1⟩ ⟨(m, u'), y0, [.obs 0 start y0]⟩ := by
    show advanceT true eps (userObjects st pol3 pol5 obs) fuel start final ⟨(m, u), y0, []⟩ = _
    simp only [advanceT, if_neg hlt.not_gt, if_neg hlt.ne', Prog.bind_run, hc]
  obtain ⟨dts, l, s, T, e1, e2, e3, e4, e5, e6, e7, e8, e9, e10⟩ := tLoop_recovers st pol3 pol5 obs
    (fun c => ∃ dts, (∀ d ∈ dts, lo ≤ d ∧ d ≤ H) ∧ posAfter st dts ⟨start, 1, y0, m⟩ = some c ∧ ∀ a ∈ attempts st dts ⟨start, 1, y0, m⟩, a.t < final) eps final δ H ρ Φ h0 lo heps hlo0 hρ h00 hlo hlδ J hJ hpol hobs (by
      rintro c ⟨dts, h1, h2, h3⟩ hct d hd1 hd2
      have happ := attempts_append st dts [d] _ _ h2
      have hpos := posAfter_append st dts [d] _ _ h2
      have hsz : ∀ x ∈ dts ++ [d], lo ≤ x ∧ x ≤ H := by
        intro x hx
        rcases List.mem_append.1 hx with hx | hx
        · exact h1 x hx
        · rw [List.mem_singleton.1 hx]; exact ⟨hd1, hd2⟩
      have hone : attempts st [d] c = [(attemptAt st c d).1] := by
        simp only [attempts]
        split <;> rfl
      rw [hone] at happ
      have htm : ∀ a ∈ attempts st (dts ++ [d]) ⟨start, 1, y0, m⟩, a.t < final := by
        rw [happ]
        intro a ha
        rcases List.mem_append.1 ha with ha | ha
        · exact h3 a ha
        · rw [List.mem_singleton.1 ha]
          simp only [attemptAt]
          split <;> exact hct
      have h4 := hst _ hsz htm (attemptAt st c d).1 (by rw [happ]; simp)
      simp only [Ok1]
      rcases es : st c.t c.num d (c.y, c.m) with ⟨_, y', m'⟩ | ⟨e, y', m'⟩
      · refine ⟨dts ++ [d], hsz, ?_, htm⟩
        rw [hpos]
        simp only [posAfter, attemptAt, es, Option.bind_some]
      · simp only [attemptAt, es, reduceCtorEq, Option.some.injEq, false_or] at h4
        refine ⟨h4.1, h4.2, dts ++ [d], hsz, ?_, htm⟩
        rw [hpos]
        simp only [posAfter, attemptAt, es, if_pos h4.1, Option.bind_some])
    k fuel 1 start ⟨0, 0, 1⟩ y0 m u' [.obs 0 start y0] hfuel hlt hk (by omega) ⟨[], by simp, rfl, by simp [attempts]⟩
  rw [e1] at hr
  refine ⟨T, dts, by rw [hr]; rfl, e9, e10, e6, ?_, by rw [e4]; exact e5, e8, e7⟩
  rw [hr]
  exact Part.run e3 e2

end

section
open Pressio.Model.Nonlinear (Env Cfg Reg Ans SP Tag)
variable {K S U m n p L : Type} [Field K] [LinearOrder K] [IsStrictOrderedRing K]

/-- **C97, implicit steppers with a solver object**: whatever holds at every point of such runs holds of everything that is observed. -/
theorem C97_recovery_implicit (step : ((n → K) → SolveTree (n → K) (Ans K m n)) → K → K → Int → Prog (SolveSt (n → K) S (Ans K m n)) Unit) (solve : SP K m n p L Unit)
    (pol3 : Int → K → K → Prog U K) (pol5 : Int → K → DtVars K → Prog U (DtVars K)) (obs : Int → K → (n → K) → Prog U Unit)
    (eps start final δ H ρ Φ h0 lo : K) (heps : 0 ≤ eps) (hlt : start < final) (hlo0 : 0 < lo) (hρ : 1 < ρ) (h00 : 0 < h0) (hlo : lo * Φ ≤ h0) (hlδ : lo ≤ δ) (J : Nat) (hJ : H ≤ h0 * ρ ^ J)
    (hpol : Recovering pol5 δ H ρ Φ h0) (hobs : Patient obs) (k fuel : Nat) (hk : final - start ≤ k * lo) (hk' : (k : Int) < int32Max) (hfuel : k + J ≤ fuel) (y0 : n → K) (mem : S) (reg : Reg K m n p L) (u : U)
    (P : List (n → K) → K → Prop)
    (hrun : ∀ dts, (∀ d ∈ dts, lo ≤ d ∧ d ≤ H) → let run := driveObj step solve dts start [y0] y0 mem reg
      (∀ r ∈ run, r.t < final) → (∀ r ∈ run, r.stop = none ∨ (r.stop = some (.exc .timeStepFailure) ∧ h0 < r.dt)) ∧ ∀ pre post, run = pre ++ post → P (accepted y0 pre) (timeAfter start pre)) :
    let r := advanceT true eps (userObjects (objStepper step solve) pol3 pol5 obs) fuel start final ⟨((mem, reg), u), y0, []⟩
    (∃ t, r = .ok t r.state ∧ final - eps ≤ t ∧ t ≤ final + H) ∧ (observations r.state.log).length ≤ k + 1 ∧ (stepCalls r.state.log).length ≤ k * (J + 1) ∧
      (observations r.state.log).getLast?.map (·.2.2) = some r.state.y ∧ ∀ i t y, (i, t, y) ∈ observations r.state.log → ∃ l, P (y :: l) t ∧ (l.length : Int) = i := by
  intro r
  have hlist : ∀ dts, (driveObj step solve dts start [y0] y0 mem reg).map toAtt = attempts (objStepper step solve) dts ⟨start, 1, y0, (mem, reg)⟩ := fun dts => C92_runs step solve dts start y0 mem reg
  obtain ⟨t, dts, g1, g2, g3, g4, g5, g6, g7, g8⟩ := C97_recovery (objStepper step solve) pol3 pol5 obs eps start final δ H ρ Φ h0 lo heps hlt hlo0 hρ h00 hlo hlδ J hJ hpol hobs k fuel hk hk' hfuel y0 (mem, reg) u (by
    intro dts hd ht a ha
    rw [← hlist] at ha ht
    obtain ⟨q, hq, rfl⟩ := List.mem_map.1 ha
    exact (hrun dts hd (fun r hr => ht _ (List.mem_map_of_mem hr))).1 q hq)
  rw [← hlist] at g5 g6 g7 g8
  have hR := hrun dts g4 (fun r hr => g8 _ (List.mem_map_of_mem hr))
  have hob := g5.observer
  refine ⟨⟨t, g1, g2, g3⟩, ?_, ?_, ?_, ?_⟩
  · rw [hob]
    simp only [List.length_cons, seen, List.length_map]
    omega
  · rw [g5.calls, List.length_map]
    exact g6
  · -- the last attempt has been accepted
    have hst := g5.state
    obtain ⟨dts', h1, h2, h3, h4⟩ := C92_target true eps (objStepper step solve) pol3 pol5 obs fuel start final hlt y0 (mem, reg) u
    have hn : (advanceT true eps (userObjects (objStepper step solve) pol3 pol5 obs) fuel start final ⟨((mem, reg), u), y0, []⟩).stop? = none := by
      rw [g1]; rfl
    obtain ⟨pre, a, e1, e2⟩ := h4 hn
    have ho' := h1.observer
    have hs' := h1.state
    rw [e1] at ho' hs'
    show (observations r.state.log).getLast?.map (·.2.2) = some r.state.y
    have ho' : observations r.state.log = _ := ho'
    have hs' : r.state.y = _ := hs'
    rw [ho', hs']
    simp only [seen, stateAfter, List.filter_append, List.filter_cons, e2, Option.isNone_none, if_true, List.filter_nil, List.map_append, List.map_cons, List.map_nil, ← List.cons_append, List.getLast?_concat, Option.map_some, Option.getD_some]
  · intro i t' y he
    rw [hob] at he
    obtain ⟨pre, post, l, e1, e2, e3, e4⟩ := seen_run step solve dts start y0 mem reg (i, t', y) he
    have := hR.2 pre post e1
    rw [e2, e3] at this
    exact ⟨l, this, e4⟩

end

section
open Matrix Pressio.Model.Implicit Pressio.Spec.Implicit Pressio.Lemmas.Implicit Pressio.Model.Nonlinear Pressio.Spec.Nonlinear Pressio.Spec.SolverRun Pressio.Lemmas.SolverRun
open Pressio.Model.Explicit (Scheme)
open Pressio.Lemmas.Nonlinear Pressio.Lemmas.SolverTree Pressio.Lemmas.Numerics Pressio.Spec.NewtonConvergence Pressio.Lemmas.NewtonConvergence Pressio.Spec.ImplicitNewtonRuns
variable {E n p L U : Type} [NormedAddCommGroup E] [InnerProductSpace ℝ E] [Fintype n] [DecidableEq n] [Fintype p]
local notation "⟪" x ", " y "⟫" => @inner ℝ _ _ x y

theorem domSystem_noTSF (f : (n → ℝ) → ℝ → (n → ℝ)) (Df : (n → ℝ) → ℝ → Matrix n n ℝ) (Dom : (n → ℝ) → ℝ → Prop) (junk : n → ℝ) : NoTSF (domSystem f Df Dom junk) := by
  intro y t w e jk h
  simp only [domSystem] at h
  split at h
  · cases h
  · cases h; simp

theorem domSystem_wellTyped (f : (n → ℝ) → ℝ → (n → ℝ)) (Df : (n → ℝ) → ℝ → Matrix n n ℝ) (Dom : (n → ℝ) → ℝ → Prop) (junk : n → ℝ) : WellTypedRhs (domSystem f Df Dom junk) := by
  intro y t w g j h
  simp only [domSystem] at h
  split at h
  · simp only [Except.ok.injEq, Prod.mk.injEq] at h
    rw [← h.2]; cases w <;> rfl
  · cases h

theorem domSystem_evaluates (f : (n → ℝ) → ℝ → (n → ℝ)) (Df : (n → ℝ) → ℝ → Matrix n n ℝ) (Dom : (n → ℝ) → ℝ → Prop) (junk : n → ℝ) : Evaluates (domSystem f Df Dom junk) f := by
  intro y t w g j h
  simp only [domSystem] at h
  split at h
  · simp only [Except.ok.injEq, Prod.mk.injEq] at h
    exact h.1.symm
  · cases h

/-- one attempt at a BDF1 step with a Newton object, for a model that can only be evaluated on a domain -/
theorem domain_record (ι : (n → ℝ) →ₗ[ℝ] E) (f : (n → ℝ) → ℝ → (n → ℝ)) (Df : (n → ℝ) → ℝ → Matrix n n ℝ) (Dom : (n → ℝ) → ℝ → Prop) (junk : n → ℝ) (mem : SMem ℝ (n → ℝ) (n → ℝ) PMem) (hmem : Ready .BDF1 mem)
    (env : Env ℝ n n p L) (cfg : Cfg ℝ) (sol : Matrix n n ℝ → (n → ℝ) → n → ℝ) (tick : L → L) (hN : ExactNewton ι env cfg sol tick) (reg : Reg ℝ n n p L) (hreg : NewtonIdle reg) (dts : List ℝ) (t0 : ℝ) (y0 : n → ℝ)
    (pre post : List (Record ℝ (n → ℝ) (Ans ℝ n n))) (r : Record ℝ (n → ℝ) (Ans ℝ n n))
    (hr : driveObj (stdStep .BDF1 (domSystem f Df Dom junk)) (Model.Nonlinear.newtonSolve env cfg) dts t0 [y0] y0 mem reg = pre ++ r :: post) :
    ∃ yn older, accepted y0 pre = yn :: older ∧ r.t = timeAfter t0 pre ∧ r.dt ∈ dts ∧
      let x := newtonIterate f Df sol yn r.t r.dt
      let met := fun a : Nat => ‖ι (x a - yn - r.dt • f (x a) (r.t + r.dt))‖ < cfg.tol
      (∃ a : Nat, (a : Int) < cfg.maxIters ∧ (∀ b ≤ a, Dom (x b) (r.t + r.dt)) ∧ (∀ b < a, ¬ met b) ∧ met a ∧ r.stop = none ∧ r.y = x a ∧ Converged ι cfg.tol r) ∨
      (∃ a : Nat, (a : Int) < cfg.maxIters ∧ (∀ b < a, Dom (x b) (r.t + r.dt) ∧ ¬ met b) ∧ ¬ Dom (x a) (r.t + r.dt) ∧ r.stop = some (.exc .timeStepFailure) ∧ r.y = yn) ∨
      ∀ a : Nat, (a : Int) < cfg.maxIters → Dom (x a) (r.t + r.dt) ∧ ¬ met a := by
  obtain ⟨hι, hnorm, hlin, hsol, hcrit, hupd, hmax⟩ := hN
  have he : ∀ A b s, (env.linJ A b s).stop? ≠ some (.exc .timeStepFailure) := fun A b s => by obtain ⟨c, l⟩ := s; rw [hlin]; simp
  obtain ⟨yn, older, s, g1, g2, g3, g4, g5, g6, g7⟩ := C66_run_is_newton_solves .BDF1 (domSystem f Df Dom junk) (domSystem_noTSF f Df Dom junk) (domSystem_wellTyped f Df Dom junk) mem hmem env he cfg reg hreg dts t0 y0 pre post r hr
  refine ⟨yn, older, g1, g3, g4, ?_⟩
  intro x met
  set sys := sysOf (textbook .BDF1 (domSystem f Df Dom junk) (yn :: older) r.t r.dt) with hsys
  set R : (n → ℝ) → n → ℝ := fun x => x - yn - r.dt • f x (r.t + r.dt) with hR
  set J : (n → ℝ) → Matrix n n ℝ := fun x => 1 - r.dt • Df x (r.t + r.dt) with hJ
  have hin : ∀ x, Dom x (r.t + r.dt) → sys.resJac x = .ok (R x, J x) := fun x hx => by
    simp only [hsys, sysOf, textbook, domSystem, if_pos hx, if_true]; rfl
  have hout : ∀ x, ¬ Dom x (r.t + r.dt) → sys.resJac x = .error .residualEvaluationFailureUnrecoverable := fun x hx => by
    simp only [hsys, sysOf, textbook, domSystem, if_neg hx]; rfl
  obtain ⟨rule, hrl, hspec⟩ := newton_spec env cfg sys (.inl hupd) (absR s)
  have hrule : rule = .standard := by
    unfold newtonRule at hrl; rw [hupd] at hrl; cases hrl; rfl
  subst hrule
  obtain ⟨q1, q2, q3, q4, -⟩ := newton_run env cfg sys g5
  rw [hspec] at q1 q2 q3 q4
  have hit := iterate_domain env cfg sys R J (fun x => Dom x (r.t + r.dt)) hin hout sol tick hlin hcrit cfg.maxIters.toNat 1 none (absR s)
  simp only at hit g7
  have hx0 : (absR s).x = yn := g6
  rw [hx0] at hit
  simp only [hnorm] at hit
  obtain ⟨g8, g9, g10⟩ := g7
  have hlog : r.queries = (iterate sys (newtonProblem env cfg sys false .standard) cfg.maxIters.toNat 1 none (absR s)).log := by
    rw [g8] at q4
    exact List.append_cancel_left q4
  rcases hit with ⟨a, h1, h2, h3, h4, h5, h6, h7⟩ | ⟨a, h1, h2, h3, h4⟩ | h
  · left
    rw [h5] at q1
    have hst : (runNewton env cfg sys s).stop? = none := q1
    rw [hst] at g9 g10
    have hy : r.y = x a := by
      rw [g10, if_neg (by simp)]
      exact (congrArg St.x q2).trans h6
    refine ⟨a, by omega, h2, h3, h4, by rw [g9]; rfl, hy, _, by rw [hlog]; exact h7, R (x a), some (J (x a)), hy.symm, ?_, h4.le⟩
    show sys.toF (x a) true = _
    simp only [Sys.toF, if_true]
    have hd : Dom (x a) (r.t + r.dt) := h2 a le_rfl
    rw [hin _ hd]
    rfl
  · right; left
    rw [h4] at q1
    have hst : (runNewton env cfg sys s).stop? = some (.exc .nonlinearSolveFailure) := q1
    rw [hst] at g9 g10
    exact ⟨a, by omega, h2, h3, by rw [g9]; rfl, by rw [g10, if_pos rfl]⟩
  · right; right
    intro a ha
    exact h a (by omega)

theorem timeAfter_count {A Y : Type} (lo : ℝ) (rs : List (Record ℝ Y A)) (h : ∀ r ∈ rs, lo ≤ r.dt) : ∀ t, t + ((rs.filter (fun r => r.stop.isNone)).length : ℝ) * lo ≤ timeAfter t rs := by
  induction rs with
  | nil => intro t; simp [timeAfter]
  | cons r rs ih =>
    intro t
    have h1 := h r (by simp)
    have h2 := ih (fun r hr => h r (by simp [hr]))
    by_cases hs : r.stop.isNone = true
    · have := h2 (t + r.dt)
      simp only [timeAfter, List.filter_cons, hs, if_true, List.length_cons, List.foldl_cons] at this ⊢
      push_cast
      linarith
    · have := h2 t
      simp only [timeAfter, List.filter_cons, hs] at this ⊢
      simpa using this

/-- **C97, core**: runs of attempts at BDF1 steps of a model that can only be evaluated on a domain. Let `P` (a property of the accepted states and the time) hold in all runs in which every accepted step has converged, and let it keep the states
    inside a region, with a margin, on which the model can be evaluated and steps of sizes up to `h0` are easy. Then attempts of sizes up to `h0` succeed, larger ones succeed or throw `TimeStepFailure`, and `P` holds. -/
theorem domain_run (ι : (n → ℝ) →ₗ[ℝ] E) (f : (n → ℝ) → ℝ → (n → ℝ)) (Df : (n → ℝ) → ℝ → Matrix n n ℝ) (Dom : (n → ℝ) → ℝ → Prop) (junk : n → ℝ) (mem : SMem ℝ (n → ℝ) (n → ℝ) PMem) (hmem : Ready .BDF1 mem)
    (env : Env ℝ n n p L) (cfg : Cfg ℝ) (sol : Matrix n n ℝ → (n → ℝ) → n → ℝ) (tick : L → L) (hN : ExactNewton ι env cfg sol tick) (reg : Reg ℝ n n p L) (hreg : NewtonIdle reg) (dts : List ℝ) (t0 final : ℝ) (y0 : n → ℝ)
    (lo h0 H : ℝ) (hlo0 : 0 < lo) (hdt : ∀ d ∈ dts, lo ≤ d ∧ d ≤ H) (k : Nat) (hk : final - t0 ≤ k * lo) (V : Set (n → ℝ)) (β γ F : ℝ) (hf : Tame ι f Df V t0 (final + H) h0 β γ F) (q : Nat) (hA : Affords cfg h0 β γ F q)
    (hV : ∀ y ∈ V, ∀ t ∈ Set.Icc t0 (final + H), Dom y t) (hDec : Decisive ι f Df Dom sol cfg t0 final H) (P : List (n → ℝ) → ℝ → Prop)
    (hP : ∀ atts : List (Attempt ℝ (n → ℝ) (Ans ℝ n n)), (∀ a ∈ atts, a.dt ∈ dts) → ConvergedRun ι cfg.tol .BDF1 (domSystem f Df Dom junk) f mem atts t0 y0 →
      StepsIn (fun h => h ≤ H) (final + H) (drive (stdStep .BDF1 (domSystem f Df Dom junk)) atts t0 [y0] y0 mem) →
      ∀ pre post, drive (stdStep .BDF1 (domSystem f Df Dom junk)) atts t0 [y0] y0 mem = pre ++ post → P (accepted y0 pre) (timeAfter t0 pre))
    (hU : ∀ y l t, P (y :: l) t → l.length ≤ k → t ∈ Set.Icc t0 final → ∀ x, ‖ι x - ι y‖ ≤ 2 * β * (h0 * F + cfg.tol / 2) → x ∈ V) :
    let run := driveObj (stdStep .BDF1 (domSystem f Df Dom junk)) (Model.Nonlinear.newtonSolve env cfg) dts t0 [y0] y0 mem reg
    (∀ r ∈ run, r.t < final) → (∀ r ∈ run, r.stop = none ∨ (r.stop = some (.exc .timeStepFailure) ∧ h0 < r.dt)) ∧ ∀ pre post, run = pre ++ post → P (accepted y0 pre) (timeAfter t0 pre) := by
  intro run hrt
  have hd0 : ∀ h ∈ dts, 0 ≤ h := fun h hh => hlo0.le.trans (hdt h hh).1
  have htime : ∀ pre post, run = pre ++ post → t0 ≤ timeAfter t0 pre := fun pre post e => (driveObj_prefix (stdStep .BDF1 (domSystem f Df Dom junk)) (Model.Nonlinear.newtonSolve env cfg) dts hd0 t0 [y0] y0 mem reg pre post e).1
  -- every attempt converges or leaves the domain
  have hrec : ∀ pre r post, run = pre ++ r :: post → ∃ yn older, accepted y0 pre = yn :: older ∧ r.t = timeAfter t0 pre ∧ r.dt ∈ dts ∧ r.t ∈ Set.Icc t0 final ∧
      ((r.stop = none ∧ Converged ι cfg.tol r) ∨ (r.stop = some (.exc .timeStepFailure) ∧ ∃ a, ¬ Dom (newtonIterate f Df sol yn r.t r.dt a) (r.t + r.dt))) := by
    intro pre r post e
    obtain ⟨yn, older, g1, g2, g3, g4⟩ := domain_record ι f Df Dom junk mem hmem env cfg sol tick hN reg hreg dts t0 y0 pre post r e
    have hmem' : r.t ∈ Set.Icc t0 final := ⟨by rw [g2]; exact htime _ _ e, (hrt r (by rw [e]; simp)).le⟩
    refine ⟨yn, older, g1, g2, g3, hmem', ?_⟩
    rcases g4 with ⟨a, -, -, -, -, h1, -, h2⟩ | ⟨a, -, -, h1, h2, -⟩ | h
    · exact .inl ⟨h1, h2⟩
    · exact .inr ⟨h2, a, h1⟩
    · obtain ⟨a, ha, hb⟩ := hDec yn r.t hmem' r.dt (hd0 _ g3) (hdt _ g3).2
      rcases hb with hb | hb
      · exact absurd (h a ha).1 hb
      · exact absurd hb (h a ha).2
  -- so the accepted steps have converged
  have hsys := domSystem_noTSF f Df Dom junk
  have hPr : ∀ pre post, run = pre ++ post → P (accepted y0 pre) (timeAfter t0 pre) := by
    have hlin := hN.lin
    have he : ∀ A b s, (env.linJ A b s).stop? ≠ some (.exc .timeStepFailure) := fun A b s => by obtain ⟨c, l⟩ := s; rw [hlin]; simp
    obtain ⟨atts, h1, h2, h3⟩ := driveObj_eq_drive (fun _ => True) (stdStep .BDF1 (domSystem f Df Dom junk)) (textbook .BDF1 (domSystem f Df Dom junk)) (StdInv .BDF1 (domSystem f Df Dom junk))
      (refinesOn_true (std_refines .BDF1 (ready_name .BDF1 mem hmem) (domSystem f Df Dom junk))) (textbook_ne .BDF1 (domSystem f Df Dom junk) hsys) (Model.Nonlinear.newtonSolve env cfg) (fine_newtonSolve env he cfg) (fun _ _ => trivial)
      NewtonIdle (fun reg y hist t dt h => newtonIdle_run env cfg _ (textbook_wellTyped .BDF1 (domSystem f Df Dom junk) (domSystem_wellTyped f Df Dom junk) hist t dt) reg y h) dts t0 y0 [] mem reg (ready_inv .BDF1 _ mem hmem t0 y0) hreg
    have h3 : run = drive (stdStep .BDF1 (domSystem f Df Dom junk)) atts t0 [y0] y0 mem := h3
    have R : ConvergedRun ι cfg.tol .BDF1 (domSystem f Df Dom junk) f mem atts t0 y0 := by
      refine ⟨hsys, domSystem_evaluates f Df Dom junk, hmem, ?_, ?_⟩
      · intro a ha y
        obtain ⟨rg, -, hs⟩ := h1 a ha
        rw [hs]; exact honest_solverOf _ (fine_newtonSolve env he cfg) rg y
      · intro r hr hst
        rw [← h3] at hr
        obtain ⟨pre, post, e⟩ := List.append_of_mem hr
        obtain ⟨yn, older, -, -, -, -, h⟩ := hrec pre r post e
        rcases h with h | h
        · exact h.2
        · rw [hst] at h; simp at h
    intro pre post e
    refine hP atts (fun a ha => h2 ▸ List.mem_map.2 ⟨a, ha, rfl⟩) R ?_ pre post (by rw [← h3]; exact e)
    intro r hr _
    rw [← h3] at hr
    obtain ⟨pre, post, e⟩ := List.append_of_mem hr
    obtain ⟨yn, older, -, -, g3, g4, -⟩ := hrec pre r post e
    exact ⟨(hdt _ g3).2, hd0 _ g3, add_le_add g4.2 (hdt _ g3).2⟩
  refine ⟨fun r hr => ?_, hPr⟩
  obtain ⟨pre, post, e⟩ := List.append_of_mem hr
  obtain ⟨yn, older, g1, g2, g3, g4, g5⟩ := hrec pre r post e
  rcases g5 with g5 | ⟨g5, a, g6⟩
  · exact .inl g5.1
  · refine .inr ⟨g5, ?_⟩
    by_contra hc
    have hc := not_lt.1 hc
    have hr0 := hd0 _ g3
    have hlen : older.length ≤ k := by
      have h1 := timeAfter_count lo pre (fun r' hr' => (hdt r'.dt (driveObj_dts _ _ dts t0 [y0] y0 mem reg r' (by change r' ∈ run; rw [e]; simp [hr']))).1) t0
      have h2 : (accepted y0 pre).length = (pre.filter (fun r => r.stop.isNone)).length + 1 := by simp [accepted]
      rw [g1, List.length_cons] at h2
      have h3 : (pre.filter (fun r => r.stop.isNone)).length = older.length := by omega
      rw [h3, ← g2] at h1
      have h4 : (older.length : ℝ) * lo ≤ k * lo := by linarith [g4.2]
      exact_mod_cast le_of_mul_le_mul_right h4 hlo0
    have hUn := hU yn older r.t (by rw [← g1, g2]; exact hPr pre (r :: post) e) hlen g4
    have htend : r.t + r.dt ∈ Set.Icc t0 (final + H) := ⟨by linarith [g4.1], add_le_add g4.2 (hdt _ g3).2⟩
    have hρ0 : 0 ≤ h0 * F + cfg.tol / 2 := by
      have := hf.F0
      have := hA.tol0
      have := hr0.trans hc
      positivity
    have hself : yn ∈ V := hUn yn (by rw [sub_self, norm_zero]; have := hf.β0; positivity)
    have hH0 : 0 ≤ H := hr0.trans (hdt _ g3).2
    have hstep := step_iterates .BDF1 (.inl rfl) ι hN.inj f Df sol hN.exact V t0 (final + H) h0 β γ F hf yn older r.t r.dt (h0 * F + cfg.tol / 2) hr0 hc htend
      (initial_residual .BDF1 (.inl rfl) ι f yn older r.t r.dt h0 F cfg.tol hr0 hc hA.tol0 (hf.bound _ ⟨g4.1, g4.2.trans (by linarith)⟩ _ hself) (hf.bound _ htend _ hself) (fun z l h => by cases h)) hA.small hUn a
    refine g6 (hV _ (hUn _ ?_) _ htend)
    rw [← map_sub]
    refine hstep.1.trans (mul_le_of_le_one_right (by have := hf.β0; positivity) ?_)
    have : (0:ℝ) ≤ (1 / 2) ^ a := by positivity
    linarith

/-- Newton's method is decisive for affine right-hand sides, on every domain: one update solves the equations of the step, unless it leaves the domain. -/
theorem C97_affine_decisive (ι : (n → ℝ) →ₗ[ℝ] E) (A : ℝ → Matrix n n ℝ) (b : ℝ → n → ℝ) (Dom : (n → ℝ) → ℝ → Prop) (env : Env ℝ n n p L) (cfg : Cfg ℝ) (sol : Matrix n n ℝ → (n → ℝ) → n → ℝ) (tick : L → L)
    (hN : ExactNewton ι env cfg sol tick) (htol : 0 < cfg.tol) (h2 : 2 ≤ cfg.maxIters) (t0 t1 H : ℝ) (hreg : ∀ t, ∀ h ∈ Set.Icc 0 H, IsUnit (1 - h • A t).det) :
    Decisive ι (fun y t => A t *ᵥ y + b t) (fun _ t => A t) Dom sol cfg t0 t1 H := by
  intro yn t _ h hh0 hhH
  refine ⟨1, by push_cast; omega, .inr ?_⟩
  have hs := hN.exact _ (yn - yn - h • (A (t + h) *ᵥ yn + b (t + h))) (hreg (t + h) h ⟨hh0, hhH⟩)
  have hz : newtonIterate (fun y t => A t *ᵥ y + b t) (fun _ t => A t) sol yn t h 1 - yn - h • (A (t + h) *ᵥ newtonIterate (fun y t => A t *ᵥ y + b t) (fun _ t => A t) sol yn t h 1 + b (t + h)) = 0 := by
    simp only [newtonIterate, Function.iterate_one]
    generalize sol (1 - h • A (t + h)) (yn - yn - h • (A (t + h) *ᵥ yn + b (t + h))) = d at hs ⊢
    rw [Matrix.sub_mulVec, Matrix.one_mulVec, Matrix.smul_mulVec] at hs
    rw [Matrix.mulVec_add, Matrix.mulVec_neg]
    have : yn + -d - yn - h • (A (t + h) *ᵥ yn + -(A (t + h) *ᵥ d) + b (t + h)) = (yn - yn - h • (A (t + h) *ᵥ yn + b (t + h))) - (d - h • A (t + h) *ᵥ d) := by
      simp only [smul_add, smul_neg]; abel
    rw [this, hs, sub_self]
  rw [hz, map_zero, norm_zero]
  exact htol

/-- **C97, BDF1 on monotone problems that can only be evaluated on a domain**, with a Newton object and step recovery. The policy may ask for steps up to `H` that are much too large, so that Newton's method leaves the domain: if steps of sizes up
    to `h0` are easy in a region around the exact solution on which the model can be evaluated, then the call returns, near the target, after a bounded number of attempts, and everything that is observed is as near to the exact solution as
    for a model that can be evaluated everywhere. -/
theorem C97_bdf1_monotone (ι : (n → ℝ) →ₗ[ℝ] E) (f : (n → ℝ) → ℝ → (n → ℝ)) (Df : (n → ℝ) → ℝ → Matrix n n ℝ) (Dom : (n → ℝ) → ℝ → Prop) (junk : n → ℝ) (mem : SMem ℝ (n → ℝ) (n → ℝ) PMem) (hmem : Ready .BDF1 mem)
    (env : Env ℝ n n p L) (cfg : Cfg ℝ) (sol : Matrix n n ℝ → (n → ℝ) → n → ℝ) (tick : L → L) (hN : ExactNewton ι env cfg sol tick) (reg : Reg ℝ n n p L) (hreg : NewtonIdle reg)
    (pol3 : Int → ℝ → ℝ → Prog U ℝ) (pol5 : Int → ℝ → DtVars ℝ → Prog U (DtVars ℝ)) (obs : Int → ℝ → (n → ℝ) → Prog U Unit)
    (eps t0 final δ H ρ Φ h0 lo : ℝ) (heps : 0 ≤ eps) (hlt : t0 < final) (hlo0 : 0 < lo) (hρ : 1 < ρ) (h00 : 0 < h0) (hlo : lo * Φ ≤ h0) (hlδ : lo ≤ δ) (J : Nat) (hJ : H ≤ h0 * ρ ^ J) (hH : 0 ≤ H)
    (hpol : Recovering pol5 δ H ρ Φ h0) (hobs : Patient obs) (k fuel : Nat) (hk : final - t0 ≤ k * lo) (hk' : (k : Int) < int32Max) (hfuel : k + J ≤ fuel) (y0 : n → ℝ) (u : U)
    (V : Set (n → ℝ)) (β γ F : ℝ) (hf : Tame ι f Df V t0 (final + H) h0 β γ F) (q : Nat) (hA : Affords cfg h0 β γ F q) (hV : ∀ y ∈ V, ∀ t ∈ Set.Icc t0 (final + H), Dom y t) (hDec : Decisive ι f Df Dom sol cfg t0 final H)
    (hmono : ∀ y z t, ⟪ι (f y t) - ι (f z t), ι y - ι z⟫ ≤ 0) (ψ : ℝ → n → ℝ) (B : ℝ) (hB0 : 0 ≤ B) (hψ : SolvesIn ι f ψ t0 (final + H)) (hB : Smooth1In ι f ψ B t0 (final + H))
    (hW : Within ι (ψ '' Set.Icc t0 final) (‖ι y0 - ι (ψ t0)‖ + (k * cfg.tol + (final - t0) * (B * H / 2)) + 2 * β * (h0 * F + cfg.tol / 2)) ⊆ V) :
    let r := advanceT true eps (userObjects (objStepper (stdStep .BDF1 (domSystem f Df Dom junk)) (Model.Nonlinear.newtonSolve env cfg)) pol3 pol5 obs) fuel t0 final ⟨((mem, reg), u), y0, []⟩
    (∃ t, r = .ok t r.state ∧ final - eps ≤ t ∧ t ≤ final + H) ∧ (observations r.state.log).length ≤ k + 1 ∧ (stepCalls r.state.log).length ≤ k * (J + 1) ∧ (observations r.state.log).getLast?.map (·.2.2) = some r.state.y ∧
      ∀ i t y, (i, t, y) ∈ observations r.state.log → ‖ι y - ι (ψ t)‖ ≤ ‖ι y0 - ι (ψ t0)‖ + (i * cfg.tol + (t - t0) * (B * H / 2)) := by
  have htol := hA.tol0
  have h := C97_recovery_implicit (stdStep .BDF1 (domSystem f Df Dom junk)) (Model.Nonlinear.newtonSolve env cfg) pol3 pol5 obs eps t0 final δ H ρ Φ h0 lo heps hlt hlo0 hρ h00 hlo hlδ J hJ hpol hobs k fuel hk hk' hfuel y0 mem reg u
    (fun l t => ∃ y l', l = y :: l' ∧ ‖ι y - ι (ψ t)‖ ≤ ‖ι y0 - ι (ψ t0)‖ + (l'.length * cfg.tol + (t - t0) * (B * H / 2))) (fun dts hdt => domain_run ι f Df Dom junk mem hmem env cfg sol tick hN reg hreg dts t0 final y0 lo h0 H hlo0 hdt k hk V β γ F hf q hA hV hDec
      (fun l t => ∃ y l', l = y :: l' ∧ ‖ι y - ι (ψ t)‖ ≤ ‖ι y0 - ι (ψ t0)‖ + (l'.length * cfg.tol + (t - t0) * (B * H / 2))) (fun atts _ R hS => C76_bdf1_monotone ι cfg.tol _ f mem atts t0 y0 R H (final + H) hS hmono ψ B hB0 hH hψ hB) (by
        rintro y l t ⟨y', l', e, hb⟩ hl ht x hx
        cases e
        refine hW ⟨ψ t, ⟨t, ht, rfl⟩, ?_⟩
        have h1 : (l.length : ℝ) ≤ k := by exact_mod_cast hl
        have h2 : (l.length : ℝ) * cfg.tol ≤ k * cfg.tol := by gcongr
        have h3 : (t - t0) * (B * H / 2) ≤ (final - t0) * (B * H / 2) := by
          have := ht.2
          gcongr
        have h4 := norm_sub_le_norm_sub_add_norm_sub (ι x) (ι y) (ι (ψ t))
        linarith))
  refine ⟨h.1, h.2.1, h.2.2.1, h.2.2.2.1, fun i t y he => ?_⟩
  obtain ⟨l, ⟨y', l', e, hb⟩, hl⟩ := h.2.2.2.2 i t y he
  cases e
  rw [← hl]
  exact_mod_cast hb

/-- **C97, BDF1 on dissipative problems that can only be evaluated on a domain**: everything that is observed is bounded. -/
theorem C97_bdf1_dissipative (ι : (n → ℝ) →ₗ[ℝ] E) (f : (n → ℝ) → ℝ → (n → ℝ)) (Df : (n → ℝ) → ℝ → Matrix n n ℝ) (Dom : (n → ℝ) → ℝ → Prop) (junk : n → ℝ) (mem : SMem ℝ (n → ℝ) (n → ℝ) PMem) (hmem : Ready .BDF1 mem)
    (env : Env ℝ n n p L) (cfg : Cfg ℝ) (sol : Matrix n n ℝ → (n → ℝ) → n → ℝ) (tick : L → L) (hN : ExactNewton ι env cfg sol tick) (reg : Reg ℝ n n p L) (hreg : NewtonIdle reg)
    (pol3 : Int → ℝ → ℝ → Prog U ℝ) (pol5 : Int → ℝ → DtVars ℝ → Prog U (DtVars ℝ)) (obs : Int → ℝ → (n → ℝ) → Prog U Unit)
    (eps t0 final δ H ρ Φ h0 lo : ℝ) (heps : 0 ≤ eps) (hlt : t0 < final) (hlo0 : 0 < lo) (hρ : 1 < ρ) (h00 : 0 < h0) (hlo : lo * Φ ≤ h0) (hlδ : lo ≤ δ) (J : Nat) (hJ : H ≤ h0 * ρ ^ J)
    (hpol : Recovering pol5 δ H ρ Φ h0) (hobs : Patient obs) (k fuel : Nat) (hk : final - t0 ≤ k * lo) (hk' : (k : Int) < int32Max) (hfuel : k + J ≤ fuel) (y0 : n → ℝ) (u : U)
    (V : Set (n → ℝ)) (β γ F : ℝ) (hf : Tame ι f Df V t0 (final + H) h0 β γ F) (q : Nat) (hA : Affords cfg h0 β γ F q) (hV : ∀ y ∈ V, ∀ t ∈ Set.Icc t0 (final + H), Dom y t) (hDec : Decisive ι f Df Dom sol cfg t0 final H)
    (hdiss : ∀ y t, ⟪ι (f y t), ι y⟫ ≤ 0) (hW : ∀ x, ‖ι x‖ ≤ ‖ι y0‖ + k * cfg.tol + 2 * β * (h0 * F + cfg.tol / 2) → x ∈ V) :
    let r := advanceT true eps (userObjects (objStepper (stdStep .BDF1 (domSystem f Df Dom junk)) (Model.Nonlinear.newtonSolve env cfg)) pol3 pol5 obs) fuel t0 final ⟨((mem, reg), u), y0, []⟩
    (∃ t, r = .ok t r.state ∧ final - eps ≤ t ∧ t ≤ final + H) ∧ (observations r.state.log).length ≤ k + 1 ∧ (stepCalls r.state.log).length ≤ k * (J + 1) ∧ (observations r.state.log).getLast?.map (·.2.2) = some r.state.y ∧
      ∀ i t y, (i, t, y) ∈ observations r.state.log → ‖ι y‖ ≤ ‖ι y0‖ + i * cfg.tol := by
  have htol := hA.tol0
  have h := C97_recovery_implicit (stdStep .BDF1 (domSystem f Df Dom junk)) (Model.Nonlinear.newtonSolve env cfg) pol3 pol5 obs eps t0 final δ H ρ Φ h0 lo heps hlt hlo0 hρ h00 hlo hlδ J hJ hpol hobs k fuel hk hk' hfuel y0 mem reg u
    (fun l _ => ∃ y l', l = y :: l' ∧ ‖ι y‖ ≤ ‖ι y0‖ + l'.length * cfg.tol) (fun dts hdt => domain_run ι f Df Dom junk mem hmem env cfg sol tick hN reg hreg dts t0 final y0 lo h0 H hlo0 hdt k hk V β γ F hf q hA hV hDec
      (fun l _ => ∃ y l', l = y :: l' ∧ ‖ι y‖ ≤ ‖ι y0‖ + l'.length * cfg.tol) (fun atts hd R _ => C75_bdf1 ι cfg.tol _ f mem atts t0 y0 R (fun a ha => hlo0.le.trans (hdt _ (hd a ha)).1) hdiss) (by
        rintro y l t ⟨y', l', e, hb⟩ hl ht x hx
        cases e
        refine hW x ?_
        have h1 : (l.length : ℝ) ≤ k := by exact_mod_cast hl
        have h2 : (l.length : ℝ) * cfg.tol ≤ k * cfg.tol := by gcongr
        have h4 := norm_le_norm_add_norm_sub' (ι x) (ι y)
        linarith))
  refine ⟨h.1, h.2.1, h.2.2.1, h.2.2.2.1, fun i t y he => ?_⟩
  obtain ⟨l, ⟨y', l', e, hb⟩, hl⟩ := h.2.2.2.2 i t y he
  cases e
  rw [← hl]
  exact_mod_cast hb

/-! ### A filling tank: `y' = 1`, which can only be evaluated below level 2; the policy asks for steps of size 3 -/

/-- the inflow -/
def fillA : ℝ → Matrix Unit Unit ℝ := fun _ => 0
def fillB : ℝ → Unit → ℝ := fun _ _ => 1
def fillDom (y : Unit → ℝ) (_ : ℝ) : Prop := y () < 2
noncomputable def eager5 (_ : Int) (_ : ℝ) (_ : DtVars ℝ) : Prog Unit (DtVars ℝ) := pure ⟨3, 1 / 16, 4⟩
noncomputable def eager3 (_ : Int) (_ : ℝ) (_ : ℝ) : Prog Unit ℝ := pure 3
theorem eager_recovering : Recovering eager5 3 3 4 4 (1 / 4 : ℝ) := fun _ _ _ u => ⟨_, u, rfl, le_rfl, le_rfl, by norm_num, le_rfl, le_rfl, by norm_num⟩

theorem fill_tame : Tame (E := ℝ) (LinearMap.proj ()) (fun y t => fillA t *ᵥ y + fillB t) (fun _ t => fillA t) {y | y () < 2} 0 (1 + 3) (1 / 4) 1 0 1 := by
  refine ⟨?_, ?_, ?_, ?_, by norm_num, le_rfl, by norm_num⟩
  · intro t _ y _
    unfold IsJacobian
    refine (hasFDerivAt_const (fillB t) y).congr_of_eventuallyEq (Filter.Eventually.of_forall fun z => ?_) |>.congr_fderiv ?_
    · simp [fillA]
    · ext v : 1; simp [fillA]
  · intro t _ x _ y _ v; simp [fillA]
  · intro t _ y _; simp [fillA, fillB]
  · intro t _ y _ c _ v; simp [fillA]

theorem fill_solves : SolvesIn (E := ℝ) (LinearMap.proj ()) (fun y t => fillA t *ᵥ y + fillB t) (fun t _ => t) 0 (1 + 3) := by
  intro t ht
  simpa [fillA, fillB] using hasDerivAt_id' t

example := C97_affine_decisive (E := ℝ) (LinearMap.proj ()) fillA fillB fillDom envR (cfgR (1 / 100)) _ _ (exactNewton_R (1 / 100)) (by norm_num [cfgR]) (by norm_num [cfgR]) 0 1 3 (by intro t h _; simp [fillA])

/-- the first attempt, of size 3, would end at level 3 and fails; the second, of size 3/4, is accepted -/
example := C97_bdf1_monotone (U := Unit) (E := ℝ) (LinearMap.proj ()) (fun y t => fillA t *ᵥ y + fillB t) (fun _ t => fillA t) fillDom (fun _ => 7) (newStepperR .BDF1) rfl envR (cfgR (1 / 100)) _ _ (exactNewton_R (1 / 100)) regR (fun _ => .created _ rfl)
  eager3 eager5 silent 0 0 1 3 3 4 4 (1 / 4) (1 / 16) le_rfl (by norm_num) (by norm_num) (by norm_num) (by norm_num) (by norm_num) (by norm_num) 2 (by norm_num) (by norm_num) eager_recovering silent_patient 16 100 (by norm_num) (by decide)
  (by norm_num) (fun _ => 0) () {y | y () < 2} 1 0 1 fill_tame 3 (by constructor <;> norm_num [cfgR]) (fun y hy _ _ => hy)
  (C97_affine_decisive (E := ℝ) (LinearMap.proj ()) fillA fillB fillDom envR (cfgR (1 / 100)) _ _ (exactNewton_R (1 / 100)) (by norm_num [cfgR]) (by norm_num [cfgR]) 0 1 3 (by intro t h _; simp [fillA]))
  (by intro y z t; simp [fillA]) (fun t _ => t) 0 le_rfl fill_solves (by intro s _ u _; simp [fillA, fillB]) (by
    rintro x ⟨_, ⟨s, hs, rfl⟩, hx⟩
    simp only [LinearMap.proj_apply, sub_zero, norm_zero, cfgR, Real.norm_eq_abs] at hx
    have := (abs_le.1 hx).2
    have := hs.2
    norm_num at *
    linarith)

/-- `y' = -y`, which can only be evaluated below 4 -/
theorem decay_tame : Tame (E := ℝ) (LinearMap.proj ()) (fun y t => (-1 : Matrix Unit Unit ℝ) *ᵥ y + (fun (_ : ℝ) (_ : Unit) => (0 : ℝ)) t) (fun _ _ => -1) {y | |y ()| ≤ 3} 0 (1 + 3) (1 / 4) 1 0 3 := by
  refine ⟨?_, ?_, ?_, ?_, by norm_num, le_rfl, by norm_num⟩
  · intro t _ y _
    unfold IsJacobian
    refine ((hasFDerivAt_id y).neg).congr_of_eventuallyEq (Filter.Eventually.of_forall fun z => ?_) |>.congr_fderiv ?_
    · ext i; simp [Matrix.neg_mulVec]
    · ext v : 1; simp [Matrix.neg_mulVec]
  · intro t _ x _ y _ v; simp
  · intro t _ y hy; simpa [Matrix.neg_mulVec] using hy
  · intro t _ y _ c hc v
    have : ((1 - c • (-1 : Matrix Unit Unit ℝ)) *ᵥ v) () = (1 + c) * v () := by
      simp only [Matrix.sub_mulVec, Matrix.smul_mulVec, Matrix.neg_mulVec, Matrix.one_mulVec, Pi.sub_apply, Pi.smul_apply, Pi.neg_apply, smul_eq_mul]; ring
    simp only [LinearMap.proj_apply, this, Real.norm_eq_abs, abs_mul, one_mul]
    rw [abs_of_nonneg (show (0 : ℝ) ≤ 1 + c by linarith [hc.1])]
    nlinarith [hc.1, abs_nonneg (v ())]

example := C97_bdf1_dissipative (U := Unit) (E := ℝ) (LinearMap.proj ()) (fun y t => (-1 : Matrix Unit Unit ℝ) *ᵥ y + (fun (_ : ℝ) (_ : Unit) => (0 : ℝ)) t) (fun _ _ => -1) (fun y _ => |y ()| < 4) (fun _ => 7) (newStepperR .BDF1) rfl
  envR (cfgR (1 / 100)) _ _ (exactNewton_R (1 / 100)) regR (fun _ => .created _ rfl) eager3 eager5 silent 0 0 1 3 3 4 4 (1 / 4) (1 / 16) le_rfl (by norm_num) (by norm_num) (by norm_num) (by norm_num) (by norm_num) (by norm_num) 2
  (by norm_num) eager_recovering silent_patient 16 100 (by norm_num) (by decide) (by norm_num) (fun _ => 1) () {y | |y ()| ≤ 3} 1 0 3 decay_tame 3 (by constructor <;> norm_num [cfgR])
  (fun y hy _ _ => lt_of_le_of_lt (show |y ()| ≤ 3 from hy) (by norm_num))
  (C97_affine_decisive (E := ℝ) (LinearMap.proj ()) (fun _ => -1) _ _ envR (cfgR (1 / 100)) _ _ (exactNewton_R (1 / 100)) (by norm_num [cfgR]) (by norm_num [cfgR]) 0 1 3 (by
    intro t h hh
    simp only [Matrix.det_unique, Matrix.sub_apply, Matrix.smul_apply, Matrix.neg_apply, Matrix.one_apply_eq, smul_eq_mul, isUnit_iff_ne_zero]
    linarith [hh.1]))
  (by intro y t; simp [Matrix.neg_mulVec]; exact mul_self_nonneg _) (by
    intro x hx
    simp only [LinearMap.proj_apply, cfgR, Real.norm_eq_abs] at hx
    norm_num at hx
    show |x ()| ≤ 3
    linarith)

/-! ### The room for one reduction is needed -/

/-- a stepper that accepts steps of sizes up to 1/4 -/
def picky (_ : ℚ) (_ : Int) (d : ℚ) : Prog (ℚ × Unit) Unit := fun s => if 1 / 4 < d then .stop (.exc .timeStepFailure) s else .ok () (s.1 + d, s.2)
def setVars (v : DtVars ℚ) (_ : Int) (_ : ℚ) (_ : DtVars ℚ) : Prog Unit (DtVars ℚ) := pure v
def quietQ : Int → ℚ → ℚ → Prog Unit Unit := fun _ _ _ => pure ()

theorem picky_attempts (dts : List ℚ) (c : Pos ℚ ℚ Unit) : ∀ a ∈ attempts picky dts c, a.stop = none ∨ (a.stop = some (.exc .timeStepFailure) ∧ 1 / 4 < a.dt) := by
  induction dts generalizing c with
  | nil => intro a ha; simp [attempts] at ha
  | cons d l ih =>
    intro a ha
    by_cases hd : 1 / 4 < d
    · have e : attemptAt picky c d = (⟨c.num, c.t, d, some (.exc .timeStepFailure), c.y⟩, some ⟨c.t, c.num, c.y, c.m⟩) := by simp only [attemptAt, picky, if_pos hd, if_true]
      simp only [attempts, e, List.mem_cons] at ha
      rcases ha with rfl | ha
      · exact .inr ⟨rfl, hd⟩
      · exact ih _ a ha
    · have e : attemptAt picky c d = (⟨c.num, c.t, d, none, c.y + d⟩, some ⟨c.t + d, c.num + 1, c.y + d, c.m⟩) := by simp only [attemptAt, picky, if_neg hd]
      simp only [attempts, e, List.mem_cons] at ha
      rcases ha with rfl | ha
      · exact .inl rfl
      · exact ih _ a ha

example := C97_recovery picky (fun _ _ _ => pure 3) (setVars ⟨3, 1 / 16, 4⟩) quietQ 0 0 1 3 3 4 4 (1 / 4) (1 / 16) le_rfl (by norm_num) (by norm_num) (by norm_num) (by norm_num) (by norm_num) (by norm_num) 2 (by norm_num)
  (fun _ _ _ u => ⟨_, u, rfl, le_rfl, le_rfl, by norm_num, le_rfl, le_rfl, by norm_num⟩) (fun _ _ _ _ => rfl) 16 100 (by norm_num) (by decide) (by norm_num) 5 () () (fun dts _ _ => picky_attempts dts _)

/-- Without that room the call can abort although every step of a size up to `h0 = 1/4`, and in particular of the minimum size 1/8, would succeed: size 3/10 fails, and 3/40 is below the minimum. The state is still the initial one. -/
theorem C97_no_room_aborts : ∃ v : DtVars ℚ, v.minDt ≤ 1 / 4 ∧ v.minDt ≤ v.dt ∧ 1 < v.factor ∧
    let r := advanceT true 0 (userObjects picky (fun _ _ _ => pure v.dt) (setVars v) quietQ) 100 0 1 ⟨((), ()), 5, []⟩
    r.stop? = some (.exc (.runtimeError "violation of minimum time step while recovering")) ∧ r.state.y = 5 ∧ stepCalls r.state.log = [(1, 0, 3 / 10)] :=
  ⟨⟨3 / 10, 1 / 8, 4⟩, by norm_num, by norm_num, by norm_num, by decide +kernel, by decide +kernel, by decide +kernel⟩

end

end Pressio.Props
