import Verif.Lemmas.AdvanceComplete
import Verif.Props.ImplicitNewtonRuns

/-
  C92: the advancers drive stepper objects through runs of attempts, so that what is proved about such runs holds of what the advancers do.
-/
namespace Pressio.Props
set_option autoImplicit false
set_option linter.unusedSectionVars false
open Pressio Pressio.Model.Advance Pressio.Spec.AdvanceTarget Pressio.Spec.AdvanceDrive Pressio.Lemmas.AdvanceDrive
open Pressio.Spec.Implicit (accepted timeAfter)
open Pressio.Spec.SolverRun (driveObj)

section
variable {K Y M U : Type}

theorem callObs_start (st : K → Int → K → Prog (Y × M) Unit) (pol3 : Int → K → K → Prog U K) (pol5 : Int → K → DtVars K → Prog U (DtVars K)) (obs : Int → K → Y → Prog U Unit) (start : K) (y0 : Y) (m : M) (u : U) :
    callObs (userObjects st pol3 pol5 obs) 0 start ⟨(m, u), y0, []⟩ = match obs 0 start y0 u with
      | .ok _ u' => .ok () ⟨(m, u'), y0, [.obs 0 start y0]⟩
      | .stop h u' => .stop h ⟨(m, u'), y0, [.obs 0 start y0]⟩ := by
  rcases eo : obs 0 start y0 u with ⟨_, u'⟩ | ⟨h, u'⟩ <;> simp [callObs, Prog.bind_run, emit, onW, userObjects, eo]

theorem Part.run [Add K] {α : Type} {atts : List (Att K Y)} {y0 : Y} {rec : Bool} {l : List (Ev K Y)} {start : K} {r : Res (St (M × U) K Y) α} (h : Part atts y0 rec l r.state.y r.stop?)
    (hl : r.state.log = [.obs 0 start y0] ++ l) : IsRunOf atts start y0 rec r :=
  ⟨by rw [hl, ← h.calls]; rfl, by rw [hl, ← h.observer]; rfl, h.state, h.fails⟩

/-- `advance_n_steps`: whatever the stepper object does (and whatever the policy and the observer do), there are sizes, each of them set by the policy, at most as many as steps, such that what happens is the run of attempts of these sizes: the
    stepper is called for these attempts and no others, the observer sees the initial state and the accepted ones, the caller is left with the state of the last attempt, and nothing is attempted after a failure. There are as many attempts as
    steps if the call returns; otherwise the last attempt has failed, or the policy or the observer has thrown, or the step counter would overflow. -/
theorem C92_n_steps [Add K] (zero : K) (st : K → Int → K → Prog (Y × M) Unit) (pol3 : Int → K → K → Prog U K) (pol5 : Int → K → DtVars K → Prog U (DtVars K)) (obs : Int → K → Y → Prog U Unit)
    (N : Int) (start : K) (y0 : Y) (m : M) (u : U) :
    let r := advanceN zero (userObjects st pol3 pol5 obs) N start ⟨(m, u), y0, []⟩
    ∃ dts, let atts := attempts st dts ⟨start, 1, y0, m⟩
      IsRunOf atts start y0 false r ∧ atts.length = dts.length ∧ dts.length ≤ N.toNat ∧ (∀ d ∈ dts, ∃ i t d0 u u', pol3 i t d0 u = .ok d u') ∧ (r.stop? = none → dts.length = N.toNat) ∧
      ∀ h, r.stop? = some h → (∃ pre a, atts = pre ++ [a] ∧ a.stop = some h) ∨ (∃ i t d u, (pol3 i t d u).stop? = some h) ∨ (∃ i t y u, (obs i t y u).stop? = some h) ∨ int32Max < 1 + (N.toNat : Int) := by
  intro r
  have hc := callObs_start st pol3 pol5 obs start y0 m u
  rcases eo : obs 0 start y0 u with ⟨_, u'⟩ | ⟨h, u'⟩
  · rw [eo] at hc
    have hr : r = nLoop (userObjects st pol3 pol5 obs) N.toNat 1 start zero ⟨(m, u'), y0, [.obs 0 start y0]⟩ := by
      show advanceN zero (userObjects st pol3 pol5 obs) N start ⟨(m, u), y0, []⟩ = _
      simp only [advanceN, Prog.bind_run, hc]
    obtain ⟨dts, l, g1, g2, g3, g4, g5, g6, g7⟩ := nLoop_attempts st pol3 pol5 obs N.toNat 1 start zero y0 m u' [.obs 0 start y0]
    rw [← hr] at g1 g2 g6 g7
    exact ⟨dts, Part.run g2 g1, g3, g4, g5, g6, g7⟩
  · rw [eo] at hc
    have hr : r = .stop h ⟨(m, u'), y0, [.obs 0 start y0]⟩ := by
      show advanceN zero (userObjects st pol3 pol5 obs) N start ⟨(m, u), y0, []⟩ = _
      simp only [advanceN, Prog.bind_run, hc]
    rw [hr]
    exact ⟨[], Part.run (Part.nil y0 false _) rfl, rfl, Nat.zero_le _, by simp, fun e => by simp at e, fun h' e => .inr (.inr (.inl ⟨0, start, y0, u, by rw [eo]; exact e⟩))⟩

/-- The advancers to a target time, with and without recovery, likewise: each size is one that the policy can ask for (`Asked`: with recovery also after reductions); after a failure nothing is attempted, except that with recovery
    `TimeStepFailure` is followed by another attempt at the same step; and a call that returns ends with an accepted step. -/
theorem C92_target [Field K] [LinearOrder K] [IsStrictOrderedRing K] (rec : Bool) (eps : K) (st : K → Int → K → Prog (Y × M) Unit) (pol3 : Int → K → K → Prog U K) (pol5 : Int → K → DtVars K → Prog U (DtVars K)) (obs : Int → K → Y → Prog U Unit)
    (fuel : Nat) (start final : K) (hlt : start < final) (y0 : Y) (m : M) (u : U) :
    let r := advanceT rec eps (userObjects st pol3 pol5 obs) fuel start final ⟨(m, u), y0, []⟩
    ∃ dts, let atts := attempts st dts ⟨start, 1, y0, m⟩
      IsRunOf atts start y0 rec r ∧ atts.length = dts.length ∧ (∀ d ∈ dts, Asked pol3 pol5 rec d) ∧ (r.stop? = none → ∃ pre a, atts = pre ++ [a] ∧ a.stop = none) := by
  intro r
  have hc := callObs_start st pol3 pol5 obs start y0 m u
  rcases eo : obs 0 start y0 u with ⟨_, u'⟩ | ⟨h, u'⟩
  · rw [eo] at hc
    have hr : r = tLoop rec eps final (userObjects st pol3 pol5 obs) fuel 1 start ⟨0, 0, 1⟩ ⟨(m, u'), y0, [.obs 0 start y0]⟩ := by
      show advanceT rec eps (userObjects st pol3 pol5 obs) fuel start final ⟨(m, u), y0, []⟩ = _
      simp only [advanceT, if_neg hlt.not_gt, if_neg hlt.ne', Prog.bind_run, hc]
    obtain ⟨dts, l, g1, g2, g3, g4, g5⟩ := tLoop_attempts st pol3 pol5 obs rec eps final fuel 1 start ⟨0, 0, 1⟩ y0 m u' [.obs 0 start y0]
    rw [← hr] at g1 g2 g5
    exact ⟨dts, Part.run g2 g1, g3, g4, g5⟩
  · rw [eo] at hc
    have hr : r = .stop h ⟨(m, u'), y0, [.obs 0 start y0]⟩ := by
      show advanceT rec eps (userObjects st pol3 pol5 obs) fuel start final ⟨(m, u), y0, []⟩ = _
      simp only [advanceT, if_neg hlt.not_gt, if_neg hlt.ne', Prog.bind_run, hc]
    rw [hr]
    exact ⟨[], Part.run (Part.nil y0 rec _) rfl, rfl, by simp, fun e => by simp at e⟩

end

section
open Pressio.Model.Nonlinear (Env Cfg Reg Ans SP Tag)
variable {K S U m n p L : Type}

/-- Runs of an implicit stepper object with one solver object (`driveObj`, about which the theorems on stability, convergence, conservation and reuse are stated) are the runs of attempts that the advancers make with these two objects. -/
theorem C92_runs [Add K] (step : ((n → K) → SolveTree (n → K) (Ans K m n)) → K → K → Int → Prog (SolveSt (n → K) S (Ans K m n)) Unit) (solve : SP K m n p L Unit) (dts : List K) (t : K) (y0 : n → K) (mem : S) (reg : Reg K m n p L) :
    (driveObj step solve dts t [y0] y0 mem reg).map toAtt = attempts (objStepper step solve) dts ⟨t, 1, y0, (mem, reg)⟩ :=
  driveObj_attempts step solve dts t [y0] y0 mem reg

/-- `advance_n_steps` of an implicit stepper with a solver: if every run over sizes that the policy may set succeeds, then the call returns after exactly the requested number of steps, and whatever holds at every point of such runs holds of
    everything that is observed: of each observed state, after how many steps, and at which time. The caller is left with the last observed state. -/
theorem C92_n_steps_returns [Field K] [LinearOrder K] [IsStrictOrderedRing K] (zero : K) (step : ((n → K) → SolveTree (n → K) (Ans K m n)) → K → K → Int → Prog (SolveSt (n → K) S (Ans K m n)) Unit) (solve : SP K m n p L Unit)
    (pol3 : Int → K → K → Prog U K) (pol5 : Int → K → DtVars K → Prog U (DtVars K)) (obs : Int → K → (n → K) → Prog U Unit) (ok : K → Prop) (hpol : Obliging pol3 pol5 false ok) (hobs : Patient obs)
    (N : Int) (hN0 : 0 ≤ N) (hN : N < int32Max) (start : K) (y0 : n → K) (mem : S) (reg : Reg K m n p L) (u : U) (P : List (n → K) → K → Prop)
    (hrun : ∀ dts, dts.length ≤ N.toNat → (∀ d ∈ dts, ok d) → let run := driveObj step solve dts start [y0] y0 mem reg
      (∀ r ∈ run, r.stop = none) ∧ ∀ pre post, run = pre ++ post → P (accepted y0 pre) (timeAfter start pre)) :
    let r := advanceN zero (userObjects (objStepper step solve) pol3 pol5 obs) N start ⟨((mem, reg), u), y0, []⟩
    r.stop? = none ∧ (observations r.state.log).length = N + 1 ∧ (observations r.state.log).getLast?.map (·.2.2) = some r.state.y ∧
      ∀ i t y, (i, t, y) ∈ observations r.state.log → ∃ l, P (y :: l) t ∧ (l.length : Int) = i := by
  intro r
  obtain ⟨dts, h1, h2, h3, h4, h5, h6⟩ := C92_n_steps zero (objStepper step solve) pol3 pol5 obs N start y0 (mem, reg) u
  have hok : ∀ d ∈ dts, ok d := by
    intro d hd
    obtain ⟨i, t, d0, u, u', e⟩ := h4 d hd
    simp only [Obliging, Bool.false_eq_true, if_false] at hpol
    obtain ⟨d', u'', e', hd'⟩ := hpol i t d0 u
    rw [e] at e'
    cases e'
    exact hd'
  obtain ⟨k1, k2⟩ := hrun dts h3 hok
  rw [← C92_runs] at h1 h2 h6
  have hnone : ∀ a ∈ (driveObj step solve dts start [y0] y0 mem reg).map toAtt, a.stop = none := by
    intro a ha
    obtain ⟨q, hq, rfl⟩ := List.mem_map.1 ha
    exact k1 q hq
  have hs : r.stop? = none := by
    by_contra hc
    obtain ⟨h, hh⟩ := Option.ne_none_iff_exists'.1 hc
    rcases h6 h hh with ⟨pre, a, e1, e2⟩ | ⟨i, t, d, u, e⟩ | ⟨i, t, y, u, e⟩ | e
    · have := hnone a (by rw [e1]; simp)
      rw [e2] at this; cases this
    · simp only [Obliging, Bool.false_eq_true, if_false] at hpol
      obtain ⟨d', u'', e', -⟩ := hpol i t d u
      rw [e'] at e; simp at e
    · rw [hobs i t y u] at e; cases e
    · omega
  have hfil : (((driveObj step solve dts start [y0] y0 mem reg).map toAtt).filter fun a => a.stop.isNone) = (driveObj step solve dts start [y0] y0 mem reg).map toAtt :=
    List.filter_eq_self.2 (fun a ha => by rw [hnone a ha]; rfl)
  refine ⟨hs, ?_, ?_, ?_⟩
  · rw [h1.observer]
    simp only [List.length_cons, seen, hfil, List.length_map]
    rw [List.length_map] at h2
    rw [h2, h5 hs]
    omega
  · rw [h1.observer, h1.state]
    simp only [seen, hfil, stateAfter, List.getLast?_cons, List.getLast?_map]
    rcases (driveObj step solve dts start [y0] y0 mem reg).getLast? with _ | q <;> simp
  · intro i t y he
    rw [h1.observer] at he
    obtain ⟨pre, post, l, e1, e2, e3, e4⟩ := seen_run step solve dts start y0 mem reg (i, t, y) he
    have := k2 pre post e1
    rw [e2, e3] at this
    exact ⟨l, this, e4⟩

/-- The advancers to a target time, with and without recovery, likewise, for a policy that sets sizes in `[δ, H]`: the call returns after at most `k` steps, where `k * δ` covers the distance, at a time not before `final - eps` and not after
    `final + H`. -/
theorem C92_target_returns [Field K] [LinearOrder K] [IsStrictOrderedRing K] (rec : Bool) (eps δ H : K) (heps : 0 ≤ eps) (hδ : 0 < δ) (step : ((n → K) → SolveTree (n → K) (Ans K m n)) → K → K → Int → Prog (SolveSt (n → K) S (Ans K m n)) Unit)
    (solve : SP K m n p L Unit) (pol3 : Int → K → K → Prog U K) (pol5 : Int → K → DtVars K → Prog U (DtVars K)) (obs : Int → K → (n → K) → Prog U Unit) (hpol : Obliging pol3 pol5 rec (fun d => δ ≤ d ∧ d ≤ H)) (hobs : Patient obs)
    (start final : K) (hlt : start < final) (k fuel : Nat) (hk : final - start ≤ k * δ) (hk' : (k : Int) < int32Max) (hfuel : k ≤ fuel) (y0 : n → K) (mem : S) (reg : Reg K m n p L) (u : U) (P : List (n → K) → K → Prop)
    (hrun : ∀ dts, dts.length ≤ k → (∀ d ∈ dts, δ ≤ d ∧ d ≤ H) → start + dts.sum ≤ final + H → let run := driveObj step solve dts start [y0] y0 mem reg
      (∀ r ∈ run, r.stop = none) ∧ ∀ pre post, run = pre ++ post → P (accepted y0 pre) (timeAfter start pre)) :
    let r := advanceT rec eps (userObjects (objStepper step solve) pol3 pol5 obs) fuel start final ⟨((mem, reg), u), y0, []⟩
    (∃ t, r = .ok t r.state ∧ final - eps ≤ t ∧ t ≤ final + H) ∧ (observations r.state.log).length ≤ k + 1 ∧ (observations r.state.log).getLast?.map (·.2.2) = some r.state.y ∧
      ∀ i t y, (i, t, y) ∈ observations r.state.log → ∃ l, P (y :: l) t ∧ (l.length : Int) = i := by
  intro r
  have hc := callObs_start (objStepper step solve) pol3 pol5 obs start y0 (mem, reg) u
  rcases eo : obs 0 start y0 u with ⟨_, u'⟩ | ⟨h, u'⟩
  swap
  · have := hobs 0 start y0 u
    rw [eo] at this
    simp at this
  rw [eo] at hc
  have hr : r = tLoop rec eps final (userObjects (objStepper step solve) pol3 pol5 obs) fuel 1 start ⟨0, 0, 1⟩ ⟨((mem, reg), u'), y0, [.obs 0 start y0]⟩ := by
    show advanceT rec eps (userObjects (objStepper step solve) pol3 pol5 obs) fuel start final ⟨((mem, reg), u), y0, []⟩ = _
    simp only [advanceT, if_neg hlt.not_gt, if_neg hlt.ne', Prog.bind_run, hc]
  have hnone : ∀ dts, dts.length ≤ k → (∀ d ∈ dts, δ ≤ d ∧ d ≤ H) → start + dts.sum ≤ final + H → ∀ a ∈ (driveObj step solve dts start [y0] y0 mem reg).map toAtt, a.stop = none := by
    intro dts g0 g1 g2 a ha
    obtain ⟨q, hq, rfl⟩ := List.mem_map.1 ha
    exact (hrun dts g0 g1 g2).1 q hq
  obtain ⟨dts, l, s, g1, g2, g3, g4, g5, g6, g7, g8⟩ := tLoop_good (objStepper step solve) pol3 pol5 obs rec eps final δ H heps hδ hpol hobs k fuel 1 start ⟨0, 0, 1⟩ y0 (mem, reg) u' [.obs 0 start y0] hfuel hlt hk
    (by omega) (fun _ => le_rfl) (fun dts g0 g1 g2 => by rw [← C92_runs]; exact hnone dts g0 g1 g2)
  rw [g1] at hr
  have hn := hnone dts g5 g6 g8
  rw [← C92_runs] at g3 g4
  have hfil : (((driveObj step solve dts start [y0] y0 mem reg).map toAtt).filter fun a => a.stop.isNone) = (driveObj step solve dts start [y0] y0 mem reg).map toAtt :=
    List.filter_eq_self.2 (fun a ha => by rw [hn a ha]; rfl)
  have hob : observations s.log = (0, start, y0) :: seen ((driveObj step solve dts start [y0] y0 mem reg).map toAtt) := by
    rw [g2, ← g3.observer]; rfl
  rw [hr]
  refine ⟨⟨_, rfl, g7, g8⟩, ?_, ?_, ?_⟩
  · show (observations s.log).length ≤ k + 1
    rw [hob]
    simp only [List.length_cons, seen, hfil, List.length_map]
    rw [List.length_map] at g4
    omega
  · show (observations s.log).getLast?.map (·.2.2) = some s.y
    rw [hob, g3.state]
    simp only [seen, hfil, stateAfter, List.getLast?_cons, List.getLast?_map]
    rcases (driveObj step solve dts start [y0] y0 mem reg).getLast? with _ | q <;> simp
  · intro i t y he
    have he : (i, t, y) ∈ observations s.log := he
    rw [hob] at he
    obtain ⟨pre, post, l, e1, e2, e3, e4⟩ := seen_run step solve dts start y0 mem reg (i, t, y) he
    have := (hrun dts g5 g6 g8).2 pre post e1
    rw [e2, e3] at this
    exact ⟨l, this, e4⟩

end

section
open Matrix Pressio.Model.Implicit Pressio.Spec.Implicit Pressio.Lemmas.Implicit Pressio.Model.Nonlinear Pressio.Spec.Nonlinear Pressio.Spec.SolverRun Pressio.Lemmas.SolverRun
open Pressio.Model.Explicit (Scheme)
open Pressio.Lemmas.Nonlinear Pressio.Lemmas.SolverTree Pressio.Lemmas.Numerics Pressio.Spec.NewtonConvergence Pressio.Lemmas.NewtonConvergence Pressio.Spec.ImplicitNewtonRuns
variable {E n p L U : Type} [NormedAddCommGroup E] [InnerProductSpace ℝ E] [Fintype n] [DecidableEq n] [Fintype p]
local notation "⟪" x ", " y "⟫" => @inner ℝ _ _ x y

/-- `advance_to_target_point`, with and without recovery, with the Crank-Nicolson stepper and a Newton solver: for sizes in `[δ, H]` with `H` small enough, the call returns, in at most `k` steps and near the target, and everything that is observed
    is close to the solution of the differential equation at the observed time, to second order in `H`. -/
theorem C92_target_crank_nicolson (ι : (n → ℝ) →ₗ[ℝ] E) (f : (n → ℝ) → ℝ → (n → ℝ)) (Df : (n → ℝ) → ℝ → Matrix n n ℝ) (mem : SMem ℝ (n → ℝ) (n → ℝ) PMem) (hmem : Ready .CrankNicolson mem)
    (env : Env ℝ n n p L) (cfg : Cfg ℝ) (sol : Matrix n n ℝ → (n → ℝ) → n → ℝ) (tick : L → L) (hN : ExactNewton ι env cfg sol tick) (reg : Reg ℝ n n p L) (hreg : NewtonIdle reg)
    (rec : Bool) (eps δ H : ℝ) (heps : 0 ≤ eps) (hδ : 0 < δ) (pol3 : Int → ℝ → ℝ → Prog U ℝ) (pol5 : Int → ℝ → DtVars ℝ → Prog U (DtVars ℝ)) (obs : Int → ℝ → (n → ℝ) → Prog U Unit) (hpol : Obliging pol3 pol5 rec (fun d => δ ≤ d ∧ d ≤ H)) (hobs : Patient obs)
    (t0 final : ℝ) (hlt : t0 < final) (k fuel : Nat) (hk : final - t0 ≤ k * δ) (hk' : (k : Int) < int32Max) (hfuel : k ≤ fuel) (y0 : n → ℝ) (u : U)
    (V : Set (n → ℝ)) (β γ F : ℝ) (hf : Tame ι f Df V t0 (final + H) H β γ F) (q : Nat) (hA : Affords cfg H β γ F q)
    (L' : ℝ) (hL : 0 ≤ L') (hHL : H * L' ≤ 1) (hlip : ∀ y z t, ‖ι (f y t) - ι (f z t)‖ ≤ L' * ‖ι y - ι z‖) (ψ : ℝ → n → ℝ) (ψ2 : ℝ → E) (M2 M3 : ℝ) (hM30 : 0 ≤ M3) (hψ : SolvesIn ι f ψ t0 (final + H)) (hM : Smooth2In ι f ψ ψ2 M2 M3 t0 (final + H))
    (hV : Within ι (ψ '' Set.Icc t0 (final + H)) (Real.exp (3 / 2 * L' * (final + H - t0)) * (‖ι y0 - ι (ψ t0)‖ + (k * cfg.tol + (final + H - t0) * (5 / 12 * M3 * H ^ 2))) + 2 * β * (H * F + cfg.tol / 2)) ⊆ V) :
    let r := advanceT rec eps (userObjects (objStepper (stdStep .CrankNicolson (odeSystem f Df)) (Model.Nonlinear.newtonSolve env cfg)) pol3 pol5 obs) fuel t0 final ⟨((mem, reg), u), y0, []⟩
    (∃ t, r = .ok t r.state ∧ final - eps ≤ t ∧ t ≤ final + H) ∧ (observations r.state.log).length ≤ k + 1 ∧ (observations r.state.log).getLast?.map (·.2.2) = some r.state.y ∧
      ∀ i t y, (i, t, y) ∈ observations r.state.log → ‖ι y - ι (ψ t)‖ ≤ Real.exp (3 / 2 * L' * (t - t0)) * (‖ι y0 - ι (ψ t0)‖ + (i * cfg.tol + (t - t0) * (5 / 12 * M3 * H ^ 2))) := by
  have htol := hA.tol0
  have h := C92_target_returns rec eps δ H heps hδ (stdStep .CrankNicolson (odeSystem f Df)) (Model.Nonlinear.newtonSolve env cfg) pol3 pol5 obs hpol hobs t0 final hlt k fuel hk hk' hfuel y0 mem reg u
    (fun l t => ∃ y l', l = y :: l' ∧ ‖ι y - ι (ψ t)‖ ≤ Real.exp (3 / 2 * L' * (t - t0)) * (‖ι y0 - ι (ψ t0)‖ + (l'.length * cfg.tol + (t - t0) * (5 / 12 * M3 * H ^ 2)))) (by
      intro dts g0 g1 g2
      obtain ⟨-, h2, h3⟩ := C79_crank_nicolson ι f Df mem hmem env cfg sol tick hN reg hreg dts t0 y0 H (final + H) (fun h hh => ⟨hδ.le.trans (g1 h hh).1, (g1 h hh).2⟩) g2 V β γ F hf q hA L' hL hHL hlip ψ ψ2 M2 M3 hM30 hψ hM (by
        refine subset_trans ?_ hV
        rintro x ⟨y, hy, hx⟩
        refine ⟨y, hy, hx.trans ?_⟩
        have : (dts.length : ℝ) ≤ k := by exact_mod_cast g0
        gcongr)
      exact ⟨fun r hr => (h2 r hr).1, h3⟩)
  refine ⟨h.1, h.2.1, h.2.2.1, fun i t y he => ?_⟩
  obtain ⟨l, ⟨y', l', e, hb⟩, hl⟩ := h.2.2.2 i t y he
  cases e
  rw [← hl]
  exact_mod_cast hb

/-- the same with the BDF1 stepper for monotone models, to first order in `H` and without growth of the error -/
theorem C92_target_bdf1_monotone (ι : (n → ℝ) →ₗ[ℝ] E) (f : (n → ℝ) → ℝ → (n → ℝ)) (Df : (n → ℝ) → ℝ → Matrix n n ℝ) (mem : SMem ℝ (n → ℝ) (n → ℝ) PMem) (hmem : Ready .BDF1 mem)
    (env : Env ℝ n n p L) (cfg : Cfg ℝ) (sol : Matrix n n ℝ → (n → ℝ) → n → ℝ) (tick : L → L) (hN : ExactNewton ι env cfg sol tick) (reg : Reg ℝ n n p L) (hreg : NewtonIdle reg)
    (rec : Bool) (eps δ H : ℝ) (heps : 0 ≤ eps) (hδ : 0 < δ) (hH : 0 ≤ H) (pol3 : Int → ℝ → ℝ → Prog U ℝ) (pol5 : Int → ℝ → DtVars ℝ → Prog U (DtVars ℝ)) (obs : Int → ℝ → (n → ℝ) → Prog U Unit) (hpol : Obliging pol3 pol5 rec (fun d => δ ≤ d ∧ d ≤ H)) (hobs : Patient obs)
    (t0 final : ℝ) (hlt : t0 < final) (k fuel : Nat) (hk : final - t0 ≤ k * δ) (hk' : (k : Int) < int32Max) (hfuel : k ≤ fuel) (y0 : n → ℝ) (u : U)
    (V : Set (n → ℝ)) (β γ F : ℝ) (hf : Tame ι f Df V t0 (final + H) H β γ F) (q : Nat) (hA : Affords cfg H β γ F q)
    (hmono : ∀ y z t, ⟪ι (f y t) - ι (f z t), ι y - ι z⟫ ≤ 0) (ψ : ℝ → n → ℝ) (B : ℝ) (hB0 : 0 ≤ B) (hψ : SolvesIn ι f ψ t0 (final + H)) (hB : Smooth1In ι f ψ B t0 (final + H))
    (hV : Within ι (ψ '' Set.Icc t0 (final + H)) (‖ι y0 - ι (ψ t0)‖ + (k * cfg.tol + (final + H - t0) * (B * H / 2)) + 2 * β * (H * F + cfg.tol / 2)) ⊆ V) :
    let r := advanceT rec eps (userObjects (objStepper (stdStep .BDF1 (odeSystem f Df)) (Model.Nonlinear.newtonSolve env cfg)) pol3 pol5 obs) fuel t0 final ⟨((mem, reg), u), y0, []⟩
    (∃ t, r = .ok t r.state ∧ final - eps ≤ t ∧ t ≤ final + H) ∧ (observations r.state.log).length ≤ k + 1 ∧ (observations r.state.log).getLast?.map (·.2.2) = some r.state.y ∧
      ∀ i t y, (i, t, y) ∈ observations r.state.log → ‖ι y - ι (ψ t)‖ ≤ ‖ι y0 - ι (ψ t0)‖ + (i * cfg.tol + (t - t0) * (B * H / 2)) := by
  have htol := hA.tol0
  have h := C92_target_returns rec eps δ H heps hδ (stdStep .BDF1 (odeSystem f Df)) (Model.Nonlinear.newtonSolve env cfg) pol3 pol5 obs hpol hobs t0 final hlt k fuel hk hk' hfuel y0 mem reg u
    (fun l t => ∃ y l', l = y :: l' ∧ ‖ι y - ι (ψ t)‖ ≤ ‖ι y0 - ι (ψ t0)‖ + (l'.length * cfg.tol + (t - t0) * (B * H / 2))) (by
      intro dts g0 g1 g2
      obtain ⟨-, h2, h3⟩ := C79_bdf1_monotone ι f Df mem hmem env cfg sol tick hN reg hreg dts t0 y0 H (final + H) hH (fun h hh => ⟨hδ.le.trans (g1 h hh).1, (g1 h hh).2⟩) g2 V β γ F hf q hA hmono ψ B hB0 hψ hB (by
        refine subset_trans ?_ hV
        rintro x ⟨y, hy, hx⟩
        refine ⟨y, hy, hx.trans ?_⟩
        have : (dts.length : ℝ) ≤ k := by exact_mod_cast g0
        gcongr)
      exact ⟨fun r hr => (h2 r hr).1, h3⟩)
  refine ⟨h.1, h.2.1, h.2.2.1, fun i t y he => ?_⟩
  obtain ⟨l, ⟨y', l', e, hb⟩, hl⟩ := h.2.2.2 i t y he
  cases e
  rw [← hl]
  exact_mod_cast hb

/-- the same with the BDF1 and BDF2 steppers for dissipative models: everything that is observed is bounded -/
theorem C92_target_dissipative (name : Scheme) (hname : name = .BDF1 ∨ name = .BDF2) (ι : (n → ℝ) →ₗ[ℝ] E) (f : (n → ℝ) → ℝ → (n → ℝ)) (Df : (n → ℝ) → ℝ → Matrix n n ℝ) (mem : SMem ℝ (n → ℝ) (n → ℝ) PMem) (hmem : Ready name mem)
    (env : Env ℝ n n p L) (cfg : Cfg ℝ) (sol : Matrix n n ℝ → (n → ℝ) → n → ℝ) (tick : L → L) (hN : ExactNewton ι env cfg sol tick) (reg : Reg ℝ n n p L) (hreg : NewtonIdle reg)
    (rec : Bool) (eps δ H : ℝ) (heps : 0 ≤ eps) (hδ : 0 < δ) (pol3 : Int → ℝ → ℝ → Prog U ℝ) (pol5 : Int → ℝ → DtVars ℝ → Prog U (DtVars ℝ)) (obs : Int → ℝ → (n → ℝ) → Prog U Unit) (hpol : Obliging pol3 pol5 rec (fun d => δ ≤ d ∧ d ≤ H)) (hobs : Patient obs)
    (t0 final : ℝ) (hlt : t0 < final) (k fuel : Nat) (hk : final - t0 ≤ k * δ) (hk' : (k : Int) < int32Max) (hfuel : k ≤ fuel) (y0 : n → ℝ) (u : U)
    (V : Set (n → ℝ)) (β γ F : ℝ) (hf : Tame ι f Df V t0 (final + H) H β γ F) (q : Nat) (hA : Affords cfg H β γ F q)
    (hdiss : ∀ y t, ⟪ι (f y t), ι y⟫ ≤ 0) (hV : ∀ x, ‖ι x‖ ≤ Real.sqrt 2 * ‖ι y0‖ + 6 * (k * cfg.tol) + 2 * β * (H * F + cfg.tol / 2) → x ∈ V) :
    let r := advanceT rec eps (userObjects (objStepper (stdStep name (odeSystem f Df)) (Model.Nonlinear.newtonSolve env cfg)) pol3 pol5 obs) fuel t0 final ⟨((mem, reg), u), y0, []⟩
    (∃ t, r = .ok t r.state ∧ final - eps ≤ t ∧ t ≤ final + H) ∧ (observations r.state.log).length ≤ k + 1 ∧ (observations r.state.log).getLast?.map (·.2.2) = some r.state.y ∧
      ∀ i t y, (i, t, y) ∈ observations r.state.log → ‖ι y‖ ≤ Real.sqrt 2 * ‖ι y0‖ + 6 * (i * cfg.tol) ∧ (name = .BDF1 → ‖ι y‖ ≤ ‖ι y0‖ + i * cfg.tol) := by
  have htol := hA.tol0
  have h := C92_target_returns rec eps δ H heps hδ (stdStep name (odeSystem f Df)) (Model.Nonlinear.newtonSolve env cfg) pol3 pol5 obs hpol hobs t0 final hlt k fuel hk hk' hfuel y0 mem reg u
    (fun l t => ∃ y l', l = y :: l' ∧ ‖ι y‖ ≤ Real.sqrt 2 * ‖ι y0‖ + 6 * (l'.length * cfg.tol) ∧ (name = .BDF1 → ‖ι y‖ ≤ ‖ι y0‖ + l'.length * cfg.tol)) (by
      intro dts g0 g1 g2
      obtain ⟨-, h2, h3⟩ := C79_dissipative name hname ι f Df mem hmem env cfg sol tick hN reg hreg dts t0 y0 H (final + H) (fun h hh => ⟨hδ.le.trans (g1 h hh).1, (g1 h hh).2⟩) g2 V β γ F hf q hA hdiss (by
        intro x hx
        refine hV x (hx.trans ?_)
        have : (dts.length : ℝ) ≤ k := by exact_mod_cast g0
        gcongr)
      exact ⟨fun r hr => (h2 r hr).1, h3⟩)
  refine ⟨h.1, h.2.1, h.2.2.1, fun i t y he => ?_⟩
  obtain ⟨l, ⟨y', l', e, hb⟩, hl⟩ := h.2.2.2 i t y he
  cases e
  rw [← hl]
  exact_mod_cast hb

/-- from runs with steps of one size to `advance_n_steps` with that size -/
theorem fixed_returns (name : Scheme) (ι : (n → ℝ) →ₗ[ℝ] E) (f : (n → ℝ) → ℝ → (n → ℝ)) (Df : (n → ℝ) → ℝ → Matrix n n ℝ) (env : Env ℝ n n p L) (cfg : Cfg ℝ) (mem : SMem ℝ (n → ℝ) (n → ℝ) PMem) (reg : Reg ℝ n n p L) (y0 : n → ℝ) (ψ : ℝ → n → ℝ) (C t0 T h : ℝ) (hh : 0 < h)
    (q : Nat) (hrun : ∀ N : Nat, t0 + N * h ≤ T → let run := driveObj (stdStep name (odeSystem f Df)) (Model.Nonlinear.newtonSolve env cfg) (List.replicate N h) t0 [y0] y0 mem reg
      run.map (·.dt) = List.replicate N h ∧ (∀ r ∈ run, r.stop = none ∧ r.queries.length ≤ q + 1) ∧ ∀ pre post, run = pre ++ post → ∃ y l, accepted y0 pre = y :: l ∧ ‖ι y - ι (ψ (timeAfter t0 pre))‖ ≤ C)
    (zero : ℝ) (pol3 : Int → ℝ → ℝ → Prog U ℝ) (pol5 : Int → ℝ → DtVars ℝ → Prog U (DtVars ℝ)) (obs : Int → ℝ → (n → ℝ) → Prog U Unit) (hobs : Patient obs) (N : Int) (hN0 : 0 ≤ N) (hN : N < int32Max) (hNT : t0 + N * h ≤ T) (u : U) :
    let r := advanceNFixed zero (userObjects (objStepper (stdStep name (odeSystem f Df)) (Model.Nonlinear.newtonSolve env cfg)) pol3 pol5 obs) N t0 h ⟨((mem, reg), u), y0, []⟩
    r.stop? = none ∧ (observations r.state.log).length = N + 1 ∧ (observations r.state.log).getLast?.map (·.2.2) = some r.state.y ∧
      ∀ i t y, (i, t, y) ∈ observations r.state.log → ‖ι y - ι (ψ t)‖ ≤ C := by
  have hNr : ((N.toNat : ℕ) : ℝ) = (N : ℝ) := by
    have : ((N.toNat : ℕ) : Int) = N := Int.toNat_of_nonneg hN0
    exact_mod_cast this
  have hr := C92_n_steps_returns zero (stdStep name (odeSystem f Df)) (Model.Nonlinear.newtonSolve env cfg) (fun _ _ _ => pure h) pol5 obs (fun d => d = h) (by
      simp only [Obliging, Bool.false_eq_true, if_false]
      exact fun i t d u => ⟨h, u, rfl, rfl⟩) hobs N hN0 hN t0 y0 mem reg u (fun l t => ∃ y l', l = y :: l' ∧ ‖ι y - ι (ψ t)‖ ≤ C) (by
      intro dts g0 g1
      have hd : dts = List.replicate dts.length h := List.eq_replicate_iff.2 ⟨rfl, g1⟩
      rw [hd]
      have hle : t0 + dts.length * h ≤ T := by
        have : (dts.length : ℝ) ≤ N := by rw [← hNr]; exact_mod_cast g0
        have := mul_le_mul_of_nonneg_right this hh.le
        linarith
      obtain ⟨-, h2, h3⟩ := hrun dts.length hle
      exact ⟨fun r hr => (h2 r hr).1, h3⟩)
  refine ⟨hr.1, hr.2.1, hr.2.2.1, fun i t y he => ?_⟩
  obtain ⟨l, ⟨y', l', e, hb⟩, -⟩ := hr.2.2.2 i t y he
  cases e
  exact hb

/-- `advance_n_steps` with a fixed step size, the Crank-Nicolson stepper and a Newton solver is of order two, for Lipschitz models: if the size is small enough and the tolerance of the solver is below its third power, then the call returns after
    the requested number of steps, and the error of everything that is observed is at most `C h²`. -/
theorem C92_crank_nicolson_order_two (ι : (n → ℝ) →ₗ[ℝ] E) (hι : Function.Injective ι) (f : (n → ℝ) → ℝ → (n → ℝ)) (Df : (n → ℝ) → ℝ → Matrix n n ℝ) (hf : ContDiff ℝ 2 (fun q : (n → ℝ) × ℝ => f q.1 q.2))
    (hD : ∀ t y, IsJacobian (fun y => f y t) (fun y => Df y t) y) (t0 T : ℝ) (ht : t0 ≤ T) (ψ : ℝ → n → ℝ) (hψ : SolvesIn ι f ψ t0 T) (ψ2 : ℝ → E) (M2 M3 : ℝ) (hM30 : 0 ≤ M3) (hM : Smooth2In ι f ψ ψ2 M2 M3 t0 T)
    (L' : ℝ) (hL : 0 ≤ L') (hlip : ∀ y z t, ‖ι (f y t) - ι (f z t)‖ ≤ L' * ‖ι y - ι z‖) :
    ∃ C h0, 0 < h0 ∧ ∀ tol, 0 < tol → ∃ k : Nat, ∀ (N : Int) (h : ℝ), 0 ≤ N → N < int32Max → 0 < h → h ≤ h0 → t0 + N * h ≤ T → tol ≤ h ^ 3 → ∀ (env : Env ℝ n n p L) (cfg : Cfg ℝ) (sol : Matrix n n ℝ → (n → ℝ) → n → ℝ) (tick : L → L)
      (mem : SMem ℝ (n → ℝ) (n → ℝ) PMem) (reg : Reg ℝ n n p L) (y0 : n → ℝ), ExactNewton ι env cfg sol tick → cfg.tol = tol → (k + 1 : Int) < cfg.maxIters → Ready .CrankNicolson mem → NewtonIdle reg → ‖ι y0 - ι (ψ t0)‖ ≤ h ^ 2 →
      ∀ (zero : ℝ) (pol3 : Int → ℝ → ℝ → Prog U ℝ) (pol5 : Int → ℝ → DtVars ℝ → Prog U (DtVars ℝ)) (obs : Int → ℝ → (n → ℝ) → Prog U Unit) (u : U), Patient obs →
      let r := advanceNFixed zero (userObjects (objStepper (stdStep .CrankNicolson (odeSystem f Df)) (Model.Nonlinear.newtonSolve env cfg)) pol3 pol5 obs) N t0 h ⟨((mem, reg), u), y0, []⟩
      r.stop? = none ∧ (observations r.state.log).length = N + 1 ∧ (observations r.state.log).getLast?.map (·.2.2) = some r.state.y ∧ ∀ i t y, (i, t, y) ∈ observations r.state.log → ‖ι y - ι (ψ t)‖ ≤ C * h ^ 2 := by
  obtain ⟨C, h0, hh0, hC⟩ := C79_crank_nicolson_order_two (p := p) (L := L) ι hι f Df hf hD t0 T ht ψ hψ ψ2 M2 M3 hM30 hM L' hL hlip
  refine ⟨C, h0, hh0, fun tol htol => ?_⟩
  obtain ⟨k, hk⟩ := hC tol htol
  refine ⟨k, fun N h hN0 hN hh hh1 hNT ht3 env cfg sol tick mem reg y0 hE hct hmi hR hI hy zero pol3 pol5 obs u hobs => ?_⟩
  exact fixed_returns .CrankNicolson ι f Df env cfg mem reg y0 ψ (C * h ^ 2) t0 T h hh k (fun N' hN' => hk N' h hh hh1 hN' ht3 env cfg sol tick mem reg y0 hE hct hmi hR hI hy) zero pol3 pol5 obs hobs N hN0 hN hNT u

/-- the same with the BDF2 stepper, for Lipschitz and for monotone models -/
theorem C92_bdf2_order_two (ι : (n → ℝ) →ₗ[ℝ] E) (hι : Function.Injective ι) (f : (n → ℝ) → ℝ → (n → ℝ)) (Df : (n → ℝ) → ℝ → Matrix n n ℝ) (hf : ContDiff ℝ 2 (fun q : (n → ℝ) × ℝ => f q.1 q.2))
    (hD : ∀ t y, IsJacobian (fun y => f y t) (fun y => Df y t) y) (t0 T : ℝ) (ht : t0 ≤ T) (ψ : ℝ → n → ℝ) (hψ : SolvesIn ι f ψ t0 T) (ψ2 : ℝ → E) (M2 M3 : ℝ) (hM20 : 0 ≤ M2) (hM30 : 0 ≤ M3) (hM : Smooth2In ι f ψ ψ2 M2 M3 t0 T)
    (hcl : (∃ L', 0 ≤ L' ∧ ∀ y z t, ‖ι (f y t) - ι (f z t)‖ ≤ L' * ‖ι y - ι z‖) ∨ ∀ y z t, ⟪ι (f y t) - ι (f z t), ι y - ι z⟫ ≤ 0) :
    ∃ C h0, 0 < h0 ∧ ∀ tol, 0 < tol → ∃ k : Nat, ∀ (N : Int) (h : ℝ), 0 ≤ N → N < int32Max → 0 < h → h ≤ h0 → t0 + N * h ≤ T → tol ≤ h ^ 3 → ∀ (env : Env ℝ n n p L) (cfg : Cfg ℝ) (sol : Matrix n n ℝ → (n → ℝ) → n → ℝ) (tick : L → L)
      (mem : SMem ℝ (n → ℝ) (n → ℝ) PMem) (reg : Reg ℝ n n p L) (y0 : n → ℝ), ExactNewton ι env cfg sol tick → cfg.tol = tol → (k + 1 : Int) < cfg.maxIters → Ready .BDF2 mem → NewtonIdle reg → ‖ι y0 - ι (ψ t0)‖ ≤ h ^ 2 →
      ∀ (zero : ℝ) (pol3 : Int → ℝ → ℝ → Prog U ℝ) (pol5 : Int → ℝ → DtVars ℝ → Prog U (DtVars ℝ)) (obs : Int → ℝ → (n → ℝ) → Prog U Unit) (u : U), Patient obs →
      let r := advanceNFixed zero (userObjects (objStepper (stdStep .BDF2 (odeSystem f Df)) (Model.Nonlinear.newtonSolve env cfg)) pol3 pol5 obs) N t0 h ⟨((mem, reg), u), y0, []⟩
      r.stop? = none ∧ (observations r.state.log).length = N + 1 ∧ (observations r.state.log).getLast?.map (·.2.2) = some r.state.y ∧ ∀ i t y, (i, t, y) ∈ observations r.state.log → ‖ι y - ι (ψ t)‖ ≤ C * h ^ 2 := by
  obtain ⟨C, h0, hh0, hC⟩ := C79_bdf2_order_two (p := p) (L := L) ι hι f Df hf hD t0 T ht ψ hψ ψ2 M2 M3 hM20 hM30 hM hcl
  refine ⟨C, h0, hh0, fun tol htol => ?_⟩
  obtain ⟨k, hk⟩ := hC tol htol
  refine ⟨k, fun N h hN0 hN hh hh1 hNT ht3 env cfg sol tick mem reg y0 hE hct hmi hR hI hy zero pol3 pol5 obs u hobs => ?_⟩
  exact fixed_returns .BDF2 ι f Df env cfg mem reg y0 ψ (C * h ^ 2) t0 T h hh k (fun N' hN' => hk N' h hh hh1 hN' ht3 env cfg sol tick mem reg y0 hE hct hmi hR hI hy) zero pol3 pol5 obs hobs N hN0 hN hNT u

end

section Examples
open Matrix Pressio.Model.Implicit Pressio.Spec.Implicit Pressio.Lemmas.Implicit Pressio.Model.Nonlinear Pressio.Spec.Nonlinear Pressio.Spec.SolverRun Pressio.Lemmas.SolverRun
open Pressio.Model.Explicit (Scheme)
open Pressio.Spec.NewtonConvergence Pressio.Spec.ImplicitNewtonRuns

/-- a stepper object that adds the size to the state, counts its calls in its memory, and reports a failure for sizes above 1/2 -/
def adder : ℚ → Int → ℚ → Prog (ℚ × Nat) Unit := fun _ _ d s => if 1 / 2 < d then .stop (.exc .timeStepFailure) (s.1, s.2 + 1) else .ok () (s.1 + d, s.2 + 1)
/-- a policy that always sets the size 1, the minimum 1/8 and the factor 2 -/
def ones : Int → ℚ → DtVars ℚ → Prog Unit (DtVars ℚ) := fun _ _ _ => pure ⟨1, 1 / 8, 2⟩

/-- recovery: four attempts, the first and the third fail -/
example : attempts adder [1, 1 / 2, 1, 1 / 2] ⟨0, 1, 0, 0⟩ = [⟨1, 0, 1, some (.exc .timeStepFailure), 0⟩, ⟨1, 0, 1 / 2, none, 1 / 2⟩, ⟨2, 1 / 2, 1, some (.exc .timeStepFailure), 1 / 2⟩, ⟨2, 1 / 2, 1 / 2, none, 1⟩] := by
  simp only [attempts, attemptAt, adder]; norm_num
example : let r := advanceT true 0 (userObjects adder (fun _ _ _ => pure 1) ones (fun _ _ _ => pure ())) 10 0 1 ⟨(0, ()), 0, []⟩
    r.stop? = none ∧ stepCalls r.state.log = [(1, 0, 1), (1, 0, 1 / 2), (2, 1 / 2, 1), (2, 1 / 2, 1 / 2)] ∧ observations r.state.log = [(0, 0, 0), (1, 1 / 2, 1 / 2), (2, 1, 1)] ∧ r.state.y = 1 ∧ r.state.w.1 = 4 := by decide +kernel
/-- without recovery the exception ends the call -/
example : let r := advanceT false 0 (userObjects adder (fun _ _ _ => pure 1) ones (fun _ _ _ => pure ())) 10 0 1 ⟨(0, ()), 0, []⟩
    r.stop? = some (.exc .timeStepFailure) ∧ stepCalls r.state.log = [(1, 0, 1)] ∧ observations r.state.log = [(0, 0, 0)] := by decide +kernel
example := C92_target true 0 adder (fun _ _ _ => pure 1) ones (fun _ _ _ => pure ()) 10 0 1 (by norm_num) 0 0 ()
example := C92_n_steps 0 adder (fun _ _ _ => pure (1 / 4)) ones (fun _ _ _ => pure ()) 3 0 0 0 ()

/-- a policy for which the size is 1/100, with and without recovery -/
noncomputable def hundredth3 : Int → ℝ → ℝ → Prog Unit ℝ := fun _ _ _ => pure (1 / 100)
noncomputable def hundredth5 : Int → ℝ → DtVars ℝ → Prog Unit (DtVars ℝ) := fun _ _ _ => pure ⟨1 / 100, 1 / 1000, 2⟩
theorem hundredth_obliging (rec : Bool) : Obliging hundredth3 hundredth5 rec (fun d => 1 / 100 ≤ d ∧ d ≤ 1 / 100) := by
  cases rec
  · simp only [Obliging, Bool.false_eq_true, if_false]
    exact fun i t d u => ⟨1 / 100, u, rfl, le_rfl, le_rfl⟩
  · simp only [Obliging, if_true]
    exact fun i t v u => ⟨⟨1 / 100, 1 / 1000, 2⟩, u, rfl, ⟨le_rfl, le_rfl⟩, by norm_num, by norm_num⟩
def silent : Int → ℝ → (Unit → ℝ) → Prog Unit Unit := fun _ _ _ => pure ()
theorem silent_patient : Patient silent := fun _ _ _ _ => rfl

/-- `y' = -y³` to time 9.5 with BDF2: a bounded run, with and without recovery -/
example (rec : Bool) := C92_target_dissipative (E := ℝ) .BDF2 (.inr rfl) (LinearMap.proj ()) cubicR cubicJacR (newStepperR .BDF2) rfl envR (cfgR (1 / 10 ^ 6)) _ _ (exactNewton_R _) regR (fun _ => .created _ rfl)
  rec 0 (1 / 100) (1 / 100) le_rfl (by norm_num) hundredth3 hundredth5 silent (hundredth_obliging rec) silent_patient 0 (19 / 2) (by norm_num) 950 1000 (by norm_num) (by norm_num [int32Max]) (by norm_num) (fun _ => 1) ()
  _ 1 9 (27 / 8) (cubic_tame _ _ _) 5 affords_R (fun y t => by simp [cubicR]; nlinarith [mul_nonneg (mul_self_nonneg (y ())) (mul_self_nonneg (y ()))]) (fun x hx => by
      have h1 : Real.sqrt 2 ≤ 1.415 := Real.sqrt_le_iff.2 (by norm_num)
      simp [cfgR] at hx
      show |x ()| ≤ 3 / 2
      norm_num at hx h1 ⊢
      linarith)

/-- `y' = -y` to time 7/100 with BDF1 and with CrankNicolson -/
example (rec : Bool) := C92_target_crank_nicolson (E := ℝ) (LinearMap.proj ()) relaxR1 relaxJacR1 (newStepperR .CrankNicolson) ⟨rfl, rfl, by decide⟩ envR (cfgR (1 / 10 ^ 6)) _ _ (exactNewton_R _) regR (fun _ => .created _ rfl)
  rec 0 (1 / 100) (1 / 100) le_rfl (by norm_num) hundredth3 hundredth5 silent (hundredth_obliging rec) silent_patient 0 (7 / 100) (by norm_num) 7 1000 (by norm_num) (by norm_num [int32Max]) (by norm_num) (fun _ => 1) ()
    _ 1 0 100 (relax_tame _ _ _) 5 relax_affords 1 (by norm_num) (by norm_num) relax_lip relaxSolR1 _ 1 1 (by norm_num) (relax_solves _) (relax_smooth _) (relax_within _ _ (by
      rw [relax_start, sub_self, norm_zero]
      exact relax_room (exp_le_three (by norm_num)) (Real.exp_nonneg _) (by norm_num) (by norm_num) _ (by norm_num)))
example (rec : Bool) := C92_target_bdf1_monotone (E := ℝ) (LinearMap.proj ()) relaxR1 relaxJacR1 (newStepperR .BDF1) rfl envR (cfgR (1 / 10 ^ 6)) _ _ (exactNewton_R _) regR (fun _ => .created _ rfl)
  rec 0 (1 / 100) (1 / 100) le_rfl (by norm_num) (by norm_num) hundredth3 hundredth5 silent (hundredth_obliging rec) silent_patient 0 (7 / 100) (by norm_num) 7 1000 (by norm_num) (by norm_num [int32Max]) (by norm_num) (fun _ => 1) ()
    _ 1 0 100 (relax_tame _ _ _) 5 relax_affords relax_monotone relaxSolR1 1 (by norm_num) (relax_solves _) (relax_smooth _).smooth1 (relax_within _ _ (by
      rw [relax_start, sub_self, norm_zero]
      have := relax_room (e := 1) (n := (7 : ℕ)) (by norm_num) (by norm_num) (by norm_num) (by norm_num) ((7 / 100 + 1 / 100 - 0) * (1 * (1 / 100) / 2)) (by norm_num)
      rwa [one_mul] at this))

/-- order two -/
example := C92_bdf2_order_two (E := ℝ) (p := Unit) (L := Unit) (U := Unit) (LinearMap.proj ()) (fun v w h => by funext u; exact h) cubicR cubicJacR (contDiff_pi.2 fun u => by unfold cubicR; fun_prop) cubic_isJacobian 0 10 (by norm_num) cubicSolR (cubicSol_solves 10) _ 3 15
  (by norm_num) (by norm_num) (cubicSol_smooth 10) (.inr cubic_monotone)
example := C92_crank_nicolson_order_two (E := ℝ) (p := Unit) (L := Unit) (U := Unit) (LinearMap.proj ()) (fun v w h => by funext u; exact h) relaxR1 relaxJacR1 (contDiff_pi.2 fun u => by unfold relaxR1; fun_prop)
  relax_isJacobian 0 10 (by norm_num) relaxSolR1 (relax_solves _) _ 1 1 (by norm_num) (relax_smooth _) 1 (by norm_num) relax_lip

end Examples
end Pressio.Props
