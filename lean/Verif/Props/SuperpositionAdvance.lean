import Verif.Props.Superposition
import Verif.Props.RestartAdvance

/-
  C111 for implicit schemes, in calls of `advance_n_steps`.
-/
namespace Pressio.Props
set_option autoImplicit false
set_option linter.unusedSectionVars false
open Pressio Matrix
open Pressio.Model.Advance Pressio.Spec.AdvanceDrive Pressio.Spec.AdvanceTarget
open Pressio.Model.Nonlinear (Env Cfg Reg StopCrit Update Ans SP)
open Pressio.Spec.Nonlinear Pressio.Spec.Restart
open Pressio.Model.Implicit Pressio.Spec.Implicit Pressio.Spec.SolverRun
open Pressio.Model.Explicit (Scheme)

section
variable {K m n p L S U : Type} [Add K]

/-- `advance_n_steps` with a fixed step size, when all steps are accepted -/
theorem n_steps_accepted (zero : K) (step : ((n → K) → SolveTree (n → K) (Ans K m n)) → K → K → Int → Prog (SolveSt (n → K) S (Ans K m n)) Unit) (solve : SP K m n p L Unit) (h : K) (pol5 : Int → K → DtVars K → Prog U (DtVars K)) (obs : Int → K → (n → K) → Prog U Unit) (hobs : Patient obs)
    (N : Nat) (hN : (N : Int) < int32Max) (start : K) (y0 : n → K) (mem : S) (reg : Reg K m n p L) (u : U) (hall : ∀ k, ∀ r ∈ driveObj step solve (List.replicate k h) start [y0] y0 mem reg, r.stop = none) :
    let r := advanceN zero (userObjects (objStepper step solve) (fun _ _ _ => pure h) pol5 obs) N start ⟨((mem, reg), u), y0, []⟩
    let R := driveObj step solve (List.replicate N h) start [y0] y0 mem reg
    r.stop? = none ∧ (observations r.state.log).map (·.2) = (start, y0) :: R.map (fun r => (r.t + r.dt, r.y)) ∧ r.state.y = stateOf y0 R := by
  intro r R
  obtain ⟨L, h1, h2, h3, h4⟩ := fixed_attempts zero (objStepper step solve) h pol5 obs hobs N hN start y0 (mem, reg) u
  have hs : r.stop? = none := by
    rcases e : r.stop? with _ | x
    · rfl
    · obtain ⟨pre, a, e1, e2⟩ := h1.last x e
      rw [← C92_runs] at e1
      obtain ⟨b, hb, rfl⟩ := List.mem_map.1 (show a ∈ _ by rw [e1]; simp)
      have := hall L b hb
      simp [toAtt, this] at e2
  obtain rfl := h4 hs
  refine ⟨hs, ?_, ?_⟩
  · rw [h2, ← C92_runs, List.map_cons]
    unfold Spec.AdvanceDrive.seen
    rw [List.filter_eq_self.2 (fun a ha => by
      obtain ⟨b, hb, rfl⟩ := List.mem_map.1 ha
      simp [toAtt, hall L b hb]), List.map_map, List.map_map]
    rfl
  · rw [show r.state.y = _ from h3, ← C92_runs]
    unfold stateOf stateAfter
    rw [List.getLast?_map, Option.map_map]
    rfl
end

section
variable {n p L U : Type} [Fintype n] [DecidableEq n] [Fintype p]

/-- **C111, superposition, `advance_n_steps` with implicit schemes** and a fixed step size: under the hypotheses of `C111_superposition_implicit` the three calls return, the caller of the third is left with the combination of the states that the callers of the other two are left with, and its observer sees at the same times the combinations of the
    states that their observers see. -/
theorem C111_superposition_n_steps (name : Scheme) (A : ℝ → Matrix n n ℝ) (b c : ℝ → n → ℝ) (α β : ℝ) (mem1 mem2 mem3 : SMem ℝ (n → ℝ) (n → ℝ) PMem) (hm1 : Ready name mem1) (hm2 : Ready name mem2) (hm3 : Ready name mem3)
    (env : Env ℝ n n p L) (hM : ∀ r, 0 ≤ env.normM r) (hN : ∀ r, 0 ≤ env.normN r) (cfg : Cfg ℝ) (sol : Matrix n n ℝ → (n → ℝ) → n → ℝ) (tick : L → L) (hlin : ∀ B d c l, env.linJ B d (c, l) = .ok () (sol B d, tick l))
    (hcrit : cfg.stop = .WhenAbsolutel2NormOfResidualBelowTolerance ∨ cfg.stop = .WhenAbsolutel2NormOfCorrectionBelowTolerance) (htol : cfg.tol = 0) (hupd : cfg.update = .Standard) (hmax : cfg.maxIters < int32Max) (hit : 1 ≤ cfg.maxIters)
    (reg1 reg2 reg3 : Reg ℝ n n p L) (hr1 : NewtonIdle reg1) (hr2 : NewtonIdle reg2) (hr3 : NewtonIdle reg3) (h : ℝ) (hsol : ∀ t, ∀ c ∈ rhsFactors h name, ∀ d, (1 - c • A t) *ᵥ sol (1 - c • A t) d = d)
    (pol5 : Int → ℝ → DtVars ℝ → Prog U (DtVars ℝ)) (obs : Int → ℝ → (n → ℝ) → Prog U Unit) (hobs : Patient obs) (N : Nat) (hNs : (N : Int) < int32Max) (start : ℝ) (y0 z0 : n → ℝ) (u1 u2 u3 : U) :
    let call := fun (b : ℝ → n → ℝ) (y0 : n → ℝ) mem reg u => advanceN 0 (userObjects (objStepper (stdStep name (odeSystem (forcedRhs A b) (fun _ t => A t))) (Model.Nonlinear.newtonSolve env cfg)) (fun _ _ _ => pure h) pol5 obs) N start ⟨((mem, reg), u), y0, []⟩
    let first := call b y0 mem1 reg1 u1
    let second := call c z0 mem2 reg2 u2
    let both := call (fun t => α • b t + β • c t) (α • y0 + β • z0) mem3 reg3 u3
    first.stop? = none ∧ second.stop? = none ∧ both.stop? = none ∧ both.state.y = α • first.state.y + β • second.state.y ∧
      (observations first.state.log).length = N + 1 ∧ (observations second.state.log).length = N + 1 ∧
      (observations both.state.log).map (·.2) = List.zipWith (fun p q => (p.1, α • p.2 + β • q.2)) ((observations first.state.log).map (·.2)) ((observations second.state.log).map (·.2)) := by
  intro call first second both
  have key : ∀ k, _ := fun k => C111_superposition_implicit name A b c α β mem1 mem2 mem3 hm1 hm2 hm3 env hM hN cfg sol tick hlin hcrit htol hupd hmax hit reg1 reg2 reg3 hr1 hr2 hr3 (List.replicate k h) (fun h' hh => by rw [List.eq_of_mem_replicate hh]; exact hsol) start y0 z0
  have key2 : ∀ k, _ := fun k => C111_superposition_implicit name A c b α β mem2 mem1 mem3 hm2 hm1 hm3 env hM hN cfg sol tick hlin hcrit htol hupd hmax hit reg2 reg1 reg3 hr2 hr1 hr3 (List.replicate k h) (fun h' hh => by rw [List.eq_of_mem_replicate hh]; exact hsol) start z0 y0
  have key3 : ∀ k, _ := fun k => C111_superposition_implicit name A (fun t => α • b t + β • c t) b α β mem3 mem1 mem3 hm3 hm1 hm3 env hM hN cfg sol tick hlin hcrit htol hupd hmax hit reg3 reg1 reg3 hr3 hr1 hr3 (List.replicate k h) (fun h' hh => by rw [List.eq_of_mem_replicate hh]; exact hsol) start (α • y0 + β • z0) y0
  dsimp only at key key2 key3
  obtain ⟨a1, a2, a3⟩ := n_steps_accepted 0 _ _ h pol5 obs hobs N hNs start y0 mem1 reg1 u1 (fun k => (key k).1)
  obtain ⟨b1, b2, b3⟩ := n_steps_accepted 0 _ _ h pol5 obs hobs N hNs start z0 mem2 reg2 u2 (fun k => (key2 k).1)
  obtain ⟨c1, c2, c3⟩ := n_steps_accepted 0 _ _ h pol5 obs hobs N hNs start (α • y0 + β • z0) mem3 reg3 u3 (fun k => (key3 k).1)
  obtain ⟨-, l1, l2, hz⟩ := key N
  rw [List.length_replicate] at l1 l2
  refine ⟨a1, b1, c1, ?_, ?_, ?_, ?_⟩
  · rw [show both.state.y = _ from c3, show first.state.y = _ from a3, show second.state.y = _ from b3]
    have hy := congrArg (List.map (fun x : ℝ × ℝ × Option Stop × (n → ℝ) => x.2.2.2)) hz
    rw [List.map_map, List.map_zipWith] at hy
    have hl := congrArg List.getLast? hy
    unfold stateOf
    rw [List.getLast?_map] at hl
    rw [show Option.map (fun r : Record ℝ (n → ℝ) (Ans ℝ n n) => r.y) = Option.map ((fun x : ℝ × ℝ × Option Stop × (n → ℝ) => x.2.2.2) ∘ (fun r : Record ℝ (n → ℝ) (Ans ℝ n n) => (r.t, r.dt, r.stop, r.y))) from rfl, hl]
    rw [List.getLast?_eq_getElem?, List.getLast?_eq_getElem?, List.getLast?_eq_getElem?, List.length_zipWith, l1, l2, Nat.min_self, List.getElem?_zipWith]
    rcases Nat.eq_zero_or_pos N with rfl | hp
    · rw [List.getElem?_eq_none (by rw [l1]), List.getElem?_eq_none (by rw [l2])]; rfl
    · rw [List.getElem?_eq_getElem (by rw [l1]; omega), List.getElem?_eq_getElem (by rw [l2]; omega)]; rfl
  · have := congrArg List.length a2
    simpa [l1] using this
  · have := congrArg List.length b2
    simpa [l2] using this
  · rw [show (observations both.state.log).map (·.2) = _ from c2, show (observations first.state.log).map (·.2) = _ from a2, show (observations second.state.log).map (·.2) = _ from b2, List.zipWith_cons_cons]
    congr 1
    have hy := congrArg (List.map (fun x : ℝ × ℝ × Option Stop × (n → ℝ) => (x.1 + x.2.1, x.2.2.2))) hz
    rw [List.map_map, List.map_zipWith] at hy
    rw [List.zipWith_map]
    exact hy

/-- **C111, sensitivities, `advance_n_steps` with implicit schemes** on linear problems: when initial state and forcing depend on a parameter `ε` as `y0 + ε z0` and `b + ε c`, the run from `z0` under `c` is the derivative of the final state with respect to the parameter, at every value of it, whatever idle
    objects are used for the runs with different values. -/
theorem C111_sensitivity_n_steps (name : Scheme) (A : ℝ → Matrix n n ℝ) (b c : ℝ → n → ℝ) (mem2 : SMem ℝ (n → ℝ) (n → ℝ) PMem) (mem : ℝ → SMem ℝ (n → ℝ) (n → ℝ) PMem) (hm2 : Ready name mem2) (hm : ∀ ε, Ready name (mem ε))
    (env : Env ℝ n n p L) (hM : ∀ r, 0 ≤ env.normM r) (hN : ∀ r, 0 ≤ env.normN r) (cfg : Cfg ℝ) (sol : Matrix n n ℝ → (n → ℝ) → n → ℝ) (tick : L → L) (hlin : ∀ B d c l, env.linJ B d (c, l) = .ok () (sol B d, tick l))
    (hcrit : cfg.stop = .WhenAbsolutel2NormOfResidualBelowTolerance ∨ cfg.stop = .WhenAbsolutel2NormOfCorrectionBelowTolerance) (htol : cfg.tol = 0) (hupd : cfg.update = .Standard) (hmax : cfg.maxIters < int32Max) (hit : 1 ≤ cfg.maxIters)
    (reg2 : Reg ℝ n n p L) (reg : ℝ → Reg ℝ n n p L) (hr2 : NewtonIdle reg2) (hr : ∀ ε, NewtonIdle (reg ε)) (h : ℝ) (hsol : ∀ t, ∀ c ∈ rhsFactors h name, ∀ d, (1 - c • A t) *ᵥ sol (1 - c • A t) d = d)
    (pol5 : Int → ℝ → DtVars ℝ → Prog U (DtVars ℝ)) (obs : Int → ℝ → (n → ℝ) → Prog U Unit) (hobs : Patient obs) (N : Nat) (hNs : (N : Int) < int32Max) (start : ℝ) (y0 z0 : n → ℝ) (u2 : U) (u : ℝ → U) :
    let call := fun (b : ℝ → n → ℝ) (y0 : n → ℝ) mem reg u => advanceN 0 (userObjects (objStepper (stdStep name (odeSystem (forcedRhs A b) (fun _ t => A t))) (Model.Nonlinear.newtonSolve env cfg)) (fun _ _ _ => pure h) pol5 obs) N start ⟨((mem, reg), u), y0, []⟩
    let tangent := call c z0 mem2 reg2 u2
    let runs := fun ε : ℝ => call (fun t => b t + ε • c t) (y0 + ε • z0) (mem ε) (reg ε) (u ε)
    tangent.stop? = none ∧ (∀ ε, (runs ε).stop? = none) ∧ ∀ ε, HasDerivAt (fun ε => (runs ε).state.y) tangent.state.y ε := by
  intro call tangent runs
  have key := fun ε : ℝ => C111_superposition_n_steps name A b c 1 ε (mem 0) mem2 (mem ε) (hm 0) hm2 (hm ε) env hM hN cfg sol tick hlin hcrit htol hupd hmax hit (reg 0) reg2 (reg ε) (hr 0) hr2 (hr ε) h hsol pol5 obs hobs N hNs start y0 z0 (u 0) u2 (u ε)
  simp only [one_smul] at key
  refine ⟨(key 0).2.1, fun ε => (key ε).2.2.1, fun ε => ?_⟩
  rw [show (fun ε => (runs ε).state.y) = fun ε : ℝ => (call b y0 (mem 0) (reg 0) (u 0)).state.y + ε • tangent.state.y from funext fun ε => (key ε).2.2.2.1]
  have := ((hasDerivAt_id ε).smul_const tangent.state.y).const_add (call b y0 (mem 0) (reg 0) (u 0)).state.y
  rwa [one_smul] at this
end

section Examples
/-- BDF2, a thousand steps of size 1/10 -/
example := C111_superposition_n_steps (U := Unit) .BDF2 decayMat (fun _ _ => 1) (fun t _ => t) 2 (-3) (newStepperR .BDF2) (newStepperR .BDF2) (newStepperR .BDF2) rfl rfl rfl envR (fun _ => abs_nonneg _) (fun _ => abs_nonneg _) (cfgR 0) (fun B d _ => d () / B () ()) id (fun _ _ _ _ => rfl)
    (.inl rfl) rfl rfl (by decide) (by decide) regR regR regR (fun _ => .created _ rfl) (fun _ => .created _ rfl) (fun _ => .created _ rfl) (1 / 10) (fun t c hc d => decay_regular (1 / 10) (by norm_num) t c _ hc d)
    (fun _ _ v => pure v) silent silent_patient 1000 (by decide) 0 (fun _ => 1) (fun _ => 5) () () ()
/-- CrankNicolson: the sensitivity to the amplitude of the forcing `t` -/
example := C111_sensitivity_n_steps (U := Unit) .CrankNicolson decayMat (fun _ _ => 1) (fun t _ => t) (newStepperR .CrankNicolson) (fun _ => newStepperR .CrankNicolson) ⟨rfl, rfl, by decide⟩ (fun _ => ⟨rfl, rfl, by decide⟩) envR (fun _ => abs_nonneg _) (fun _ => abs_nonneg _) (cfgR 0) (fun B d _ => d () / B () ()) id (fun _ _ _ _ => rfl)
    (.inl rfl) rfl rfl (by decide) (by decide) regR (fun _ => regR) (fun _ => .created _ rfl) (fun _ _ => .created _ rfl) (1 / 10) (fun t c hc d => decay_regular (1 / 10) (by norm_num) t c _ hc d)
    (fun _ _ v => pure v) silent silent_patient 1000 (by decide) 0 (fun _ => 1) 0 () (fun _ => ())
end Examples
end Pressio.Props
