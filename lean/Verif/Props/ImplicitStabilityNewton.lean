import Verif.Props.ImplicitStability
import Verif.Props.ImplicitNewton
import Mathlib.Analysis.InnerProductSpace.PiL2

/-
  C75, C76 with pressio's Newton solver object: the runs of `C66`, with the criterion on the norm of the residual.
-/
namespace Pressio.Props
set_option autoImplicit false
set_option linter.unusedSectionVars false
open Pressio Matrix Pressio.Model.Implicit Pressio.Spec.Implicit Pressio.Lemmas.Implicit Pressio.Model.Nonlinear Pressio.Spec.Nonlinear Pressio.Spec.SolverRun Pressio.Lemmas.SolverRun
open Pressio.Model.Explicit (Scheme)
open Pressio.Lemmas.Nonlinear Pressio.Lemmas.SolverTree Pressio.Lemmas.Numerics

section
variable {E n p L : Type} [NormedAddCommGroup E] [InnerProductSpace ℝ E] [Fintype n] [DecidableEq n] [Fintype p]
local notation "⟪" x ", " y "⟫" => @inner ℝ _ _ x y

/-- A run with one Newton object, the criterion `WhenAbsolutel2NormOfResidualBelowTolerance` and no step that uses up all iterations is a run in which every step has converged. -/
theorem newton_converged_run (name : Scheme) (f : (n → ℝ) → ℝ → (n → ℝ)) (Df : (n → ℝ) → ℝ → Matrix n n ℝ) (mem : SMem ℝ (n → ℝ) (n → ℝ) PMem) (hmem : Ready name mem)
    (env : Env ℝ n n p L) (ι : (n → ℝ) →ₗ[ℝ] E) (hnorm : ∀ v, env.normM v = ‖ι v‖) (cfg : Cfg ℝ) (sol : Matrix n n ℝ → (n → ℝ) → n → ℝ) (tick : L → L) (hlin : ∀ A b c l, env.linJ A b (c, l) = .ok () (sol A b, tick l))
    (hcrit : cfg.stop = .WhenAbsolutel2NormOfResidualBelowTolerance) (hupd : cfg.update = .Standard) (hmax : cfg.maxIters < int32Max) (reg : Reg ℝ n n p L) (hreg : NewtonIdle reg) (dts : List ℝ) (t0 : ℝ) (y0 : n → ℝ)
    (hlim : ∀ r ∈ driveObj (stdStep name (odeSystem f Df)) (newtonSolve env cfg) dts t0 [y0] y0 mem reg, (r.queries.length : Int) < cfg.maxIters) :
    ∃ atts : List (Attempt ℝ (n → ℝ) (Ans ℝ n n)), atts.map (·.dt) = dts ∧
      driveObj (stdStep name (odeSystem f Df)) (newtonSolve env cfg) dts t0 [y0] y0 mem reg = drive (stdStep name (odeSystem f Df)) atts t0 [y0] y0 mem ∧
      ConvergedRun ι cfg.tol name (odeSystem f Df) f mem atts t0 y0 := by
  have hsys : NoTSF (odeSystem f Df) := by intro y t w e junk h; cases h
  have hw : WellTypedRhs (odeSystem f Df) := by
    intro y t w g j h
    simp only [odeSystem, Except.ok.injEq, Prod.mk.injEq] at h
    rw [← h.2]; cases w <;> rfl
  have he : ∀ A b s, (env.linJ A b s).stop? ≠ some (.exc .timeStepFailure) := fun A b s => by obtain ⟨c, l⟩ := s; rw [hlin]; simp
  obtain ⟨atts, h1, h2, h3⟩ := driveObj_eq_drive (fun _ => True) (stdStep name (odeSystem f Df)) (textbook name (odeSystem f Df)) (StdInv name (odeSystem f Df))
    (refinesOn_true (std_refines name (ready_name name mem hmem) (odeSystem f Df))) (textbook_ne name (odeSystem f Df) hsys) (newtonSolve env cfg) (fine_newtonSolve env he cfg) (fun _ _ => trivial)
    NewtonIdle (fun reg y hist t dt h => newtonIdle_run env cfg _ (textbook_wellTyped name (odeSystem f Df) hw hist t dt) reg y h) dts t0 y0 [] mem reg (ready_inv name _ mem hmem t0 y0) hreg
  refine ⟨atts, h2, h3, ⟨hsys, ?_, hmem, ?_, ?_⟩⟩
  · intro y t w g j h
    simp only [odeSystem, Except.ok.injEq, Prod.mk.injEq] at h
    exact h.1.symm
  · intro a ha y
    obtain ⟨rg, -, hs⟩ := h1 a ha
    rw [hs]; exact honest_solverOf _ (fine_newtonSolve env he cfg) rg y
  · intro r hr _
    rw [← h3] at hr
    obtain ⟨pre, post, e⟩ := List.append_of_mem hr
    obtain ⟨yn, older, -, -, -, h⟩ := C66_newton_iterates name f Df mem hmem env cfg sol tick hlin (by rw [hcrit]; rfl) hupd hmax reg hreg dts t0 y0 pre post r e
    have hlen := hlim r hr
    rcases h with ⟨k, hk, hmet, -, hy, hq⟩ | ⟨hno, hy, hq⟩
    · refine ⟨⟨_, true, _⟩, by rw [hq]; exact List.mem_map.2 ⟨k, by simp, rfl⟩, _, _, hy.symm, rfl, ?_⟩
      rw [← hnorm]
      simp only [hcrit, below, decide_eq_true_eq] at hmet
      exact hmet.le
    · rw [hq] at hlen
      simp at hlen

/-- **C66, linear ODE, number of evaluations.** With an exact linear solver, the criterion on the residual and a positive tolerance, a step of a linear ODE evaluates the right-hand side twice at most, so a limit of
    three iterations is never reached. -/
theorem C66_linear_two_evaluations (name : Scheme) (A : ℝ → Matrix n n ℝ) (b : ℝ → n → ℝ) (mem : SMem ℝ (n → ℝ) (n → ℝ) PMem) (hmem : Ready name mem)
    (env : Env ℝ n n p L) (h0 : env.normM 0 = 0) (cfg : Cfg ℝ) (sol : Matrix n n ℝ → (n → ℝ) → n → ℝ) (tick : L → L) (hlin : ∀ A b c l, env.linJ A b (c, l) = .ok () (sol A b, tick l))
    (hcrit : cfg.stop = .WhenAbsolutel2NormOfResidualBelowTolerance) (htol : 0 < cfg.tol) (hupd : cfg.update = .Standard) (hmax : cfg.maxIters < int32Max) (h2 : 2 ≤ cfg.maxIters) (reg : Reg ℝ n n p L)
    (hreg : NewtonIdle reg) (dts : List ℝ) (t0 : ℝ) (y0 : n → ℝ)
    (hsol : ∀ h ∈ dts, ∀ t, ∀ c ∈ [h, 2 / 3 * h, h / 2], ∀ d, (1 - c • A t) *ᵥ sol (1 - c • A t) d = d) :
    ∀ r ∈ driveObj (stdStep name (odeSystem (fun y t => A t *ᵥ y + b t) (fun _ t => A t))) (newtonSolve env cfg) dts t0 [y0] y0 mem reg, r.queries.length ≤ 2 := by
  intro r hr
  obtain ⟨pre, post, e⟩ := List.append_of_mem hr
  obtain ⟨yn, older, h3, h4, h5, h6⟩ := C66_newton_iterates name _ _ mem hmem env cfg sol tick hlin (by rw [hcrit]; rfl) hupd hmax reg hreg dts t0 y0 pre post r e
  have hdt : r.dt ∈ dts := by
    have := driveObj_dts (stdStep name (odeSystem (fun y t => A t *ᵥ y + b t) (fun _ t => A t))) (newtonSolve env cfg) dts t0 [y0] y0 mem reg r hr
    exact this
  have hroot := linear_newton_root name (ready_name name mem hmem) A b sol yn older r.t r.dt (fun d => by
    refine hsol _ hdt _ _ ?_ d
    rcases ready_name name mem hmem with rfl | rfl | rfl
    · simp [schemeCoef]
    · cases older <;> simp [schemeCoef]
    · simp [schemeCoef]) yn
  rcases h6 with ⟨k, hk, -, hno, -, hq⟩ | ⟨hno, -, -⟩
  · rw [hq]
    simp only [List.length_map, List.length_range]
    by_contra hc
    refine hno 1 (by omega) ?_
    simp only [hcrit, below, Function.iterate_one, decide_eq_true_eq]
    rw [hroot, h0]; exact htol
  · refine absurd ?_ (hno 1 (by omega))
    simp only [hcrit, below, Function.iterate_one, decide_eq_true_eq]
    rw [hroot, h0]; exact htol

/-- **C75 with a Newton object.** `tol` is the tolerance given to the solver, the norm is the one that the solver uses. -/
theorem C75_newton_object (name : Scheme) (hname : name = .BDF1 ∨ name = .BDF2) (f : (n → ℝ) → ℝ → (n → ℝ)) (Df : (n → ℝ) → ℝ → Matrix n n ℝ) (mem : SMem ℝ (n → ℝ) (n → ℝ) PMem) (hmem : Ready name mem)
    (env : Env ℝ n n p L) (ι : (n → ℝ) →ₗ[ℝ] E) (hnorm : ∀ v, env.normM v = ‖ι v‖) (cfg : Cfg ℝ) (sol : Matrix n n ℝ → (n → ℝ) → n → ℝ) (tick : L → L) (hlin : ∀ A b c l, env.linJ A b (c, l) = .ok () (sol A b, tick l))
    (hcrit : cfg.stop = .WhenAbsolutel2NormOfResidualBelowTolerance) (hupd : cfg.update = .Standard) (hmax : cfg.maxIters < int32Max) (reg : Reg ℝ n n p L) (hreg : NewtonIdle reg) (dts : List ℝ) (t0 : ℝ) (y0 : n → ℝ)
    (hlim : ∀ r ∈ driveObj (stdStep name (odeSystem f Df)) (newtonSolve env cfg) dts t0 [y0] y0 mem reg, (r.queries.length : Int) < cfg.maxIters)
    (hdt : ∀ h ∈ dts, 0 ≤ h) (hdiss : ∀ y t, ⟪ι (f y t), ι y⟫ ≤ 0) :
    ∀ pre post, driveObj (stdStep name (odeSystem f Df)) (newtonSolve env cfg) dts t0 [y0] y0 mem reg = pre ++ post → ∃ y l, accepted y0 pre = y :: l ∧ ‖ι y‖ ≤ Real.sqrt 2 * ‖ι y0‖ + 6 * (l.length * cfg.tol) ∧
      (name = .BDF1 → ‖ι y‖ ≤ ‖ι y0‖ + l.length * cfg.tol) := by
  intro pre post e
  obtain ⟨atts, h1, h2, R⟩ := newton_converged_run name f Df mem hmem env ι hnorm cfg sol tick hlin hcrit hupd hmax reg hreg dts t0 y0 hlim
  rw [h2] at e
  have hd : ∀ a ∈ atts, 0 ≤ a.dt := fun a ha => hdt _ (h1 ▸ List.mem_map.2 ⟨a, ha, rfl⟩)
  rcases hname with rfl | rfl
  · obtain ⟨y, l, g1, g2⟩ := C75_bdf1 ι cfg.tol _ f mem atts t0 y0 R hd hdiss pre post e
    refine ⟨y, l, g1, ?_, fun _ => g2⟩
    have h1 : (1:ℝ) ≤ Real.sqrt 2 := Real.one_le_sqrt.2 (by norm_num)
    have h3 := mul_le_mul_of_nonneg_right h1 (norm_nonneg (ι y0))
    have h4 : 0 ≤ (l.length : ℝ) * cfg.tol := by
      rcases Nat.eq_zero_or_pos l.length with h0 | h0
      · simp [h0]
      · -- at least one step was accepted, so the tolerance is not negative
        have : ∃ r ∈ pre, r.stop = none := by
          by_contra hc
          push Not at hc
          have hnil : pre.filter (fun r => r.stop.isNone) = [] := by
            rw [List.filter_eq_nil_iff]
            intro r hr
            have := hc r hr
            simpa [Option.isNone_iff_eq_none] using this
          unfold accepted at g1
          rw [hnil] at g1
          simp at g1
          simp [g1.2] at h0
        obtain ⟨r, hr, hs⟩ := this
        obtain ⟨p1, p2, rfl⟩ := List.append_of_mem hr
        have := R.tol_nonneg (pre := p1) (post := p2 ++ post) (r := r) (by rw [e]; simp) hs
        positivity
    linarith
  · obtain ⟨y, l, g1, g2⟩ := C75_bdf2 ι cfg.tol _ f mem atts t0 y0 R hd hdiss pre post e
    exact ⟨y, l, g1, g2, fun h => by cases h⟩

/-- **C76 with a Newton object**, CrankNicolson on Lipschitz problems: order two. -/
theorem C76_newton_object_crank_nicolson (f : (n → ℝ) → ℝ → (n → ℝ)) (Df : (n → ℝ) → ℝ → Matrix n n ℝ) (mem : SMem ℝ (n → ℝ) (n → ℝ) PMem) (hmem : Ready .CrankNicolson mem)
    (env : Env ℝ n n p L) (ι : (n → ℝ) →ₗ[ℝ] E) (hnorm : ∀ v, env.normM v = ‖ι v‖) (cfg : Cfg ℝ) (sol : Matrix n n ℝ → (n → ℝ) → n → ℝ) (tick : L → L) (hlin : ∀ A b c l, env.linJ A b (c, l) = .ok () (sol A b, tick l))
    (hcrit : cfg.stop = .WhenAbsolutel2NormOfResidualBelowTolerance) (hupd : cfg.update = .Standard) (hmax : cfg.maxIters < int32Max) (reg : Reg ℝ n n p L) (hreg : NewtonIdle reg) (dts : List ℝ) (t0 : ℝ) (y0 : n → ℝ)
    (hlim : ∀ r ∈ driveObj (stdStep .CrankNicolson (odeSystem f Df)) (newtonSolve env cfg) dts t0 [y0] y0 mem reg, (r.queries.length : Int) < cfg.maxIters)
    (H T : ℝ) (hdt : ∀ h ∈ dts, 0 ≤ h ∧ h ≤ H) (hT : ∀ r ∈ driveObj (stdStep .CrankNicolson (odeSystem f Df)) (newtonSolve env cfg) dts t0 [y0] y0 mem reg, r.t + r.dt ≤ T)
    (L' : ℝ) (hL : 0 ≤ L') (hHL : H * L' ≤ 1) (hlip : ∀ y z t, ‖ι (f y t) - ι (f z t)‖ ≤ L' * ‖ι y - ι z‖) (ψ : ℝ → n → ℝ) (ψ2 : ℝ → E) (M2 M3 : ℝ) (hM30 : 0 ≤ M3) (hψ : SolvesIn ι f ψ t0 T) (hM : Smooth2In ι f ψ ψ2 M2 M3 t0 T) :
    ∀ pre post, driveObj (stdStep .CrankNicolson (odeSystem f Df)) (newtonSolve env cfg) dts t0 [y0] y0 mem reg = pre ++ post → ∃ y l, accepted y0 pre = y :: l ∧
      ‖ι y - ι (ψ (timeAfter t0 pre))‖ ≤ Real.exp (3 / 2 * L' * (timeAfter t0 pre - t0)) * (‖ι y0 - ι (ψ t0)‖ + (l.length * cfg.tol + (timeAfter t0 pre - t0) * (5 / 12 * M3 * H ^ 2))) := by
  intro pre post e
  obtain ⟨atts, h1, h2, R⟩ := newton_converged_run .CrankNicolson f Df mem hmem env ι hnorm cfg sol tick hlin hcrit hupd hmax reg hreg dts t0 y0 hlim
  rw [h2] at e hT
  refine C76_crank_nicolson_lipschitz ι cfg.tol _ f mem atts t0 y0 R H T ?_ L' hL hHL hlip ψ ψ2 M2 M3 hM30 hψ hM pre post e
  intro r hr _
  obtain ⟨a, ha, hda⟩ := drive_dt .CrankNicolson ι cfg.tol _ f mem atts t0 y0 R r hr
  have := hdt r.dt (by rw [hda, ← h1]; exact List.mem_map.2 ⟨a, ha, rfl⟩)
  exact ⟨this.2, this.1, hT r hr⟩

end

/-! ### A concrete case: `y' = -y`, all step sizes, all tolerances -/
section Examples

/-- one unknown, absolute value as norm, division as linear solver -/
noncomputable def envR : Env ℝ Unit Unit Unit Unit where
  normM := fun v => |v ()|
  normN := fun v => |v ()|
  lin := fun A b (_, l) => .ok () (fun _ => b () / A () (), l)
  linJ := fun A b (_, l) => .ok () (fun _ => b () / A () (), l)
  applyJac := fun _ _ r => r
  krylov := fun _ _ c => .ok () c
  qrThin := fun _ l => .ok () l
  qrApplyQT := fun r (_, l) => .ok () (r, l)
  qrSolve := fun b (_, l) => .ok () (b, l)
  wR := id
  wJ := id
  cwR := id
  cwJ := id
  createState := 0

/-- a new Newton object -/
noncomputable def regR : Reg ℝ Unit Unit Unit Unit where
  x := 0
  trial := 7
  c := 7
  r := 7
  J := 7
  g := 7
  H := 7
  H0 := 7
  damp := 7
  Wr := 7
  WJ := 7
  cWr := 7
  cWJ := 7
  QTr := 7
  nu := 7
  cDiagH := 7
  lin := ()
  diag := newContainer newtonDiagnostics
  files := []
  log := []

noncomputable def newStepperR : Scheme → SMem ℝ (Unit → ℝ) (Unit → ℝ) PMem
  | .BDF2 => ⟨0, 0, 0, 0, [0, 0], [], freshPMem⟩
  | .CrankNicolson => ⟨0, 0, 0, 0, [0], [0, 0], freshPMem⟩
  | _ => ⟨0, 0, 0, 0, [0], [], freshPMem⟩

noncomputable def cfgR (tol : ℝ) : Cfg ℝ := ⟨100, .WhenAbsolutel2NormOfResidualBelowTolerance, tol, .Standard, none⟩

/-- the right-hand side `-y`, as a matrix -/
def decayR : ℝ → Matrix Unit Unit ℝ := fun _ => Matrix.of fun _ _ => -1

theorem decay_within_limit (name : Scheme) (hmem : Ready name (newStepperR name)) (tol : ℝ) (htol : 0 < tol) (dts : List ℝ) (hdt : ∀ h ∈ dts, 0 ≤ h) (t0 : ℝ) (y0 : Unit → ℝ) :
    ∀ r ∈ driveObj (stdStep name (odeSystem (fun y t => decayR t *ᵥ y + (0 : ℝ → Unit → ℝ) t) (fun _ t => decayR t))) (newtonSolve envR (cfgR tol)) dts t0 [y0] y0 (newStepperR name) regR,
      (r.queries.length : Int) < (cfgR tol).maxIters := by
  intro r hr
  have := C66_linear_two_evaluations name decayR 0 (newStepperR name) hmem envR (by simp [envR]) (cfgR tol) (fun A b _ => b () / A () ()) id (fun _ _ _ _ => rfl) rfl htol rfl (by simp [cfgR, int32Max]) (by simp [cfgR]) regR
    (fun _ => .created _ rfl) dts t0 y0 (by
      intro h hh t c hc d
      have h0 := hdt h hh
      have hc0 : 0 ≤ c := by
        simp only [List.mem_cons, List.not_mem_nil, or_false] at hc
        rcases hc with rfl | rfl | rfl <;> positivity
      funext u
      have : (1:ℝ) + c ≠ 0 := by positivity
      simp [decayR, Matrix.mulVec, dotProduct]
      field_simp) r hr
  simp only [cfgR]
  omega

/-- C75 for it: BDF2 with one Newton object, any steps -/
example (tol : ℝ) (htol : 0 < tol) (dts : List ℝ) (hdt : ∀ h ∈ dts, 0 ≤ h) (y0 : Unit → ℝ) :=
  C75_newton_object (E := ℝ) .BDF2 (.inr rfl) _ _ (newStepperR .BDF2) rfl envR (LinearMap.proj ()) (fun v => by simp [envR]) (cfgR tol) (fun A b _ => b () / A () ()) id (fun _ _ _ _ => rfl) rfl rfl (by simp [cfgR, int32Max])
    regR (fun _ => .created _ rfl) dts 0 y0 (decay_within_limit .BDF2 rfl tol htol dts hdt 0 y0) hdt
    (by intro y t; simp [decayR, Matrix.mulVec, dotProduct]; nlinarith [mul_self_nonneg (y ())])

/-- C76 for it: CrankNicolson with one Newton object from the exact initial value, on `[0, 10]`, steps of 1/2 at most -/
example (tol : ℝ) (htol : 0 < tol) (dts : List ℝ) (hdt : ∀ h ∈ dts, 0 ≤ h ∧ h ≤ 1/2)
    (hT : ∀ r ∈ driveObj (stdStep .CrankNicolson (odeSystem (fun y t => decayR t *ᵥ y + (0 : ℝ → Unit → ℝ) t) (fun _ t => decayR t))) (newtonSolve envR (cfgR tol)) dts 0 [1] 1 (newStepperR .CrankNicolson) regR,
      r.t + r.dt ≤ 10) :=
  C76_newton_object_crank_nicolson (E := ℝ) _ _ (newStepperR .CrankNicolson) ⟨rfl, rfl, by simp [newStepperR, freshPMem]⟩ envR (LinearMap.proj ()) (fun v => by simp [envR]) (cfgR tol) (fun A b _ => b () / A () ()) id (fun _ _ _ _ => rfl) rfl rfl
    (by simp [cfgR, int32Max]) regR (fun _ => .created _ rfl) dts 0 1 (decay_within_limit .CrankNicolson ⟨rfl, rfl, by simp [newStepperR, freshPMem]⟩ tol htol dts (fun h hh => (hdt h hh).1) 0 1) (1/2) 10 hdt hT 1 (by norm_num) (by norm_num)
    (by
      intro y z t
      simp [decayR, Matrix.mulVec, dotProduct]
      rw [abs_sub_comm]
      exact le_of_eq (by congr 1; ring))
    (fun t _ => Real.exp (-t)) (fun t => Real.exp (-t)) 1 1 (by norm_num)
    (by
      intro s _
      have h1 : HasDerivAt (fun t : ℝ => Real.exp (-t)) (-Real.exp (-s)) s := (hasDerivAt_neg s).exp.congr_deriv (by ring)
      simpa [decayR, Matrix.mulVec, dotProduct] using h1)
    (by
      have hd : ∀ s : ℝ, HasDerivAt (fun t : ℝ => Real.exp (-t)) (-Real.exp (-s)) s := fun s => (hasDerivAt_neg s).exp.congr_deriv (by ring)
      have hle : ∀ s ∈ Set.Icc (0:ℝ) 10, |Real.exp (-s)| ≤ 1 := by
        intro s hs
        rw [abs_of_pos (Real.exp_pos _)]
        exact Real.exp_le_one_iff.2 (by linarith [hs.1])
      have key : ∀ s ∈ Set.Icc (0:ℝ) 10, ∀ u ∈ Set.Icc (0:ℝ) 10, s ≤ u → |Real.exp (-u) - Real.exp (-s)| ≤ u - s := by
        intro s hs u hu hsu
        have := increment_le (fun t : ℝ => Real.exp (-t)) (fun t => -Real.exp (-t)) s u hsu (fun x _ => hd x) 0 (fun x => x - s) (fun _ => 1) (by simp)
          (fun x => ((hasDerivAt_id x).sub_const s)) (fun x hx => by simpa using hle x ⟨hs.1.trans hx.1, hx.2.trans hu.2⟩)
        simpa using this
      refine ⟨fun s hs => ⟨?_, by simpa using hle s hs⟩, ?_⟩
      · have := (hd s).fun_neg
        simpa [decayR, Matrix.mulVec, dotProduct] using this
      · intro s hs u hu
        rw [one_mul, Real.norm_eq_abs]
        rcases le_total s u with h | h
        · rw [abs_sub_comm, abs_sub_comm s u, abs_of_nonneg (sub_nonneg.2 h)]; exact key s hs u hu h
        · rw [abs_of_nonneg (sub_nonneg.2 h)]; exact key u hu s hs h)

end Examples
end Pressio.Props
