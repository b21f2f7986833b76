import Verif.Props.ImplicitStabilityNewton
import Verif.Spec.ImplicitNewtonRuns
import Verif.Lemmas.NewtonResidual
import Mathlib.Analysis.Calculus.FDeriv.Add
import Mathlib.Analysis.Calculus.FDeriv.Mul
import Mathlib.Analysis.Calculus.ContDiff.RCLike
import Mathlib.Analysis.SpecialFunctions.Sqrt
import Mathlib.Analysis.Complex.ExponentialBounds
import Mathlib.Analysis.Calculus.Deriv.Inv

/-
  C79: implicit runs with a Newton object complete: no step uses up its iterations, so that stability and convergence hold without assuming that.
-/
namespace Pressio.Props
set_option autoImplicit false
set_option linter.unusedSectionVars false
open Pressio Matrix Pressio.Model.Implicit Pressio.Spec.Implicit Pressio.Lemmas.Implicit Pressio.Model.Nonlinear Pressio.Spec.Nonlinear Pressio.Spec.SolverRun Pressio.Lemmas.SolverRun
open Pressio.Model.Explicit (Scheme)
open Pressio.Lemmas.Nonlinear Pressio.Lemmas.SolverTree Pressio.Lemmas.Numerics Pressio.Spec.NewtonConvergence Pressio.Lemmas.NewtonConvergence Pressio.Spec.ImplicitNewtonRuns

section
variable {E n p L : Type} [NormedAddCommGroup E] [InnerProductSpace ℝ E] [Fintype n] [DecidableEq n] [Fintype p]
local notation "⟪" x ", " y "⟫" => @inner ℝ _ _ x y

/-! ### The equation of a step -/

theorem schemeRes_eq (name : Scheme) (hname : name = .BDF1 ∨ name = .BDF2 ∨ name = .CrankNicolson) (f : (n → ℝ) → ℝ → (n → ℝ)) (yn : n → ℝ) (older : List (n → ℝ)) (t dt : ℝ) :
    ∃ w, ∀ y, schemeRes name f (yn :: older) t dt y = y - w - schemeCoef name (yn :: older) dt • f y (t + dt) := by
  rcases hname with rfl | rfl | rfl
  · exact ⟨yn, fun y => rfl⟩
  · cases older with
    | nil => exact ⟨yn, fun y => rfl⟩
    | cons z l => exact ⟨((4:ℝ)/3) • yn - ((1:ℝ)/3) • z, fun y => by simp only [schemeRes, schemeCoef]; abel⟩
  · exact ⟨yn + (dt / 2) • f yn t, fun y => by simp only [schemeRes, schemeCoef, smul_add]; abel⟩

theorem schemeCoef_mem (name : Scheme) (hname : name = .BDF1 ∨ name = .BDF2 ∨ name = .CrankNicolson) (hist : List (n → ℝ)) (dt H : ℝ) (h0 : 0 ≤ dt) (hH : dt ≤ H) : schemeCoef name hist dt ∈ Set.Icc 0 H := by
  have key : ∀ c : ℝ, c = dt ∨ c = 2 / 3 * dt ∨ c = dt / 2 → c ∈ Set.Icc 0 H := by
    rintro c (rfl | rfl | rfl)
    · exact ⟨h0, hH⟩
    · exact ⟨by positivity, by linarith⟩
    · exact ⟨by positivity, by linarith⟩
  apply key
  rcases hname with rfl | rfl | rfl
  · left; cases hist <;> rfl
  · match hist with
    | [] => left; rfl
    | [_] => left; rfl
    | _ :: _ :: _ => right; left; rfl
  · right; right; cases hist <;> rfl

theorem scheme_isJacobian (name : Scheme) (hname : name = .BDF1 ∨ name = .BDF2 ∨ name = .CrankNicolson) (f : (n → ℝ) → ℝ → (n → ℝ)) (Df : (n → ℝ) → ℝ → Matrix n n ℝ) (yn : n → ℝ) (older : List (n → ℝ)) (t dt : ℝ) (y : n → ℝ)
    (h : IsJacobian (fun y => f y (t + dt)) (fun y => Df y (t + dt)) y) : IsJacobian (schemeRes name f (yn :: older) t dt) (schemeJac name Df (yn :: older) t dt) y := by
  obtain ⟨w, hw⟩ := schemeRes_eq name hname f yn older t dt
  rw [show schemeRes name f (yn :: older) t dt = fun y => y - w - schemeCoef name (yn :: older) dt • f y (t + dt) from funext hw]
  unfold IsJacobian schemeJac at *
  have h1 := ((hasFDerivAt_id y).sub_const w).sub (h.const_smul (schemeCoef name (yn :: older) dt))
  refine h1.congr_fderiv ?_
  ext v : 1
  simp [Matrix.sub_mulVec, Matrix.smul_mulVec]

/-! ### Times and numbers of records of a run -/

theorem driveObj_prefix {S m' : Type} [Fintype m'] (step : ((n → ℝ) → SolveTree (n → ℝ) (Ans ℝ m' n)) → ℝ → ℝ → Int → Prog (SolveSt (n → ℝ) S (Ans ℝ m' n)) Unit) (solve : SP ℝ m' n p L Unit) (dts : List ℝ) (hd : ∀ h ∈ dts, 0 ≤ h) :
    ∀ (t : ℝ) (hist : List (n → ℝ)) (y : n → ℝ) (mem : S) (reg : Reg ℝ m' n p L) (pre post), driveObj step solve dts t hist y mem reg = pre ++ post →
      t ≤ timeAfter t pre ∧ timeAfter t pre ≤ t + dts.sum ∧ pre.length ≤ dts.length := by
  have hsum : ∀ l : List ℝ, (∀ h ∈ l, 0 ≤ h) → 0 ≤ l.sum := fun l hl => List.sum_nonneg hl
  induction dts with
  | nil =>
    intro t hist y mem reg pre post e
    have : pre = [] := by
      simp only [driveObj] at e
      exact (List.append_eq_nil_iff.1 e.symm).1
    subst this
    simp [timeAfter]
  | cons dt rest ih =>
    intro t hist y mem reg pre post e
    have h0 := hd dt (by simp)
    have hr : ∀ h ∈ rest, 0 ≤ h := fun h hh => hd h (by simp [hh])
    have hs := hsum rest hr
    cases pre with
    | nil => simp only [timeAfter, List.filter_nil, List.foldl_nil, List.sum_cons, List.length_nil]; refine ⟨le_rfl, by linarith, by simp⟩
    | cons r pre =>
      simp only [driveObj] at e
      split at e
      · simp only [List.cons_append, List.cons.injEq] at e
        obtain ⟨a, b, c⟩ := ih hr _ _ _ _ _ pre post e.2
        have ht : timeAfter t (r :: pre) = timeAfter (t + dt) pre := by rw [← e.1]; simp [timeAfter]
        rw [ht]
        simp only [List.sum_cons, List.length_cons]
        exact ⟨by linarith, by linarith, by omega⟩
      · simp only [List.cons_append, List.cons.injEq] at e
        obtain ⟨a, b, c⟩ := ih hr _ _ _ _ _ pre post e.2
        have ht : timeAfter t (r :: pre) = timeAfter t pre := by rw [← e.1]; simp [timeAfter]
        rw [ht]
        simp only [List.sum_cons, List.length_cons]
        exact ⟨by linarith, by linarith, by omega⟩
      · simp only [List.cons_append, List.cons.injEq] at e
        have hp : pre = [] := (List.append_eq_nil_iff.1 e.2.symm).1
        have ht : timeAfter t (r :: pre) = t := by rw [← e.1, hp]; simp [timeAfter]
        rw [ht, hp]
        simp only [List.sum_cons, List.length_cons, List.length_nil]
        exact ⟨le_rfl, by linarith, by omega⟩

/-- the run with the first `k` step sizes is the beginning of the run -/
theorem driveObj_take {S m' : Type} [Fintype m'] (step : ((n → ℝ) → SolveTree (n → ℝ) (Ans ℝ m' n)) → ℝ → ℝ → Int → Prog (SolveSt (n → ℝ) S (Ans ℝ m' n)) Unit) (solve : SP ℝ m' n p L Unit) (dts : List ℝ) :
    ∀ (k : Nat) (t : ℝ) (hist : List (n → ℝ)) (y : n → ℝ) (mem : S) (reg : Reg ℝ m' n p L), driveObj step solve (dts.take k) t hist y mem reg = (driveObj step solve dts t hist y mem reg).take k := by
  induction dts with
  | nil => intros; simp [driveObj]
  | cons dt rest ih =>
    intro k t hist y mem reg
    cases k with
    | zero => simp [driveObj]
    | succ k =>
      simp only [List.take_succ_cons, driveObj]
      cases step (solverOf solve reg) t dt hist.length ⟨y, mem, []⟩ with
      | ok u s => simp [ih]
      | stop h s =>
        cases h with
        | exc e => cases e <;> simp [ih]
        | ub w => simp
        | fuel => simp

/-- a run without failures goes through all step sizes -/
theorem driveObj_all {S m' : Type} [Fintype m'] (step : ((n → ℝ) → SolveTree (n → ℝ) (Ans ℝ m' n)) → ℝ → ℝ → Int → Prog (SolveSt (n → ℝ) S (Ans ℝ m' n)) Unit) (solve : SP ℝ m' n p L Unit) (dts : List ℝ) :
    ∀ (t : ℝ) (hist : List (n → ℝ)) (y : n → ℝ) (mem : S) (reg : Reg ℝ m' n p L), (∀ r ∈ driveObj step solve dts t hist y mem reg, r.stop = none) → (driveObj step solve dts t hist y mem reg).map (·.dt) = dts := by
  induction dts with
  | nil => intros; simp [driveObj]
  | cons dt rest ih =>
    intro t hist y mem reg h
    simp only [driveObj] at h ⊢
    split at h
    · simp only [List.map_cons, List.cons.injEq, true_and]
      exact ih _ _ _ _ _ (fun r hr => h r (List.mem_cons_of_mem _ hr))
    · exact absurd (h _ List.mem_cons_self) (by simp)
    · exact absurd (h _ List.mem_cons_self) (by simp)

/-! ### One step -/

/-- the residual at the initial guess: the last accepted state -/
theorem initial_residual (name : Scheme) (hname : name = .BDF1 ∨ name = .BDF2 ∨ name = .CrankNicolson) (ι : (n → ℝ) →ₗ[ℝ] E) (f : (n → ℝ) → ℝ → (n → ℝ)) (yn : n → ℝ) (older : List (n → ℝ)) (t dt H F tol : ℝ) (h0 : 0 ≤ dt) (hH : dt ≤ H)
    (htol : 0 ≤ tol) (hF1 : ‖ι (f yn t)‖ ≤ F) (hF2 : ‖ι (f yn (t + dt))‖ ≤ F) (hold : ∀ z l, name = .BDF2 → older = z :: l → ‖ι (yn - z)‖ ≤ H * F + 3 / 2 * tol) :
    ‖ι (schemeRes name f (yn :: older) t dt yn)‖ ≤ H * F + tol / 2 := by
  have hF0 : 0 ≤ F := (norm_nonneg _).trans hF1
  have hs : ∀ (c : ℝ) (v : n → ℝ), 0 ≤ c → ‖ι v‖ ≤ F → ‖ι (c • v)‖ ≤ c * F := fun c v hc hv => by
    rw [map_smul, norm_smul, Real.norm_eq_abs, abs_of_nonneg hc]; gcongr
  have hdF : dt * F ≤ H * F := by gcongr
  have euler : ‖ι (yn - yn - dt • f yn (t + dt))‖ ≤ H * F + tol / 2 := by
    rw [sub_self, zero_sub, map_neg, norm_neg]
    have := hs dt _ h0 hF2
    linarith
  rcases hname with rfl | rfl | rfl
  · exact euler
  · cases older with
    | nil => exact euler
    | cons z l =>
      have h1 := hold z l rfl rfl
      have e : schemeRes .BDF2 f (yn :: z :: l) t dt yn = -(((1:ℝ)/3) • (yn - z) + ((2:ℝ)/3 * dt) • f yn (t + dt)) := by simp only [schemeRes]; module
      rw [e, map_neg, norm_neg, map_add]
      refine (norm_add_le _ _).trans ?_
      have h2 := hs (2 / 3 * dt) _ (by positivity) hF2
      rw [map_smul, norm_smul, Real.norm_eq_abs, abs_of_nonneg (by norm_num)]
      linarith
  · have e : schemeRes .CrankNicolson f (yn :: older) t dt yn = -((dt / 2) • f yn (t + dt) + (dt / 2) • f yn t) := by simp only [schemeRes]; module
    rw [e, map_neg, norm_neg, map_add]
    refine (norm_add_le _ _).trans ?_
    have h2 := hs (dt / 2) _ (by positivity) hF2
    have h3 := hs (dt / 2) _ (by positivity) hF1
    linarith

/-- the Newton iterates of a step -/
theorem step_iterates (name : Scheme) (hname : name = .BDF1 ∨ name = .BDF2 ∨ name = .CrankNicolson) (ι : (n → ℝ) →ₗ[ℝ] E) (hι : Function.Injective ι) (f : (n → ℝ) → ℝ → (n → ℝ)) (Df : (n → ℝ) → ℝ → Matrix n n ℝ)
    (sol : Matrix n n ℝ → (n → ℝ) → n → ℝ) (hsol : ∀ A b, IsUnit A.det → A *ᵥ sol A b = b) (U : Set (n → ℝ)) (a b H β γ F : ℝ) (hf : Tame ι f Df U a b H β γ F)
    (yn : n → ℝ) (older : List (n → ℝ)) (t dt ρ : ℝ) (h0 : 0 ≤ dt) (hH : dt ≤ H) (ht : t + dt ∈ Set.Icc a b) (hρ : ‖ι (schemeRes name f (yn :: older) t dt yn)‖ ≤ ρ) (hsmall : β ^ 2 * (H * γ) * ρ ≤ 1)
    (hU : ∀ x, ‖ι x - ι yn‖ ≤ 2 * β * ρ → x ∈ U) (k : Nat) :
    ‖ι (((fun x => x + -sol (schemeJac name Df (yn :: older) t dt x) (schemeRes name f (yn :: older) t dt x))^[k] yn) - yn)‖ ≤ 2 * β * ρ * (1 - (1 / 2) ^ k) ∧
    ‖ι (schemeRes name f (yn :: older) t dt ((fun x => x + -sol (schemeJac name Df (yn :: older) t dt x) (schemeRes name f (yn :: older) t dt x))^[k] yn))‖ ≤ ρ * (1 / 2) ^ (2 ^ k - 1) := by
  have hc := schemeCoef_mem name hname (yn :: older) dt H h0 hH
  set c := schemeCoef name (yn :: older) dt with hcdef
  have hU' : ∀ x, ‖ι (x - yn)‖ ≤ 2 * β * ρ → x ∈ U := fun x hx => hU x (by rwa [← map_sub])
  have hHH : 0 ≤ H := h0.trans hH
  have hinv : ∀ x, ‖ι (x - yn)‖ ≤ 2 * β * ρ → ∀ v, ‖ι v‖ ≤ β * ‖ι (schemeJac name Df (yn :: older) t dt x *ᵥ v)‖ := fun x hx v => hf.inv _ ht x (hU' x hx) c hc v
  refine (residual_iterates (ι := ι) (r := schemeRes name f (yn :: older) t dt) (J := schemeJac name Df (yn :: older) t dt) (β := β) (γ := H * γ) yn ρ hρ hf.β0 (mul_nonneg hHH hf.γ0) hsmall
    (fun x hx => scheme_isJacobian name hname f Df yn older t dt x (hf.jac _ ht x (hU' x hx))) hinv ?_ _ ?_ k)
  · intro x y v hx hy
    have := hf.lip _ ht x (hU' x hx) y (hU' y hy) v
    have e : schemeJac name Df (yn :: older) t dt x *ᵥ v - schemeJac name Df (yn :: older) t dt y *ᵥ v = -(c • (Df x (t + dt) *ᵥ v - Df y (t + dt) *ᵥ v)) := by
      simp only [schemeJac, Matrix.sub_mulVec, Matrix.smul_mulVec, ← hcdef, smul_sub]; abel
    rw [e, map_neg, norm_neg, map_smul, norm_smul, Real.norm_eq_abs, abs_of_nonneg hc.1]
    have hγ := hf.γ0
    calc c * ‖ι (Df x (t + dt) *ᵥ v - Df y (t + dt) *ᵥ v)‖ ≤ H * (γ * ‖ι (x - y)‖ * ‖ι v‖) := by gcongr; exact hc.2
      _ = _ := by ring
  · intro x hx
    refine ⟨_, hsol _ _ ?_, sub_eq_add_neg _ _ |>.symm⟩
    rw [← Matrix.isUnit_iff_isUnit_det, ← Matrix.mulVec_injective_iff_isUnit]
    intro v w hvw
    have := hinv x hx (v - w)
    rw [Matrix.mulVec_sub, sub_eq_zero.2 hvw, map_zero, norm_zero, mul_zero] at this
    have := norm_le_zero_iff.1 this
    rw [map_sub, sub_eq_zero] at this
    exact hι this

theorem step_residuals (name : Scheme) (hname : name = .BDF1 ∨ name = .BDF2 ∨ name = .CrankNicolson) (ι : (n → ℝ) →ₗ[ℝ] E) (hι : Function.Injective ι) (f : (n → ℝ) → ℝ → (n → ℝ)) (Df : (n → ℝ) → ℝ → Matrix n n ℝ)
    (sol : Matrix n n ℝ → (n → ℝ) → n → ℝ) (hsol : ∀ A b, IsUnit A.det → A *ᵥ sol A b = b) (U : Set (n → ℝ)) (a b H β γ F : ℝ) (hf : Tame ι f Df U a b H β γ F)
    (yn : n → ℝ) (older : List (n → ℝ)) (t dt ρ : ℝ) (h0 : 0 ≤ dt) (hH : dt ≤ H) (ht : t + dt ∈ Set.Icc a b) (hρ : ‖ι (schemeRes name f (yn :: older) t dt yn)‖ ≤ ρ) (hsmall : β ^ 2 * (H * γ) * ρ ≤ 1)
    (hU : ∀ x, ‖ι x - ι yn‖ ≤ 2 * β * ρ → x ∈ U) (k : Nat) :
    ‖ι (schemeRes name f (yn :: older) t dt ((fun x => x + -sol (schemeJac name Df (yn :: older) t dt x) (schemeRes name f (yn :: older) t dt x))^[k] yn))‖ ≤ ρ * (1 / 2) ^ (2 ^ k - 1) :=
  (step_iterates name hname ι hι f Df sol hsol U a b H β γ F hf yn older t dt ρ h0 hH ht hρ hsmall hU k).2

/-! ### The run -/

/-- **C79, core.** Let `P` (a property of the accepted states and the time) hold in all runs in which every step has converged, and let it keep the states inside the region where `f` is tame, with a margin.  Then, if `k`
    updates reduce the residual of the initial guess below the tolerance, every step of the run with a Newton object converges after `k + 1` evaluations at most, and `P` holds. -/
theorem newton_run_core (name : Scheme) (ι : (n → ℝ) →ₗ[ℝ] E) (f : (n → ℝ) → ℝ → (n → ℝ)) (Df : (n → ℝ) → ℝ → Matrix n n ℝ) (mem : SMem ℝ (n → ℝ) (n → ℝ) PMem) (hmem : Ready name mem)
    (env : Env ℝ n n p L) (cfg : Cfg ℝ) (sol : Matrix n n ℝ → (n → ℝ) → n → ℝ) (tick : L → L) (hN : ExactNewton ι env cfg sol tick) (reg : Reg ℝ n n p L) (hreg : NewtonIdle reg) (dts : List ℝ) (t0 : ℝ) (y0 : n → ℝ)
    (H T : ℝ) (hdt : ∀ h ∈ dts, 0 ≤ h ∧ h ≤ H) (hT : t0 + dts.sum ≤ T) (U : Set (n → ℝ)) (β γ F : ℝ) (hf : Tame ι f Df U t0 T H β γ F) (k : Nat) (hA : Affords cfg H β γ F k)
    (P : List (n → ℝ) → ℝ → Prop)
    (hP : ∀ atts : List (Attempt ℝ (n → ℝ) (Ans ℝ n n)), (∀ a ∈ atts, a.dt ∈ dts) → ConvergedRun ι cfg.tol name (odeSystem f Df) f mem atts t0 y0 →
      (∀ r ∈ drive (stdStep name (odeSystem f Df)) atts t0 [y0] y0 mem, r.t + r.dt ≤ T) → ∀ pre post, drive (stdStep name (odeSystem f Df)) atts t0 [y0] y0 mem = pre ++ post → P (accepted y0 pre) (timeAfter t0 pre))
    (hU : ∀ y l t, P (y :: l) t → l.length ≤ dts.length → t ∈ Set.Icc t0 T → ∀ x, ‖ι x - ι y‖ ≤ 2 * β * (H * F + cfg.tol / 2) → x ∈ U) :
    let run := driveObj (stdStep name (odeSystem f Df)) (newtonSolve env cfg) dts t0 [y0] y0 mem reg
    run.map (·.dt) = dts ∧ (∀ r ∈ run, r.stop = none ∧ r.queries.length ≤ k + 1) ∧ ∀ pre post, run = pre ++ post → P (accepted y0 pre) (timeAfter t0 pre) := by
  intro run
  obtain ⟨hι, hnorm, hlin, hsol, hcrit, hupd, hmax⟩ := hN
  obtain ⟨hsmall, htol, hk, hred⟩ := hA
  have hname := ready_name name mem hmem
  have hd0 : ∀ h ∈ dts, 0 ≤ h := fun h hh => (hdt h hh).1
  have ht_take : ∀ j, t0 + (dts.take j).sum ≤ T := fun j => by
    have h1 : dts.sum = (dts.take j).sum + (dts.drop j).sum := by rw [← List.sum_append, List.take_append_drop]
    have h2 : 0 ≤ (dts.drop j).sum := List.sum_nonneg (fun h hh => hd0 h (List.mem_of_mem_drop hh))
    linarith
  -- a converged beginning of the run
  have conv : ∀ j, (∀ r ∈ run.take j, r.queries.length ≤ k + 1) → ∃ atts : List (Attempt ℝ (n → ℝ) (Ans ℝ n n)), (∀ a ∈ atts, a.dt ∈ dts) ∧
      drive (stdStep name (odeSystem f Df)) atts t0 [y0] y0 mem = run.take j ∧ ConvergedRun ι cfg.tol name (odeSystem f Df) f mem atts t0 y0 ∧
      (∀ pre post, run.take j = pre ++ post → P (accepted y0 pre) (timeAfter t0 pre)) := by
    intro j hj
    have e := driveObj_take (stdStep name (odeSystem f Df)) (newtonSolve env cfg) dts j t0 [y0] y0 mem reg
    obtain ⟨atts, h1, h2, R⟩ := newton_converged_run name f Df mem hmem env ι hnorm cfg sol tick hlin hcrit hupd hmax reg hreg (dts.take j) t0 y0 (fun r hr => by
      rw [e] at hr
      have := hj r hr
      omega)
    have ha : ∀ a ∈ atts, a.dt ∈ dts := fun a ha => List.mem_of_mem_take (i := j) (h1 ▸ List.mem_map.2 ⟨a, ha, rfl⟩)
    rw [e] at h2
    refine ⟨atts, ha, h2.symm, R, fun pre post hpp => hP atts ha R ?_ pre post (by rw [← h2]; exact hpp)⟩
    intro r hr
    obtain ⟨p1, p2, hp⟩ := List.append_of_mem hr
    have htime := R.time hp
    have hst : r.stop = none := by
      have hr' : r ∈ run := List.mem_of_mem_take (i := j) (by rw [h2]; exact hr)
      obtain ⟨q1, q2, hq⟩ := List.append_of_mem hr'
      obtain ⟨_, _, -, -, h, -⟩ := C66_newton_iterates name f Df mem hmem env cfg sol tick hlin (by rw [hcrit]; rfl) hupd hmax reg hreg dts t0 y0 q1 q2 r hq
      exact h
    have := (driveObj_prefix (stdStep name (odeSystem f Df)) (newtonSolve env cfg) (dts.take j) (fun h hh => hd0 h (List.mem_of_mem_take hh)) t0 [y0] y0 mem reg (p1 ++ [r]) p2 (by
      rw [e]; change run.take j = _; rw [h2, hp]; simp)).2.1
    rw [timeAfter_snoc, hst] at this
    simp only [Option.isNone_none, if_true] at this
    have := ht_take j
    rw [htime]
    linarith
  have main : ∀ j, ∀ r ∈ run.take j, r.queries.length ≤ k + 1 := by
    intro j
    induction j with
    | zero => intro r hr; simp at hr
    | succ j ih =>
      intro r hr
      by_cases hlen : j < run.length
      · rw [List.take_succ_eq_append_getElem hlen, List.mem_append, List.mem_singleton] at hr
        rcases hr with hr | rfl
        · exact ih r hr
        · obtain ⟨atts, ha, hdr, R, hPj⟩ := conv j ih
          have hrun : run = run.take j ++ run[j] :: run.drop (j + 1) := by rw [← List.drop_eq_getElem_cons hlen, List.take_append_drop]
          set r := run[j]
          obtain ⟨yn, older, g1, g2, g3, g4⟩ := C66_newton_iterates name f Df mem hmem env cfg sol tick hlin (by rw [hcrit]; rfl) hupd hmax reg hreg dts t0 y0 (run.take j) (run.drop (j + 1)) r hrun
          have hrdt : r.dt ∈ dts := driveObj_dts _ _ dts t0 [y0] y0 mem reg r (List.getElem_mem hlen)
          obtain ⟨hr0, hrH⟩ := hdt _ hrdt
          have hHH := hr0.trans hrH
          -- states inside the region
          have inU : ∀ pre post, run.take j = pre ++ post → ∀ y l, accepted y0 pre = y :: l → timeAfter t0 pre ∈ Set.Icc t0 T ∧ ∀ x, ‖ι x - ι y‖ ≤ 2 * β * (H * F + cfg.tol / 2) → x ∈ U := by
            intro pre post hpp y l hyl
            have hpre := driveObj_prefix (stdStep name (odeSystem f Df)) (newtonSolve env cfg) dts hd0 t0 [y0] y0 mem reg pre (post ++ run.drop j) (by
              rw [← List.append_assoc, ← hpp]; exact (List.take_append_drop j run).symm)
            have ht : timeAfter t0 pre ∈ Set.Icc t0 T := ⟨hpre.1, hpre.2.1.trans hT⟩
            refine ⟨ht, hU y l _ (hyl ▸ hPj pre post hpp) ?_ ht⟩
            have h1 : (accepted y0 pre).length ≤ pre.length + 1 := by
              unfold accepted
              simp only [List.length_append, List.length_reverse, List.length_map, List.length_singleton]
              have := List.length_filter_le (fun r : Record ℝ (n → ℝ) (Ans ℝ n n) => r.stop.isNone) pre
              omega
            rw [hyl, List.length_cons] at h1
            omega
          obtain ⟨htn, hUn⟩ := inU (run.take j) [] (by simp) yn older g1
          have hF0 := hf.F0
          have hρ0 : 0 ≤ H * F + cfg.tol / 2 := by positivity
          have hβ0 := hf.β0
          have self : ∀ y, (∀ x, ‖ι x - ι y‖ ≤ 2 * β * (H * F + cfg.tol / 2) → x ∈ U) → y ∈ U := fun y h => h y (by rw [sub_self, norm_zero]; positivity)
          have htend : r.t + r.dt ∈ Set.Icc t0 T := by
            have := driveObj_prefix (stdStep name (odeSystem f Df)) (newtonSolve env cfg) dts hd0 t0 [y0] y0 mem reg (run.take j ++ [r]) (run.drop (j + 1)) (by
              change run = _; rw [List.append_assoc]; exact hrun)
            rw [timeAfter_snoc, g3] at this
            simp only [Option.isNone_none, if_true] at this
            rw [g2]
            exact ⟨this.1, this.2.1.trans hT⟩
          have hold : ∀ z l, name = .BDF2 → older = z :: l → ‖ι (yn - z)‖ ≤ H * F + 3 / 2 * cfg.tol := by
            rintro z l rfl rfl
            have hind := accepted_induction (A := Ans ℝ n n) (fun hist _ => ∀ y z l, hist = y :: z :: l → ‖ι (y - z)‖ ≤ H * F + 3 / 2 * cfg.tol) y0 t0 (by intro y z l h; cases h) (run.take j) (by
              intro pre r' post e hstop hpre y z l hyz
              obtain ⟨rfl, hacc⟩ := List.cons.inj hyz
              have e' : drive (stdStep .BDF2 (odeSystem f Df)) atts t0 [y0] y0 mem = pre ++ r' :: post := by rw [hdr]; exact e
              have hres := R.residual e' hstop
              obtain ⟨a, haa, hda⟩ := drive_dt .BDF2 ι cfg.tol _ f mem atts t0 y0 R r' (by rw [e']; simp)
              obtain ⟨hd0', hdH'⟩ := hdt r'.dt (hda ▸ ha a haa)
              have hin := inU (pre ++ [r']) post (by rw [e]; simp) r'.y (accepted y0 pre) (by rw [accepted_snoc]; simp [hstop])
              rw [timeAfter_snoc, hstop] at hin
              simp only [Option.isNone_none, if_true] at hin
              have hFb : ‖ι (f r'.y (timeAfter t0 pre + r'.dt))‖ ≤ F := hf.bound _ hin.1 _ (self _ hin.2)
              have hdF : r'.dt * F ≤ H * F := by gcongr
              have hsm : ∀ (c : ℝ) (v : n → ℝ), 0 ≤ c → ‖ι v‖ ≤ F → ‖ι (c • v)‖ ≤ c * F := fun c v hc hv => by
                rw [map_smul, norm_smul, Real.norm_eq_abs, abs_of_nonneg hc]; gcongr
              rw [hacc] at hres
              cases l with
              | nil =>
                simp only [residualOf] at hres
                have e1 : r'.y - z = r'.dt • f r'.y (timeAfter t0 pre + r'.dt) + (r'.y - z - r'.dt • f r'.y (timeAfter t0 pre + r'.dt)) := by abel
                rw [e1, map_add]
                refine (norm_add_le _ _).trans ?_
                have := hsm r'.dt _ hd0' hFb
                linarith
              | cons z' l =>
                have hz := hpre z z' l hacc
                simp only [residualOf] at hres
                have e1 : r'.y - z = ((1:ℝ)/3) • (z - z') + ((2:ℝ)/3 * r'.dt) • f r'.y (timeAfter t0 pre + r'.dt) +
                    (r'.y - ((4:ℝ)/3) • z + ((1:ℝ)/3) • z' - ((2:ℝ)/3 * r'.dt) • f r'.y (timeAfter t0 pre + r'.dt)) := by module
                rw [e1, map_add, map_add]
                refine (norm_add_le _ _).trans ?_
                have h1 := norm_add_le (ι (((1:ℝ)/3) • (z - z'))) (ι (((2:ℝ)/3 * r'.dt) • f r'.y (timeAfter t0 pre + r'.dt)))
                have h2 := hsm (2 / 3 * r'.dt) _ (by positivity) hFb
                have h3 : ‖ι (((1:ℝ)/3) • (z - z'))‖ = 1 / 3 * ‖ι (z - z')‖ := by rw [map_smul, norm_smul, Real.norm_eq_abs, abs_of_nonneg (by norm_num)]
                linarith)
            exact hind (run.take j) [] (by simp) yn z l g1
          have hynU := self yn hUn
          rw [← g2] at htn
          have hinit := initial_residual name hname ι f yn older r.t r.dt H F cfg.tol hr0 hrH htol (hf.bound _ htn _ hynU) (hf.bound _ htend _ hynU) hold
          have hres := step_residuals name hname ι hι f Df sol hsol U t0 T H β γ F hf yn older r.t r.dt _ hr0 hrH htend hinit hsmall hUn k
          have hmet := hres.trans_lt hred
          rcases g4 with ⟨k', hk', -, hno, -, hq⟩ | ⟨hno, -, -⟩
          · rw [hq, List.length_map, List.length_range]
            by_contra hc
            refine hno k (by omega) ?_
            simp only [hcrit, below, decide_eq_true_eq]
            rw [hnorm]; exact hmet
          · refine absurd ?_ (hno k (by omega))
            simp only [hcrit, below, decide_eq_true_eq]
            rw [hnorm]; exact hmet
      · rw [List.take_of_length_le (by omega)] at hr
        exact ih r (by rw [List.take_of_length_le (by omega)]; exact hr)
  have all : ∀ r ∈ run, r.queries.length ≤ k + 1 := fun r hr => main run.length r (by rw [List.take_length]; exact hr)
  have hstop : ∀ r ∈ run, r.stop = none := by
    intro r hr
    obtain ⟨q1, q2, hq⟩ := List.append_of_mem hr
    obtain ⟨_, _, -, -, h, -⟩ := C66_newton_iterates name f Df mem hmem env cfg sol tick hlin (by rw [hcrit]; rfl) hupd hmax reg hreg dts t0 y0 q1 q2 r hq
    exact h
  refine ⟨driveObj_all _ _ dts _ _ _ _ _ hstop, fun r hr => ⟨hstop r hr, all r hr⟩, ?_⟩
  · obtain ⟨-, -, -, -, h⟩ := conv run.length (main _)
    simpa using h

/-- **C79, core for convergence.** -/
theorem newton_run_convergence (name : Scheme) (ι : (n → ℝ) →ₗ[ℝ] E) (f : (n → ℝ) → ℝ → (n → ℝ)) (Df : (n → ℝ) → ℝ → Matrix n n ℝ) (mem : SMem ℝ (n → ℝ) (n → ℝ) PMem) (hmem : Ready name mem)
    (env : Env ℝ n n p L) (cfg : Cfg ℝ) (sol : Matrix n n ℝ → (n → ℝ) → n → ℝ) (tick : L → L) (hN : ExactNewton ι env cfg sol tick) (reg : Reg ℝ n n p L) (hreg : NewtonIdle reg) (dts : List ℝ) (t0 : ℝ) (y0 : n → ℝ)
    (H T : ℝ) (hdt : ∀ h ∈ dts, 0 ≤ h ∧ h ≤ H) (hT : t0 + dts.sum ≤ T) (U : Set (n → ℝ)) (β γ F : ℝ) (hf : Tame ι f Df U t0 T H β γ F) (k : Nat) (hA : Affords cfg H β γ F k) (ψ : ℝ → n → ℝ) (err : ℝ → ℝ → ℝ) (B : ℝ)
    (hB : ∀ t ∈ Set.Icc t0 T, ∀ l : Nat, l ≤ dts.length → err t l ≤ B) (hU : Within ι (ψ '' Set.Icc t0 T) (B + 2 * β * (H * F + cfg.tol / 2)) ⊆ U) (S : ℝ → Prop) (hS : ∀ h ∈ dts, S h)
    (hC : ∀ atts : List (Attempt ℝ (n → ℝ) (Ans ℝ n n)), ConvergedRun ι cfg.tol name (odeSystem f Df) f mem atts t0 y0 → StepsIn S T (drive (stdStep name (odeSystem f Df)) atts t0 [y0] y0 mem) →
      ∀ pre post, drive (stdStep name (odeSystem f Df)) atts t0 [y0] y0 mem = pre ++ post → ∃ y l, accepted y0 pre = y :: l ∧ ‖ι y - ι (ψ (timeAfter t0 pre))‖ ≤ err (timeAfter t0 pre) l.length) :
    let run := driveObj (stdStep name (odeSystem f Df)) (newtonSolve env cfg) dts t0 [y0] y0 mem reg
    run.map (·.dt) = dts ∧ (∀ r ∈ run, r.stop = none ∧ r.queries.length ≤ k + 1) ∧ ∀ pre post, run = pre ++ post → ∃ y l, accepted y0 pre = y :: l ∧ ‖ι y - ι (ψ (timeAfter t0 pre))‖ ≤ err (timeAfter t0 pre) l.length := by
  refine newton_run_core name ι f Df mem hmem env cfg sol tick hN reg hreg dts t0 y0 H T hdt hT U β γ F hf k hA (fun hist t => ∃ y l, hist = y :: l ∧ ‖ι y - ι (ψ t)‖ ≤ err t l.length) ?_ ?_
  · intro atts ha R ht
    refine hC atts R (fun r hr _ => ?_)
    obtain ⟨a, haa, hda⟩ := drive_dt name ι cfg.tol _ f mem atts t0 y0 R r hr
    exact ⟨hS _ (hda ▸ ha a haa), (hdt _ (hda ▸ ha a haa)).1, ht r hr⟩
  · rintro y l t ⟨y', l', e, h⟩ hl ht x hx
    obtain ⟨rfl, rfl⟩ := List.cons.inj e
    refine hU ⟨ψ t, ⟨t, ht, rfl⟩, ?_⟩
    have h1 := norm_sub_le_norm_sub_add_norm_sub (ι x) (ι y) (ι (ψ t))
    have h2 := hB t ht _ hl
    linarith

/-- **C79, CrankNicolson on Lipschitz problems.**  The run of a Newton object through all step sizes completes: every step converges after `k + 1` evaluations at most, and the states converge to the solution with
    order two.  `f` has to be tame near the solution only: within the error bound plus the distance that Newton's method covers in one step. -/
theorem C79_crank_nicolson (ι : (n → ℝ) →ₗ[ℝ] E) (f : (n → ℝ) → ℝ → (n → ℝ)) (Df : (n → ℝ) → ℝ → Matrix n n ℝ) (mem : SMem ℝ (n → ℝ) (n → ℝ) PMem) (hmem : Ready .CrankNicolson mem)
    (env : Env ℝ n n p L) (cfg : Cfg ℝ) (sol : Matrix n n ℝ → (n → ℝ) → n → ℝ) (tick : L → L) (hN : ExactNewton ι env cfg sol tick) (reg : Reg ℝ n n p L) (hreg : NewtonIdle reg) (dts : List ℝ) (t0 : ℝ) (y0 : n → ℝ)
    (H T : ℝ) (hdt : ∀ h ∈ dts, 0 ≤ h ∧ h ≤ H) (hT : t0 + dts.sum ≤ T) (U : Set (n → ℝ)) (β γ F : ℝ) (hf : Tame ι f Df U t0 T H β γ F) (k : Nat) (hA : Affords cfg H β γ F k)
    (L' : ℝ) (hL : 0 ≤ L') (hHL : H * L' ≤ 1) (hlip : ∀ y z t, ‖ι (f y t) - ι (f z t)‖ ≤ L' * ‖ι y - ι z‖) (ψ : ℝ → n → ℝ) (ψ2 : ℝ → E) (M2 M3 : ℝ) (hM30 : 0 ≤ M3) (hψ : SolvesIn ι f ψ t0 T) (hM : Smooth2In ι f ψ ψ2 M2 M3 t0 T)
    (hU : Within ι (ψ '' Set.Icc t0 T) (Real.exp (3 / 2 * L' * (T - t0)) * (‖ι y0 - ι (ψ t0)‖ + (dts.length * cfg.tol + (T - t0) * (5 / 12 * M3 * H ^ 2))) + 2 * β * (H * F + cfg.tol / 2)) ⊆ U) :
    let run := driveObj (stdStep .CrankNicolson (odeSystem f Df)) (newtonSolve env cfg) dts t0 [y0] y0 mem reg
    run.map (·.dt) = dts ∧ (∀ r ∈ run, r.stop = none ∧ r.queries.length ≤ k + 1) ∧ ∀ pre post, run = pre ++ post → ∃ y l, accepted y0 pre = y :: l ∧
      ‖ι y - ι (ψ (timeAfter t0 pre))‖ ≤ Real.exp (3 / 2 * L' * (timeAfter t0 pre - t0)) * (‖ι y0 - ι (ψ t0)‖ + (l.length * cfg.tol + (timeAfter t0 pre - t0) * (5 / 12 * M3 * H ^ 2))) :=
  newton_run_convergence .CrankNicolson ι f Df mem hmem env cfg sol tick hN reg hreg dts t0 y0 H T hdt hT U β γ F hf k hA ψ
    (fun t l => Real.exp (3 / 2 * L' * (t - t0)) * (‖ι y0 - ι (ψ t0)‖ + (l * cfg.tol + (t - t0) * (5 / 12 * M3 * H ^ 2)))) _
    (fun t ht l hl => by
      have h1 : (l:ℝ) ≤ dts.length := by exact_mod_cast hl
      have h2 := hA.tol0
      have h3 := ht.2
      have h4 : 0 ≤ t - t0 := sub_nonneg.2 ht.1
      gcongr) hU (fun h => h ≤ H) (fun h hh => (hdt h hh).2)
    (fun atts R hS => C76_crank_nicolson_lipschitz ι cfg.tol _ f mem atts t0 y0 R H T hS L' hL hHL hlip ψ ψ2 M2 M3 hM30 hψ hM)

/-- **C79, BDF1 on Lipschitz problems.** -/
theorem C79_bdf1 (ι : (n → ℝ) →ₗ[ℝ] E) (f : (n → ℝ) → ℝ → (n → ℝ)) (Df : (n → ℝ) → ℝ → Matrix n n ℝ) (mem : SMem ℝ (n → ℝ) (n → ℝ) PMem) (hmem : Ready .BDF1 mem)
    (env : Env ℝ n n p L) (cfg : Cfg ℝ) (sol : Matrix n n ℝ → (n → ℝ) → n → ℝ) (tick : L → L) (hN : ExactNewton ι env cfg sol tick) (reg : Reg ℝ n n p L) (hreg : NewtonIdle reg) (dts : List ℝ) (t0 : ℝ) (y0 : n → ℝ)
    (H T : ℝ) (hH : 0 ≤ H) (hdt : ∀ h ∈ dts, 0 ≤ h ∧ h ≤ H) (hT : t0 + dts.sum ≤ T) (U : Set (n → ℝ)) (β γ F : ℝ) (hf : Tame ι f Df U t0 T H β γ F) (k : Nat) (hA : Affords cfg H β γ F k)
    (L' : ℝ) (hL : 0 ≤ L') (hHL : H * L' ≤ 1 / 2) (hlip : ∀ y z t, ‖ι (f y t) - ι (f z t)‖ ≤ L' * ‖ι y - ι z‖) (ψ : ℝ → n → ℝ) (M : ℝ) (hM0 : 0 ≤ M) (hψ : SolvesIn ι f ψ t0 T) (hM : Smooth1In ι f ψ M t0 T)
    (hU : Within ι (ψ '' Set.Icc t0 T) (Real.exp (2 * L' * (T - t0)) * (‖ι y0 - ι (ψ t0)‖ + (dts.length * cfg.tol + (T - t0) * (M * H / 2))) + 2 * β * (H * F + cfg.tol / 2)) ⊆ U) :
    let run := driveObj (stdStep .BDF1 (odeSystem f Df)) (newtonSolve env cfg) dts t0 [y0] y0 mem reg
    run.map (·.dt) = dts ∧ (∀ r ∈ run, r.stop = none ∧ r.queries.length ≤ k + 1) ∧ ∀ pre post, run = pre ++ post → ∃ y l, accepted y0 pre = y :: l ∧
      ‖ι y - ι (ψ (timeAfter t0 pre))‖ ≤ Real.exp (2 * L' * (timeAfter t0 pre - t0)) * (‖ι y0 - ι (ψ t0)‖ + (l.length * cfg.tol + (timeAfter t0 pre - t0) * (M * H / 2))) :=
  newton_run_convergence .BDF1 ι f Df mem hmem env cfg sol tick hN reg hreg dts t0 y0 H T hdt hT U β γ F hf k hA ψ
    (fun t l => Real.exp (2 * L' * (t - t0)) * (‖ι y0 - ι (ψ t0)‖ + (l * cfg.tol + (t - t0) * (M * H / 2)))) _
    (fun t ht l hl => by
      have h1 : (l:ℝ) ≤ dts.length := by exact_mod_cast hl
      have h2 := hA.tol0
      have h3 := ht.2
      have h4 : 0 ≤ t - t0 := sub_nonneg.2 ht.1
      gcongr) hU (fun h => h ≤ H) (fun h hh => (hdt h hh).2)
    (fun atts R hS => C76_bdf1_lipschitz ι cfg.tol _ f mem atts t0 y0 R H T hS L' hL hHL hlip ψ M hM0 hH hψ hM)

/-- **C79, BDF1 on monotone problems**, for any stiffness: no Lipschitz constant and no growth. -/
theorem C79_bdf1_monotone (ι : (n → ℝ) →ₗ[ℝ] E) (f : (n → ℝ) → ℝ → (n → ℝ)) (Df : (n → ℝ) → ℝ → Matrix n n ℝ) (mem : SMem ℝ (n → ℝ) (n → ℝ) PMem) (hmem : Ready .BDF1 mem)
    (env : Env ℝ n n p L) (cfg : Cfg ℝ) (sol : Matrix n n ℝ → (n → ℝ) → n → ℝ) (tick : L → L) (hN : ExactNewton ι env cfg sol tick) (reg : Reg ℝ n n p L) (hreg : NewtonIdle reg) (dts : List ℝ) (t0 : ℝ) (y0 : n → ℝ)
    (H T : ℝ) (hH : 0 ≤ H) (hdt : ∀ h ∈ dts, 0 ≤ h ∧ h ≤ H) (hT : t0 + dts.sum ≤ T) (U : Set (n → ℝ)) (β γ F : ℝ) (hf : Tame ι f Df U t0 T H β γ F) (k : Nat) (hA : Affords cfg H β γ F k)
    (hmono : ∀ y z t, ⟪ι (f y t) - ι (f z t), ι y - ι z⟫ ≤ 0) (ψ : ℝ → n → ℝ) (M : ℝ) (hM0 : 0 ≤ M) (hψ : SolvesIn ι f ψ t0 T) (hM : Smooth1In ι f ψ M t0 T)
    (hU : Within ι (ψ '' Set.Icc t0 T) (‖ι y0 - ι (ψ t0)‖ + (dts.length * cfg.tol + (T - t0) * (M * H / 2)) + 2 * β * (H * F + cfg.tol / 2)) ⊆ U) :
    let run := driveObj (stdStep .BDF1 (odeSystem f Df)) (newtonSolve env cfg) dts t0 [y0] y0 mem reg
    run.map (·.dt) = dts ∧ (∀ r ∈ run, r.stop = none ∧ r.queries.length ≤ k + 1) ∧ ∀ pre post, run = pre ++ post → ∃ y l, accepted y0 pre = y :: l ∧
      ‖ι y - ι (ψ (timeAfter t0 pre))‖ ≤ ‖ι y0 - ι (ψ t0)‖ + (l.length * cfg.tol + (timeAfter t0 pre - t0) * (M * H / 2)) :=
  newton_run_convergence .BDF1 ι f Df mem hmem env cfg sol tick hN reg hreg dts t0 y0 H T hdt hT U β γ F hf k hA ψ
    (fun t l => ‖ι y0 - ι (ψ t0)‖ + (l * cfg.tol + (t - t0) * (M * H / 2))) _
    (fun t ht l hl => by
      have h1 : (l:ℝ) ≤ dts.length := by exact_mod_cast hl
      have h2 := hA.tol0
      have h3 := ht.2
      have h4 : 0 ≤ t - t0 := sub_nonneg.2 ht.1
      gcongr) hU (fun h => h ≤ H) (fun h hh => (hdt h hh).2)
    (fun atts R hS => C76_bdf1_monotone ι cfg.tol _ f mem atts t0 y0 R H T hS hmono ψ M hM0 hH hψ hM)

/-- **C79, BDF2 on monotone problems**, constant steps, for any stiffness. -/
theorem C79_bdf2_monotone (ι : (n → ℝ) →ₗ[ℝ] E) (f : (n → ℝ) → ℝ → (n → ℝ)) (Df : (n → ℝ) → ℝ → Matrix n n ℝ) (mem : SMem ℝ (n → ℝ) (n → ℝ) PMem) (hmem : Ready .BDF2 mem)
    (env : Env ℝ n n p L) (cfg : Cfg ℝ) (sol : Matrix n n ℝ → (n → ℝ) → n → ℝ) (tick : L → L) (hN : ExactNewton ι env cfg sol tick) (reg : Reg ℝ n n p L) (hreg : NewtonIdle reg) (N : Nat) (t0 : ℝ) (y0 : n → ℝ)
    (η T : ℝ) (hη : 0 ≤ η) (hT : t0 + N * η ≤ T) (U : Set (n → ℝ)) (β γ F : ℝ) (hf : Tame ι f Df U t0 T η β γ F) (k : Nat) (hA : Affords cfg η β γ F k)
    (hmono : ∀ y z t, ⟪ι (f y t) - ι (f z t), ι y - ι z⟫ ≤ 0) (ψ : ℝ → n → ℝ) (ψ2 : ℝ → E) (M2 M3 : ℝ) (hM20 : 0 ≤ M2) (hM30 : 0 ≤ M3) (hψ : SolvesIn ι f ψ t0 T) (hM : Smooth2In ι f ψ ψ2 M2 M3 t0 T)
    (hU : Within ι (ψ '' Set.Icc t0 T) (Real.sqrt 2 * ‖ι y0 - ι (ψ t0)‖ + 3 * M2 * η ^ 2 + 6 * (N * cfg.tol) + (T - t0) * (4 * M3 * η ^ 2) + 2 * β * (η * F + cfg.tol / 2)) ⊆ U) :
    let run := driveObj (stdStep .BDF2 (odeSystem f Df)) (newtonSolve env cfg) (List.replicate N η) t0 [y0] y0 mem reg
    run.map (·.dt) = List.replicate N η ∧ (∀ r ∈ run, r.stop = none ∧ r.queries.length ≤ k + 1) ∧ ∀ pre post, run = pre ++ post → ∃ y l, accepted y0 pre = y :: l ∧
      ‖ι y - ι (ψ (timeAfter t0 pre))‖ ≤ Real.sqrt 2 * ‖ι y0 - ι (ψ t0)‖ + 3 * M2 * η ^ 2 + 6 * (l.length * cfg.tol) + (timeAfter t0 pre - t0) * (4 * M3 * η ^ 2) :=
  newton_run_convergence .BDF2 ι f Df mem hmem env cfg sol tick hN reg hreg (List.replicate N η) t0 y0 η T (fun h hh => by rw [List.eq_of_mem_replicate hh]; exact ⟨hη, le_rfl⟩) (by simpa using hT) U β γ F hf k hA ψ
    (fun t l => Real.sqrt 2 * ‖ι y0 - ι (ψ t0)‖ + 3 * M2 * η ^ 2 + 6 * (l * cfg.tol) + (t - t0) * (4 * M3 * η ^ 2)) _
    (fun t ht l hl => by
      have h1 : (l:ℝ) ≤ N := by rw [List.length_replicate] at hl; exact_mod_cast hl
      have h2 := hA.tol0
      have h3 := ht.2
      gcongr) hU (fun h => h = η) (fun h hh => List.eq_of_mem_replicate hh)
    (fun atts R hS => C76_bdf2_monotone ι cfg.tol _ f mem atts t0 y0 R η T hS hmono ψ ψ2 M2 M3 hM20 hM30 hψ hM)

/-- **C79, BDF2 on Lipschitz problems**, constant steps. -/
theorem C79_bdf2 (ι : (n → ℝ) →ₗ[ℝ] E) (f : (n → ℝ) → ℝ → (n → ℝ)) (Df : (n → ℝ) → ℝ → Matrix n n ℝ) (mem : SMem ℝ (n → ℝ) (n → ℝ) PMem) (hmem : Ready .BDF2 mem)
    (env : Env ℝ n n p L) (cfg : Cfg ℝ) (sol : Matrix n n ℝ → (n → ℝ) → n → ℝ) (tick : L → L) (hN : ExactNewton ι env cfg sol tick) (reg : Reg ℝ n n p L) (hreg : NewtonIdle reg) (N : Nat) (t0 : ℝ) (y0 : n → ℝ)
    (η T : ℝ) (hη : 0 ≤ η) (hT : t0 + N * η ≤ T) (U : Set (n → ℝ)) (β γ F : ℝ) (hf : Tame ι f Df U t0 T η β γ F) (k : Nat) (hA : Affords cfg η β γ F k)
    (L' : ℝ) (hL : 0 ≤ L') (hHL : 6 * (η * L') ≤ 1 / 2) (hlip : ∀ y z t, ‖ι (f y t) - ι (f z t)‖ ≤ L' * ‖ι y - ι z‖) (ψ : ℝ → n → ℝ) (ψ2 : ℝ → E) (M2 M3 : ℝ) (hM20 : 0 ≤ M2) (hM30 : 0 ≤ M3) (hψ : SolvesIn ι f ψ t0 T)
    (hM : Smooth2In ι f ψ ψ2 M2 M3 t0 T)
    (hU : Within ι (ψ '' Set.Icc t0 T) (Real.exp (12 * L' * (T - t0)) * (Real.sqrt 2 * ‖ι y0 - ι (ψ t0)‖ + 3 * M2 * η ^ 2 + 6 * (N * cfg.tol) + (T - t0) * (4 * M3 * η ^ 2)) + 2 * β * (η * F + cfg.tol / 2)) ⊆ U) :
    let run := driveObj (stdStep .BDF2 (odeSystem f Df)) (newtonSolve env cfg) (List.replicate N η) t0 [y0] y0 mem reg
    run.map (·.dt) = List.replicate N η ∧ (∀ r ∈ run, r.stop = none ∧ r.queries.length ≤ k + 1) ∧ ∀ pre post, run = pre ++ post → ∃ y l, accepted y0 pre = y :: l ∧
      ‖ι y - ι (ψ (timeAfter t0 pre))‖ ≤ Real.exp (12 * L' * (timeAfter t0 pre - t0)) * (Real.sqrt 2 * ‖ι y0 - ι (ψ t0)‖ + 3 * M2 * η ^ 2 + 6 * (l.length * cfg.tol) + (timeAfter t0 pre - t0) * (4 * M3 * η ^ 2)) :=
  newton_run_convergence .BDF2 ι f Df mem hmem env cfg sol tick hN reg hreg (List.replicate N η) t0 y0 η T (fun h hh => by rw [List.eq_of_mem_replicate hh]; exact ⟨hη, le_rfl⟩) (by simpa using hT) U β γ F hf k hA ψ
    (fun t l => Real.exp (12 * L' * (t - t0)) * (Real.sqrt 2 * ‖ι y0 - ι (ψ t0)‖ + 3 * M2 * η ^ 2 + 6 * (l * cfg.tol) + (t - t0) * (4 * M3 * η ^ 2))) _
    (fun t ht l hl => by
      have h1 : (l:ℝ) ≤ N := by rw [List.length_replicate] at hl; exact_mod_cast hl
      have h2 := hA.tol0
      have h3 := ht.2
      have h4 : 0 ≤ t - t0 := sub_nonneg.2 ht.1
      gcongr) hU (fun h => h = η) (fun h hh => List.eq_of_mem_replicate hh)
    (fun atts R hS => C76_bdf2_lipschitz ι cfg.tol _ f mem atts t0 y0 R η T hS L' hL hHL hlip ψ ψ2 M2 M3 hM20 hM30 hψ hM)

/-- **C79, stability.** BDF1 and BDF2 on dissipative problems: the run completes and the states stay bounded. -/
theorem C79_dissipative (name : Scheme) (hname : name = .BDF1 ∨ name = .BDF2) (ι : (n → ℝ) →ₗ[ℝ] E) (f : (n → ℝ) → ℝ → (n → ℝ)) (Df : (n → ℝ) → ℝ → Matrix n n ℝ) (mem : SMem ℝ (n → ℝ) (n → ℝ) PMem) (hmem : Ready name mem)
    (env : Env ℝ n n p L) (cfg : Cfg ℝ) (sol : Matrix n n ℝ → (n → ℝ) → n → ℝ) (tick : L → L) (hN : ExactNewton ι env cfg sol tick) (reg : Reg ℝ n n p L) (hreg : NewtonIdle reg) (dts : List ℝ) (t0 : ℝ) (y0 : n → ℝ)
    (H T : ℝ) (hdt : ∀ h ∈ dts, 0 ≤ h ∧ h ≤ H) (hT : t0 + dts.sum ≤ T) (U : Set (n → ℝ)) (β γ F : ℝ) (hf : Tame ι f Df U t0 T H β γ F) (k : Nat) (hA : Affords cfg H β γ F k)
    (hdiss : ∀ y t, ⟪ι (f y t), ι y⟫ ≤ 0) (hU : ∀ x, ‖ι x‖ ≤ Real.sqrt 2 * ‖ι y0‖ + 6 * (dts.length * cfg.tol) + 2 * β * (H * F + cfg.tol / 2) → x ∈ U) :
    let run := driveObj (stdStep name (odeSystem f Df)) (newtonSolve env cfg) dts t0 [y0] y0 mem reg
    run.map (·.dt) = dts ∧ (∀ r ∈ run, r.stop = none ∧ r.queries.length ≤ k + 1) ∧ ∀ pre post, run = pre ++ post → ∃ y l, accepted y0 pre = y :: l ∧ ‖ι y‖ ≤ Real.sqrt 2 * ‖ι y0‖ + 6 * (l.length * cfg.tol) ∧
      (name = .BDF1 → ‖ι y‖ ≤ ‖ι y0‖ + l.length * cfg.tol) := by
  have htol := hA.tol0
  refine newton_run_core name ι f Df mem hmem env cfg sol tick hN reg hreg dts t0 y0 H T hdt hT U β γ F hf k hA
    (fun hist _ => ∃ y l, hist = y :: l ∧ ‖ι y‖ ≤ Real.sqrt 2 * ‖ι y0‖ + 6 * (l.length * cfg.tol) ∧ (name = .BDF1 → ‖ι y‖ ≤ ‖ι y0‖ + l.length * cfg.tol)) ?_ ?_
  · intro atts ha R ht pre post e
    have hd : ∀ a ∈ atts, 0 ≤ a.dt := fun a haa => (hdt _ (ha a haa)).1
    rcases hname with rfl | rfl
    · obtain ⟨y, l, g1, g2⟩ := C75_bdf1 ι cfg.tol _ f mem atts t0 y0 R hd hdiss pre post e
      refine ⟨y, l, g1, ?_, fun _ => g2⟩
      have h1 : (1:ℝ) ≤ Real.sqrt 2 := Real.one_le_sqrt.2 (by norm_num)
      have h3 := mul_le_mul_of_nonneg_right h1 (norm_nonneg (ι y0))
      have h4 : 0 ≤ (l.length : ℝ) * cfg.tol := by positivity
      linarith
    · obtain ⟨y, l, g1, g2⟩ := C75_bdf2 ι cfg.tol _ f mem atts t0 y0 R hd hdiss pre post e
      exact ⟨y, l, g1, g2, fun h => by cases h⟩
  · rintro y l t ⟨y', l', e, h, -⟩ hl ht x hx
    obtain ⟨rfl, rfl⟩ := List.cons.inj e
    refine hU x ?_
    have h1 : ‖ι x‖ ≤ ‖ι x - ι y‖ + ‖ι y‖ := by simpa using norm_add_le (ι x - ι y) (ι y)
    have h2 : (l.length : ℝ) * cfg.tol ≤ dts.length * cfg.tol := by
      have : (l.length : ℝ) ≤ dts.length := by exact_mod_cast hl
      gcongr
    linarith

/-! ### When right-hand sides are tame -/

/-- bounded Jacobian -/
theorem tame_of_bounded (ι : (n → ℝ) →ₗ[ℝ] E) (f : (n → ℝ) → ℝ → (n → ℝ)) (Df : (n → ℝ) → ℝ → Matrix n n ℝ) (U : Set (n → ℝ)) (a b H γ F L' : ℝ) (hγ : 0 ≤ γ) (hF : 0 ≤ F) (hHL : H * L' ≤ 1 / 2) (hL : 0 ≤ L')
    (jac : ∀ t ∈ Set.Icc a b, ∀ y ∈ U, IsJacobian (fun y => f y t) (fun y => Df y t) y) (lip : ∀ t ∈ Set.Icc a b, ∀ x ∈ U, ∀ y ∈ U, ∀ v, ‖ι (Df x t *ᵥ v - Df y t *ᵥ v)‖ ≤ γ * ‖ι (x - y)‖ * ‖ι v‖)
    (bound : ∀ t ∈ Set.Icc a b, ∀ y ∈ U, ‖ι (f y t)‖ ≤ F) (hD : ∀ t ∈ Set.Icc a b, ∀ y ∈ U, ∀ v, ‖ι (Df y t *ᵥ v)‖ ≤ L' * ‖ι v‖) : Tame ι f Df U a b H 2 γ F := by
  refine ⟨jac, lip, bound, fun t ht y hy c hc v => ?_, by norm_num, hγ, hF⟩
  have e : ι v = ι ((1 - c • Df y t) *ᵥ v) + c • ι (Df y t *ᵥ v) := by
    rw [← map_smul, ← map_add, Matrix.sub_mulVec, Matrix.one_mulVec, Matrix.smul_mulVec, sub_add_cancel]
  have h1 : ‖ι v‖ ≤ ‖ι ((1 - c • Df y t) *ᵥ v)‖ + c * ‖ι (Df y t *ᵥ v)‖ := by
    conv_lhs => rw [e]
    refine (norm_add_le _ _).trans ?_
    rw [norm_smul, Real.norm_eq_abs, abs_of_nonneg hc.1]
  have h2 : c * ‖ι (Df y t *ᵥ v)‖ ≤ 1 / 2 * ‖ι v‖ := by
    calc c * ‖ι (Df y t *ᵥ v)‖ ≤ c * (L' * ‖ι v‖) := mul_le_mul_of_nonneg_left (hD t ht y hy v) hc.1
      _ ≤ H * (L' * ‖ι v‖) := mul_le_mul_of_nonneg_right hc.2 (by positivity)
      _ = H * L' * ‖ι v‖ := by ring
      _ ≤ _ := by gcongr
  linarith

/-- Jacobian with non-positive symmetric part, however large -/
theorem tame_of_monotone (ι : (n → ℝ) →ₗ[ℝ] E) (f : (n → ℝ) → ℝ → (n → ℝ)) (Df : (n → ℝ) → ℝ → Matrix n n ℝ) (U : Set (n → ℝ)) (a b H γ F : ℝ) (hγ : 0 ≤ γ) (hF : 0 ≤ F)
    (jac : ∀ t ∈ Set.Icc a b, ∀ y ∈ U, IsJacobian (fun y => f y t) (fun y => Df y t) y) (lip : ∀ t ∈ Set.Icc a b, ∀ x ∈ U, ∀ y ∈ U, ∀ v, ‖ι (Df x t *ᵥ v - Df y t *ᵥ v)‖ ≤ γ * ‖ι (x - y)‖ * ‖ι v‖)
    (bound : ∀ t ∈ Set.Icc a b, ∀ y ∈ U, ‖ι (f y t)‖ ≤ F) (hD : ∀ t ∈ Set.Icc a b, ∀ y ∈ U, ∀ v, ⟪ι (Df y t *ᵥ v), ι v⟫ ≤ 0) : Tame ι f Df U a b H 1 γ F := by
  refine ⟨jac, lip, bound, fun t ht y hy c hc v => ?_, by norm_num, hγ, hF⟩
  rw [one_mul]
  have := bdf1_energy (ι v) 0 (c • ι (Df y t *ᵥ v)) (ι ((1 - c • Df y t) *ᵥ v)) (by
    rw [← map_smul, sub_zero, ← map_sub, Matrix.sub_mulVec, Matrix.one_mulVec, Matrix.smul_mulVec]) (by
    rw [real_inner_smul_left]; exact mul_nonpos_of_nonneg_of_nonpos hc.1 (hD t ht y hy v))
  simpa using this

/-- twice continuously differentiable right-hand sides are tame on bounded sets, for small steps -/
theorem tame_of_smooth (ι : (n → ℝ) →ₗ[ℝ] E) (hι : Function.Injective ι) (f : (n → ℝ) → ℝ → (n → ℝ)) (Df : (n → ℝ) → ℝ → Matrix n n ℝ) (hf : ContDiff ℝ 2 (fun q : (n → ℝ) × ℝ => f q.1 q.2))
    (hD : ∀ t y, IsJacobian (fun y => f y t) (fun y => Df y t) y) (a b R : ℝ) :
    ∃ γ F H0, 0 ≤ γ ∧ 0 ≤ F ∧ 0 < H0 ∧ ∀ H ≤ H0, Tame ι f Df (Metric.closedBall 0 R) a b H 2 γ F := by
  obtain ⟨K, hK0, hK⟩ := LinearMap.exists_antilipschitzWith ι (LinearMap.ker_eq_bot.2 hι)
  have hKr : (0:ℝ) < K := hK0
  have hι1 : ∀ v, ‖v‖ ≤ K * ‖ι v‖ := fun v => by
    have := hK.le_mul_dist v 0
    simpa using this
  set C := ‖ι.toContinuousLinearMap‖ with hC
  have hι2 : ∀ v, ‖ι v‖ ≤ C * ‖v‖ := fun v => by
    have := ι.toContinuousLinearMap.le_opNorm v
    simpa using this
  have hC0 : 0 ≤ C := norm_nonneg _
  set q : (n → ℝ) × ℝ → (n → ℝ) := fun q => f q.1 q.2 with hq
  set Q : Set ((n → ℝ) × ℝ) := Metric.closedBall 0 R ×ˢ Set.Icc a b with hQ
  have hQc : IsCompact Q := (isCompact_closedBall _ _).prod isCompact_Icc
  have hQx : Convex ℝ Q := (convex_closedBall _ _).prod (convex_Icc _ _)
  have hdiff : ContDiff ℝ 1 (fderiv ℝ q) := hf.fderiv_right (by norm_num)
  obtain ⟨G, hG⟩ := hdiff.contDiffOn.exists_lipschitzOnWith one_ne_zero hQx hQc
  obtain ⟨B1, hB1⟩ := hQc.exists_bound_of_continuousOn hf.continuous.continuousOn
  obtain ⟨B2, hB2⟩ := hQc.exists_bound_of_continuousOn hdiff.continuous.continuousOn
  have hDf : ∀ t y v, Df y t *ᵥ v = fderiv ℝ q (y, t) (v, 0) := by
    intro t y v
    have h1 : HasFDerivAt q (fderiv ℝ q (y, t)) (y, t) := (hf.differentiable (by norm_num)).differentiableAt.hasFDerivAt
    have h2 : HasFDerivAt (fun y : n → ℝ => (y, t)) (ContinuousLinearMap.inl ℝ (n → ℝ) ℝ) y := by
      have := (hasFDerivAt_id (𝕜 := ℝ) y).prodMk (hasFDerivAt_const t y)
      exact this
    have h3 := HasFDerivAt.comp (g := q) (f := fun y : n → ℝ => (y, t)) y h1 h2
    have h4 := h3.unique (hD t y)
    have := congrArg (fun A : (n → ℝ) →L[ℝ] (n → ℝ) => A v) h4
    simpa using this.symm
  have hop : ∀ (A : (n → ℝ) × ℝ →L[ℝ] (n → ℝ)) (v : n → ℝ), ‖ι (A (v, 0))‖ ≤ C * ‖A‖ * (K * ‖ι v‖) := by
    intro A v
    have h1 := A.le_opNorm (v, 0)
    have h2 : ‖((v, 0) : (n → ℝ) × ℝ)‖ = ‖v‖ := by simp [Prod.norm_def]
    rw [h2] at h1
    calc ‖ι (A (v, 0))‖ ≤ C * ‖A (v, 0)‖ := hι2 _
      _ ≤ C * (‖A‖ * ‖v‖) := by gcongr
      _ ≤ C * (‖A‖ * (K * ‖ι v‖)) := by have := hι1 v; gcongr
      _ = _ := by ring
  set L' := C * max B2 0 * K with hL'
  have hL'0 : 0 ≤ L' := by positivity
  refine ⟨C * (G * K) * K, C * max B1 0, 1 / (2 * (L' + 1)), by positivity, by positivity, by positivity, fun H hH => ?_⟩
  refine tame_of_bounded ι f Df _ a b H _ _ L' (by positivity) (by positivity) ?_ hL'0 (fun t _ y _ => hD t y) ?_ ?_ ?_
  · calc H * L' ≤ 1 / (2 * (L' + 1)) * L' := by gcongr
      _ ≤ 1 / 2 := by
        rw [one_div_mul_eq_div, div_le_div_iff₀ (by positivity) (by norm_num)]
        linarith
  · intro t ht x hx y hy v
    rw [hDf, hDf]
    have h1 : fderiv ℝ q (x, t) (v, 0) - fderiv ℝ q (y, t) (v, 0) = (fderiv ℝ q (x, t) - fderiv ℝ q (y, t)) (v, 0) := rfl
    rw [h1]
    refine (hop _ v).trans ?_
    have h2 := hG.dist_le_mul (x, t) ⟨hx, ht⟩ (y, t) ⟨hy, ht⟩
    rw [dist_eq_norm, dist_eq_norm] at h2
    have h3 : ‖((x, t) : (n → ℝ) × ℝ) - (y, t)‖ = ‖x - y‖ := by simp [Prod.norm_def]
    rw [h3] at h2
    have h4 := h2.trans (mul_le_mul_of_nonneg_left (hι1 (x - y)) G.2)
    calc C * ‖fderiv ℝ q (x, t) - fderiv ℝ q (y, t)‖ * (K * ‖ι v‖) ≤ C * (G * (K * ‖ι (x - y)‖)) * (K * ‖ι v‖) := by gcongr
      _ = _ := by ring
  · intro t ht y hy
    refine (hι2 _).trans ?_
    have := hB1 (y, t) ⟨hy, ht⟩
    exact mul_le_mul_of_nonneg_left (this.trans (le_max_left _ _)) hC0
  · intro t ht y hy v
    rw [hDf]
    refine (hop _ v).trans ?_
    have := (hB2 (y, t) ⟨hy, ht⟩).trans (le_max_left B2 0)
    calc C * ‖fderiv ℝ q (y, t)‖ * (K * ‖ι v‖) ≤ C * max B2 0 * (K * ‖ι v‖) := by gcongr
      _ = _ := by ring

/-- **C79, core for the order.** -/
theorem newton_order_core (name : Scheme) (ι : (n → ℝ) →ₗ[ℝ] E) (hι : Function.Injective ι) (f : (n → ℝ) → ℝ → (n → ℝ)) (Df : (n → ℝ) → ℝ → Matrix n n ℝ) (hf : ContDiff ℝ 2 (fun q : (n → ℝ) × ℝ => f q.1 q.2))
    (hD : ∀ t y, IsJacobian (fun y => f y t) (fun y => Df y t) y) (t0 T : ℝ) (ψ : ℝ → n → ℝ) (hψ : SolvesIn ι f ψ t0 T) (C h1 : ℝ) (hC : 0 ≤ C) (hh1 : 0 < h1)
    (Herr : ∀ (N : Nat) (h tol : ℝ) (y0 : n → ℝ) (mem : SMem ℝ (n → ℝ) (n → ℝ) PMem) (atts : List (Attempt ℝ (n → ℝ) (Ans ℝ n n))), 0 < h → h ≤ h1 → t0 + N * h ≤ T → 0 ≤ tol → tol ≤ h ^ 3 → ‖ι y0 - ι (ψ t0)‖ ≤ h ^ 2 →
      ConvergedRun ι tol name (odeSystem f Df) f mem atts t0 y0 → StepsIn (fun η => η = h) T (drive (stdStep name (odeSystem f Df)) atts t0 [y0] y0 mem) →
      ∀ pre post, drive (stdStep name (odeSystem f Df)) atts t0 [y0] y0 mem = pre ++ post → ∃ y l, accepted y0 pre = y :: l ∧ (timeAfter t0 pre ∈ Set.Icc t0 T → l.length ≤ N → ‖ι y - ι (ψ (timeAfter t0 pre))‖ ≤ C * h ^ 2)) :
    ∃ h0, 0 < h0 ∧ ∀ tol, 0 < tol → ∃ k : Nat, ∀ (N : Nat) (h : ℝ), 0 < h → h ≤ h0 → t0 + N * h ≤ T → tol ≤ h ^ 3 → ∀ (env : Env ℝ n n p L) (cfg : Cfg ℝ) (sol : Matrix n n ℝ → (n → ℝ) → n → ℝ) (tick : L → L)
      (mem : SMem ℝ (n → ℝ) (n → ℝ) PMem) (reg : Reg ℝ n n p L) (y0 : n → ℝ), ExactNewton ι env cfg sol tick → cfg.tol = tol → (k + 1 : Int) < cfg.maxIters → Ready name mem → NewtonIdle reg → ‖ι y0 - ι (ψ t0)‖ ≤ h ^ 2 →
      let run := driveObj (stdStep name (odeSystem f Df)) (newtonSolve env cfg) (List.replicate N h) t0 [y0] y0 mem reg
      run.map (·.dt) = List.replicate N h ∧ (∀ r ∈ run, r.stop = none ∧ r.queries.length ≤ k + 1) ∧ ∀ pre post, run = pre ++ post → ∃ y l, accepted y0 pre = y :: l ∧ ‖ι y - ι (ψ (timeAfter t0 pre))‖ ≤ C * h ^ 2 := by
  obtain ⟨K, hK0, hK⟩ := LinearMap.exists_antilipschitzWith ι (LinearMap.ker_eq_bot.2 hι)
  have hι1 : ∀ v, ‖v‖ ≤ K * ‖ι v‖ := fun v => by
    have := hK.le_mul_dist v 0
    simpa using this
  have hcont : ContinuousOn (fun s => ι (ψ s)) (Set.Icc t0 T) := fun s hs => (hψ s hs).continuousAt.continuousWithinAt
  obtain ⟨B, hB⟩ := isCompact_Icc.exists_bound_of_continuousOn hcont
  set R : ℝ := K * (1 + B) with hR
  obtain ⟨γ, F, H0, hγ, hF, hH0, hT⟩ := tame_of_smooth ι hι f Df hf hD t0 T R
  set h0 := min (min h1 H0) (min (min 1 (1 / (4 * γ * (F + 1) + 1))) (min (1 / (2 * (C + 1))) (1 / (8 * (F + 1))))) with hh0
  have hh0pos : 0 < h0 := by
    rw [hh0]
    simp only [lt_min_iff]
    exact ⟨⟨hh1, hH0⟩, ⟨one_pos, by positivity⟩, by positivity, by positivity⟩
  refine ⟨h0, hh0pos, fun tol htol => ?_⟩
  obtain ⟨i, hi⟩ := exists_pow_lt_of_lt_one (show 0 < tol / (F + 1) by positivity) (show (1 / 2 : ℝ) < 1 by norm_num)
  refine ⟨i, fun N h hh hhle hNT htolh env cfg sol tick mem reg y0 hN hcfg hk hmem hreg hy0 => ?_⟩
  have hle : h ≤ h1 ∧ h ≤ H0 ∧ h ≤ 1 ∧ h ≤ 1 / (4 * γ * (F + 1) + 1) ∧ h ≤ 1 / (2 * (C + 1)) ∧ h ≤ 1 / (8 * (F + 1)) := by
    rw [hh0] at hhle
    simp only [le_min_iff] at hhle
    tauto
  obtain ⟨g1, g2, g3, g4, g5, g6⟩ := hle
  have htol1 : tol ≤ h := htolh.trans (by nlinarith [mul_nonneg hh.le hh.le, mul_le_mul_of_nonneg_left g3 hh.le])
  have hρ : h * F + tol / 2 ≤ h * (F + 1) := by nlinarith
  have hρ0 : 0 ≤ h * F + tol / 2 := by positivity
  have g4' : 4 * γ * (F + 1) * h ≤ 1 := by
    rw [le_div_iff₀ (by positivity)] at g4
    nlinarith
  have g5' : C * h ≤ 1 / 2 := by
    rw [le_div_iff₀ (by positivity)] at g5
    nlinarith
  have g6' : 4 * (h * (F + 1)) ≤ 1 / 2 := by
    rw [le_div_iff₀ (by positivity)] at g6
    linarith
  have hA : Affords cfg h 2 γ F i := by
    refine ⟨?_, by rw [hcfg]; exact htol.le, hk, ?_⟩
    · rw [hcfg]
      calc 2 ^ 2 * (h * γ) * (h * F + tol / 2) ≤ 2 ^ 2 * (h * γ) * (h * (F + 1)) := by gcongr
        _ = 4 * γ * (F + 1) * h * h := by ring
        _ ≤ 1 * 1 := mul_le_mul g4' g3 hh.le zero_le_one
        _ = 1 := by norm_num
    · rw [hcfg]
      calc (h * F + tol / 2) * (1 / 2) ^ (2 ^ i - 1) ≤ (F + 1) * (1 / 2) ^ i := by
            refine mul_le_mul (hρ.trans ?_) (half_pow_le i) (by positivity) (by positivity)
            exact mul_le_of_le_one_left (by positivity) g3
        _ < (F + 1) * (tol / (F + 1)) := by gcongr
        _ = tol := by field_simp
  intro run
  have main := newton_run_core name ι f Df mem hmem env cfg sol tick hN reg hreg (List.replicate N h) t0 y0 h T (fun η hη => by rw [List.eq_of_mem_replicate hη]; exact ⟨hh.le, le_rfl⟩) (by simpa using hNT)
    (Metric.closedBall 0 R) 2 γ F (hT h g2) i hA
    (fun hist t => ∃ y l, hist = y :: l ∧ (t ∈ Set.Icc t0 T → l.length ≤ N → ‖ι y - ι (ψ t)‖ ≤ C * h ^ 2)) ?_ ?_
  · refine ⟨main.1, main.2.1, fun pre post e => ?_⟩
    obtain ⟨y, l, e1, e2⟩ := main.2.2 pre post e
    have hpre := driveObj_prefix (stdStep name (odeSystem f Df)) (newtonSolve env cfg) (List.replicate N h) (fun η hη => by rw [List.eq_of_mem_replicate hη]; exact hh.le) t0 [y0] y0 mem reg pre post e
    refine ⟨y, l, e1, e2 ⟨hpre.1, hpre.2.1.trans (by simpa using hNT)⟩ ?_⟩
    have h1 : (accepted y0 pre).length ≤ pre.length + 1 := by
      unfold accepted
      simp only [List.length_append, List.length_reverse, List.length_map, List.length_singleton]
      have := List.length_filter_le (fun r : Record ℝ (n → ℝ) (Ans ℝ n n) => r.stop.isNone) pre
      omega
    have h2 := hpre.2.2
    rw [List.length_replicate] at h2
    rw [e1, List.length_cons] at h1
    omega
  · intro atts ha Rr ht
    refine Herr N h cfg.tol y0 mem atts hh g1 hNT (by rw [hcfg]; exact htol.le) (by rw [hcfg]; exact htolh) hy0 Rr (fun r hr _ => ?_)
    obtain ⟨a, haa, hda⟩ := drive_dt name ι cfg.tol _ f mem atts t0 y0 Rr r hr
    have : r.dt = h := by rw [hda]; exact List.eq_of_mem_replicate (ha a haa)
    exact ⟨this, by rw [this]; exact hh.le, ht r hr⟩
  · rintro y l t ⟨y', l', e, he⟩ hl ht x hx
    obtain ⟨rfl, rfl⟩ := List.cons.inj e
    rw [List.length_replicate] at hl
    have h1 := he ht hl
    have h2 := hB t ht
    rw [hcfg] at hx
    rw [Metric.mem_closedBall, dist_zero_right]
    refine (hι1 x).trans ?_
    rw [hR]
    refine mul_le_mul_of_nonneg_left ?_ K.2
    have h3 : ‖ι x‖ ≤ ‖ι x - ι y‖ + (‖ι y - ι (ψ t)‖ + ‖ι (ψ t)‖) := by
      have e : ι x = (ι x - ι y) + ((ι y - ι (ψ t)) + ι (ψ t)) := by abel
      conv_lhs => rw [e]
      exact (norm_add_le _ _).trans (by gcongr; exact norm_add_le _ _)
    have h4 : C * h ^ 2 ≤ 1 / 2 := by
      calc C * h ^ 2 = C * h * h := by ring
        _ ≤ 1 / 2 * 1 := mul_le_mul g5' g3 hh.le (by norm_num)
        _ = 1 / 2 := by norm_num
    linarith

/-- **C79, order two, CrankNicolson.** For every twice continuously differentiable right-hand side with a Lipschitz constant there are `C` and `h0` so that: with steps `h ≤ h0`, an initial error of `h²` at most, a positive
    tolerance of `h³` at most and an iteration limit above a number that depends on the tolerance only, the run with a Newton object completes and the error is at most `C h²` at every step. -/
theorem C79_crank_nicolson_order_two (ι : (n → ℝ) →ₗ[ℝ] E) (hι : Function.Injective ι) (f : (n → ℝ) → ℝ → (n → ℝ)) (Df : (n → ℝ) → ℝ → Matrix n n ℝ) (hf : ContDiff ℝ 2 (fun q : (n → ℝ) × ℝ => f q.1 q.2))
    (hD : ∀ t y, IsJacobian (fun y => f y t) (fun y => Df y t) y) (t0 T : ℝ) (ht : t0 ≤ T) (ψ : ℝ → n → ℝ) (hψ : SolvesIn ι f ψ t0 T) (ψ2 : ℝ → E) (M2 M3 : ℝ) (hM30 : 0 ≤ M3) (hM : Smooth2In ι f ψ ψ2 M2 M3 t0 T)
    (L' : ℝ) (hL : 0 ≤ L') (hlip : ∀ y z t, ‖ι (f y t) - ι (f z t)‖ ≤ L' * ‖ι y - ι z‖) :
    ∃ C h0, 0 < h0 ∧ ∀ tol, 0 < tol → ∃ k : Nat, ∀ (N : Nat) (h : ℝ), 0 < h → h ≤ h0 → t0 + N * h ≤ T → tol ≤ h ^ 3 → ∀ (env : Env ℝ n n p L) (cfg : Cfg ℝ) (sol : Matrix n n ℝ → (n → ℝ) → n → ℝ) (tick : L → L)
      (mem : SMem ℝ (n → ℝ) (n → ℝ) PMem) (reg : Reg ℝ n n p L) (y0 : n → ℝ), ExactNewton ι env cfg sol tick → cfg.tol = tol → (k + 1 : Int) < cfg.maxIters → Ready .CrankNicolson mem → NewtonIdle reg → ‖ι y0 - ι (ψ t0)‖ ≤ h ^ 2 →
      let run := driveObj (stdStep .CrankNicolson (odeSystem f Df)) (newtonSolve env cfg) (List.replicate N h) t0 [y0] y0 mem reg
      run.map (·.dt) = List.replicate N h ∧ (∀ r ∈ run, r.stop = none ∧ r.queries.length ≤ k + 1) ∧ ∀ pre post, run = pre ++ post → ∃ y l, accepted y0 pre = y :: l ∧ ‖ι y - ι (ψ (timeAfter t0 pre))‖ ≤ C * h ^ 2 := by
  have hT0 : 0 ≤ T - t0 := sub_nonneg.2 ht
  refine ⟨Real.exp (3 / 2 * L' * (T - t0)) * (1 + ((T - t0) + (T - t0) * (5 / 12 * M3))), ?_⟩
  refine newton_order_core .CrankNicolson ι hι f Df hf hD t0 T ψ hψ _ (1 / (L' + 1)) (by positivity) (by positivity) ?_
  intro N h tol y0 mem atts hh hh1 hNT htol0 htol hy0 R hS pre post e
  rw [le_div_iff₀ (by positivity)] at hh1
  obtain ⟨y, l, e1, e2⟩ := C76_crank_nicolson_lipschitz ι tol _ f mem atts t0 y0 R h T (fun r hr hs => by
    obtain ⟨a, b, c⟩ := hS r hr hs
    exact ⟨a.le, b, c⟩) L' hL (by linarith) hlip ψ ψ2 M2 M3 hM30 hψ hM pre post e
  refine ⟨y, l, e1, fun hti hl => e2.trans ?_⟩
  have hl' : (l.length : ℝ) ≤ N := by exact_mod_cast hl
  have h1 : (l.length : ℝ) * tol ≤ (T - t0) * h ^ 2 := by
    calc (l.length : ℝ) * tol ≤ N * h ^ 3 := by gcongr
      _ = N * h * h ^ 2 := by ring
      _ ≤ (T - t0) * h ^ 2 := by gcongr; linarith
  have h2 := hti.2
  have h3 : 0 ≤ timeAfter t0 pre - t0 := sub_nonneg.2 hti.1
  calc Real.exp (3 / 2 * L' * (timeAfter t0 pre - t0)) * (‖ι y0 - ι (ψ t0)‖ + (l.length * tol + (timeAfter t0 pre - t0) * (5 / 12 * M3 * h ^ 2)))
      ≤ Real.exp (3 / 2 * L' * (T - t0)) * (h ^ 2 + ((T - t0) * h ^ 2 + (T - t0) * (5 / 12 * M3 * h ^ 2))) := by gcongr
    _ = _ := by ring

/-- **C79, order two, BDF2**, for Lipschitz or monotone right-hand sides. -/
theorem C79_bdf2_order_two (ι : (n → ℝ) →ₗ[ℝ] E) (hι : Function.Injective ι) (f : (n → ℝ) → ℝ → (n → ℝ)) (Df : (n → ℝ) → ℝ → Matrix n n ℝ) (hf : ContDiff ℝ 2 (fun q : (n → ℝ) × ℝ => f q.1 q.2))
    (hD : ∀ t y, IsJacobian (fun y => f y t) (fun y => Df y t) y) (t0 T : ℝ) (ht : t0 ≤ T) (ψ : ℝ → n → ℝ) (hψ : SolvesIn ι f ψ t0 T) (ψ2 : ℝ → E) (M2 M3 : ℝ) (hM20 : 0 ≤ M2) (hM30 : 0 ≤ M3) (hM : Smooth2In ι f ψ ψ2 M2 M3 t0 T)
    (hcl : (∃ L', 0 ≤ L' ∧ ∀ y z t, ‖ι (f y t) - ι (f z t)‖ ≤ L' * ‖ι y - ι z‖) ∨ ∀ y z t, ⟪ι (f y t) - ι (f z t), ι y - ι z⟫ ≤ 0) :
    ∃ C h0, 0 < h0 ∧ ∀ tol, 0 < tol → ∃ k : Nat, ∀ (N : Nat) (h : ℝ), 0 < h → h ≤ h0 → t0 + N * h ≤ T → tol ≤ h ^ 3 → ∀ (env : Env ℝ n n p L) (cfg : Cfg ℝ) (sol : Matrix n n ℝ → (n → ℝ) → n → ℝ) (tick : L → L)
      (mem : SMem ℝ (n → ℝ) (n → ℝ) PMem) (reg : Reg ℝ n n p L) (y0 : n → ℝ), ExactNewton ι env cfg sol tick → cfg.tol = tol → (k + 1 : Int) < cfg.maxIters → Ready .BDF2 mem → NewtonIdle reg → ‖ι y0 - ι (ψ t0)‖ ≤ h ^ 2 →
      let run := driveObj (stdStep .BDF2 (odeSystem f Df)) (newtonSolve env cfg) (List.replicate N h) t0 [y0] y0 mem reg
      run.map (·.dt) = List.replicate N h ∧ (∀ r ∈ run, r.stop = none ∧ r.queries.length ≤ k + 1) ∧ ∀ pre post, run = pre ++ post → ∃ y l, accepted y0 pre = y :: l ∧ ‖ι y - ι (ψ (timeAfter t0 pre))‖ ≤ C * h ^ 2 := by
  have hT0 : 0 ≤ T - t0 := sub_nonneg.2 ht
  have hlt : ∀ (N : Nat) (h tol : ℝ) (m : Nat), 0 < h → t0 + N * h ≤ T → 0 ≤ tol → tol ≤ h ^ 3 → m ≤ N → (m : ℝ) * tol ≤ (T - t0) * h ^ 2 := by
    intro N h tol m hh hNT htol0 htol hm
    have hl' : (m : ℝ) ≤ N := by exact_mod_cast hm
    calc (m : ℝ) * tol ≤ N * h ^ 3 := by gcongr
      _ = N * h * h ^ 2 := by ring
      _ ≤ (T - t0) * h ^ 2 := by gcongr; linarith
  rcases hcl with ⟨L', hL, hlip⟩ | hmono
  · refine ⟨Real.exp (12 * L' * (T - t0)) * (Real.sqrt 2 + 3 * M2 + 6 * (T - t0) + (T - t0) * (4 * M3)), ?_⟩
    refine newton_order_core .BDF2 ι hι f Df hf hD t0 T ψ hψ _ (1 / (12 * (L' + 1))) (by positivity) (by positivity) ?_
    intro N h tol y0 mem atts hh hh1 hNT htol0 htol hy0 R hS pre post e
    rw [le_div_iff₀ (by positivity)] at hh1
    obtain ⟨y, l, e1, e2⟩ := C76_bdf2_lipschitz ι tol _ f mem atts t0 y0 R h T hS L' hL (by linarith) hlip ψ ψ2 M2 M3 hM20 hM30 hψ hM pre post e
    refine ⟨y, l, e1, fun hti hl => e2.trans ?_⟩
    have h1 := hlt N h tol l.length hh hNT htol0 htol hl
    have h2 := hti.2
    have h3 : 0 ≤ timeAfter t0 pre - t0 := sub_nonneg.2 hti.1
    calc Real.exp (12 * L' * (timeAfter t0 pre - t0)) * (Real.sqrt 2 * ‖ι y0 - ι (ψ t0)‖ + 3 * M2 * h ^ 2 + 6 * (l.length * tol) + (timeAfter t0 pre - t0) * (4 * M3 * h ^ 2))
        ≤ Real.exp (12 * L' * (T - t0)) * (Real.sqrt 2 * h ^ 2 + 3 * M2 * h ^ 2 + 6 * ((T - t0) * h ^ 2) + (T - t0) * (4 * M3 * h ^ 2)) := by gcongr
      _ = _ := by ring
  · refine ⟨Real.sqrt 2 + 3 * M2 + 6 * (T - t0) + (T - t0) * (4 * M3), ?_⟩
    refine newton_order_core .BDF2 ι hι f Df hf hD t0 T ψ hψ _ 1 (by positivity) one_pos ?_
    intro N h tol y0 mem atts hh hh1 hNT htol0 htol hy0 R hS pre post e
    obtain ⟨y, l, e1, e2⟩ := C76_bdf2_monotone ι tol _ f mem atts t0 y0 R h T hS hmono ψ ψ2 M2 M3 hM20 hM30 hψ hM pre post e
    refine ⟨y, l, e1, fun hti hl => e2.trans ?_⟩
    have h1 := hlt N h tol l.length hh hNT htol0 htol hl
    have h2 := hti.2
    calc Real.sqrt 2 * ‖ι y0 - ι (ψ t0)‖ + 3 * M2 * h ^ 2 + 6 * (l.length * tol) + (timeAfter t0 pre - t0) * (4 * M3 * h ^ 2)
        ≤ Real.sqrt 2 * h ^ 2 + 3 * M2 * h ^ 2 + 6 * ((T - t0) * h ^ 2) + (T - t0) * (4 * M3 * h ^ 2) := by gcongr
      _ = _ := by ring

end

/-! ### A concrete nonlinear case: `y' = -y³`, `y(0) = 1`, with the solution `1 / √(1 + 2t)` -/
section Examples

def cubicR : (Unit → ℝ) → ℝ → Unit → ℝ := fun y _ _ => -(y ()) ^ 3
def cubicJacR : (Unit → ℝ) → ℝ → Matrix Unit Unit ℝ := fun y _ => Matrix.of fun _ _ => -3 * y () ^ 2
noncomputable def cubicSolR : ℝ → Unit → ℝ := fun t _ => (Real.sqrt (1 + 2 * t))⁻¹

theorem cubic_isJacobian (t : ℝ) (y : Unit → ℝ) : IsJacobian (fun y => cubicR y t) (fun y => cubicJacR y t) y := by
  unfold IsJacobian
  rw [hasFDerivAt_pi']
  intro u
  have h := ((hasFDerivAt_apply (𝕜 := ℝ) () y).pow 3).neg
  refine h.congr_fderiv ?_
  ext v
  simp [cubicJacR, Matrix.mulVec, dotProduct]

theorem cubic_tame (a b H : ℝ) : Tame (E := ℝ) (LinearMap.proj ()) cubicR cubicJacR {y | |y ()| ≤ 3 / 2} a b H 1 9 (27 / 8) := by
  refine tame_of_monotone (E := ℝ) _ _ _ _ _ _ _ _ _ (by norm_num) (by norm_num) (fun t _ y _ => cubic_isJacobian t y) ?_ ?_ ?_
  · intro t _ x hx y hy v
    have hx' : |x ()| ≤ 3 / 2 := hx
    have hy' : |y ()| ≤ 3 / 2 := hy
    have h1 : |x () + y ()| ≤ 3 := (abs_add_le _ _).trans (by linarith)
    have e : (LinearMap.proj () : (Unit → ℝ) →ₗ[ℝ] ℝ) (cubicJacR x t *ᵥ v - cubicJacR y t *ᵥ v) = -(3 * (x () + y ()) * ((x () - y ()) * v ())) := by
      simp [cubicJacR, Matrix.mulVec, dotProduct]; ring
    rw [e, Real.norm_eq_abs, abs_neg, abs_mul, abs_mul, abs_mul]
    simp only [LinearMap.proj_apply, Pi.sub_apply, Real.norm_eq_abs]
    have : 0 ≤ |x () - y ()| * |v ()| := by positivity
    rw [show |(3:ℝ)| = 3 by norm_num]
    nlinarith
  · intro t _ y hy
    have hy' : |y ()| ≤ 3 / 2 := hy
    simp only [cubicR, LinearMap.proj_apply, Real.norm_eq_abs, abs_neg, abs_pow]
    exact (pow_le_pow_left₀ (abs_nonneg _) hy' 3).trans (by norm_num)
  · intro t _ y _ v
    simp [cubicJacR, Matrix.mulVec, dotProduct]
    nlinarith [mul_nonneg (mul_self_nonneg (y ())) (mul_self_nonneg (v ()))]

theorem exactNewton_R (tol : ℝ) : ExactNewton (E := ℝ) (LinearMap.proj ()) envR (cfgR tol) (fun A b _ => b () / A () ()) id :=
  ⟨fun v w h => by funext u; exact h, fun v => by simp [envR], fun _ _ _ _ => rfl, fun A b hA => by
      funext u
      have : A () () ≠ 0 := by simpa [isUnit_iff_ne_zero] using hA
      simp [Matrix.mulVec, dotProduct]
      field_simp, rfl, rfl, by simp [cfgR, int32Max]⟩

theorem affords_R : Affords (cfgR (1 / 10 ^ 6)) (1 / 100) 1 9 (27 / 8) 5 := by
  constructor <;> norm_num [cfgR]

theorem cubic_monotone (y z : Unit → ℝ) (t : ℝ) : inner ℝ ((LinearMap.proj () : (Unit → ℝ) →ₗ[ℝ] ℝ) (cubicR y t) - (LinearMap.proj () : (Unit → ℝ) →ₗ[ℝ] ℝ) (cubicR z t)) ((LinearMap.proj () : (Unit → ℝ) →ₗ[ℝ] ℝ) y - (LinearMap.proj () : (Unit → ℝ) →ₗ[ℝ] ℝ) z) ≤ 0 := by
  simp [cubicR]
  nlinarith [mul_nonneg (mul_self_nonneg (y () - z ())) (mul_self_nonneg (y () + z ())), mul_nonneg (mul_self_nonneg (y () - z ())) (mul_self_nonneg (y ())), mul_nonneg (mul_self_nonneg (y () - z ())) (mul_self_nonneg (z ()))]

theorem cubicSol_deriv (s : ℝ) (hs : 0 ≤ s) : HasDerivAt (fun t => cubicSolR t ()) (-(cubicSolR s ()) ^ 3) s := by
  have h0 : 0 < 1 + 2 * s := by linarith
  have hq := Real.sqrt_pos.2 h0
  have h1 : HasDerivAt (fun t : ℝ => 1 + 2 * t) 2 s := (((hasDerivAt_id s).const_mul 2).const_add 1).congr_deriv (by simp)
  have h2 := (h1.sqrt h0.ne').fun_inv hq.ne'
  refine h2.congr_deriv ?_
  simp only [cubicSolR]
  field_simp

theorem cubicSol_mem (s : ℝ) (hs : 0 ≤ s) : 0 ≤ cubicSolR s () ∧ cubicSolR s () ≤ 1 :=
  ⟨by unfold cubicSolR; positivity, inv_le_one_of_one_le₀ (Real.one_le_sqrt.2 (by linarith))⟩

theorem cubicSol_solves (T : ℝ) : SolvesIn (E := ℝ) (LinearMap.proj ()) cubicR cubicSolR 0 T := fun s hs => cubicSol_deriv s hs.1

theorem cubicSol_smooth (T : ℝ) : Smooth2In (E := ℝ) (LinearMap.proj ()) cubicR cubicSolR (fun t => 3 * cubicSolR t () ^ 5) 3 15 0 T := by
  have hle : ∀ s, 0 ≤ s → ∀ i : Nat, |cubicSolR s () ^ i| ≤ 1 := fun s hs i => by
    obtain ⟨h1, h2⟩ := cubicSol_mem s hs
    rw [abs_of_nonneg (by positivity)]
    exact pow_le_one₀ h1 h2
  have key : ∀ s, 0 ≤ s → ∀ u, s ≤ u → |3 * cubicSolR u () ^ 5 - 3 * cubicSolR s () ^ 5| ≤ 15 * (u - s) := by
    intro s hs u hsu
    have := increment_le (fun t : ℝ => 3 * cubicSolR t () ^ 5) (fun t => -(15 * cubicSolR t () ^ 7)) s u hsu (fun x hx => (((cubicSol_deriv x (hs.trans hx.1)).fun_pow 5).const_mul 3).congr_deriv (by push_cast; ring)) 0
      (fun x => 15 * (x - s)) (fun _ => 15) (by simp) (fun x => (((hasDerivAt_id x).sub_const s).const_mul 15).congr_deriv (by simp)) (fun x hx => by
        have := hle x (hs.trans hx.1) 7
        rw [sub_zero, Real.norm_eq_abs, abs_neg, abs_mul, show |(15:ℝ)| = 15 by norm_num]
        linarith)
    simpa using this
  refine ⟨fun s hs => ⟨?_, ?_⟩, ?_⟩
  · exact ((cubicSol_deriv s hs.1).fun_pow 3).fun_neg.congr_deriv (by push_cast; ring)
  · have := hle s hs.1 5
    rw [Real.norm_eq_abs, abs_mul, show |(3:ℝ)| = 3 by norm_num]
    linarith
  · intro s hs u hu
    rw [Real.norm_eq_abs]
    rcases le_total s u with h | h
    · rw [abs_sub_comm, abs_sub_comm s u, abs_of_nonneg (sub_nonneg.2 h)]; exact key s hs.1 u h
    · rw [abs_of_nonneg (sub_nonneg.2 h)]; exact key u hu.1 s h

/-- stability: up to 1000 steps of 1/100 at most, tolerance `10⁻⁶`: every step needs 6 evaluations at most, and the states stay below 3/2 -/
example (dts : List ℝ) (hdt : ∀ h ∈ dts, 0 ≤ h ∧ h ≤ 1 / 100) (hlen : dts.length ≤ 1000) :=
  C79_dissipative (E := ℝ) .BDF2 (.inr rfl) (LinearMap.proj ()) cubicR cubicJacR (newStepperR .BDF2) rfl envR (cfgR (1 / 10 ^ 6)) _ _ (exactNewton_R _) regR (fun _ => .created _ rfl) dts 0 (fun _ => 1) (1 / 100) (0 + dts.sum) hdt le_rfl
    _ 1 9 (27 / 8) (cubic_tame _ _ _) 5 affords_R (fun y t => by simp [cubicR]; nlinarith [mul_nonneg (mul_self_nonneg (y ())) (mul_self_nonneg (y ()))]) (fun x hx => by
      have h1 : Real.sqrt 2 ≤ 1.415 := Real.sqrt_le_iff.2 (by norm_num)
      have h2 : (dts.length : ℝ) ≤ 1000 := by exact_mod_cast hlen
      simp [cfgR] at hx
      show |x ()| ≤ 3 / 2
      norm_num at hx h1 ⊢
      linarith)

/-- convergence: 100 steps of 1/100 with BDF2, the error stays below 1/100 -/
example : let run := driveObj (stdStep .BDF2 (odeSystem cubicR cubicJacR)) (newtonSolve envR (cfgR (1 / 10 ^ 6))) (List.replicate 100 (1 / 100)) 0 [fun _ => 1] (fun _ => 1) (newStepperR .BDF2) regR
    run.length = 100 ∧ (∀ r ∈ run, r.stop = none ∧ r.queries.length ≤ 6) ∧ ∃ y l, accepted (fun _ => 1) run = y :: l ∧ |y () - (Real.sqrt 3)⁻¹| ≤ 1 / 100 := by
  intro run
  have h0 : cubicSolR 0 = fun _ => 1 := by funext u; simp [cubicSolR]
  have := C79_bdf2_monotone (E := ℝ) (LinearMap.proj ()) cubicR cubicJacR (newStepperR .BDF2) rfl envR (cfgR (1 / 10 ^ 6)) _ _ (exactNewton_R _) regR (fun _ => .created _ rfl) 100 0 (fun _ => 1) (1 / 100) 1 (by norm_num) (by norm_num)
    _ 1 9 (27 / 8) (cubic_tame _ _ _) 5 affords_R cubic_monotone cubicSolR (fun t => 3 * cubicSolR t () ^ 5) 3 15 (by norm_num) (by norm_num) (cubicSol_solves 1) (cubicSol_smooth 1) (by
      rintro x ⟨y, ⟨s, hs, rfl⟩, hx⟩
      obtain ⟨h1, h2⟩ := cubicSol_mem s hs.1
      rw [h0] at hx
      simp [cfgR] at hx
      show |x ()| ≤ 3 / 2
      have h3 := abs_le.1 hx
      rw [abs_le]
      norm_num at h3 ⊢
      constructor <;> linarith)
  obtain ⟨g1, g2, g3⟩ := this
  have glen : run.length = 100 := by
    have := congrArg List.length g1
    rwa [List.length_map, List.length_replicate] at this
  refine ⟨glen, g2, ?_⟩
  obtain ⟨y, l, e, hb⟩ := g3 run [] (by simp [run])
  refine ⟨y, l, e, ?_⟩
  have hst : ∀ r ∈ run, r.stop = none := fun r hr => (g2 r hr).1
  have hfil : run.filter (·.stop.isNone) = run := List.filter_eq_self.2 fun r hr => by rw [hst r hr]; rfl
  have ht : timeAfter 0 run = 1 := by
    unfold timeAfter
    rw [hfil, ← List.foldl_map (f := fun r : Record ℝ (Unit → ℝ) (Ans ℝ Unit Unit) => r.dt) (g := (· + ·)), show run.map (·.dt) = List.replicate 100 (1 / 100 : ℝ) from g1, ← List.sum_eq_foldl, List.sum_replicate]
    norm_num
  have hl : l.length ≤ 100 := by
    have h1 := congrArg List.length e
    unfold accepted at h1
    rw [hfil] at h1
    simp only [List.length_append, List.length_reverse, List.length_map, List.length_cons, List.length_nil, glen] at h1
    omega
  rw [ht, h0] at hb
  have hs1 : cubicSolR 1 () = (Real.sqrt 3)⁻¹ := by simp only [cubicSolR]; norm_num
  simp [cfgR, hs1] at hb
  have hl' : (l.length : ℝ) ≤ 100 := by exact_mod_cast hl
  refine hb.trans ?_
  norm_num
  linarith

/-- order two, for all small steps -/
example := C79_bdf2_order_two (E := ℝ) (p := Unit) (L := Unit) (LinearMap.proj ()) (fun v w h => by funext u; exact h) cubicR cubicJacR (contDiff_pi.2 fun u => by unfold cubicR; fun_prop) cubic_isJacobian 0 10 (by norm_num) cubicSolR (cubicSol_solves 10) _ 3 15
  (by norm_num) (by norm_num) (cubicSol_smooth 10) (.inr cubic_monotone)

/-- the model `y' = -y`, and its solution `e^-t` -/
def relaxR1 : (Unit → ℝ) → ℝ → Unit → ℝ := fun y _ _ => -y ()
def relaxJacR1 : (Unit → ℝ) → ℝ → Matrix Unit Unit ℝ := fun _ _ => Matrix.of fun _ _ => -1
noncomputable def relaxSolR1 : ℝ → Unit → ℝ := fun t _ => Real.exp (-t)
theorem relax_isJacobian (t : ℝ) (y : Unit → ℝ) : IsJacobian (fun y => relaxR1 y t) (fun y => relaxJacR1 y t) y := by
  unfold IsJacobian
  rw [hasFDerivAt_pi']
  intro u
  refine ((hasFDerivAt_apply (𝕜 := ℝ) () y).fun_neg).congr_fderiv ?_
  ext v
  simp [relaxJacR1, Matrix.mulVec, dotProduct]
theorem relax_solves (T : ℝ) : SolvesIn (E := ℝ) (LinearMap.proj ()) relaxR1 relaxSolR1 0 T := fun s _ => (hasDerivAt_neg s).exp.congr_deriv (by simp [relaxR1, relaxSolR1])
theorem relax_smooth (T : ℝ) : Smooth2In (E := ℝ) (LinearMap.proj ()) relaxR1 relaxSolR1 (fun t => Real.exp (-t)) 1 1 0 T := by
  have hd : ∀ s : ℝ, HasDerivAt (fun t : ℝ => Real.exp (-t)) (-Real.exp (-s)) s := fun s => (hasDerivAt_neg s).exp.congr_deriv (by ring)
  have hle : ∀ s : ℝ, 0 ≤ s → |Real.exp (-s)| ≤ 1 := by
    intro s hs
    rw [abs_of_pos (Real.exp_pos _)]
    exact Real.exp_le_one_iff.2 (by linarith)
  have key : ∀ s : ℝ, 0 ≤ s → ∀ u, s ≤ u → |Real.exp (-u) - Real.exp (-s)| ≤ u - s := by
    intro s hs u hsu
    have := increment_le (fun t : ℝ => Real.exp (-t)) (fun t => -Real.exp (-t)) s u hsu (fun x _ => hd x) 0 (fun x => x - s) (fun _ => 1) (by simp)
      (fun x => ((hasDerivAt_id x).sub_const s)) (fun x hx => by simpa using hle x (hs.trans hx.1))
    simpa using this
  refine ⟨fun s hs => ⟨?_, by simpa using hle s hs.1⟩, ?_⟩
  · exact (hd s).fun_neg.congr_deriv (by simp)
  · intro s hs u hu
    rw [one_mul, Real.norm_eq_abs]
    rcases le_total s u with h | h
    · rw [abs_sub_comm, abs_sub_comm s u, abs_of_nonneg (sub_nonneg.2 h)]; exact key s hs.1 u h
    · rw [abs_of_nonneg (sub_nonneg.2 h)]; exact key u hu.1 s h
theorem relax_lip (y z : Unit → ℝ) (t : ℝ) : ‖(LinearMap.proj () : (Unit → ℝ) →ₗ[ℝ] ℝ) (relaxR1 y t) - (LinearMap.proj () : (Unit → ℝ) →ₗ[ℝ] ℝ) (relaxR1 z t)‖ ≤ 1 * ‖(LinearMap.proj () : (Unit → ℝ) →ₗ[ℝ] ℝ) y - (LinearMap.proj () : (Unit → ℝ) →ₗ[ℝ] ℝ) z‖ := by
  simp only [LinearMap.proj_apply, one_mul, Real.norm_eq_abs, relaxR1]
  rw [abs_sub_comm]
  exact le_of_eq (by congr 1; ring)
theorem relax_monotone (y z : Unit → ℝ) (t : ℝ) : inner ℝ ((LinearMap.proj () : (Unit → ℝ) →ₗ[ℝ] ℝ) (relaxR1 y t) - (LinearMap.proj () : (Unit → ℝ) →ₗ[ℝ] ℝ) (relaxR1 z t)) ((LinearMap.proj () : (Unit → ℝ) →ₗ[ℝ] ℝ) y - (LinearMap.proj () : (Unit → ℝ) →ₗ[ℝ] ℝ) z) ≤ 0 := by
  simp [relaxR1]
  nlinarith [mul_self_nonneg (y () - z ())]
theorem relax_tame (a b H : ℝ) : Tame (E := ℝ) (LinearMap.proj ()) relaxR1 relaxJacR1 {y | |y ()| ≤ 100} a b H 1 0 100 := by
  refine tame_of_monotone (E := ℝ) _ _ _ _ _ _ _ _ _ (by norm_num) (by norm_num) (fun t _ y _ => relax_isJacobian t y) ?_ ?_ ?_
  · intro t _ x hx y hy v
    simp [relaxJacR1]
  · intro t _ y hy
    simpa [relaxR1] using hy
  · intro t _ y _ v
    simp [relaxJacR1, Matrix.mulVec, dotProduct]
    exact mul_self_nonneg _
theorem relax_affords : Affords (cfgR (1 / 10 ^ 6)) (1 / 100) 1 0 100 5 := by
  constructor <;> norm_num [cfgR]
theorem relax_within (T d : ℝ) (hd : d ≤ 99) : Within (E := ℝ) (LinearMap.proj ()) (relaxSolR1 '' Set.Icc 0 T) d ⊆ {y | |y ()| ≤ 100} := by
  rintro x ⟨y, ⟨s, hs, rfl⟩, hx⟩
  have h1 : Real.exp (-s) ≤ 1 := Real.exp_le_one_iff.2 (by linarith [hs.1])
  have h2 := Real.exp_pos (-s)
  have h3 := abs_le.1 (hx.trans hd)
  simp only [relaxSolR1, LinearMap.proj_apply] at h3
  show |x ()| ≤ 100
  rw [abs_le]
  constructor <;> linarith [h3.1, h3.2]
theorem relax_start : relaxSolR1 0 = fun _ => 1 := by funext u; simp [relaxSolR1]

/-- the bounds for Lipschitz models, for `y' = -y`: up to time 1/12 in at most 1000 steps of 1/100 at most -/
theorem exp_le_three {a : ℝ} (h : a ≤ 1) : Real.exp a ≤ 3 := (Real.exp_le_exp.2 h).trans Real.exp_one_lt_three.le
theorem relax_room {e n : ℝ} (he : e ≤ 3) (h0 : 0 ≤ e) (hn : n ≤ 1000) (hn0 : 0 ≤ n) (c : ℝ) (hc : c ≤ 1) : e * (0 + (n * (1 / 10 ^ 6) + c)) + 2 * 1 * (1 / 100 * 100 + 1 / 10 ^ 6 / 2) ≤ 99 := by
  have : n * (1 / 10 ^ 6) + c ≤ 2 := by norm_num; linarith
  norm_num at this ⊢
  nlinarith
example (dts : List ℝ) (hdt : ∀ h ∈ dts, 0 ≤ h ∧ h ≤ 1 / 100) (hT : 0 + dts.sum ≤ 1 / 12) (hlen : dts.length ≤ 1000) :=
  C79_crank_nicolson (E := ℝ) (LinearMap.proj ()) relaxR1 relaxJacR1 (newStepperR .CrankNicolson) ⟨rfl, rfl, by decide⟩ envR (cfgR (1 / 10 ^ 6)) _ _ (exactNewton_R _) regR (fun _ => .created _ rfl) dts 0 (fun _ => 1) (1 / 100) (1 / 12) hdt hT
    _ 1 0 100 (relax_tame _ _ _) 5 relax_affords 1 (by norm_num) (by norm_num) relax_lip relaxSolR1 _ 1 1 (by norm_num) (relax_solves _) (relax_smooth _) (relax_within _ _ (by
      have h2 : (dts.length : ℝ) ≤ 1000 := by exact_mod_cast hlen
      rw [relax_start, sub_self, norm_zero]
      exact relax_room (exp_le_three (by norm_num)) (Real.exp_nonneg _) h2 (Nat.cast_nonneg _) _ (by norm_num)))
example (dts : List ℝ) (hdt : ∀ h ∈ dts, 0 ≤ h ∧ h ≤ 1 / 100) (hT : 0 + dts.sum ≤ 1 / 12) (hlen : dts.length ≤ 1000) :=
  C79_bdf1 (E := ℝ) (LinearMap.proj ()) relaxR1 relaxJacR1 (newStepperR .BDF1) rfl envR (cfgR (1 / 10 ^ 6)) _ _ (exactNewton_R _) regR (fun _ => .created _ rfl) dts 0 (fun _ => 1) (1 / 100) (1 / 12) (by norm_num) hdt hT
    _ 1 0 100 (relax_tame _ _ _) 5 relax_affords 1 (by norm_num) (by norm_num) relax_lip relaxSolR1 1 (by norm_num) (relax_solves _) (relax_smooth _).smooth1 (relax_within _ _ (by
      have h2 : (dts.length : ℝ) ≤ 1000 := by exact_mod_cast hlen
      rw [relax_start, sub_self, norm_zero]
      exact relax_room (exp_le_three (by norm_num)) (Real.exp_nonneg _) h2 (Nat.cast_nonneg _) _ (by norm_num)))
example (dts : List ℝ) (hdt : ∀ h ∈ dts, 0 ≤ h ∧ h ≤ 1 / 100) (hT : 0 + dts.sum ≤ 1 / 12) (hlen : dts.length ≤ 1000) :=
  C79_bdf1_monotone (E := ℝ) (LinearMap.proj ()) relaxR1 relaxJacR1 (newStepperR .BDF1) rfl envR (cfgR (1 / 10 ^ 6)) _ _ (exactNewton_R _) regR (fun _ => .created _ rfl) dts 0 (fun _ => 1) (1 / 100) (1 / 12) (by norm_num) hdt hT
    _ 1 0 100 (relax_tame _ _ _) 5 relax_affords relax_monotone relaxSolR1 1 (by norm_num) (relax_solves _) (relax_smooth _).smooth1 (relax_within _ _ (by
      have h2 : (dts.length : ℝ) ≤ 1000 := by exact_mod_cast hlen
      rw [relax_start, sub_self, norm_zero]
      have := relax_room (e := 1) (by norm_num) (by norm_num) h2 (Nat.cast_nonneg _) ((1 / 12 - 0) * (1 * (1 / 100) / 2)) (by norm_num)
      rwa [one_mul] at this))
example := C79_bdf2 (E := ℝ) (LinearMap.proj ()) relaxR1 relaxJacR1 (newStepperR .BDF2) rfl envR (cfgR (1 / 10 ^ 6)) _ _ (exactNewton_R _) regR (fun _ => .created _ rfl) 8 0 (fun _ => 1) (1 / 100) (1 / 12) (by norm_num) (by norm_num)
    _ 1 0 100 (relax_tame _ _ _) 5 relax_affords 1 (by norm_num) (by norm_num) relax_lip relaxSolR1 _ 1 1 (by norm_num) (by norm_num) (relax_solves _) (relax_smooth _) (relax_within _ _ (by
      have h1 := exp_le_three (a := 12 * 1 * (1 / 12 - 0)) (by norm_num)
      have h2 := Real.exp_nonneg (12 * 1 * (1 / 12 - 0))
      rw [relax_start, sub_self, norm_zero]
      simp only [cfgR]
      norm_num at h1 h2 ⊢
      linarith))

/-- order two of CrankNicolson -/
example := C79_crank_nicolson_order_two (E := ℝ) (p := Unit) (L := Unit) (LinearMap.proj ()) (fun v w h => by funext u; exact h) relaxR1 relaxJacR1 (contDiff_pi.2 fun u => by unfold relaxR1; fun_prop)
  relax_isJacobian 0 10 (by norm_num) relaxSolR1 (relax_solves _) _ 1 1 (by norm_num) (relax_smooth _) 1 (by norm_num) relax_lip

end Examples
end Pressio.Props
