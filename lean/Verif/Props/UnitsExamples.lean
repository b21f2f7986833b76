import Verif.Props.UnitsClock
import Verif.Props.CoordinatesExamples
import Verif.Props.SolverAlikeExamples
import Verif.Props.CustomSchemes

/-
  C100: concrete cases, and the unit of time in the advancers to a target time.
-/
namespace Pressio.Props
set_option autoImplicit false
set_option linter.unusedSectionVars false
open Pressio Matrix
open Pressio.Model.Advance Pressio.Spec.AdvanceTarget Pressio.Spec.AdvanceDrive Pressio.Spec.CustomSchemes Pressio.Spec.Units Pressio.Lemmas.Units
open Pressio.Model.Nonlinear (Env Cfg Reg StopCrit Update Tag Ans SP)
open Pressio.Spec.Nonlinear Pressio.Spec.SolverAlike Pressio.Spec.Coordinates
open Pressio.Lemmas.Nonlinear Pressio.Lemmas.SolverAlike Pressio.Lemmas.Coordinates
open Pressio.Model.Implicit Pressio.Spec.Implicit Pressio.Lemmas.Implicit Pressio.Spec.SolverRun Pressio.Lemmas.SolverTree Pressio.Lemmas.SolverRun
open Pressio.Model.Explicit (Scheme System numRhs asStepper dummyObserver)
open Pressio.Model.Galerkin Pressio.Spec.Galerkin
open Pressio.Model.Lspg Pressio.Spec.Lspg Pressio.Lemmas.Lspg
open Pressio.Spec.Explicit

/-! ### Explicit steppers -/

/-- hours since some moment; the reference clock shows seconds -/
def hours : Clock ℚ := ⟨3600, 1800⟩
/-- degrees Celsius in thousands; the reference is in Kelvin -/
def kelvin : ℚ →ₗ[ℚ] ℚ := LinearMap.mulLeft ℚ 1000
/-- `dy/dt = t - y^2`, in the reference units and in the others -/
def heatK : System ℚ ℚ := ⟨fun y t _ => .ok () (t - y ^ 2)⟩
def heatC : System ℚ ℚ := ⟨fun y t _ => .ok () (3600 * ((3600 * t + 1800) - (1000 * y + 273) ^ 2) / 1000)⟩

/-- policies with half an hour per step; with quarters of an hour as smallest step when asked for one -/
def halfHours : Int → ℚ → ℚ → Prog Nat ℚ := fun _ _ _ u => .ok (1 / 2) (u + 1)
def halfHoursS : Int → ℚ → ℚ → Prog Nat ℚ := fun _ _ _ u => .ok 1800 (u + 1)
def halfHours5 : Int → ℚ → DtVars ℚ → Prog Nat (DtVars ℚ) := fun _ _ _ u => .ok ⟨1 / 2, 1 / 4, 2⟩ (u + 1)
def halfHoursS5 : Int → ℚ → DtVars ℚ → Prog Nat (DtVars ℚ) := fun _ _ _ u => .ok ⟨1800, 900, 2⟩ (u + 1)
def count {Y : Type} : Int → ℚ → Y → Prog Nat Unit := fun _ _ _ u => .ok () (u + 10)

theorem halfHours_same : SamePolicy hours halfHoursS halfHours := by intro i t d u; norm_num [halfHoursS, halfHours, Clock.size, hours]
theorem halfHours5_same : SamePolicy5 hours halfHoursS5 halfHours5 := by intro i t v u; norm_num [halfHoursS5, halfHours5, Clock.vars, Clock.size, hours]

example (scheme : Scheme) (h : scheme.isExplicit = true) := C100_explicit_n_steps hours kelvin 273 (fun y t => t - y ^ 2) (fun y t => 3600 * ((3600 * t + 1800) - (1000 * y + 273) ^ 2) / 1000)
  (fun x t => by simp [hours, kelvin, Clock.time]; ring) heatK (fun _ _ _ => rfl) heatC (fun _ _ _ => rfl) scheme h (List.replicate (numRhs scheme) 0, 0, []) (by simp) (List.replicate (numRhs scheme) 1, 1, []) (by simp)
  halfHoursS halfHours halfHoursS5 halfHours5 count count halfHours_same (fun _ _ _ _ => rfl) 5 0 (-1/4) 0

example (scheme : Scheme) (h : scheme.isExplicit = true) (rec : Bool) := C100_explicit_target_partial hours (by norm_num [hours]) kelvin 273 (fun y t => t - y ^ 2) (fun y t => 3600 * ((3600 * t + 1800) - (1000 * y + 273) ^ 2) / 1000)
  (fun x t => by simp [hours, kelvin, Clock.time]; ring) heatK (fun _ _ _ => rfl) heatC (fun _ _ _ => rfl) scheme h (List.replicate (numRhs scheme) 0, 0, []) (by simp) (List.replicate (numRhs scheme) 1, 1, []) (by simp)
  halfHoursS halfHours halfHoursS5 halfHours5 count count halfHours_same halfHours5_same (fun _ _ _ _ => rfl) rec (hours.size (1/1000)) (1/1000) rfl 10 0 (5/4) (-1/4) 0

/-- three steps, four calls of the observer: the target is passed with the third step -/
example : (visible (advanceT true (1/1000) (userObjects (asStepper heatC .ForwardEuler dummyObserver) halfHours halfHours5 count) 10 0 (5/4) ⟨(([0], 0, []), 0), -1/4, []⟩)).2.2.2 = 43 := by decide +kernel

/-- the same motion `dy/dt = 10^17` per second, on a clock in units of `10^-17` seconds: `dy/dt' = 1` -/
def tiny : Clock ℚ := ⟨1 / 10 ^ 17, 0⟩
def fast : System ℚ ℚ := ⟨fun _ _ _ => .ok () (10 ^ 17)⟩
def slow : System ℚ ℚ := ⟨fun _ _ _ => .ok () 1⟩

/-- **C100, advancers to a target time.** Their result depends on the unit of time.  The stop test `|time - final| <= eps` uses the machine epsilon of the floating-point type (here `2^-52`) as a duration, in whatever unit. The same motion, the same first and last moment, the same five steps of the same
    duration: with the small unit the advancer makes the five steps; with seconds it returns after one of them, four fifths of the way before the final time. -/
theorem C100_target_refuted : SamePolicy (U := Unit) tiny (fun _ _ _ => pure (1 / 10 ^ 17)) (fun _ _ _ => pure 1) ∧ (∀ x t, tiny.rate • (fun _ _ => 10 ^ 17 : ℚ → ℚ → ℚ) (LinearMap.id (R := ℚ) x + 0) (tiny.time t) = LinearMap.id (R := ℚ) ((fun _ _ => 1 : ℚ → ℚ → ℚ) x t)) ∧
    Computes fast (fun _ _ => 10 ^ 17) ∧ Computes slow (fun _ _ => 1) ∧
    (let inSeconds := visible (advanceT false (1 / 2 ^ 52) (userObjects (asStepper fast .ForwardEuler dummyObserver) (fun _ _ _ => pure (1 / 10 ^ 17)) (fun _ _ v => pure v) (fun _ _ _ => (pure () : Prog Unit Unit))) 10 (tiny.time 0) (tiny.time 5) ⟨(([0], 0, []), ()), 0, []⟩)
     let inTiny := visible (advanceT false (1 / 2 ^ 52) (userObjects (asStepper slow .ForwardEuler dummyObserver) (fun _ _ _ => pure 1) (fun _ _ v => pure v) (fun _ _ _ => (pure () : Prog Unit Unit))) 10 0 5 ⟨(([0], 0, []), ()), 0, []⟩)
     inSeconds.1.isOk = true ∧ inTiny.1.isOk = true ∧ inSeconds.2.1 = 1 ∧ inTiny.2.1 = 5) := by
  refine ⟨?_, ?_, fun _ _ _ => rfl, fun _ _ _ => rfl, ?_⟩
  · intro i t d u
    norm_num [Clock.size, tiny, pure, Prog.pure]
  · intro x t
    norm_num [tiny]
  · decide +kernel

/-! ### Implicit steppers -/
section
variable {K n : Type} [Field K] [Fintype n] [DecidableEq n]

/-- the equation in other units, as an object -/
def otherUnits (c : Clock K) (A B : Matrix n n K) (a : n → K) (sys : ISystem K (n → K) (Matrix n n K)) : ISystem K (n → K) (Matrix n n K) where
  eval := fun x t w => match sys.eval (chart B a x) (c.time t) w with
    | .ok v => .ok (c.rate • (A *ᵥ v.1), v.2.map (fun J => c.rate • (A * J * B)))
    | .error e => .error (e.1, A *ᵥ e.2)

theorem otherUnits_same (c : Clock K) (A B : Matrix n n K) (a : n → K) (sys : ISystem K (n → K) (Matrix n n K)) : SameRhs c A B a sys (otherUnits c A B a sys) := by
  intro x t w
  simp only [otherUnits]
  rcases sys.eval (chart B a x) (c.time t) w with e | v <;> rfl

theorem otherUnits_typed (c : Clock K) (A B : Matrix n n K) (a : n → K) (sys : ISystem K (n → K) (Matrix n n K)) (h : WellTypedRhs sys) : WellTypedRhs (otherUnits c A B a sys) := by
  intro x t w
  have := h (chart B a x) (c.time t) w
  simp only [otherUnits]
  rcases hE : sys.eval (chart B a x) (c.time t) w with e | ⟨v, j⟩
  · intro f j h
    cases h
  · intro f' j' h
    cases h
    simpa using this v j hE

/-- a full-order model on another clock, as an object -/
def fomOnClock {m P q : Type} (c : Clock K) (F : Fom K m P q) : Fom K m P q where
  rhs := fun y t b => match F.rhs y (c.time t) b with
    | .ok v => .ok (c.rate • v)
    | .error e => .error e
  applyJac := fun y B t b => match F.applyJac y B (c.time t) b with
    | .ok v => .ok (c.rate • v)
    | .error e => .error e
  applyMM := fun y B t b => F.applyMM y B (c.time t) b

theorem fomOnClock_is {m P q : Type} [Fintype m] (c : Clock K) {F : Fom K m P q} {f : (m → K) → K → Except Exc (P → K)} {Df Mm : (m → K) → K → Except Exc (Matrix P m K)} (h : FomIs F f Df Mm) : FomIs (fomOnClock c F) (onClock c f) (onClock c Df) (fun y t => Mm y (c.time t)) where
  rhs := fun y t b => by
    have := h.rhs y (c.time t) b
    simp only [fomOnClock, onClock]
    rw [← this]
    rcases F.rhs y (c.time t) b with e | v <;> rfl
  jac := fun y B t b => by
    have := h.jac y B (c.time t) b
    simp only [fomOnClock, onClock]
    rcases hD : Df y (c.time t) with e | D <;> rw [hD] at this <;> rcases hE : F.applyJac y B (c.time t) b with e' | v <;> rw [hE] at this <;> simp [Except.map, Except.mapError] at this ⊢
    · exact this
    · rw [this]
  mm := fun y B t b => h.mm y B (c.time t) b
end

/-- minutes, and a unit of twice the reference unit, with another zero -/
noncomputable def minutes : Clock ℝ := ⟨60, -30⟩
noncomputable def half : Matrix Unit Unit ℝ := Matrix.of fun _ _ => 1 / 2
noncomputable def twice : Matrix Unit Unit ℝ := Matrix.of fun _ _ => 2
theorem half_twice : half * twice = 1 := by ext i j; norm_num [half, twice, Matrix.mul_apply, Matrix.one_apply]
/-- the solver in the other units: its norm measures residuals in the reference unit -/
noncomputable def envR2 : Env ℝ Unit Unit Unit Unit := { envR with normM := fun v => |2 * v ()| }
theorem envR2_norm (r : Unit → ℝ) : envR2.normM (half *ᵥ r) = envR.normM r := by simp [envR2, envR, half, Matrix.mulVec, dotProduct]
/-- the right-hand side `t - y^3 - y` with its Jacobian -/
noncomputable def forced : ISystem ℝ (Unit → ℝ) (Matrix Unit Unit ℝ) := odeSystem (fun y t _ => t - y () ^ 3 - y ()) (fun y _ => Matrix.of fun _ _ => -(3 * y () ^ 2 + 1))
theorem forced_noTSF : NoTSF forced := by intro y t w e junk h; cases h
theorem forced_typed : WellTypedRhs forced := by intro y t w; cases w <;> simp [forced, odeSystem]
theorem forced_regular (name : Scheme) (dt : ℝ) (h0 : 0 ≤ dt) : StepRegular name forced dt := by
  intro y t f J h
  refine cubicOde_regular name dt h0 y t (fun _ => -(y () ^ 3) - y ()) J ?_
  simp only [forced, cubicOde, odeSystem, if_true, Except.ok.injEq, Prod.mk.injEq] at h ⊢
  exact ⟨trivial, h.2⟩

example (tol : ℝ) := C100_implicit_runs minutes half twice half_twice (fun _ => 7) forced _ (otherUnits_same _ _ _ _ _) forced_noTSF forced_typed (otherUnits_typed _ _ _ _ _ forced_typed) .BDF2 (newStepperR .BDF2) (newStepperR .BDF2) (by simp [Ready, newStepperR, freshPMem])
  (by simp [Ready, newStepperR, freshPMem]) envR envR2 (by simp [envR]) (by simp [envR2, envR]) divR_solves divR_solves (cfgR tol) (.inl rfl) envR2_norm regR regR (fun _ => .created _ rfl) (fun _ => .created _ rfl) [1, 1/2, 3]
  (by intro dt h; apply forced_regular; simp at h; rcases h with rfl | rfl | rfl <;> norm_num [minutes, Clock.size]) 0 (fun _ => 4)

noncomputable def polMin : Int → ℝ → ℝ → Prog Nat ℝ := fun _ _ _ u => .ok (1 / 2) (u + 1)
noncomputable def polSec : Int → ℝ → ℝ → Prog Nat ℝ := fun _ _ _ u => .ok 30 (u + 1)
noncomputable def polMin5 : Int → ℝ → DtVars ℝ → Prog Nat (DtVars ℝ) := fun _ _ _ u => .ok ⟨1 / 2, 1 / 4, 2⟩ (u + 1)
noncomputable def polSec5 : Int → ℝ → DtVars ℝ → Prog Nat (DtVars ℝ) := fun _ _ _ u => .ok ⟨30, 15, 2⟩ (u + 1)
theorem polMin_same : SamePolicy minutes polSec polMin := by intro i t d u; norm_num [polSec, polMin, Clock.size, minutes]
theorem polMin5_same : SamePolicy5 minutes polSec5 polMin5 := by intro i t v u; norm_num [polSec5, polMin5, Clock.vars, Clock.size, minutes]

example := C100_implicit_n_steps minutes half twice half_twice (fun _ => 7) forced _ (otherUnits_same _ _ _ _ _) forced_noTSF forced_typed (otherUnits_typed _ _ _ _ _ forced_typed) .CrankNicolson (newStepperR .CrankNicolson) (newStepperR .CrankNicolson) (by simp [Ready, newStepperR, freshPMem])
  (by simp [Ready, newStepperR, freshPMem]) envR envR2 (by simp [envR]) (by simp [envR2, envR]) divR_solves divR_solves (cfgR (1/100)) (.inl rfl) envR2_norm regR regR (fun _ => .created _ rfl) (fun _ => .created _ rfl) polSec polMin polSec5 polMin5 (fun _ _ _ u => .ok () (u + 10)) (fun _ _ _ u => .ok () (u + 10))
  polMin_same (fun _ _ _ _ => rfl) (by intro i t d u d' u' h; cases h; apply forced_regular; norm_num [minutes, Clock.size]) 6 0 (fun _ => 4) 0

example (rec : Bool) := C100_implicit_target_partial minutes (by norm_num [minutes]) half twice half_twice (fun _ => 7) forced _ (otherUnits_same _ _ _ _ _) forced_noTSF forced_typed (otherUnits_typed _ _ _ _ _ forced_typed) .BDF1 (newStepperR .BDF1) (newStepperR .BDF1) (by simp [Ready, newStepperR, freshPMem])
  (by simp [Ready, newStepperR, freshPMem]) envR envR2 (by simp [envR]) (by simp [envR2, envR]) divR_solves divR_solves (cfgR (1/100)) (.inl rfl) envR2_norm regR regR (fun _ => .created _ rfl) (fun _ => .created _ rfl) polSec polMin polSec5 polMin5 (fun _ _ _ u => .ok () (u + 10)) (fun _ _ _ u => .ok () (u + 10))
  polMin_same polMin5_same (fun _ _ _ _ => rfl) (fun d => 0 ≤ d) (fun d q hd hq => div_nonneg hd (by linarith)) (fun d hd => forced_regular _ _ (mul_nonneg (by norm_num [minutes]) hd)) (by intro i t d u d' u' h; cases h; norm_num) (by intro i t v u v' u' h; cases h; norm_num)
  rec (minutes.size (1/1000)) (1/1000) rfl 10 0 5 (fun _ => 4) 0

/-! ### Another clock -/

/-- a step forward of a quarter, on a clock in quarters -/
def quarters : Clock ℚ := ⟨1 / 4, 2⟩
def polQ : Int → ℚ → ℚ → Prog Unit ℚ := fun _ _ _ => pure 2
def polH : Int → ℚ → ℚ → Prog Unit ℚ := fun _ _ _ => pure (1 / 2)
def polQ5 : Int → ℚ → DtVars ℚ → Prog Unit (DtVars ℚ) := fun _ _ _ => pure ⟨2, 1, 2⟩
def polH5 : Int → ℚ → DtVars ℚ → Prog Unit (DtVars ℚ) := fun _ _ _ => pure ⟨1 / 2, 1 / 4, 2⟩
theorem polQ_same : SamePolicy quarters polH polQ := by intro i t d u; norm_num [polH, polQ, Clock.size, quarters, pure, Prog.pure]
theorem polQ5_same : SamePolicy5 quarters polH5 polQ5 := by intro i t v u; norm_num [polH5, polQ5, Clock.vars, Clock.size, quarters, pure, Prog.pure]

example := C100_implicit_clock minutes forced _ (otherUnits_same _ _ _ _ _) forced_noTSF .CrankNicolson (newStepperR .CrankNicolson) (newStepperR .CrankNicolson) (by simp [Ready, newStepperR, freshPMem]) (by simp [Ready, newStepperR, freshPMem])
  (Model.Nonlinear.newtonSolve envR (cfgR (1/100))) (fine_newtonSolve envR (by simp [envR]) _) regR [1, 1/2, 3] 0 (fun _ => 4)

example := C100_lspg_clock quarters rotFom_is (fomOnClock_is quarters rotFom_is) rotFom_noTSF trial2 .BDF2 (.inr rfl) (lspgMem .BDF2 3 2) (lspgMem .BDF2 3 2) lspgMem_ready lspgMem_ready (Model.Nonlinear.lsSolve envGN cfgGN .gn) (fine_lsSolve envGN cfgGN .gn envGN_honest) (busy_lsSolve envGN cfgGN .gn (by decide))
  regGN [2, 2, 1] 0 ![0]
/-- what the run in quarters does: the three steps of `gnRun` -/
example : ((driveObj (stepWith .BDF2 (defaultPolicy trial2 (fomOnClock quarters rotFom))) (Model.Nonlinear.lsSolve envGN cfgGN .gn) [2, 2, 1] 0 [![0]] ![0] (lspgMem .BDF2 3 2) regGN).map (fun r => (r.t, r.stop, r.queries.length, r.y 0))) =
    [(0, none, 2, 4/125), (2, none, 2, 49/625), (4, none, 2, 76/625)] := by decide +kernel
example := C100_n_steps quarters id (fun _ => True) (stepWith .BDF2 (defaultPolicy trial2 rotFom)) (stepWith .BDF2 (defaultPolicy trial2 (fomOnClock quarters rotFom))) (Model.Nonlinear.lsSolve envGN cfgGN .gn) (Model.Nonlinear.lsSolve envGN cfgGN .gn) 0 ![0] (lspgMem .BDF2 3 2) (lspgMem .BDF2 3 2) regGN regGN
  (fun dts _ => C100_lspg_clock quarters rotFom_is (fomOnClock_is quarters rotFom_is) rotFom_noTSF trial2 .BDF2 (.inr rfl) (lspgMem .BDF2 3 2) (lspgMem .BDF2 3 2) lspgMem_ready lspgMem_ready (Model.Nonlinear.lsSolve envGN cfgGN .gn) (fine_lsSolve envGN cfgGN .gn envGN_honest) (busy_lsSolve envGN cfgGN .gn (by decide))
    regGN dts 0 ![0]) polH polQ polH5 polQ5 (fun _ _ _ => pure ()) (fun _ _ _ => pure ()) polQ_same (fun _ _ _ _ => rfl) (fun _ _ _ _ _ _ _ => trivial) 5 ()
example (rec : Bool) := C100_target_partial quarters (by norm_num [quarters]) id (fun _ => True) (stepWith .BDF2 (defaultPolicy trial2 rotFom)) (stepWith .BDF2 (defaultPolicy trial2 (fomOnClock quarters rotFom))) (Model.Nonlinear.lsSolve envGN cfgGN .gn) (Model.Nonlinear.lsSolve envGN cfgGN .gn) 0 ![0]
  (lspgMem .BDF2 3 2) (lspgMem .BDF2 3 2) regGN regGN
  (fun dts _ => C100_lspg_clock quarters rotFom_is (fomOnClock_is quarters rotFom_is) rotFom_noTSF trial2 .BDF2 (.inr rfl) (lspgMem .BDF2 3 2) (lspgMem .BDF2 3 2) lspgMem_ready lspgMem_ready (Model.Nonlinear.lsSolve envGN cfgGN .gn) (fine_lsSolve envGN cfgGN .gn envGN_honest) (busy_lsSolve envGN cfgGN .gn (by decide))
    regGN dts 0 ![0]) polH polQ polH5 polQ5 (fun _ _ _ => pure ()) (fun _ _ _ => pure ()) polQ_same polQ5_same (fun _ _ _ _ => rfl) (fun _ _ _ _ _ _ _ => trivial) (fun _ _ _ _ _ _ _ => trivial) (fun _ _ _ _ => trivial) rec (quarters.size (1/1000)) (1/1000) rfl 7 10 ()

def cfgGN11 : Cfg ℚ := cfgN .WhenAbsolutel2NormOfGradientBelowTolerance (1/100) 4 .Standard
example := C100_hyper_reduced_lspg_clock quarters hypFom2_is (fomOnClock_is quarters hypFom2_is) (by simp) (by simp) upd2 !![0, 1] upd2_is trial2 .BDF2 (.inr rfl) hypMem2 hypMem2 hypMem2_ready hypMem2_ready (Model.Nonlinear.lsSolve env11 cfgGN11 .gn)
  (fine_lsSolve env11 cfgGN11 .gn (by intro A b s; simp [env11])) (busy_lsSolve env11 cfgGN11 .gn (by decide)) reg11 [2, 2, 1] 0 ![1]
example := C100_masked_lspg_clock quarters fom2_is (fomOnClock_is quarters fom2_is) fom2_noTSF mask2_is trial2 .BDF2 (.inr rfl) maskMem2 maskMem2 (by simp [maskMem2, Lemmas.Lspg.Sized, Lemmas.Lspg.numStates]) (by simp [maskMem2, Lemmas.Lspg.Sized, Lemmas.Lspg.numStates])
  (Model.Nonlinear.lsSolve env11 cfgGN11 .gn) (fine_lsSolve env11 cfgGN11 .gn (by intro A b s; simp [env11])) (busy_lsSolve env11 cfgGN11 .gn (by decide)) reg11 [2, 2, 1] 0 ![1]
example := C100_galerkin_clock (q := Fin 1) quarters fom2_is (fomOnClock_is quarters fom2_is) fom2_noTSF trial2 gst2 gst2 .BDF2 memBDF2 memBDF2 (by simp [Ready, memBDF2, freshPMem]) (by simp [Ready, memBDF2, freshPMem])
  (Model.Nonlinear.newtonSolve env11N cfg11N) (fine_newtonSolve env11N (by intro A b s; simp [env11N]) cfg11N) reg11 [2, 2, 1] 0 ![1]

/-- mass matrix `2 + t`, right-hand side `t - y` -/
def massQ (c : Clock ℚ) : IMMSystem ℚ (Fin 1 → ℚ) (Matrix (Fin 1) (Fin 1) ℚ) (Matrix (Fin 1) (Fin 1) ℚ) :=
  ⟨fun y t w => .ok (Matrix.of fun _ _ => 2 + c.time t, c.rate • (fun i => c.time t - y i), if w then some (c.rate • Matrix.of fun _ _ => -1) else none)⟩
example := C100_mass_matrix_clock Matrix.mulVec id quarters (massQ ⟨1, 0⟩) (massQ quarters)
  (by intro x t w; cases w <;> simp [massQ, Clock.time, Except.map, Except.mapError])
  (by intro y t w e junk h; cases h) .BDF2 memMM2 memMM2 (by simp [ReadyMM, memMM2]) (by simp [ReadyMM, memMM2])
  (Model.Nonlinear.newtonSolve env11N cfg11N) (fine_newtonSolve env11N (by intro A b s; simp [env11N]) cfg11N) reg11 [2, 2, 1] 0 ![1]
end Pressio.Props
