import Verif.Props.Implicit
import Verif.Lemmas.Numerics
import Mathlib.Analysis.InnerProductSpace.Basic
import Mathlib.Data.List.Basic
import Mathlib.Analysis.Complex.Basic
import Mathlib.Analysis.InnerProductSpace.Basic
import Mathlib.Analysis.SpecialFunctions.ExpDeriv
import Mathlib.Tactic.Linarith

/-
  C75, C76: stability and convergence of the implicit schemes.

  A run is driven with arbitrary nonlinear solvers (one behaviour per attempt); the only assumption on them: when a solver returns, it has evaluated the residual at the state that it returns and found it of norm at most
  `tol`.  Norms and inner products of states are those of an inner product space `E` into which states are mapped by a linear map `ι` (so states can be plain arrays).
-/
namespace Pressio.Props
set_option autoImplicit false
set_option linter.unusedSectionVars false
open Pressio Pressio.Model.Implicit Pressio.Spec.Implicit Pressio.Lemmas.Implicit Pressio.Lemmas.Numerics
open Pressio.Model.Explicit (Scheme)

section Records
variable {K Y A : Type} [Add K]

theorem accepted_snoc (y0 : Y) (pre : List (Record K Y A)) (r : Record K Y A) : accepted y0 (pre ++ [r]) = if r.stop.isNone then r.y :: accepted y0 pre else accepted y0 pre := by
  unfold accepted
  rw [List.filter_append]
  by_cases h : r.stop.isNone = true
  · simp [h]
  · simp [h]

theorem timeAfter_snoc (t0 : K) (pre : List (Record K Y A)) (r : Record K Y A) : timeAfter t0 (pre ++ [r]) = if r.stop.isNone then timeAfter t0 pre + r.dt else timeAfter t0 pre := by
  unfold timeAfter
  rw [List.filter_append]
  by_cases h : r.stop.isNone = true
  · simp [h]
  · simp [h]

/-- what holds initially and is preserved by accepted steps holds for the accepted states at every point of the run -/
theorem accepted_induction (P : List Y → K → Prop) (y0 : Y) (t0 : K) (h0 : P [y0] t0) (rs : List (Record K Y A))
    (hstep : ∀ pre r post, rs = pre ++ r :: post → r.stop = none → P (accepted y0 pre) (timeAfter t0 pre) → P (r.y :: accepted y0 pre) (timeAfter t0 pre + r.dt)) :
    ∀ pre post, rs = pre ++ post → P (accepted y0 pre) (timeAfter t0 pre) := by
  intro pre
  induction pre using List.reverseRecOn with
  | nil => intro post _; exact h0
  | append_singleton pre r ih =>
    intro post e
    have e' : rs = pre ++ r :: post := by rw [e]; simp
    have hp := ih _ e'
    rw [accepted_snoc, timeAfter_snoc]
    by_cases h : r.stop = none
    · simp only [h, Option.isNone_none, if_true]; exact hstep pre r post e' h hp
    · have : r.stop.isNone = false := by cases hr : r.stop with | none => exact absurd hr h | some _ => rfl
      simp only [this, Bool.false_eq_true, if_false]; exact hp

end Records

section Inner
variable {E : Type} [NormedAddCommGroup E] [InnerProductSpace ℝ E]
local notation "⟪" x ", " y "⟫" => @inner ℝ _ _ x y

theorem le_of_sq_le (x a b : ℝ) (hx : 0 ≤ x) (ha : 0 ≤ a) (hb : 0 ≤ b) (h : x * x ≤ a * a + b * x) : x ≤ a + b := by
  by_contra hc
  push Not at hc
  nlinarith

theorem bdf1_energy (u v w R : E) (h : u - v - w = R) (hw : ⟪w, u⟫ ≤ 0) : ‖u‖ ≤ ‖v‖ + ‖R‖ := by
  have e : u = v + w + R := by rw [← h]; abel
  have h1 : ‖u‖ * ‖u‖ ≤ (‖v‖ + ‖R‖) * ‖u‖ := by
    calc ‖u‖ * ‖u‖ = ⟪u, u⟫ := (real_inner_self_eq_norm_mul_norm u).symm
      _ = ⟪v + w + R, u⟫ := by rw [← e]
      _ = ⟪v, u⟫ + ⟪w, u⟫ + ⟪R, u⟫ := by rw [inner_add_left, inner_add_left]
      _ ≤ ‖v‖ * ‖u‖ + 0 + ‖R‖ * ‖u‖ := add_le_add (add_le_add (real_inner_le_norm _ _) hw) (real_inner_le_norm _ _)
      _ = _ := by ring
  rcases (norm_nonneg u).eq_or_lt with h0 | h0
  · rw [← h0]; positivity
  · exact le_of_mul_le_mul_right h1 h0

/-- energy of the two latest states (`G`-norm of the BDF2 scheme) -/
noncomputable def gEnergy (u v : E) : ℝ := ‖u‖ * ‖u‖ + ‖(2:ℝ) • u - v‖ * ‖(2:ℝ) • u - v‖

theorem gEnergy_nonneg (u v : E) : 0 ≤ gEnergy u v := by unfold gEnergy; positivity
theorem norm_le_gEnergy (u v : E) : ‖u‖ ≤ Real.sqrt (gEnergy u v) := by
  refine Real.le_sqrt_of_sq_le ?_
  unfold gEnergy
  nlinarith [mul_self_nonneg ‖(2:ℝ) • u - v‖]

theorem gEnergy_start (u : E) : Real.sqrt (gEnergy u u) = Real.sqrt 2 * ‖u‖ := by
  unfold gEnergy
  have : (2:ℝ) • u - u = u := by module
  rw [this, ← two_mul, Real.sqrt_mul (by norm_num), Real.sqrt_mul_self (norm_nonneg u)]

theorem sqrt_energy_step (V1 V0 R u : ℝ) (h1 : 0 ≤ V1) (h0 : 0 ≤ V0) (hR : 0 ≤ R) (hu : u ≤ Real.sqrt V1) (h : V1 ≤ V0 + 6 * R * u) : Real.sqrt V1 ≤ Real.sqrt V0 + 6 * R := by
  refine le_of_sq_le _ _ _ (Real.sqrt_nonneg _) (Real.sqrt_nonneg _) (by positivity) ?_
  rw [Real.mul_self_sqrt h1, Real.mul_self_sqrt h0]
  have := mul_le_mul_of_nonneg_left hu (by positivity : 0 ≤ 6 * R)
  linarith

theorem bdf2_energy (u2 u1 u0 w R : E) (h : u2 - ((4:ℝ)/3) • u1 + ((1:ℝ)/3) • u0 - w = R) (hw : ⟪w, u2⟫ ≤ 0) :
    Real.sqrt (gEnergy u2 u1) ≤ Real.sqrt (gEnergy u1 u0) + 6 * ‖R‖ := by
  refine sqrt_energy_step _ _ _ ‖u2‖ (gEnergy_nonneg _ _) (gEnergy_nonneg _ _) (norm_nonneg _) (norm_le_gEnergy _ _) ?_
  have hi : ⟪u2 - ((4:ℝ)/3) • u1 + ((1:ℝ)/3) • u0, u2⟫ = ⟪w, u2⟫ + ⟪R, u2⟫ := by
    rw [← inner_add_left]; congr 1; rw [← h]; abel
  have hR : ⟪R, u2⟫ ≤ ‖R‖ * ‖u2‖ := real_inner_le_norm _ _
  have hid : gEnergy u2 u1 - gEnergy u1 u0 + ‖u2 - (2:ℝ) • u1 + u0‖ * ‖u2 - (2:ℝ) • u1 + u0‖ = 6 * ⟪u2 - ((4:ℝ)/3) • u1 + ((1:ℝ)/3) • u0, u2⟫ := by
    unfold gEnergy
    simp only [← real_inner_self_eq_norm_mul_norm, inner_add_left, inner_add_right, inner_sub_left, inner_sub_right, real_inner_smul_left, real_inner_smul_right]
    rw [real_inner_comm u1 u2, real_inner_comm u0 u2, real_inner_comm u0 u1]
    ring
  nlinarith [mul_self_nonneg ‖u2 - (2:ℝ) • u1 + u0‖]

theorem bdf2_start_energy (u1 u0 w R : E) (h : u1 - u0 - w = R) (hw : ⟪w, u1⟫ ≤ 0) :
    Real.sqrt (gEnergy u1 u0) ≤ Real.sqrt (gEnergy u0 u0) + 6 * ‖R‖ := by
  refine sqrt_energy_step _ _ _ ‖u1‖ (gEnergy_nonneg _ _) (gEnergy_nonneg _ _) (norm_nonneg _) (norm_le_gEnergy _ _) ?_
  have hi : ⟪u1 - u0, u1⟫ = ⟪w, u1⟫ + ⟪R, u1⟫ := by
    rw [← inner_add_left]; congr 1; rw [← h]; abel
  have hR : ⟪R, u1⟫ ≤ ‖R‖ * ‖u1‖ := real_inner_le_norm _ _
  have hid : gEnergy u1 u0 - gEnergy u0 u0 + ‖u1 - u0‖ * ‖u1 - u0‖ = 6 * ⟪u1 - u0, u1⟫ := by
    unfold gEnergy
    simp only [← real_inner_self_eq_norm_mul_norm, inner_sub_left, inner_sub_right, real_inner_smul_left, real_inner_smul_right]
    rw [real_inner_comm u0 u1]
    ring
  nlinarith [mul_self_nonneg ‖u1 - u0‖]

theorem cn_energy (u v w R : E) (h : u - v - w = R) (hw : ⟪w, u + v⟫ ≤ 0) : ‖u‖ ≤ ‖v‖ + ‖R‖ := by
  have h1 : ⟪u - v, u + v⟫ = ‖u‖ * ‖u‖ - ‖v‖ * ‖v‖ := by
    simp only [← real_inner_self_eq_norm_mul_norm, inner_add_right, inner_sub_left]
    rw [real_inner_comm v u]; ring
  have h2 : ⟪u - v, u + v⟫ = ⟪w, u + v⟫ + ⟪R, u + v⟫ := by rw [← inner_add_left]; congr 1; rw [← h]; abel
  have h3 : ⟪R, u + v⟫ ≤ ‖R‖ * (‖u‖ + ‖v‖) := (real_inner_le_norm _ _).trans (mul_le_mul_of_nonneg_left (norm_add_le _ _) (norm_nonneg _))
  by_contra hc
  push Not at hc
  nlinarith [norm_nonneg u, norm_nonneg v, norm_nonneg R]

end Inner

section Runs
variable {E Y J : Type} [NormedAddCommGroup E] [InnerProductSpace ℝ E] [AddCommGroup Y] [Module ℝ Y] [AddCommGroup J] [Module ℝ J] [One J]
local notation "⟪" x ", " y "⟫" => @inner ℝ _ _ x y

/-- the system computes the right-hand side `f` whenever it returns (it may throw instead) -/
def Evaluates (sys : ISystem ℝ Y J) (f : Y → ℝ → Y) : Prop := ∀ y t w g j, sys.eval y t w = .ok (g, j) → g = f y t

/-- the solver stopped at a state at which it found the residual to be at most `tol` -/
def Converged (ι : Y →ₗ[ℝ] E) (tol : ℝ) (r : Record ℝ Y (Y × Option J)) : Prop :=
  ∃ q ∈ r.queries, ∃ R j, q.x = r.y ∧ q.ans = .ok (R, j) ∧ ‖ι R‖ ≤ tol

/-- equation of the schemes: `y` is the new state at time `t + dt`, the list has the accepted states, latest first -/
noncomputable def residualOf (name : Scheme) (f : Y → ℝ → Y) (hist : List Y) (t dt : ℝ) (y : Y) : Y :=
  match name, hist with
  | .BDF1, yn :: _ => y - yn - dt • f y (t + dt)
  | .BDF2, [yn] => y - yn - dt • f y (t + dt)
  | .BDF2, yn :: ynm1 :: _ => y - ((4:ℝ)/3) • yn + ((1:ℝ)/3) • ynm1 - ((2:ℝ)/3 * dt) • f y (t + dt)
  | .CrankNicolson, yn :: _ => y - yn - (dt / 2) • (f y (t + dt) + f yn t)
  | _, _ => 0

theorem textbook_residualOf (name : Scheme) (sys : ISystem ℝ Y J) (f : Y → ℝ → Y) (hf : Evaluates sys f) (hist : List Y) (t dt : ℝ) (x : Y) (w : Bool) (R : Y) (j : Option J)
    (hname : name = .BDF1 ∨ name = .BDF2 ∨ name = .CrankNicolson) (h0 : hist ≠ [])
    (h : textbook name sys hist t dt x w = .ok (R, j)) : R = residualOf name f hist t dt x := by
  rcases hname with rfl | rfl | rfl
  · match hist, h0 with
    | yn :: l, _ =>
      simp only [textbook] at h
      rcases he : sys.eval x (t + dt) w with ⟨e, junk⟩ | ⟨g, j'⟩
      · rw [he] at h; simp at h
      · rw [he] at h; simp only [Except.ok.injEq, Prod.mk.injEq] at h
        rw [← h.1, hf _ _ _ _ _ he]; rfl
  · match hist, h0 with
    | [yn], _ =>
      simp only [textbook] at h
      rcases he : sys.eval x (t + dt) w with ⟨e, junk⟩ | ⟨g, j'⟩
      · rw [he] at h; simp at h
      · rw [he] at h; simp only [Except.ok.injEq, Prod.mk.injEq] at h
        rw [← h.1, hf _ _ _ _ _ he]; rfl
    | yn :: ynm1 :: l, _ =>
      simp only [textbook] at h
      rcases he : sys.eval x (t + dt) w with ⟨e, junk⟩ | ⟨g, j'⟩
      · rw [he] at h; simp at h
      · rw [he] at h; simp only [Except.ok.injEq, Prod.mk.injEq] at h
        rw [← h.1, hf _ _ _ _ _ he]; rfl
  · match hist, h0 with
    | yn :: l, _ =>
      simp only [textbook] at h
      rcases hn : sys.eval yn t false with ⟨e, junk⟩ | ⟨gn, jn⟩
      · rw [hn] at h; simp at h
      · rw [hn] at h
        rcases he : sys.eval x (t + dt) w with ⟨e, junk⟩ | ⟨g, j'⟩
        · rw [he] at h; simp at h
        · rw [he] at h; simp only [Except.ok.injEq, Prod.mk.injEq] at h
          rw [← h.1, hf _ _ _ _ _ he, hf _ _ _ _ _ hn]; rfl

theorem accepted_ne_nil {K A : Type} (y0 : Y) (pre : List (Record K Y A)) : accepted y0 pre ≠ [] := by unfold accepted; simp

/-- in a run, a converged step satisfies the equation of the scheme for the accepted states up to `tol` -/
theorem converged_residual (ι : Y →ₗ[ℝ] E) (tol : ℝ) (name : Scheme) (sys : ISystem ℝ Y J) (hsys : NoTSF sys) (f : Y → ℝ → Y) (hf : Evaluates sys f) (mem : SMem ℝ Y Y PMem) (hmem : Ready name mem)
    (atts : List (Attempt ℝ Y (Y × Option J))) (hon : ∀ a ∈ atts, ∀ y, Honest (a.solver y)) (t0 : ℝ) (y0 : Y) (pre post : List (Record ℝ Y (Y × Option J))) (r : Record ℝ Y (Y × Option J))
    (h : drive (stdStep name sys) atts t0 [y0] y0 mem = pre ++ r :: post) (hc : Converged ι tol r) :
    ‖ι (residualOf name f (accepted y0 pre) (timeAfter t0 pre) r.dt r.y)‖ ≤ tol := by
  obtain ⟨q, hq, R, j, hx, ha, hR⟩ := hc
  have := (C19_every_evaluation name sys hsys mem hmem atts hon t0 y0 pre post r h).2.2 q hq
  rw [ha, hx] at this
  rw [← textbook_residualOf name sys f hf _ _ _ _ _ R j (ready_name name mem hmem) (accepted_ne_nil _ _) this.symm]
  exact hR

/-- a run of an implicit stepper in which every accepted step has converged; systems and solvers may fail, in any step and any number of times -/
structure ConvergedRun (ι : Y →ₗ[ℝ] E) (tol : ℝ) (name : Scheme) (sys : ISystem ℝ Y J) (f : Y → ℝ → Y) (mem : SMem ℝ Y Y PMem) (atts : List (Attempt ℝ Y (Y × Option J))) (t0 : ℝ) (y0 : Y) : Prop where
  noTSF : NoTSF sys
  evaluates : Evaluates sys f
  ready : Ready name mem
  honest : ∀ a ∈ atts, ∀ y, Honest (a.solver y)
  converged : ∀ r ∈ drive (stdStep name sys) atts t0 [y0] y0 mem, r.stop = none → Converged ι tol r

theorem ConvergedRun.residual {ι : Y →ₗ[ℝ] E} {tol : ℝ} {name : Scheme} {sys : ISystem ℝ Y J} {f : Y → ℝ → Y} {mem : SMem ℝ Y Y PMem} {atts : List (Attempt ℝ Y (Y × Option J))} {t0 : ℝ} {y0 : Y}
    (R : ConvergedRun ι tol name sys f mem atts t0 y0) {pre post : List (Record ℝ Y (Y × Option J))} {r : Record ℝ Y (Y × Option J)}
    (h : drive (stdStep name sys) atts t0 [y0] y0 mem = pre ++ r :: post) (hr : r.stop = none) : ‖ι (residualOf name f (accepted y0 pre) (timeAfter t0 pre) r.dt r.y)‖ ≤ tol :=
  converged_residual ι tol name sys R.noTSF f R.evaluates mem R.ready atts R.honest t0 y0 pre post r h (R.converged r (by rw [h]; simp) hr)

theorem ConvergedRun.time {ι : Y →ₗ[ℝ] E} {tol : ℝ} {name : Scheme} {sys : ISystem ℝ Y J} {f : Y → ℝ → Y} {mem : SMem ℝ Y Y PMem} {atts : List (Attempt ℝ Y (Y × Option J))} {t0 : ℝ} {y0 : Y}
    (R : ConvergedRun ι tol name sys f mem atts t0 y0) {pre post : List (Record ℝ Y (Y × Option J))} {r : Record ℝ Y (Y × Option J)}
    (h : drive (stdStep name sys) atts t0 [y0] y0 mem = pre ++ r :: post) : r.t = timeAfter t0 pre :=
  (C19_every_evaluation name sys R.noTSF mem R.ready atts R.honest t0 y0 pre post r h).2.1

/-- A list of attempted steps whose accepted states satisfy the equation of the scheme for `f`, up to `tol + dt ε` in a step of size `dt`. The states may come from anywhere: from a stepper for `f` (`ConvergedRun.residuals`),
    or from a stepper for a reduced model, lifted to the space of `f`. -/
structure ResidualRun {A : Type} (ι : Y →ₗ[ℝ] E) (tol ε : ℝ) (name : Scheme) (f : Y → ℝ → Y) (rs : List (Record ℝ Y A)) (t0 : ℝ) (y0 : Y) : Prop where
  residual : ∀ {pre post r}, rs = pre ++ r :: post → r.stop = none → ‖ι (residualOf name f (accepted y0 pre) (timeAfter t0 pre) r.dt r.y)‖ ≤ tol + r.dt * ε
  time : ∀ {pre post r}, rs = pre ++ r :: post → r.t = timeAfter t0 pre
  tol_nonneg : ∀ {pre post r}, rs = pre ++ r :: post → r.stop = none → 0 ≤ tol

/-- the accepted steps have sizes in `S`, not negative, and end before `T` -/
def StepsIn {A : Type} (S : ℝ → Prop) (T : ℝ) (rs : List (Record ℝ Y A)) : Prop := ∀ r ∈ rs, r.stop = none → S r.dt ∧ 0 ≤ r.dt ∧ r.t + r.dt ≤ T

theorem growth_step (κ t0 t h A ρ tol τ a0 a1 n : ℝ) (hκ : 0 ≤ κ) (ht : t0 ≤ t) (hρ : 0 ≤ ρ) (htol : 0 ≤ tol) (hτ : 0 ≤ τ) (hh : 0 ≤ h)
    (h0 : a0 ≤ Real.exp (κ * (t - t0)) * (A + ρ * (n * tol + (t - t0) * τ))) (h1 : a1 ≤ Real.exp (κ * h) * (a0 + ρ * (tol + h * τ))) :
    a1 ≤ Real.exp (κ * (t + h - t0)) * (A + ρ * ((n + 1) * tol + (t + h - t0) * τ)) := by
  have e1 : Real.exp (κ * (t + h - t0)) = Real.exp (κ * h) * Real.exp (κ * (t - t0)) := by rw [← Real.exp_add]; congr 1; ring
  have e2 : ρ * (tol + h * τ) ≤ Real.exp (κ * (t - t0)) * (ρ * (tol + h * τ)) := le_mul_of_one_le_left (by positivity) (Real.one_le_exp (mul_nonneg hκ (by linarith)))
  rw [e1, mul_assoc]
  refine h1.trans (mul_le_mul_of_nonneg_left ?_ (Real.exp_nonneg _))
  calc a0 + ρ * (tol + h * τ) ≤ Real.exp (κ * (t - t0)) * (A + ρ * (n * tol + (t - t0) * τ)) + Real.exp (κ * (t - t0)) * (ρ * (tol + h * τ)) := add_le_add h0 e2
    _ = _ := by ring

theorem ConvergedRun.tol_nonneg {ι : Y →ₗ[ℝ] E} {tol : ℝ} {name : Scheme} {sys : ISystem ℝ Y J} {f : Y → ℝ → Y} {mem : SMem ℝ Y Y PMem} {atts : List (Attempt ℝ Y (Y × Option J))} {t0 : ℝ} {y0 : Y}
    (R : ConvergedRun ι tol name sys f mem atts t0 y0) {pre post : List (Record ℝ Y (Y × Option J))} {r : Record ℝ Y (Y × Option J)}
    (h : drive (stdStep name sys) atts t0 [y0] y0 mem = pre ++ r :: post) (hr : r.stop = none) : 0 ≤ tol := (norm_nonneg _).trans (R.residual h hr)

theorem ConvergedRun.residuals {ι : Y →ₗ[ℝ] E} {tol : ℝ} {name : Scheme} {sys : ISystem ℝ Y J} {f : Y → ℝ → Y} {mem : SMem ℝ Y Y PMem} {atts : List (Attempt ℝ Y (Y × Option J))} {t0 : ℝ} {y0 : Y}
    (R : ConvergedRun ι tol name sys f mem atts t0 y0) : ResidualRun ι tol 0 name f (drive (stdStep name sys) atts t0 [y0] y0 mem) t0 y0 :=
  ⟨fun h hr => by rw [mul_zero, add_zero]; exact R.residual h hr, fun h => R.time h, fun h hr => R.tol_nonneg h hr⟩

/-- error propagation in runs of BDF1 and CrankNicolson -/
theorem one_step_core {A : Type} (name : Scheme) (ι : Y →ₗ[ℝ] E) (tol ε : ℝ) (f : Y → ℝ → Y) (rs : List (Record ℝ Y A)) (t0 : ℝ) (y0 : Y)
    (R : ResidualRun ι tol ε name f rs t0 y0) (S : ℝ → Prop) (T : ℝ) (hS : StepsIn S T rs) (φ : ℝ → E) (κ τ : ℝ) (hκ : 0 ≤ κ) (hτ : 0 ≤ τ)
    (hineq : ∀ t h yn l y, S h → 0 ≤ h → t0 ≤ t → t + h ≤ T → ‖ι (residualOf name f (yn :: l) t h y)‖ ≤ tol + h * ε → ‖ι y - φ (t + h)‖ ≤ Real.exp (κ * h) * (‖ι yn - φ t‖ + (tol + h * τ))) :
    ∀ pre post, rs = pre ++ post → t0 ≤ timeAfter t0 pre ∧
      ∃ y l, accepted y0 pre = y :: l ∧ ‖ι y - φ (timeAfter t0 pre)‖ ≤ Real.exp (κ * (timeAfter t0 pre - t0)) * (‖ι y0 - φ t0‖ + (l.length * tol + (timeAfter t0 pre - t0) * τ)) := by
  refine accepted_induction (fun hist t => t0 ≤ t ∧ ∃ y l, hist = y :: l ∧ ‖ι y - φ t‖ ≤ Real.exp (κ * (t - t0)) * (‖ι y0 - φ t0‖ + (l.length * tol + (t - t0) * τ))) y0 t0 ⟨le_rfl, y0, [], rfl, by simp⟩ _ ?_
  rintro pre r post e hr ⟨ht, yn, l, hl, hb⟩
  have hres := R.residual e hr
  have htol := R.tol_nonneg e hr
  obtain ⟨hs, h0, hT⟩ := hS r (by rw [e]; simp) hr
  rw [R.time e] at hT
  rw [hl] at hres
  have := hineq _ _ _ _ _ hs h0 ht hT hres
  refine ⟨by linarith, r.y, yn :: l, by rw [hl], ?_⟩
  have := growth_step κ t0 _ r.dt (‖ι y0 - φ t0‖) 1 tol τ (‖ι yn - φ (timeAfter t0 pre)‖) (‖ι r.y - φ (timeAfter t0 pre + r.dt)‖) l.length hκ ht zero_le_one htol hτ h0 (by rw [one_mul]; exact hb) (by rw [one_mul]; exact this)
  simpa using this

/-- error propagation in runs of BDF2 -/
theorem bdf2_core {A : Type} (ι : Y →ₗ[ℝ] E) (tol ε : ℝ) (f : Y → ℝ → Y) (rs : List (Record ℝ Y A)) (t0 : ℝ) (y0 : Y)
    (R : ResidualRun ι tol ε .BDF2 f rs t0 y0) (S : ℝ → Prop) (T : ℝ) (hS : StepsIn S T rs) (φ : ℝ → E) (κ δ1 τ : ℝ) (hκ : 0 ≤ κ) (hδ1 : 0 ≤ δ1) (hτ : 0 ≤ τ)
    (hineq1 : ∀ h y, S h → 0 ≤ h → t0 + h ≤ T → ‖ι (residualOf .BDF2 f [y0] t0 h y)‖ ≤ tol + h * ε →
      Real.sqrt (gEnergy (ι y - φ (t0 + h)) (ι y0 - φ t0)) ≤ Real.exp (κ * h) * (Real.sqrt 2 * ‖ι y0 - φ t0‖ + 6 * (tol + δ1 + h * τ)))
    (hineq2 : ∀ t h k y1 y l y2, S h → S k → 0 ≤ h → 0 ≤ k → t0 ≤ t - k → t + h ≤ T → ‖ι (residualOf .BDF2 f (y1 :: y :: l) t h y2)‖ ≤ tol + h * ε →
      Real.sqrt (gEnergy (ι y2 - φ (t + h)) (ι y1 - φ t)) ≤ Real.exp (κ * h) * (Real.sqrt (gEnergy (ι y1 - φ t) (ι y - φ (t - k))) + 6 * (tol + h * τ))) :
    ∀ pre post, rs = pre ++ post → t0 ≤ timeAfter t0 pre ∧
      ∃ y l, accepted y0 pre = y :: l ∧ ‖ι y - φ (timeAfter t0 pre)‖ ≤ Real.exp (κ * (timeAfter t0 pre - t0)) * (Real.sqrt 2 * ‖ι y0 - φ t0‖ + 6 * δ1 + 6 * (l.length * tol + (timeAfter t0 pre - t0) * τ)) := by
  have main := accepted_induction (A := A) (fun hist t => (hist = [y0] ∧ t = t0) ∨ ∃ y1 y l k, hist = y1 :: y :: l ∧ S k ∧ 0 ≤ k ∧ t0 ≤ t - k ∧
      Real.sqrt (gEnergy (ι y1 - φ t) (ι y - φ (t - k))) ≤ Real.exp (κ * (t - t0)) * (Real.sqrt 2 * ‖ι y0 - φ t0‖ + 6 * δ1 + 6 * ((l.length + 1) * tol + (t - t0) * τ))) y0 t0 (Or.inl ⟨rfl, rfl⟩)
      rs ?_
  · intro pre post e
    rcases main pre post e with ⟨h1, h2⟩ | ⟨y1, y, l, k, h1, -, h3, h4, h5⟩
    · rw [h2]
      refine ⟨le_rfl, y0, [], h1, ?_⟩
      have h1 : (1:ℝ) ≤ Real.sqrt 2 := Real.one_le_sqrt.2 (by norm_num)
      have := mul_le_mul_of_nonneg_right h1 (norm_nonneg (ι y0 - φ t0))
      simp only [List.length_nil, Nat.cast_zero, zero_mul, sub_self, add_zero, mul_zero, Real.exp_zero, one_mul]
      linarith
    · refine ⟨by linarith, y1, y :: l, h1, ?_⟩
      refine (norm_le_gEnergy _ _).trans (h5.trans ?_)
      simp
  · intro pre r post e hr hP
    have hres := R.residual e hr
    have htol := R.tol_nonneg e hr
    obtain ⟨hs, h0, hT⟩ := hS r (by rw [e]; simp) hr
    rw [R.time e] at hT
    right
    rcases hP with ⟨hl, ht⟩ | ⟨y1, y, l, k, hl, hk, hk0, htk, hb⟩
    · rw [hl, ht] at hres
      rw [ht] at hT ⊢
      refine ⟨r.y, y0, [], r.dt, by rw [hl], hs, h0, by linarith, ?_⟩
      rw [show t0 + r.dt - r.dt = t0 by ring, show t0 + r.dt - t0 = r.dt by ring]
      refine (hineq1 r.dt r.y hs h0 hT hres).trans (mul_le_mul_of_nonneg_left ?_ (Real.exp_nonneg _))
      have h3 : 0 ≤ r.dt * τ := mul_nonneg h0 hτ
      simp only [List.length_nil, Nat.cast_zero]
      linarith
    · rw [hl] at hres
      refine ⟨r.y, y1, y :: l, r.dt, by rw [hl], hs, h0, by linarith, ?_⟩
      rw [show timeAfter t0 pre + r.dt - r.dt = timeAfter t0 pre by ring]
      have := growth_step κ t0 _ r.dt (Real.sqrt 2 * ‖ι y0 - φ t0‖ + 6 * δ1) 6 tol τ _ _ (l.length + 1) hκ (by linarith) (by norm_num) htol hτ h0 hb (hineq2 _ r.dt k y1 y l r.y hs hk h0 hk0 htk hT hres)
      simpa using this

/-! ### The inequalities of the steps -/

/-- BDF1 against any curve to which the right-hand side pulls -/
theorem bdf1_step (ι : Y →ₗ[ℝ] E) (f : Y → ℝ → Y) (t h tol d : ℝ) (hh : 0 ≤ h) (yn : Y) (l : List Y) (y : Y) (φ φ' : ℝ → E) (hres : ‖ι (residualOf .BDF1 f (yn :: l) t h y)‖ ≤ tol)
    (hmono : ⟪ι (f y (t + h)) - φ' (t + h), ι y - φ (t + h)⟫ ≤ 0) (hdef : ‖φ (t + h) - φ t - h • φ' (t + h)‖ ≤ d) : ‖ι y - φ (t + h)‖ ≤ ‖ι yn - φ t‖ + (tol + d) := by
  simp only [residualOf, map_sub, map_smul] at hres
  have key := bdf1_energy (ι y - φ (t + h)) (ι yn - φ t) (h • (ι (f y (t + h)) - φ' (t + h)))
    (ι y - ι yn - h • ι (f y (t + h)) - (φ (t + h) - φ t - h • φ' (t + h))) (by module)
    (by rw [real_inner_smul_left]; exact mul_nonpos_of_nonneg_of_nonpos hh hmono)
  have := norm_sub_le (ι y - ι yn - h • ι (f y (t + h))) (φ (t + h) - φ t - h • φ' (t + h))
  linarith

theorem cn_step (ι : Y →ₗ[ℝ] E) (f : Y → ℝ → Y) (t h tol d : ℝ) (hh : 0 ≤ h) (yn : Y) (l : List Y) (y : Y) (φ φ' : ℝ → E) (hres : ‖ι (residualOf .CrankNicolson f (yn :: l) t h y)‖ ≤ tol)
    (hmono : ⟪ι (f y (t + h)) + ι (f yn t) - (φ' (t + h) + φ' t), (ι y - φ (t + h)) + (ι yn - φ t)⟫ ≤ 0) (hdef : ‖φ (t + h) - φ t - (h / 2) • (φ' (t + h) + φ' t)‖ ≤ d) :
    ‖ι y - φ (t + h)‖ ≤ ‖ι yn - φ t‖ + (tol + d) := by
  simp only [residualOf, map_sub, map_add, map_smul] at hres
  have key := cn_energy (ι y - φ (t + h)) (ι yn - φ t) ((h / 2) • (ι (f y (t + h)) + ι (f yn t) - (φ' (t + h) + φ' t)))
    (ι y - ι yn - (h / 2) • (ι (f y (t + h)) + ι (f yn t)) - (φ (t + h) - φ t - (h / 2) • (φ' (t + h) + φ' t))) (by module)
    (by rw [real_inner_smul_left]; exact mul_nonpos_of_nonneg_of_nonpos (by positivity) hmono)
  have := norm_sub_le (ι y - ι yn - (h / 2) • (ι (f y (t + h)) + ι (f yn t))) (φ (t + h) - φ t - (h / 2) • (φ' (t + h) + φ' t))
  linarith

theorem bdf2_first_step (ι : Y →ₗ[ℝ] E) (f : Y → ℝ → Y) (t h tol d : ℝ) (hh : 0 ≤ h) (yn y : Y) (φ φ' : ℝ → E) (hres : ‖ι (residualOf .BDF2 f [yn] t h y)‖ ≤ tol)
    (hmono : ⟪ι (f y (t + h)) - φ' (t + h), ι y - φ (t + h)⟫ ≤ 0) (hdef : ‖φ (t + h) - φ t - h • φ' (t + h)‖ ≤ d) :
    Real.sqrt (gEnergy (ι y - φ (t + h)) (ι yn - φ t)) ≤ Real.sqrt 2 * ‖ι yn - φ t‖ + 6 * (tol + d) := by
  simp only [residualOf, map_sub, map_smul] at hres
  have key := bdf2_start_energy (ι y - φ (t + h)) (ι yn - φ t) (h • (ι (f y (t + h)) - φ' (t + h)))
    (ι y - ι yn - h • ι (f y (t + h)) - (φ (t + h) - φ t - h • φ' (t + h))) (by module)
    (by rw [real_inner_smul_left]; exact mul_nonpos_of_nonneg_of_nonpos hh hmono)
  have := norm_sub_le (ι y - ι yn - h • ι (f y (t + h))) (φ (t + h) - φ t - h • φ' (t + h))
  rw [gEnergy_start] at key
  linarith

theorem bdf2_step (ι : Y →ₗ[ℝ] E) (f : Y → ℝ → Y) (t h k tol d : ℝ) (hh : 0 ≤ h) (y1 y0 : Y) (l : List Y) (y : Y) (φ φ' : ℝ → E) (hres : ‖ι (residualOf .BDF2 f (y1 :: y0 :: l) t h y)‖ ≤ tol)
    (hmono : ⟪ι (f y (t + h)) - φ' (t + h), ι y - φ (t + h)⟫ ≤ 0) (hdef : ‖φ (t + h) - ((4:ℝ)/3) • φ t + ((1:ℝ)/3) • φ (t - k) - ((2:ℝ)/3 * h) • φ' (t + h)‖ ≤ d) :
    Real.sqrt (gEnergy (ι y - φ (t + h)) (ι y1 - φ t)) ≤ Real.sqrt (gEnergy (ι y1 - φ t) (ι y0 - φ (t - k))) + 6 * (tol + d) := by
  simp only [residualOf, map_sub, map_add, map_smul] at hres
  have key := bdf2_energy (ι y - φ (t + h)) (ι y1 - φ t) (ι y0 - φ (t - k)) (((2:ℝ)/3 * h) • (ι (f y (t + h)) - φ' (t + h)))
    (ι y - ((4:ℝ)/3) • ι y1 + ((1:ℝ)/3) • ι y0 - ((2:ℝ)/3 * h) • ι (f y (t + h)) - (φ (t + h) - ((4:ℝ)/3) • φ t + ((1:ℝ)/3) • φ (t - k) - ((2:ℝ)/3 * h) • φ' (t + h))) (by module)
    (by rw [real_inner_smul_left]; exact mul_nonpos_of_nonneg_of_nonpos (by positivity) hmono)
  have := norm_sub_le (ι y - ((4:ℝ)/3) • ι y1 + ((1:ℝ)/3) • ι y0 - ((2:ℝ)/3 * h) • ι (f y (t + h))) (φ (t + h) - ((4:ℝ)/3) • φ t + ((1:ℝ)/3) • φ (t - k) - ((2:ℝ)/3 * h) • φ' (t + h))
  linarith

/-! ### C75: stability -/

theorem exists_end {A : Type} (rs : List (Record ℝ Y A)) : ∃ T, ∀ r ∈ rs, r.t + r.dt ≤ T := by
  induction rs with
  | nil => exact ⟨0, by simp⟩
  | cons a l ih =>
    obtain ⟨T, hT⟩ := ih
    refine ⟨max T (a.t + a.dt), ?_⟩
    intro r hr
    rcases List.mem_cons.1 hr with rfl | hr
    · exact le_max_right _ _
    · exact (hT r hr).trans (le_max_left _ _)

theorem drive_dt (name : Scheme) (ι : Y →ₗ[ℝ] E) (tol : ℝ) (sys : ISystem ℝ Y J) (f : Y → ℝ → Y) (mem : SMem ℝ Y Y PMem) (atts : List (Attempt ℝ Y (Y × Option J))) (t0 : ℝ) (y0 : Y)
    (R : ConvergedRun ι tol name sys f mem atts t0 y0) (r) (hr : r ∈ drive (stdStep name sys) atts t0 [y0] y0 mem) : ∃ a ∈ atts, r.dt = a.dt := by
  rw [C19_run_is_ideal name sys R.noTSF mem R.ready atts R.honest] at hr
  obtain ⟨a, ha, yn, pv, -, e, -⟩ := ideal_record _ _ _ _ _ r hr
  exact ⟨a, ha, e⟩

theorem stepsIn_nonneg' {A : Type} (rs : List (Record ℝ Y A)) (hdt : ∀ r ∈ rs, 0 ≤ r.dt) : ∃ T, StepsIn (fun _ => True) T rs := by
  obtain ⟨T, hT⟩ := exists_end rs
  exact ⟨T, fun r hr _ => ⟨trivial, hdt r hr, hT r hr⟩⟩

theorem drive_nonneg (name : Scheme) (ι : Y →ₗ[ℝ] E) (tol : ℝ) (sys : ISystem ℝ Y J) (f : Y → ℝ → Y) (mem : SMem ℝ Y Y PMem) (atts : List (Attempt ℝ Y (Y × Option J))) (t0 : ℝ) (y0 : Y)
    (R : ConvergedRun ι tol name sys f mem atts t0 y0) (hdt : ∀ a ∈ atts, 0 ≤ a.dt) : ∀ r ∈ drive (stdStep name sys) atts t0 [y0] y0 mem, 0 ≤ r.dt := by
  intro r hr
  obtain ⟨a, ha, e⟩ := drive_dt name ι tol sys f mem atts t0 y0 R r hr
  rw [e]; exact hdt a ha

/-- states whose residuals are small: BDF1, dissipative right-hand side -/
theorem residuals_bdf1 {A : Type} (ι : Y →ₗ[ℝ] E) (tol ε : ℝ) (f : Y → ℝ → Y) (rs : List (Record ℝ Y A)) (t0 : ℝ) (y0 : Y) (R : ResidualRun ι tol ε .BDF1 f rs t0 y0) (hε : 0 ≤ ε) (hdt : ∀ r ∈ rs, 0 ≤ r.dt)
    (hdiss : ∀ y t, ⟪ι (f y t), ι y⟫ ≤ 0) :
    ∀ pre post, rs = pre ++ post → ∃ y l, accepted y0 pre = y :: l ∧ ‖ι y‖ ≤ ‖ι y0‖ + (l.length * tol + (timeAfter t0 pre - t0) * ε) := by
  obtain ⟨T, hS⟩ := stepsIn_nonneg' rs hdt
  intro pre post e
  have := (one_step_core .BDF1 ι tol ε f rs t0 y0 R _ T hS (fun _ => 0) 0 ε le_rfl hε (fun t h yn l y _ hh _ _ hr => by
    have := bdf1_step ι f t h (tol + h * ε) 0 hh yn l y (fun _ => 0) (fun _ => 0) hr (by simpa using hdiss y (t + h)) (by simp)
    simpa using this) pre post e).2
  simpa using this

/-- **C75, BDF1.** For a dissipative right-hand side (`⟪f(y,t), y⟫ ≤ 0`), whatever the step sizes and however many attempts failed, the norm of the latest accepted state is at most the initial one plus the tolerance
    for every step. -/
theorem C75_bdf1 (ι : Y →ₗ[ℝ] E) (tol : ℝ) (sys : ISystem ℝ Y J) (f : Y → ℝ → Y) (mem : SMem ℝ Y Y PMem) (atts : List (Attempt ℝ Y (Y × Option J))) (t0 : ℝ) (y0 : Y)
    (R : ConvergedRun ι tol .BDF1 sys f mem atts t0 y0) (hdt : ∀ a ∈ atts, 0 ≤ a.dt) (hdiss : ∀ y t, ⟪ι (f y t), ι y⟫ ≤ 0) :
    ∀ pre post, drive (stdStep .BDF1 sys) atts t0 [y0] y0 mem = pre ++ post → ∃ y l, accepted y0 pre = y :: l ∧ ‖ι y‖ ≤ ‖ι y0‖ + l.length * tol := by
  intro pre post e
  simpa using residuals_bdf1 ι tol 0 f _ t0 y0 R.residuals le_rfl (drive_nonneg .BDF1 ι tol sys f mem atts t0 y0 R hdt) hdiss pre post e

/-- **C75, BDF1, decay.** If `⟪f(y,t), y⟫ ≤ -λ ‖y‖²` every accepted step of size `dt` shrinks the norm by `1 + λ dt` (up to the tolerance), for arbitrarily large steps. -/
theorem C75_bdf1_decay (ι : Y →ₗ[ℝ] E) (tol : ℝ) (sys : ISystem ℝ Y J) (f : Y → ℝ → Y) (mem : SMem ℝ Y Y PMem) (atts : List (Attempt ℝ Y (Y × Option J))) (t0 : ℝ) (y0 : Y)
    (R : ConvergedRun ι tol .BDF1 sys f mem atts t0 y0) (hdt : ∀ a ∈ atts, 0 ≤ a.dt) (lam : ℝ) (hdiss : ∀ y t, ⟪ι (f y t), ι y⟫ ≤ -lam * (‖ι y‖ * ‖ι y‖)) :
    ∀ pre r post, drive (stdStep .BDF1 sys) atts t0 [y0] y0 mem = pre ++ r :: post → r.stop = none → ∃ yn l, accepted y0 pre = yn :: l ∧ (1 + lam * r.dt) * ‖ι r.y‖ ≤ ‖ι yn‖ + tol := by
  intro pre r post e hr
  have hres := R.residual e hr
  obtain ⟨a, ha, hda⟩ := drive_dt .BDF1 ι tol sys f mem atts t0 y0 R r (by rw [e]; simp)
  have h0 : 0 ≤ r.dt := by rw [hda]; exact hdt a ha
  obtain ⟨yn, l, hl⟩ := List.exists_cons_of_ne_nil (accepted_ne_nil y0 pre)
  refine ⟨yn, l, hl, ?_⟩
  rw [hl] at hres
  simp only [residualOf, map_sub, map_smul] at hres
  have hd := hdiss r.y (timeAfter t0 pre + r.dt)
  generalize hw : ι (f r.y (timeAfter t0 pre + r.dt)) = w at *
  generalize hR : ι r.y - ι yn - r.dt • w = Q at *
  generalize ι r.y = u at *
  have e1 : u = ι yn + r.dt • w + Q := by rw [← hR]; abel
  have h1 : (1 + lam * r.dt) * ‖u‖ * ‖u‖ ≤ (‖ι yn‖ + tol) * ‖u‖ := by
    have a1 : ‖u‖ * ‖u‖ = ⟪ι yn, u⟫ + r.dt * ⟪w, u⟫ + ⟪Q, u⟫ := by
      rw [← real_inner_self_eq_norm_mul_norm]
      conv_lhs => rw [show ⟪u, u⟫ = ⟪ι yn + r.dt • w + Q, u⟫ from by rw [← e1]]
      rw [inner_add_left, inner_add_left, real_inner_smul_left]
    have a2 := real_inner_le_norm (ι yn) u
    have a3 := (real_inner_le_norm Q u).trans (mul_le_mul_of_nonneg_right hres (norm_nonneg u))
    have a4 := mul_le_mul_of_nonneg_left hd h0
    nlinarith
  rcases (norm_nonneg u).eq_or_lt with hz | hz
  · rw [← hz]
    have := (norm_nonneg Q).trans hres
    have := norm_nonneg (ι yn)
    simp; linarith
  · exact le_of_mul_le_mul_right h1 hz

/-- states whose residuals are small: BDF2, dissipative right-hand side -/
theorem residuals_bdf2 {A : Type} (ι : Y →ₗ[ℝ] E) (tol ε : ℝ) (f : Y → ℝ → Y) (rs : List (Record ℝ Y A)) (t0 : ℝ) (y0 : Y) (R : ResidualRun ι tol ε .BDF2 f rs t0 y0) (hε : 0 ≤ ε) (hdt : ∀ r ∈ rs, 0 ≤ r.dt)
    (hdiss : ∀ y t, ⟪ι (f y t), ι y⟫ ≤ 0) :
    ∀ pre post, rs = pre ++ post → ∃ y l, accepted y0 pre = y :: l ∧ ‖ι y‖ ≤ Real.sqrt 2 * ‖ι y0‖ + 6 * (l.length * tol + (timeAfter t0 pre - t0) * ε) := by
  obtain ⟨T, hS⟩ := stepsIn_nonneg' rs hdt
  intro pre post e
  have := (bdf2_core ι tol ε f rs t0 y0 R _ T hS (fun _ => 0) 0 0 ε le_rfl le_rfl hε (fun h y _ hh _ hr => by
    have := bdf2_first_step ι f t0 h (tol + h * ε) 0 hh y0 y (fun _ => 0) (fun _ => 0) hr (by simpa using hdiss y (t0 + h)) (by simp)
    simpa using this) (fun t h k y1 y l y2 _ _ hh _ _ _ hr => by
    have := bdf2_step ι f t h k (tol + h * ε) 0 hh y1 y l y2 (fun _ => 0) (fun _ => 0) hr (by simpa using hdiss y2 (t + h)) (by simp)
    simpa using this) pre post e).2
  simpa using this

/-- **C75, BDF2.** The same bound with other constants, for constant and for changing step sizes. -/
theorem C75_bdf2 (ι : Y →ₗ[ℝ] E) (tol : ℝ) (sys : ISystem ℝ Y J) (f : Y → ℝ → Y) (mem : SMem ℝ Y Y PMem) (atts : List (Attempt ℝ Y (Y × Option J))) (t0 : ℝ) (y0 : Y)
    (R : ConvergedRun ι tol .BDF2 sys f mem atts t0 y0) (hdt : ∀ a ∈ atts, 0 ≤ a.dt) (hdiss : ∀ y t, ⟪ι (f y t), ι y⟫ ≤ 0) :
    ∀ pre post, drive (stdStep .BDF2 sys) atts t0 [y0] y0 mem = pre ++ post → ∃ y l, accepted y0 pre = y :: l ∧ ‖ι y‖ ≤ Real.sqrt 2 * ‖ι y0‖ + 6 * (l.length * tol) := by
  intro pre post e
  simpa using residuals_bdf2 ι tol 0 f _ t0 y0 R.residuals le_rfl (drive_nonneg .BDF2 ι tol sys f mem atts t0 y0 R hdt) hdiss pre post e

/-- states whose residuals are small: CrankNicolson, linear dissipative right-hand side -/
theorem residuals_crank_nicolson {B : Type} (ι : Y →ₗ[ℝ] E) (tol ε : ℝ) (A : Y →ₗ[ℝ] Y) (rs : List (Record ℝ Y B)) (t0 : ℝ) (y0 : Y) (R : ResidualRun ι tol ε .CrankNicolson (fun y _ => A y) rs t0 y0) (hε : 0 ≤ ε)
    (hdt : ∀ r ∈ rs, 0 ≤ r.dt) (hdiss : ∀ y, ⟪ι (A y), ι y⟫ ≤ 0) :
    ∀ pre post, rs = pre ++ post → ∃ y l, accepted y0 pre = y :: l ∧ ‖ι y‖ ≤ ‖ι y0‖ + (l.length * tol + (timeAfter t0 pre - t0) * ε) := by
  obtain ⟨T, hS⟩ := stepsIn_nonneg' rs hdt
  intro pre post e
  have := (one_step_core .CrankNicolson ι tol ε _ rs t0 y0 R _ T hS (fun _ => 0) 0 ε le_rfl hε (fun t h yn l y _ hh _ _ hr => by
    have := cn_step ι _ t h (tol + h * ε) 0 hh yn l y (fun _ => 0) (fun _ => 0) hr (by simpa [map_add] using hdiss (y + yn)) (by simp)
    simpa using this) pre post e).2
  simpa using this

/-- **C75, CrankNicolson.** For a linear dissipative right-hand side. -/
theorem C75_crank_nicolson (ι : Y →ₗ[ℝ] E) (tol : ℝ) (sys : ISystem ℝ Y J) (A : Y →ₗ[ℝ] Y) (mem : SMem ℝ Y Y PMem) (atts : List (Attempt ℝ Y (Y × Option J))) (t0 : ℝ) (y0 : Y)
    (R : ConvergedRun ι tol .CrankNicolson sys (fun y _ => A y) mem atts t0 y0) (hdt : ∀ a ∈ atts, 0 ≤ a.dt) (hdiss : ∀ y, ⟪ι (A y), ι y⟫ ≤ 0) :
    ∀ pre post, drive (stdStep .CrankNicolson sys) atts t0 [y0] y0 mem = pre ++ post → ∃ y l, accepted y0 pre = y :: l ∧ ‖ι y‖ ≤ ‖ι y0‖ + l.length * tol := by
  intro pre post e
  simpa using residuals_crank_nicolson ι tol 0 A _ t0 y0 R.residuals le_rfl (drive_nonneg .CrankNicolson ι tol sys _ mem atts t0 y0 R hdt) hdiss pre post e

/-- **C75, CrankNicolson, conservation.** For a linear conservative right-hand side (`⟪A y, y⟫ = 0`, as for waves and rotations) the norm of the accepted states stays the initial one, up to the tolerance for every step. -/
theorem C75_crank_nicolson_conserves (ι : Y →ₗ[ℝ] E) (tol : ℝ) (sys : ISystem ℝ Y J) (A : Y →ₗ[ℝ] Y) (mem : SMem ℝ Y Y PMem) (atts : List (Attempt ℝ Y (Y × Option J))) (t0 : ℝ) (y0 : Y)
    (R : ConvergedRun ι tol .CrankNicolson sys (fun y _ => A y) mem atts t0 y0) (hcons : ∀ y, ⟪ι (A y), ι y⟫ = 0) :
    ∀ pre post, drive (stdStep .CrankNicolson sys) atts t0 [y0] y0 mem = pre ++ post → ∃ y l, accepted y0 pre = y :: l ∧ |‖ι y‖ - ‖ι y0‖| ≤ l.length * tol := by
  refine accepted_induction (fun hist _ => ∃ y l, hist = y :: l ∧ |‖ι y‖ - ‖ι y0‖| ≤ l.length * tol) y0 t0 ⟨y0, [], rfl, by simp⟩ _ ?_
  rintro pre r post e hr ⟨yn, l, hl, hb⟩
  have hres := R.residual e hr
  rw [hl] at hres
  simp only [residualOf, map_sub, map_smul, map_add] at hres
  refine ⟨r.y, yn :: l, by rw [hl], ?_⟩
  have hz : ⟪(r.dt / 2) • (ι (A r.y) + ι (A yn)), ι r.y + ι yn⟫ = 0 := by
    have := hcons (r.y + yn)
    rw [map_add, map_add, map_add] at this
    rw [real_inner_smul_left, this, mul_zero]
  have k1 := cn_energy (ι r.y) (ι yn) _ _ rfl hz.le
  have k2 := cn_energy (ι yn) (ι r.y) (-((r.dt / 2) • (ι (A r.y) + ι (A yn)))) (-(ι r.y - ι yn - (r.dt / 2) • (ι (A r.y) + ι (A yn)))) (by abel)
    (by rw [add_comm (ι yn) (ι r.y), inner_neg_left, hz, neg_zero])
  rw [norm_neg] at k2
  have h3 := abs_le.1 hb
  simp only [List.length_cons]
  push_cast
  rw [abs_le]
  constructor <;> linarith

/-! ### C76: convergence -/

/-- `ψ` solves the differential equation on `[a, b]`, derivatives being taken in `E` -/
def SolvesIn (ι : Y →ₗ[ℝ] E) (f : Y → ℝ → Y) (ψ : ℝ → Y) (a b : ℝ) : Prop := ∀ s ∈ Set.Icc a b, HasDerivAt (fun s => ι (ψ s)) (ι (f (ψ s) s)) s

/-- its derivative is Lipschitz -/
def Smooth1In (ι : Y →ₗ[ℝ] E) (f : Y → ℝ → Y) (ψ : ℝ → Y) (M a b : ℝ) : Prop := ∀ s ∈ Set.Icc a b, ∀ u ∈ Set.Icc a b, ‖ι (f (ψ s) s) - ι (f (ψ u) u)‖ ≤ M * |s - u|

/-- it has a second derivative, bounded by `M2` and Lipschitz with constant `M3` -/
def Smooth2In (ι : Y →ₗ[ℝ] E) (f : Y → ℝ → Y) (ψ : ℝ → Y) (ψ2 : ℝ → E) (M2 M3 a b : ℝ) : Prop :=
  (∀ s ∈ Set.Icc a b, HasDerivAt (fun s => ι (f (ψ s) s)) (ψ2 s) s ∧ ‖ψ2 s‖ ≤ M2) ∧ ∀ s ∈ Set.Icc a b, ∀ u ∈ Set.Icc a b, ‖ψ2 s - ψ2 u‖ ≤ M3 * |s - u|

theorem Smooth2In.smooth1 {ι : Y →ₗ[ℝ] E} {f : Y → ℝ → Y} {ψ : ℝ → Y} {ψ2 : ℝ → E} {M2 M3 a b : ℝ} (h : Smooth2In ι f ψ ψ2 M2 M3 a b) : Smooth1In ι f ψ M2 a b := by
  have key : ∀ s ∈ Set.Icc a b, ∀ u ∈ Set.Icc a b, s ≤ u → ‖ι (f (ψ u) u) - ι (f (ψ s) s)‖ ≤ M2 * (u - s) := by
    intro s hs u hu hsu
    have := increment_le (fun s => ι (f (ψ s) s)) ψ2 s u hsu (fun x hx => (h.1 x ⟨hs.1.trans hx.1, hx.2.trans hu.2⟩).1) 0 (fun x => M2 * (x - s)) (fun _ => M2) (by simp)
      (fun x => (((hasDerivAt_id x).sub_const s).const_mul M2).congr_deriv (by simp)) (fun x hx => by rw [sub_zero]; exact (h.1 x ⟨hs.1.trans hx.1, hx.2.trans hu.2⟩).2)
    simpa using this
  intro s hs u hu
  rcases le_total s u with hsu | hsu
  · rw [norm_sub_rev, abs_sub_comm, abs_of_nonneg (by linarith)]; exact key s hs u hu hsu
  · rw [abs_of_nonneg (by linarith)]; exact key u hu s hs hsu

theorem euler_defect (ι : Y →ₗ[ℝ] E) (f : Y → ℝ → Y) (ψ : ℝ → Y) (M a b t h : ℝ) (hs : SolvesIn ι f ψ a b) (hM : Smooth1In ι f ψ M a b) (hh : 0 ≤ h) (ha : a ≤ t) (hb : t + h ≤ b) :
    ‖ι (ψ (t + h)) - ι (ψ t) - h • ι (f (ψ (t + h)) (t + h))‖ ≤ M * h ^ 2 / 2 := by
  have := taylor_right (fun s => ι (ψ s)) (fun s => ι (f (ψ s) s)) t (t + h) M (by linarith) (fun s hs' => hs s ⟨ha.trans hs'.1, hs'.2.trans hb⟩)
    (fun s hs' => by
      have := hM s ⟨ha.trans hs'.1, hs'.2.trans hb⟩ (t + h) ⟨by linarith, hb⟩
      rwa [abs_sub_comm, abs_of_nonneg (by linarith [hs'.2])] at this)
  rwa [show t + h - t = h by ring] at this

theorem cn_defect (ι : Y →ₗ[ℝ] E) (f : Y → ℝ → Y) (ψ : ℝ → Y) (ψ2 : ℝ → E) (M2 M3 a b t h : ℝ) (hs : SolvesIn ι f ψ a b) (hM : Smooth2In ι f ψ ψ2 M2 M3 a b) (hh : 0 ≤ h) (ha : a ≤ t) (hb : t + h ≤ b) :
    ‖ι (ψ (t + h)) - ι (ψ t) - (h / 2) • (ι (f (ψ (t + h)) (t + h)) + ι (f (ψ t) t))‖ ≤ 5 / 12 * M3 * h ^ 3 :=
  trapezoid (fun s => ι (ψ s)) (fun s => ι (f (ψ s) s)) ψ2 t h M3 hh (fun s hs' => hs s ⟨ha.trans hs'.1, hs'.2.trans hb⟩) (fun s hs' => (hM.1 s ⟨ha.trans hs'.1, hs'.2.trans hb⟩).1)
    (fun s hs' => by
      have := hM.2 s ⟨ha.trans hs'.1, hs'.2.trans hb⟩ t ⟨ha, by linarith⟩
      rwa [abs_of_nonneg (by linarith [hs'.1])] at this)

theorem bdf2_defect (ι : Y →ₗ[ℝ] E) (f : Y → ℝ → Y) (ψ : ℝ → Y) (ψ2 : ℝ → E) (M2 M3 a b t h : ℝ) (hs : SolvesIn ι f ψ a b) (hM : Smooth2In ι f ψ ψ2 M2 M3 a b) (hh : 0 ≤ h) (ha : a ≤ t - h) (hb : t + h ≤ b) :
    ‖ι (ψ (t + h)) - ((4:ℝ)/3) • ι (ψ t) + ((1:ℝ)/3) • ι (ψ (t - h)) - ((2:ℝ)/3 * h) • ι (f (ψ (t + h)) (t + h))‖ ≤ 2 / 3 * M3 * h ^ 3 := by
  have key : ∀ c, a ≤ c → c ≤ t + h → _ := fun c hc hc' => taylor_second_right (fun s => ι (ψ s)) (fun s => ι (f (ψ s) s)) ψ2 c (t + h) M3 hc' (fun s hs' => hs s ⟨hc.trans hs'.1, hs'.2.trans hb⟩)
    (fun s hs' => (hM.1 s ⟨hc.trans hs'.1, hs'.2.trans hb⟩).1) (fun s hs' => by
      have := hM.2 s ⟨hc.trans hs'.1, hs'.2.trans hb⟩ (t + h) ⟨by linarith, hb⟩
      rwa [abs_sub_comm, abs_of_nonneg (by linarith [hs'.2])] at this)
  have e1 := key t (by linarith) (by linarith)
  have e2 := key (t - h) ha (by linarith)
  rw [show t + h - t = h by ring] at e1
  rw [show t + h - (t - h) = 2 * h by ring] at e2
  generalize ι (ψ (t + h)) = p at *
  generalize ι (ψ t) = q at *
  generalize ι (ψ (t - h)) = r at *
  generalize ι (f (ψ (t + h)) (t + h)) = d at *
  generalize ψ2 (t + h) = d2 at *
  have e : p - ((4:ℝ)/3) • q + ((1:ℝ)/3) • r - ((2:ℝ)/3 * h) • d = ((4:ℝ)/3) • (p - q - h • d + (h ^ 2 / 2) • d2) - ((1:ℝ)/3) • (p - r - (2 * h) • d + ((2 * h) ^ 2 / 2) • d2) := by module
  rw [e]
  refine (norm_sub_le _ _).trans ?_
  rw [norm_smul, norm_smul, Real.norm_of_nonneg (by norm_num), Real.norm_of_nonneg (by norm_num)]
  nlinarith

/-- states whose residuals are small: BDF1, monotone right-hand side -/
theorem residuals_bdf1_monotone {A' : Type} (ι : Y →ₗ[ℝ] E) (tol ε : ℝ) (f : Y → ℝ → Y) (rs : List (Record ℝ Y A')) (t0 : ℝ) (y0 : Y)
    (R : ResidualRun ι tol ε .BDF1 f rs t0 y0) (hε : 0 ≤ ε) (H T : ℝ) (hS : StepsIn (fun h => h ≤ H) T rs)
    (hmono : ∀ y z t, ⟪ι (f y t) - ι (f z t), ι y - ι z⟫ ≤ 0) (ψ : ℝ → Y) (M : ℝ) (hM0 : 0 ≤ M) (hH : 0 ≤ H) (hψ : SolvesIn ι f ψ t0 T) (hM : Smooth1In ι f ψ M t0 T) :
    ∀ pre post, rs = pre ++ post → ∃ y l, accepted y0 pre = y :: l ∧
      ‖ι y - ι (ψ (timeAfter t0 pre))‖ ≤ ‖ι y0 - ι (ψ t0)‖ + (l.length * tol + (timeAfter t0 pre - t0) * (ε + M * H / 2)) := by
  intro pre post e
  have := (one_step_core .BDF1 ι tol ε f rs t0 y0 R _ T hS (fun s => ι (ψ s)) 0 (ε + M * H / 2) le_rfl (by positivity) (fun t h yn l y hh' hh ht hT hr => by
    have hd := euler_defect ι f ψ M t0 T t h hψ hM hh ht hT
    have := bdf1_step ι f t h (tol + h * ε) (M * h ^ 2 / 2) hh yn l y (fun s => ι (ψ s)) (fun s => ι (f (ψ s) s)) hr (hmono _ _ _) hd
    have h2 : M * h ^ 2 / 2 ≤ h * (M * H / 2) := by nlinarith [mul_nonneg hM0 hh, mul_nonneg (mul_nonneg hM0 hh) (sub_nonneg.2 hh')]
    simp only [zero_mul, Real.exp_zero, one_mul]
    linarith) pre post e).2
  simpa using this

/-- **C76, BDF1, monotone problems.** For a right-hand side with `⟪f(y,t) - f(z,t), y - z⟫ ≤ 0` (any stiffness) and steps at most `H`, the error at any point of the run is at most the initial error plus the tolerance for
    every step plus `(t - t0) M H / 2`. -/
theorem C76_bdf1_monotone (ι : Y →ₗ[ℝ] E) (tol : ℝ) (sys : ISystem ℝ Y J) (f : Y → ℝ → Y) (mem : SMem ℝ Y Y PMem) (atts : List (Attempt ℝ Y (Y × Option J))) (t0 : ℝ) (y0 : Y)
    (R : ConvergedRun ι tol .BDF1 sys f mem atts t0 y0) (H T : ℝ) (hS : StepsIn (fun h => h ≤ H) T (drive (stdStep .BDF1 sys) atts t0 [y0] y0 mem))
    (hmono : ∀ y z t, ⟪ι (f y t) - ι (f z t), ι y - ι z⟫ ≤ 0) (ψ : ℝ → Y) (M : ℝ) (hM0 : 0 ≤ M) (hH : 0 ≤ H) (hψ : SolvesIn ι f ψ t0 T) (hM : Smooth1In ι f ψ M t0 T) :
    ∀ pre post, drive (stdStep .BDF1 sys) atts t0 [y0] y0 mem = pre ++ post → ∃ y l, accepted y0 pre = y :: l ∧
      ‖ι y - ι (ψ (timeAfter t0 pre))‖ ≤ ‖ι y0 - ι (ψ t0)‖ + (l.length * tol + (timeAfter t0 pre - t0) * (M * H / 2)) := by
  intro pre post e
  simpa using residuals_bdf1_monotone ι tol 0 f _ t0 y0 R.residuals le_rfl H T hS hmono ψ M hM0 hH hψ hM pre post e

/-- states whose residuals are small: BDF2, monotone right-hand side, constant steps -/
theorem residuals_bdf2_monotone {A' : Type} (ι : Y →ₗ[ℝ] E) (tol ε : ℝ) (f : Y → ℝ → Y) (rs : List (Record ℝ Y A')) (t0 : ℝ) (y0 : Y)
    (R : ResidualRun ι tol ε .BDF2 f rs t0 y0) (hε : 0 ≤ ε) (η T : ℝ) (hS : StepsIn (fun h => h = η) T rs)
    (hmono : ∀ y z t, ⟪ι (f y t) - ι (f z t), ι y - ι z⟫ ≤ 0) (ψ : ℝ → Y) (ψ2 : ℝ → E) (M2 M3 : ℝ) (hM20 : 0 ≤ M2) (hM30 : 0 ≤ M3) (hψ : SolvesIn ι f ψ t0 T) (hM : Smooth2In ι f ψ ψ2 M2 M3 t0 T) :
    ∀ pre post, rs = pre ++ post → ∃ y l, accepted y0 pre = y :: l ∧
      ‖ι y - ι (ψ (timeAfter t0 pre))‖ ≤ Real.sqrt 2 * ‖ι y0 - ι (ψ t0)‖ + 3 * M2 * η ^ 2 + 6 * (l.length * tol) + (timeAfter t0 pre - t0) * (6 * ε + 4 * M3 * η ^ 2) := by
  intro pre post e
  obtain ⟨-, y, l, h1, h2⟩ := bdf2_core ι tol ε f rs t0 y0 R _ T hS (fun s => ι (ψ s)) 0 (M2 * η ^ 2 / 2) (ε + 2 / 3 * M3 * η ^ 2) le_rfl (by positivity) (by positivity) (fun h y hh' hh hT hr => by
    subst hh'
    have hd := euler_defect ι f ψ M2 t0 T t0 h hψ hM.smooth1 hh le_rfl hT
    have := bdf2_first_step ι f t0 h (tol + h * ε) _ hh y0 y (fun s => ι (ψ s)) (fun s => ι (f (ψ s) s)) hr (hmono _ _ _) hd
    have h3 : 0 ≤ h * (2 / 3 * M3 * h ^ 2) := by positivity
    simp only [zero_mul, Real.exp_zero, one_mul]
    linarith) (fun t h k y1 y l y2 hh' hk' hh _ ht hT hr => by
    subst hh'; subst hk'
    have hd := bdf2_defect ι f ψ ψ2 M2 M3 t0 T t k hψ hM hh ht hT
    have := bdf2_step ι f t k k (tol + k * ε) _ hh y1 y l y2 (fun s => ι (ψ s)) (fun s => ι (f (ψ s) s)) hr (hmono _ _ _) hd
    simp only [zero_mul, Real.exp_zero, one_mul]
    refine this.trans (le_of_eq ?_)
    ring) pre post e
  refine ⟨y, l, h1, h2.trans (le_of_eq ?_)⟩
  rw [zero_mul, Real.exp_zero, one_mul]
  ring

/-- **C76, BDF2, monotone problems, constant steps.** Second order, for any stiffness. -/
theorem C76_bdf2_monotone (ι : Y →ₗ[ℝ] E) (tol : ℝ) (sys : ISystem ℝ Y J) (f : Y → ℝ → Y) (mem : SMem ℝ Y Y PMem) (atts : List (Attempt ℝ Y (Y × Option J))) (t0 : ℝ) (y0 : Y)
    (R : ConvergedRun ι tol .BDF2 sys f mem atts t0 y0) (η T : ℝ) (hS : StepsIn (fun h => h = η) T (drive (stdStep .BDF2 sys) atts t0 [y0] y0 mem))
    (hmono : ∀ y z t, ⟪ι (f y t) - ι (f z t), ι y - ι z⟫ ≤ 0) (ψ : ℝ → Y) (ψ2 : ℝ → E) (M2 M3 : ℝ) (hM20 : 0 ≤ M2) (hM30 : 0 ≤ M3) (hψ : SolvesIn ι f ψ t0 T) (hM : Smooth2In ι f ψ ψ2 M2 M3 t0 T) :
    ∀ pre post, drive (stdStep .BDF2 sys) atts t0 [y0] y0 mem = pre ++ post → ∃ y l, accepted y0 pre = y :: l ∧
      ‖ι y - ι (ψ (timeAfter t0 pre))‖ ≤ Real.sqrt 2 * ‖ι y0 - ι (ψ t0)‖ + 3 * M2 * η ^ 2 + 6 * (l.length * tol) + (timeAfter t0 pre - t0) * (4 * M3 * η ^ 2) := by
  intro pre post e
  simpa using residuals_bdf2_monotone ι tol 0 f _ t0 y0 R.residuals le_rfl η T hS hmono ψ ψ2 M2 M3 hM20 hM30 hψ hM pre post e

/-- states whose residuals are small: CrankNicolson, linear dissipative right-hand side with source term -/
theorem residuals_crank_nicolson_linear {A' : Type} (ι : Y →ₗ[ℝ] E) (tol ε : ℝ) (A : Y →ₗ[ℝ] Y) (b : ℝ → Y) (rs : List (Record ℝ Y A')) (t0 : ℝ) (y0 : Y)
    (R : ResidualRun ι tol ε .CrankNicolson (fun y t => A y + b t) rs t0 y0) (hε : 0 ≤ ε) (H T : ℝ) (hS : StepsIn (fun h => h ≤ H) T rs)
    (hdiss : ∀ y, ⟪ι (A y), ι y⟫ ≤ 0) (ψ : ℝ → Y) (ψ2 : ℝ → E) (M2 M3 : ℝ) (hM30 : 0 ≤ M3) (hψ : SolvesIn ι (fun y t => A y + b t) ψ t0 T) (hM : Smooth2In ι (fun y t => A y + b t) ψ ψ2 M2 M3 t0 T) :
    ∀ pre post, rs = pre ++ post → ∃ y l, accepted y0 pre = y :: l ∧
      ‖ι y - ι (ψ (timeAfter t0 pre))‖ ≤ ‖ι y0 - ι (ψ t0)‖ + (l.length * tol + (timeAfter t0 pre - t0) * (ε + 5 / 12 * M3 * H ^ 2)) := by
  intro pre post e
  have := (one_step_core .CrankNicolson ι tol ε _ rs t0 y0 R _ T hS (fun s => ι (ψ s)) 0 (ε + 5 / 12 * M3 * H ^ 2) le_rfl (by positivity) (fun t h yn l y hh' hh ht hT hr => by
    have hd := cn_defect ι _ ψ ψ2 M2 M3 t0 T t h hψ hM hh ht hT
    have := cn_step ι _ t h (tol + h * ε) _ hh yn l y (fun s => ι (ψ s)) (fun s => ι (A (ψ s) + b s)) hr (by
      have := hdiss ((y - ψ (t + h)) + (yn - ψ t))
      simp only [map_add, map_sub] at this ⊢
      convert this using 2
      abel) hd
    have h2 : 5 / 12 * M3 * h ^ 3 ≤ h * (5 / 12 * M3 * H ^ 2) := by
      have : h ^ 2 ≤ H ^ 2 := pow_le_pow_left₀ hh hh' 2
      have := mul_le_mul_of_nonneg_left this (by positivity : 0 ≤ 5 / 12 * M3 * h)
      nlinarith
    simp only [zero_mul, Real.exp_zero, one_mul]
    linarith) pre post e).2
  simpa using this

/-- **C76, CrankNicolson, linear dissipative problems.** `f(y,t) = A y + b(t)` with `⟪A y, y⟫ ≤ 0`: second order with any step sizes. -/
theorem C76_crank_nicolson_linear (ι : Y →ₗ[ℝ] E) (tol : ℝ) (sys : ISystem ℝ Y J) (A : Y →ₗ[ℝ] Y) (b : ℝ → Y) (mem : SMem ℝ Y Y PMem) (atts : List (Attempt ℝ Y (Y × Option J))) (t0 : ℝ) (y0 : Y)
    (R : ConvergedRun ι tol .CrankNicolson sys (fun y t => A y + b t) mem atts t0 y0) (H T : ℝ) (hS : StepsIn (fun h => h ≤ H) T (drive (stdStep .CrankNicolson sys) atts t0 [y0] y0 mem))
    (hdiss : ∀ y, ⟪ι (A y), ι y⟫ ≤ 0) (ψ : ℝ → Y) (ψ2 : ℝ → E) (M2 M3 : ℝ) (hM30 : 0 ≤ M3) (hψ : SolvesIn ι (fun y t => A y + b t) ψ t0 T) (hM : Smooth2In ι (fun y t => A y + b t) ψ ψ2 M2 M3 t0 T) :
    ∀ pre post, drive (stdStep .CrankNicolson sys) atts t0 [y0] y0 mem = pre ++ post → ∃ y l, accepted y0 pre = y :: l ∧
      ‖ι y - ι (ψ (timeAfter t0 pre))‖ ≤ ‖ι y0 - ι (ψ t0)‖ + (l.length * tol + (timeAfter t0 pre - t0) * (5 / 12 * M3 * H ^ 2)) := by
  intro pre post e
  simpa using residuals_crank_nicolson_linear ι tol 0 A b _ t0 y0 R.residuals le_rfl H T hS hdiss ψ ψ2 M2 M3 hM30 hψ hM pre post e

/-! #### Lipschitz problems -/

theorem le_exp_of_one_sub (x a b : ℝ) (hx : 0 ≤ x) (hx2 : x ≤ 1 / 2) (hb : 0 ≤ b) (h : (1 - x) * a ≤ b) : a ≤ Real.exp (2 * x) * b := by
  have h1 : 1 + 2 * x ≤ Real.exp (2 * x) := by linarith [Real.add_one_le_exp (2 * x)]
  have h2 : 1 ≤ (1 - x) * Real.exp (2 * x) := by nlinarith
  have h3 : 0 < 1 - x := by linarith
  have h4 : (1 - x) * a ≤ (1 - x) * (Real.exp (2 * x) * b) := by
    rw [← mul_assoc]
    nlinarith
  exact le_of_mul_le_mul_left h4 h3

theorem bdf1_lip_step (ι : Y →ₗ[ℝ] E) (f : Y → ℝ → Y) (L t h tol d : ℝ) (hh : 0 ≤ h) (hL : 0 ≤ L) (hhL : h * L ≤ 1 / 2) (hlip : ∀ y z t, ‖ι (f y t) - ι (f z t)‖ ≤ L * ‖ι y - ι z‖) (yn : Y) (l : List Y) (y : Y) (ψ : ℝ → Y)
    (hres : ‖ι (residualOf .BDF1 f (yn :: l) t h y)‖ ≤ tol) (hdef : ‖ι (ψ (t + h)) - ι (ψ t) - h • ι (f (ψ (t + h)) (t + h))‖ ≤ d) :
    ‖ι y - ι (ψ (t + h))‖ ≤ Real.exp (2 * (h * L)) * (‖ι yn - ι (ψ t)‖ + (tol + d)) := by
  simp only [residualOf, map_sub, map_smul] at hres
  have h0 : 0 ≤ tol + d := add_nonneg ((norm_nonneg _).trans hres) ((norm_nonneg _).trans hdef)
  refine le_exp_of_one_sub _ _ _ (by positivity) hhL (by positivity) ?_
  have e : ι y - ι (ψ (t + h)) = (ι yn - ι (ψ t)) + (ι y - ι yn - h • ι (f y (t + h))) - (ι (ψ (t + h)) - ι (ψ t) - h • ι (f (ψ (t + h)) (t + h))) + h • (ι (f y (t + h)) - ι (f (ψ (t + h)) (t + h))) := by module
  have h1 : ‖ι y - ι (ψ (t + h))‖ ≤ ‖ι yn - ι (ψ t)‖ + tol + d + h * (L * ‖ι y - ι (ψ (t + h))‖) := by
    conv_lhs => rw [e]
    refine (norm_add_le _ _).trans (add_le_add ((norm_sub_le _ _).trans (add_le_add ((norm_add_le _ _).trans (add_le_add le_rfl hres)) hdef)) ?_)
    rw [norm_smul, Real.norm_of_nonneg hh]
    exact mul_le_mul_of_nonneg_left (hlip _ _ _) hh
  nlinarith

theorem cn_lip_step (ι : Y →ₗ[ℝ] E) (f : Y → ℝ → Y) (L t h tol d : ℝ) (hh : 0 ≤ h) (hL : 0 ≤ L) (hhL : h * L ≤ 1) (hlip : ∀ y z t, ‖ι (f y t) - ι (f z t)‖ ≤ L * ‖ι y - ι z‖) (yn : Y) (l : List Y) (y : Y) (ψ : ℝ → Y)
    (hres : ‖ι (residualOf .CrankNicolson f (yn :: l) t h y)‖ ≤ tol) (hdef : ‖ι (ψ (t + h)) - ι (ψ t) - (h / 2) • (ι (f (ψ (t + h)) (t + h)) + ι (f (ψ t) t))‖ ≤ d) :
    ‖ι y - ι (ψ (t + h))‖ ≤ Real.exp (3 / 2 * (h * L)) * (‖ι yn - ι (ψ t)‖ + (tol + d)) := by
  simp only [residualOf, map_sub, map_smul, map_add] at hres
  have h0 : 0 ≤ tol + d := add_nonneg ((norm_nonneg _).trans hres) ((norm_nonneg _).trans hdef)
  have hx : 0 ≤ h * L := by positivity
  have e : ι y - ι (ψ (t + h)) = (ι yn - ι (ψ t)) + (ι y - ι yn - (h / 2) • (ι (f y (t + h)) + ι (f yn t))) - (ι (ψ (t + h)) - ι (ψ t) - (h / 2) • (ι (f (ψ (t + h)) (t + h)) + ι (f (ψ t) t)))
      + (h / 2) • (ι (f y (t + h)) - ι (f (ψ (t + h)) (t + h))) + (h / 2) • (ι (f yn t) - ι (f (ψ t) t)) := by module
  have h1 : ‖ι y - ι (ψ (t + h))‖ ≤ ‖ι yn - ι (ψ t)‖ + tol + d + h / 2 * (L * ‖ι y - ι (ψ (t + h))‖) + h / 2 * (L * ‖ι yn - ι (ψ t)‖) := by
    conv_lhs => rw [e]
    refine (norm_add_le _ _).trans (add_le_add ((norm_add_le _ _).trans (add_le_add ((norm_sub_le _ _).trans (add_le_add ((norm_add_le _ _).trans (add_le_add le_rfl hres)) hdef)) ?_)) ?_)
    · rw [norm_smul, Real.norm_of_nonneg (by positivity)]
      exact mul_le_mul_of_nonneg_left (hlip _ _ _) (by positivity)
    · rw [norm_smul, Real.norm_of_nonneg (by positivity)]
      exact mul_le_mul_of_nonneg_left (hlip _ _ _) (by positivity)
  have h2 := le_exp_of_one_sub (h * L / 2) (‖ι y - ι (ψ (t + h))‖) ((1 + h * L / 2) * ‖ι yn - ι (ψ t)‖ + (tol + d)) (by positivity) (by linarith) (by positivity) (by nlinarith)
  refine h2.trans ?_
  have e1 : Real.exp (3 / 2 * (h * L)) = Real.exp (2 * (h * L / 2)) * Real.exp (h * L / 2) := by rw [← Real.exp_add]; congr 1; ring
  rw [e1, mul_assoc]
  refine mul_le_mul_of_nonneg_left ?_ (Real.exp_nonneg _)
  have h3 : 1 + h * L / 2 ≤ Real.exp (h * L / 2) := by linarith [Real.add_one_le_exp (h * L / 2)]
  have h4 := mul_le_mul_of_nonneg_right h3 (norm_nonneg (ι yn - ι (ψ t)))
  have h5 := le_mul_of_one_le_left h0 (Real.one_le_exp (by positivity : 0 ≤ h * L / 2))
  linarith

theorem bdf2_lip_first_step (ι : Y →ₗ[ℝ] E) (f : Y → ℝ → Y) (L t h tol d : ℝ) (hh : 0 ≤ h) (hL : 0 ≤ L) (hhL : 6 * (h * L) ≤ 1 / 2) (hlip : ∀ y z t, ‖ι (f y t) - ι (f z t)‖ ≤ L * ‖ι y - ι z‖) (yn y : Y) (ψ : ℝ → Y)
    (hres : ‖ι (residualOf .BDF2 f [yn] t h y)‖ ≤ tol) (hdef : ‖ι (ψ (t + h)) - ι (ψ t) - h • ι (f (ψ (t + h)) (t + h))‖ ≤ d) :
    Real.sqrt (gEnergy (ι y - ι (ψ (t + h))) (ι yn - ι (ψ t))) ≤ Real.exp (12 * (h * L)) * (Real.sqrt 2 * ‖ι yn - ι (ψ t)‖ + 6 * (tol + d)) := by
  simp only [residualOf, map_sub, map_smul] at hres
  have h0 : 0 ≤ tol + d := add_nonneg ((norm_nonneg _).trans hres) ((norm_nonneg _).trans hdef)
  have key := bdf2_start_energy (ι y - ι (ψ (t + h))) (ι yn - ι (ψ t)) 0 _ rfl (by simp)
  rw [gEnergy_start] at key
  have e : ι y - ι (ψ (t + h)) - (ι yn - ι (ψ t)) - 0 = (ι y - ι yn - h • ι (f y (t + h))) - (ι (ψ (t + h)) - ι (ψ t) - h • ι (f (ψ (t + h)) (t + h))) + h • (ι (f y (t + h)) - ι (f (ψ (t + h)) (t + h))) := by module
  have h1 : ‖ι y - ι (ψ (t + h)) - (ι yn - ι (ψ t)) - 0‖ ≤ tol + d + h * (L * ‖ι y - ι (ψ (t + h))‖) := by
    rw [e]
    refine (norm_add_le _ _).trans (add_le_add ((norm_sub_le _ _).trans (add_le_add hres hdef)) ?_)
    rw [norm_smul, Real.norm_of_nonneg hh]
    exact mul_le_mul_of_nonneg_left (hlip _ _ _) hh
  have h2 := norm_le_gEnergy (ι y - ι (ψ (t + h))) (ι yn - ι (ψ t))
  have h3 := mul_le_mul_of_nonneg_left h2 (mul_nonneg hh hL)
  have := le_exp_of_one_sub (6 * (h * L)) _ (Real.sqrt 2 * ‖ι yn - ι (ψ t)‖ + 6 * (tol + d)) (by positivity) hhL (by positivity)
    (show (1 - 6 * (h * L)) * Real.sqrt (gEnergy (ι y - ι (ψ (t + h))) (ι yn - ι (ψ t))) ≤ _ by linarith)
  rwa [show 2 * (6 * (h * L)) = 12 * (h * L) by ring] at this

theorem bdf2_lip_step (ι : Y →ₗ[ℝ] E) (f : Y → ℝ → Y) (L t h k tol d : ℝ) (hh : 0 ≤ h) (hL : 0 ≤ L) (hhL : 6 * (h * L) ≤ 1 / 2) (hlip : ∀ y z t, ‖ι (f y t) - ι (f z t)‖ ≤ L * ‖ι y - ι z‖) (y1 y0 : Y) (l : List Y) (y : Y) (ψ : ℝ → Y)
    (hres : ‖ι (residualOf .BDF2 f (y1 :: y0 :: l) t h y)‖ ≤ tol) (hdef : ‖ι (ψ (t + h)) - ((4:ℝ)/3) • ι (ψ t) + ((1:ℝ)/3) • ι (ψ (t - k)) - ((2:ℝ)/3 * h) • ι (f (ψ (t + h)) (t + h))‖ ≤ d) :
    Real.sqrt (gEnergy (ι y - ι (ψ (t + h))) (ι y1 - ι (ψ t))) ≤ Real.exp (12 * (h * L)) * (Real.sqrt (gEnergy (ι y1 - ι (ψ t)) (ι y0 - ι (ψ (t - k)))) + 6 * (tol + d)) := by
  simp only [residualOf, map_sub, map_smul, map_add] at hres
  have h0 : 0 ≤ tol + d := add_nonneg ((norm_nonneg _).trans hres) ((norm_nonneg _).trans hdef)
  have key := bdf2_energy (ι y - ι (ψ (t + h))) (ι y1 - ι (ψ t)) (ι y0 - ι (ψ (t - k))) 0 _ rfl (by simp)
  have e : ι y - ι (ψ (t + h)) - ((4:ℝ)/3) • (ι y1 - ι (ψ t)) + ((1:ℝ)/3) • (ι y0 - ι (ψ (t - k))) - 0 = (ι y - ((4:ℝ)/3) • ι y1 + ((1:ℝ)/3) • ι y0 - ((2:ℝ)/3 * h) • ι (f y (t + h)))
      - (ι (ψ (t + h)) - ((4:ℝ)/3) • ι (ψ t) + ((1:ℝ)/3) • ι (ψ (t - k)) - ((2:ℝ)/3 * h) • ι (f (ψ (t + h)) (t + h))) + ((2:ℝ)/3 * h) • (ι (f y (t + h)) - ι (f (ψ (t + h)) (t + h))) := by module
  have h1 : ‖ι y - ι (ψ (t + h)) - ((4:ℝ)/3) • (ι y1 - ι (ψ t)) + ((1:ℝ)/3) • (ι y0 - ι (ψ (t - k))) - 0‖ ≤ tol + d + (2:ℝ)/3 * h * (L * ‖ι y - ι (ψ (t + h))‖) := by
    rw [e]
    refine (norm_add_le _ _).trans (add_le_add ((norm_sub_le _ _).trans (add_le_add hres hdef)) ?_)
    rw [norm_smul, Real.norm_of_nonneg (by positivity)]
    exact mul_le_mul_of_nonneg_left (hlip _ _ _) (by positivity)
  have h2 := norm_le_gEnergy (ι y - ι (ψ (t + h))) (ι y1 - ι (ψ t))
  have h3 := mul_le_mul_of_nonneg_left h2 (mul_nonneg hh hL)
  have h4 : 0 ≤ h * L * Real.sqrt (gEnergy (ι y - ι (ψ (t + h))) (ι y1 - ι (ψ t))) := by positivity
  have := le_exp_of_one_sub (6 * (h * L)) _ (Real.sqrt (gEnergy (ι y1 - ι (ψ t)) (ι y0 - ι (ψ (t - k)))) + 6 * (tol + d)) (by positivity) hhL (by positivity)
    (show (1 - 6 * (h * L)) * Real.sqrt (gEnergy (ι y - ι (ψ (t + h))) (ι y1 - ι (ψ t))) ≤ _ by linarith)
  rwa [show 2 * (6 * (h * L)) = 12 * (h * L) by ring] at this

/-- states whose residuals are small: BDF1, Lipschitz right-hand side -/
theorem residuals_bdf1_lipschitz {A' : Type} (ι : Y →ₗ[ℝ] E) (tol ε : ℝ) (f : Y → ℝ → Y) (rs : List (Record ℝ Y A')) (t0 : ℝ) (y0 : Y)
    (R : ResidualRun ι tol ε .BDF1 f rs t0 y0) (hε : 0 ≤ ε) (H T : ℝ) (hS : StepsIn (fun h => h ≤ H) T rs) (L : ℝ) (hL : 0 ≤ L) (hHL : H * L ≤ 1 / 2)
    (hlip : ∀ y z t, ‖ι (f y t) - ι (f z t)‖ ≤ L * ‖ι y - ι z‖) (ψ : ℝ → Y) (M : ℝ) (hM0 : 0 ≤ M) (hH : 0 ≤ H) (hψ : SolvesIn ι f ψ t0 T) (hM : Smooth1In ι f ψ M t0 T) :
    ∀ pre post, rs = pre ++ post → ∃ y l, accepted y0 pre = y :: l ∧
      ‖ι y - ι (ψ (timeAfter t0 pre))‖ ≤ Real.exp (2 * L * (timeAfter t0 pre - t0)) * (‖ι y0 - ι (ψ t0)‖ + (l.length * tol + (timeAfter t0 pre - t0) * (ε + M * H / 2))) := by
  intro pre post e
  exact (one_step_core .BDF1 ι tol ε f rs t0 y0 R _ T hS (fun s => ι (ψ s)) (2 * L) (ε + M * H / 2) (by positivity) (by positivity) (fun t h yn l y hh' hh ht hT hr => by
    have hd := euler_defect ι f ψ M t0 T t h hψ hM hh ht hT
    have h2 : M * h ^ 2 / 2 ≤ h * (M * H / 2) := by nlinarith [mul_nonneg hM0 hh, mul_nonneg (mul_nonneg hM0 hh) (sub_nonneg.2 hh')]
    have := bdf1_lip_step ι f L t h (tol + h * ε) (h * (M * H / 2)) hh hL ((mul_le_mul_of_nonneg_right hh' hL).trans hHL) hlip yn l y ψ hr (hd.trans h2)
    rwa [show 2 * (h * L) = 2 * L * h by ring, show tol + h * ε + h * (M * H / 2) = tol + h * (ε + M * H / 2) by ring] at this) pre post e).2

/-- **C76, BDF1, Lipschitz problems.** First order, steps at most `H` with `H L ≤ 1/2`. -/
theorem C76_bdf1_lipschitz (ι : Y →ₗ[ℝ] E) (tol : ℝ) (sys : ISystem ℝ Y J) (f : Y → ℝ → Y) (mem : SMem ℝ Y Y PMem) (atts : List (Attempt ℝ Y (Y × Option J))) (t0 : ℝ) (y0 : Y)
    (R : ConvergedRun ι tol .BDF1 sys f mem atts t0 y0) (H T : ℝ) (hS : StepsIn (fun h => h ≤ H) T (drive (stdStep .BDF1 sys) atts t0 [y0] y0 mem)) (L : ℝ) (hL : 0 ≤ L) (hHL : H * L ≤ 1 / 2)
    (hlip : ∀ y z t, ‖ι (f y t) - ι (f z t)‖ ≤ L * ‖ι y - ι z‖) (ψ : ℝ → Y) (M : ℝ) (hM0 : 0 ≤ M) (hH : 0 ≤ H) (hψ : SolvesIn ι f ψ t0 T) (hM : Smooth1In ι f ψ M t0 T) :
    ∀ pre post, drive (stdStep .BDF1 sys) atts t0 [y0] y0 mem = pre ++ post → ∃ y l, accepted y0 pre = y :: l ∧
      ‖ι y - ι (ψ (timeAfter t0 pre))‖ ≤ Real.exp (2 * L * (timeAfter t0 pre - t0)) * (‖ι y0 - ι (ψ t0)‖ + (l.length * tol + (timeAfter t0 pre - t0) * (M * H / 2))) := by
  intro pre post e
  simpa using residuals_bdf1_lipschitz ι tol 0 f _ t0 y0 R.residuals le_rfl H T hS L hL hHL hlip ψ M hM0 hH hψ hM pre post e

/-- states whose residuals are small: CrankNicolson, Lipschitz right-hand side -/
theorem residuals_crank_nicolson_lipschitz {A' : Type} (ι : Y →ₗ[ℝ] E) (tol ε : ℝ) (f : Y → ℝ → Y) (rs : List (Record ℝ Y A')) (t0 : ℝ) (y0 : Y)
    (R : ResidualRun ι tol ε .CrankNicolson f rs t0 y0) (hε : 0 ≤ ε) (H T : ℝ) (hS : StepsIn (fun h => h ≤ H) T rs) (L : ℝ) (hL : 0 ≤ L) (hHL : H * L ≤ 1)
    (hlip : ∀ y z t, ‖ι (f y t) - ι (f z t)‖ ≤ L * ‖ι y - ι z‖) (ψ : ℝ → Y) (ψ2 : ℝ → E) (M2 M3 : ℝ) (hM30 : 0 ≤ M3) (hψ : SolvesIn ι f ψ t0 T) (hM : Smooth2In ι f ψ ψ2 M2 M3 t0 T) :
    ∀ pre post, rs = pre ++ post → ∃ y l, accepted y0 pre = y :: l ∧
      ‖ι y - ι (ψ (timeAfter t0 pre))‖ ≤ Real.exp (3 / 2 * L * (timeAfter t0 pre - t0)) * (‖ι y0 - ι (ψ t0)‖ + (l.length * tol + (timeAfter t0 pre - t0) * (ε + 5 / 12 * M3 * H ^ 2))) := by
  intro pre post e
  exact (one_step_core .CrankNicolson ι tol ε f rs t0 y0 R _ T hS (fun s => ι (ψ s)) (3 / 2 * L) (ε + 5 / 12 * M3 * H ^ 2) (by positivity) (by positivity) (fun t h yn l y hh' hh ht hT hr => by
    have hd := cn_defect ι f ψ ψ2 M2 M3 t0 T t h hψ hM hh ht hT
    have h2 : 5 / 12 * M3 * h ^ 3 ≤ h * (5 / 12 * M3 * H ^ 2) := by
      have : h ^ 2 ≤ H ^ 2 := pow_le_pow_left₀ hh hh' 2
      have := mul_le_mul_of_nonneg_left this (by positivity : 0 ≤ 5 / 12 * M3 * h)
      nlinarith
    have := cn_lip_step ι f L t h (tol + h * ε) (h * (5 / 12 * M3 * H ^ 2)) hh hL ((mul_le_mul_of_nonneg_right hh' hL).trans hHL) hlip yn l y ψ hr (hd.trans h2)
    rwa [show 3 / 2 * (h * L) = 3 / 2 * L * h by ring, show tol + h * ε + h * (5 / 12 * M3 * H ^ 2) = tol + h * (ε + 5 / 12 * M3 * H ^ 2) by ring] at this) pre post e).2

/-- **C76, CrankNicolson, Lipschitz problems.** Second order with any step sizes at most `H`, `H L ≤ 1`. -/
theorem C76_crank_nicolson_lipschitz (ι : Y →ₗ[ℝ] E) (tol : ℝ) (sys : ISystem ℝ Y J) (f : Y → ℝ → Y) (mem : SMem ℝ Y Y PMem) (atts : List (Attempt ℝ Y (Y × Option J))) (t0 : ℝ) (y0 : Y)
    (R : ConvergedRun ι tol .CrankNicolson sys f mem atts t0 y0) (H T : ℝ) (hS : StepsIn (fun h => h ≤ H) T (drive (stdStep .CrankNicolson sys) atts t0 [y0] y0 mem)) (L : ℝ) (hL : 0 ≤ L) (hHL : H * L ≤ 1)
    (hlip : ∀ y z t, ‖ι (f y t) - ι (f z t)‖ ≤ L * ‖ι y - ι z‖) (ψ : ℝ → Y) (ψ2 : ℝ → E) (M2 M3 : ℝ) (hM30 : 0 ≤ M3) (hψ : SolvesIn ι f ψ t0 T) (hM : Smooth2In ι f ψ ψ2 M2 M3 t0 T) :
    ∀ pre post, drive (stdStep .CrankNicolson sys) atts t0 [y0] y0 mem = pre ++ post → ∃ y l, accepted y0 pre = y :: l ∧
      ‖ι y - ι (ψ (timeAfter t0 pre))‖ ≤ Real.exp (3 / 2 * L * (timeAfter t0 pre - t0)) * (‖ι y0 - ι (ψ t0)‖ + (l.length * tol + (timeAfter t0 pre - t0) * (5 / 12 * M3 * H ^ 2))) := by
  intro pre post e
  simpa using residuals_crank_nicolson_lipschitz ι tol 0 f _ t0 y0 R.residuals le_rfl H T hS L hL hHL hlip ψ ψ2 M2 M3 hM30 hψ hM pre post e

/-- states whose residuals are small: BDF2, Lipschitz right-hand side, constant steps -/
theorem residuals_bdf2_lipschitz {A' : Type} (ι : Y →ₗ[ℝ] E) (tol ε : ℝ) (f : Y → ℝ → Y) (rs : List (Record ℝ Y A')) (t0 : ℝ) (y0 : Y)
    (R : ResidualRun ι tol ε .BDF2 f rs t0 y0) (hε : 0 ≤ ε) (η T : ℝ) (hS : StepsIn (fun h => h = η) T rs) (L : ℝ) (hL : 0 ≤ L) (hHL : 6 * (η * L) ≤ 1 / 2)
    (hlip : ∀ y z t, ‖ι (f y t) - ι (f z t)‖ ≤ L * ‖ι y - ι z‖) (ψ : ℝ → Y) (ψ2 : ℝ → E) (M2 M3 : ℝ) (hM20 : 0 ≤ M2) (hM30 : 0 ≤ M3) (hψ : SolvesIn ι f ψ t0 T) (hM : Smooth2In ι f ψ ψ2 M2 M3 t0 T) :
    ∀ pre post, rs = pre ++ post → ∃ y l, accepted y0 pre = y :: l ∧
      ‖ι y - ι (ψ (timeAfter t0 pre))‖ ≤ Real.exp (12 * L * (timeAfter t0 pre - t0)) * (Real.sqrt 2 * ‖ι y0 - ι (ψ t0)‖ + 3 * M2 * η ^ 2 + 6 * (l.length * tol) + (timeAfter t0 pre - t0) * (6 * ε + 4 * M3 * η ^ 2)) := by
  intro pre post e
  obtain ⟨-, y, l, h1, h2⟩ := bdf2_core ι tol ε f rs t0 y0 R _ T hS (fun s => ι (ψ s)) (12 * L) (M2 * η ^ 2 / 2) (ε + 2 / 3 * M3 * η ^ 2) (by positivity) (by positivity) (by positivity) (fun h y hh' hh hT hr => by
    subst hh'
    have hd := euler_defect ι f ψ M2 t0 T t0 h hψ hM.smooth1 hh le_rfl hT
    have := bdf2_lip_first_step ι f L t0 h (tol + h * ε) _ hh hL hHL hlip y0 y ψ hr hd
    have h3 : 0 ≤ h * (2 / 3 * M3 * h ^ 2) := by positivity
    rw [show 12 * (h * L) = 12 * L * h by ring] at this
    refine this.trans (mul_le_mul_of_nonneg_left ?_ (Real.exp_nonneg _))
    linarith) (fun t h k y1 y l y2 hh' hk' hh _ ht hT hr => by
    subst hh'; subst hk'
    have hd := bdf2_defect ι f ψ ψ2 M2 M3 t0 T t k hψ hM hh ht hT
    have := bdf2_lip_step ι f L t k k (tol + k * ε) _ hh hL hHL hlip y1 y l y2 ψ hr hd
    rw [show 12 * (k * L) = 12 * L * k by ring] at this
    refine this.trans (le_of_eq ?_)
    ring) pre post e
  refine ⟨y, l, h1, h2.trans (le_of_eq ?_)⟩
  ring

/-- **C76, BDF2, Lipschitz problems, constant steps.** Second order, step size `η` with `η L ≤ 1/12`. -/
theorem C76_bdf2_lipschitz (ι : Y →ₗ[ℝ] E) (tol : ℝ) (sys : ISystem ℝ Y J) (f : Y → ℝ → Y) (mem : SMem ℝ Y Y PMem) (atts : List (Attempt ℝ Y (Y × Option J))) (t0 : ℝ) (y0 : Y)
    (R : ConvergedRun ι tol .BDF2 sys f mem atts t0 y0) (η T : ℝ) (hS : StepsIn (fun h => h = η) T (drive (stdStep .BDF2 sys) atts t0 [y0] y0 mem)) (L : ℝ) (hL : 0 ≤ L) (hHL : 6 * (η * L) ≤ 1 / 2)
    (hlip : ∀ y z t, ‖ι (f y t) - ι (f z t)‖ ≤ L * ‖ι y - ι z‖) (ψ : ℝ → Y) (ψ2 : ℝ → E) (M2 M3 : ℝ) (hM20 : 0 ≤ M2) (hM30 : 0 ≤ M3) (hψ : SolvesIn ι f ψ t0 T) (hM : Smooth2In ι f ψ ψ2 M2 M3 t0 T) :
    ∀ pre post, drive (stdStep .BDF2 sys) atts t0 [y0] y0 mem = pre ++ post → ∃ y l, accepted y0 pre = y :: l ∧
      ‖ι y - ι (ψ (timeAfter t0 pre))‖ ≤ Real.exp (12 * L * (timeAfter t0 pre - t0)) * (Real.sqrt 2 * ‖ι y0 - ι (ψ t0)‖ + 3 * M2 * η ^ 2 + 6 * (l.length * tol) + (timeAfter t0 pre - t0) * (4 * M3 * η ^ 2)) := by
  intro pre post e
  simpa using residuals_bdf2_lipschitz ι tol 0 f _ t0 y0 R.residuals le_rfl η T hS L hL hHL hlip ψ ψ2 M2 M3 hM20 hM30 hψ hM pre post e

/-! #### BDF2 with changing steps -/

theorem bdf2_ref_first (ι : Y →ₗ[ℝ] E) (f : Y → ℝ → Y) (L t h tol d b : ℝ) (hh : 0 ≤ h) (hL : 0 ≤ L) (hb : 0 ≤ b) (hhL : 6 * (h * L) ≤ 1 / 2) (yn y : Y) (z1 z0 g : E)
    (hres : ‖ι (residualOf .BDF2 f [yn] t h y)‖ ≤ tol) (hg : ‖ι (f y (t + h)) - g‖ ≤ L * ‖ι y - z1‖ + b) (hdef : ‖z1 - z0 - h • g‖ ≤ d) :
    Real.sqrt (gEnergy (ι y - z1) (ι yn - z0)) ≤ Real.exp (12 * (h * L)) * (Real.sqrt 2 * ‖ι yn - z0‖ + 6 * (tol + d + h * b)) := by
  simp only [residualOf, map_sub, map_smul] at hres
  have h0 : 0 ≤ tol + d + h * b := add_nonneg (add_nonneg ((norm_nonneg _).trans hres) ((norm_nonneg _).trans hdef)) (mul_nonneg hh hb)
  have key := bdf2_start_energy (ι y - z1) (ι yn - z0) 0 _ rfl (by simp)
  rw [gEnergy_start] at key
  have e : ι y - z1 - (ι yn - z0) - 0 = (ι y - ι yn - h • ι (f y (t + h))) - (z1 - z0 - h • g) + h • (ι (f y (t + h)) - g) := by module
  have h1 : ‖ι y - z1 - (ι yn - z0) - 0‖ ≤ tol + d + h * (L * ‖ι y - z1‖ + b) := by
    rw [e]
    refine (norm_add_le _ _).trans (add_le_add ((norm_sub_le _ _).trans (add_le_add hres hdef)) ?_)
    rw [norm_smul, Real.norm_of_nonneg hh]
    exact mul_le_mul_of_nonneg_left hg hh
  have h3 := mul_le_mul_of_nonneg_left (norm_le_gEnergy (ι y - z1) (ι yn - z0)) (mul_nonneg hh hL)
  have := le_exp_of_one_sub (6 * (h * L)) _ (Real.sqrt 2 * ‖ι yn - z0‖ + 6 * (tol + d + h * b)) (by positivity) hhL (by positivity)
    (show (1 - 6 * (h * L)) * Real.sqrt (gEnergy (ι y - z1) (ι yn - z0)) ≤ _ by linarith)
  rwa [show 2 * (6 * (h * L)) = 12 * (h * L) by ring] at this

theorem bdf2_ref_step (ι : Y →ₗ[ℝ] E) (f : Y → ℝ → Y) (L t h tol d b : ℝ) (hh : 0 ≤ h) (hL : 0 ≤ L) (hb : 0 ≤ b) (hhL : 6 * (h * L) ≤ 1 / 2) (y1 y0 : Y) (l : List Y) (y : Y) (z2 z1 z0 g : E)
    (hres : ‖ι (residualOf .BDF2 f (y1 :: y0 :: l) t h y)‖ ≤ tol) (hg : ‖ι (f y (t + h)) - g‖ ≤ L * ‖ι y - z2‖ + b) (hdef : ‖z2 - ((4:ℝ)/3) • z1 + ((1:ℝ)/3) • z0 - ((2:ℝ)/3 * h) • g‖ ≤ d) :
    Real.sqrt (gEnergy (ι y - z2) (ι y1 - z1)) ≤ Real.exp (12 * (h * L)) * (Real.sqrt (gEnergy (ι y1 - z1) (ι y0 - z0)) + 6 * (tol + d + h * b)) := by
  simp only [residualOf, map_sub, map_smul, map_add] at hres
  have h0 : 0 ≤ tol + d + h * b := add_nonneg (add_nonneg ((norm_nonneg _).trans hres) ((norm_nonneg _).trans hdef)) (mul_nonneg hh hb)
  have key := bdf2_energy (ι y - z2) (ι y1 - z1) (ι y0 - z0) 0 _ rfl (by simp)
  have e : ι y - z2 - ((4:ℝ)/3) • (ι y1 - z1) + ((1:ℝ)/3) • (ι y0 - z0) - 0 = (ι y - ((4:ℝ)/3) • ι y1 + ((1:ℝ)/3) • ι y0 - ((2:ℝ)/3 * h) • ι (f y (t + h)))
      - (z2 - ((4:ℝ)/3) • z1 + ((1:ℝ)/3) • z0 - ((2:ℝ)/3 * h) • g) + ((2:ℝ)/3 * h) • (ι (f y (t + h)) - g) := by module
  have h1 : ‖ι y - z2 - ((4:ℝ)/3) • (ι y1 - z1) + ((1:ℝ)/3) • (ι y0 - z0) - 0‖ ≤ tol + d + (2:ℝ)/3 * h * (L * ‖ι y - z2‖ + b) := by
    rw [e]
    refine (norm_add_le _ _).trans (add_le_add ((norm_sub_le _ _).trans (add_le_add hres hdef)) ?_)
    rw [norm_smul, Real.norm_of_nonneg (by positivity)]
    exact mul_le_mul_of_nonneg_left hg (by positivity)
  have h3 := mul_le_mul_of_nonneg_left (norm_le_gEnergy (ι y - z2) (ι y1 - z1)) (mul_nonneg hh hL)
  have h4 : 0 ≤ h * L * Real.sqrt (gEnergy (ι y - z2) (ι y1 - z1)) := by positivity
  have h5 : 0 ≤ h * b := mul_nonneg hh hb
  have := le_exp_of_one_sub (6 * (h * L)) _ (Real.sqrt (gEnergy (ι y1 - z1) (ι y0 - z0)) + 6 * (tol + d + h * b)) (by positivity) hhL (by positivity)
    (show (1 - 6 * (h * L)) * Real.sqrt (gEnergy (ι y - z2) (ι y1 - z1)) ≤ _ by linarith)
  rwa [show 2 * (6 * (h * L)) = 12 * (h * L) by ring] at this

/-- defect of the shifted solution `φ - δ/2 φ'` in the equation of BDF2, where `δ` follows the increments that the scheme produces for `y' = 1` -/
theorem bdf2_shifted_defect (p2 p1 p0 g2 g1 g0 : E) (M H h k δ0 : ℝ) (hM : 0 ≤ M) (hh : 0 ≤ h) (hk : 0 ≤ k) (hhH : h ≤ H) (hkH : k ≤ H) (hδ : 0 ≤ δ0) (hδH : δ0 ≤ H)
    (e1 : ‖p2 - p1 - h • g2‖ ≤ M * h ^ 2 / 2) (e2 : ‖p2 - p0 - (h + k) • g2‖ ≤ M * (h + k) ^ 2 / 2) (e3 : ‖g2 - g1‖ ≤ M * h) (e4 : ‖g2 - g0‖ ≤ M * (h + k)) :
    ‖(p2 - (((δ0 / 3 + 2 * k / 3) / 3 + 2 * h / 3) / 2) • g2) - ((4:ℝ)/3) • (p1 - ((δ0 / 3 + 2 * k / 3) / 2) • g1) + ((1:ℝ)/3) • (p0 - (δ0 / 2) • g0) - ((2:ℝ)/3 * h) • g2‖ ≤ h * (11 / 6 * (M * H)) + k * (M * H / 2) := by
  have e : (p2 - (((δ0 / 3 + 2 * k / 3) / 3 + 2 * h / 3) / 2) • g2) - ((4:ℝ)/3) • (p1 - ((δ0 / 3 + 2 * k / 3) / 2) • g1) + ((1:ℝ)/3) • (p0 - (δ0 / 2) • g0) - ((2:ℝ)/3 * h) • g2 =
      ((4:ℝ)/3) • (p2 - p1 - h • g2) - ((1:ℝ)/3) • (p2 - p0 - (h + k) • g2) - ((2:ℝ)/3 * (δ0 / 3 + 2 * k / 3)) • (g2 - g1) + ((1:ℝ)/6 * δ0) • (g2 - g0) := by module
  rw [e]
  have hd1 : 0 ≤ δ0 / 3 + 2 * k / 3 := by positivity
  have hd2 : δ0 / 3 + 2 * k / 3 ≤ H := by linarith
  have hH : 0 ≤ H := hh.trans hhH
  have b1 : ‖((4:ℝ)/3) • (p2 - p1 - h • g2)‖ ≤ 4 / 3 * (M * h ^ 2 / 2) := by rw [norm_smul, Real.norm_of_nonneg (by norm_num)]; exact mul_le_mul_of_nonneg_left e1 (by norm_num)
  have b2 : ‖((1:ℝ)/3) • (p2 - p0 - (h + k) • g2)‖ ≤ 1 / 3 * (M * (h + k) ^ 2 / 2) := by rw [norm_smul, Real.norm_of_nonneg (by norm_num)]; exact mul_le_mul_of_nonneg_left e2 (by norm_num)
  have b3 : ‖((2:ℝ)/3 * (δ0 / 3 + 2 * k / 3)) • (g2 - g1)‖ ≤ 2 / 3 * H * (M * h) := by
    rw [norm_smul, Real.norm_of_nonneg (by positivity)]
    exact mul_le_mul (by linarith) e3 (norm_nonneg _) (by positivity)
  have b4 : ‖((1:ℝ)/6 * δ0) • (g2 - g0)‖ ≤ 1 / 6 * H * (M * (h + k)) := by
    rw [norm_smul, Real.norm_of_nonneg (by positivity)]
    exact mul_le_mul (by linarith) e4 (norm_nonneg _) (by positivity)
  have c1 : M * h ^ 2 ≤ M * H * h := by nlinarith [mul_nonneg (mul_nonneg hM hh) (sub_nonneg.2 hhH)]
  have c2 : M * (h + k) ^ 2 ≤ 2 * (M * H) * (h + k) := by nlinarith [mul_nonneg (mul_nonneg hM (add_nonneg hh hk)) (by linarith : 0 ≤ 2 * H - (h + k))]
  refine (norm_add_le _ _).trans ((add_le_add ((norm_sub_le _ _).trans (add_le_add ((norm_sub_le _ _).trans (add_le_add b1 b2)) b3)) b4).trans ?_)
  nlinarith

/-- states whose residuals are small: BDF2, Lipschitz right-hand side, changing steps -/
theorem residuals_bdf2_changing_steps {A' : Type} (ι : Y →ₗ[ℝ] E) (tol ε : ℝ) (f : Y → ℝ → Y) (rs : List (Record ℝ Y A')) (t0 : ℝ) (y0 : Y)
    (R : ResidualRun ι tol ε .BDF2 f rs t0 y0) (hε : 0 ≤ ε) (H T : ℝ) (hS : StepsIn (fun h => h ≤ H) T rs) (L : ℝ) (hL : 0 ≤ L) (hH : 0 ≤ H) (hHL : 6 * (H * L) ≤ 1 / 2)
    (hlip : ∀ y z t, ‖ι (f y t) - ι (f z t)‖ ≤ L * ‖ι y - ι z‖) (ψ : ℝ → Y) (B M : ℝ) (hB0 : 0 ≤ B) (hM0 : 0 ≤ M) (hψ : SolvesIn ι f ψ t0 T) (hB : ∀ s ∈ Set.Icc t0 T, ‖ι (f (ψ s) s)‖ ≤ B) (hM : Smooth1In ι f ψ M t0 T) :
    ∀ pre post, rs = pre ++ post → ∃ y l, accepted y0 pre = y :: l ∧
      ‖ι y - ι (ψ (timeAfter t0 pre))‖ ≤ Real.exp (12 * L * (timeAfter t0 pre - t0)) * (Real.sqrt 2 * (‖ι y0 - ι (ψ t0)‖ + H * B / 2) + 6 * (l.length * tol + (timeAfter t0 pre - t0) * (ε + H * (7 / 3 * M + L * B / 2)))) + H * B / 2 := by
  have main := accepted_induction (A := A') (fun hist t => (hist = [y0] ∧ t = t0) ∨ ∃ y1 y l k δ0, hist = y1 :: y :: l ∧ k ≤ H ∧ 0 ≤ k ∧ t0 ≤ t - k ∧ t ≤ T ∧ 0 ≤ δ0 ∧ δ0 ≤ H ∧
      Real.sqrt (gEnergy (ι y1 - (ι (ψ t) - ((δ0 / 3 + 2 * k / 3) / 2) • ι (f (ψ t) t))) (ι y - (ι (ψ (t - k)) - (δ0 / 2) • ι (f (ψ (t - k)) (t - k))))) ≤
        Real.exp (12 * L * (t - t0)) * (Real.sqrt 2 * (‖ι y0 - ι (ψ t0)‖ + H * B / 2) + 6 * ((l.length + 1) * tol + (t - t0) * (ε + 11 / 6 * (M * H) + L * (H * B / 2)) + (t - k - t0) * (M * H / 2)))) y0 t0 (Or.inl ⟨rfl, rfl⟩)
      rs ?_
  · intro pre post e
    rcases main pre post e with ⟨h1, h2⟩ | ⟨y1, y, l, k, δ0, h1, h2, h3, h4, h4', h5, h6, h7⟩
    · rw [h2]
      refine ⟨y0, [], h1, ?_⟩
      have h1 : (1:ℝ) ≤ Real.sqrt 2 := Real.one_le_sqrt.2 (by norm_num)
      have hHB : 0 ≤ H * B / 2 := by positivity
      have := mul_le_mul_of_nonneg_right h1 (by positivity : 0 ≤ ‖ι y0 - ι (ψ t0)‖ + H * B / 2)
      simp only [List.length_nil, Nat.cast_zero, zero_mul, sub_self, add_zero, mul_zero, Real.exp_zero, one_mul]
      linarith
    · refine ⟨y1, y :: l, h1, ?_⟩
      generalize timeAfter t0 pre = t at *
      have a1 := (norm_le_gEnergy _ _).trans h7
      have a2 : ‖((δ0 / 3 + 2 * k / 3) / 2) • ι (f (ψ t) t)‖ ≤ H * B / 2 := by
        rw [norm_smul, Real.norm_of_nonneg (by positivity)]
        have := mul_le_mul (show (δ0 / 3 + 2 * k / 3) / 2 ≤ H / 2 by linarith) (hB t ⟨by linarith, h4'⟩) (norm_nonneg _) (by positivity)
        linarith
      have a3 : ι y1 - ι (ψ t) = (ι y1 - (ι (ψ t) - ((δ0 / 3 + 2 * k / 3) / 2) • ι (f (ψ t) t))) - ((δ0 / 3 + 2 * k / 3) / 2) • ι (f (ψ t) t) := by abel
      rw [a3]
      refine (norm_sub_le _ _).trans (add_le_add (a1.trans (mul_le_mul_of_nonneg_left ?_ (Real.exp_nonneg _))) a2)
      have hMH : 0 ≤ M * H := by positivity
      have : (t - k - t0) * (M * H / 2) ≤ (t - t0) * (M * H / 2) := mul_le_mul_of_nonneg_right (by linarith) (by positivity)
      simp only [List.length_cons]
      push_cast
      linarith
  · intro pre r post e hr hP
    have hres := R.residual e hr
    have htol := R.tol_nonneg e hr
    obtain ⟨hs, h0, hT⟩ := hS r (by rw [e]; simp) hr
    rw [R.time e] at hT
    have hLB : 0 ≤ L * (H * B / 2) := by positivity
    have hMH : 0 ≤ M * H := by positivity
    have hhL : 6 * (r.dt * L) ≤ 1 / 2 := (by nlinarith [mul_le_mul_of_nonneg_right hs hL])
    -- the right-hand side at the new state, compared to that along the solution
    have hgen : ∀ s y δ, s ∈ Set.Icc t0 T → 0 ≤ δ → δ ≤ H → ‖ι (f y s) - ι (f (ψ s) s)‖ ≤ L * ‖ι y - (ι (ψ s) - (δ / 2) • ι (f (ψ s) s))‖ + L * (H * B / 2) := by
      intro s y δ hs' hδ hδH
      refine (hlip _ _ _).trans ?_
      rw [← mul_add]
      refine mul_le_mul_of_nonneg_left ?_ hL
      have a2 : ‖(δ / 2) • ι (f (ψ s) s)‖ ≤ H * B / 2 := by
        rw [norm_smul, Real.norm_of_nonneg (by positivity)]
        have := mul_le_mul (show δ / 2 ≤ H / 2 by linarith) (hB s hs') (norm_nonneg _) (by positivity)
        linarith
      have a3 : ι y - ι (ψ s) = (ι y - (ι (ψ s) - (δ / 2) • ι (f (ψ s) s))) - (δ / 2) • ι (f (ψ s) s) := by abel
      rw [a3]
      refine (norm_sub_le _ _).trans (add_le_add (le_of_eq ?_) a2)
      congr 1
    right
    rcases hP with ⟨hl, ht⟩ | ⟨y1, y, l, k, δ0, hl, hk, hk0, htk, htT, hδ, hδH, hb⟩
    · rw [hl, ht] at hres
      rw [ht] at hT ⊢
      refine ⟨r.y, y0, [], r.dt, r.dt, by rw [hl], hs, h0, by linarith, hT, h0, hs, ?_⟩
      have hd := euler_defect ι f ψ M t0 T t0 r.dt hψ hM h0 le_rfl hT
      have hg1 := hM (t0 + r.dt) ⟨by linarith, hT⟩ t0 ⟨le_rfl, by linarith⟩
      rw [show t0 + r.dt - t0 = r.dt by ring, abs_of_nonneg h0] at hg1
      have hdef : ‖(ι (ψ (t0 + r.dt)) - (r.dt / 2) • ι (f (ψ (t0 + r.dt)) (t0 + r.dt))) - (ι (ψ t0) - (r.dt / 2) • ι (f (ψ t0) t0)) - r.dt • ι (f (ψ (t0 + r.dt)) (t0 + r.dt))‖ ≤ r.dt * (M * H) := by
        have e1 : (ι (ψ (t0 + r.dt)) - (r.dt / 2) • ι (f (ψ (t0 + r.dt)) (t0 + r.dt))) - (ι (ψ t0) - (r.dt / 2) • ι (f (ψ t0) t0)) - r.dt • ι (f (ψ (t0 + r.dt)) (t0 + r.dt)) =
          (ι (ψ (t0 + r.dt)) - ι (ψ t0) - r.dt • ι (f (ψ (t0 + r.dt)) (t0 + r.dt))) - (r.dt / 2) • (ι (f (ψ (t0 + r.dt)) (t0 + r.dt)) - ι (f (ψ t0) t0)) := by module
        rw [e1]
        refine (norm_sub_le _ _).trans ?_
        rw [norm_smul, Real.norm_of_nonneg (by positivity)]
        have := mul_le_mul_of_nonneg_left hg1 (by positivity : 0 ≤ r.dt / 2)
        have c1 : M * r.dt ^ 2 ≤ M * H * r.dt := by nlinarith [mul_nonneg (mul_nonneg hM0 h0) (sub_nonneg.2 hs)]
        nlinarith
      have := bdf2_ref_first ι f L t0 r.dt (tol + r.dt * ε) _ (L * (H * B / 2)) h0 hL hLB hhL y0 r.y _ _ _ hres (hgen (t0 + r.dt) r.y r.dt ⟨by linarith, hT⟩ h0 hs) hdef
      rw [show r.dt / 3 + 2 * r.dt / 3 = r.dt by ring, show t0 + r.dt - r.dt = t0 by ring, show t0 + r.dt - t0 = r.dt by ring]
      refine this.trans ?_
      rw [show 12 * (r.dt * L) = 12 * L * r.dt by ring]
      refine mul_le_mul_of_nonneg_left ?_ (Real.exp_nonneg _)
      have a2 : ‖(r.dt / 2) • ι (f (ψ t0) t0)‖ ≤ H * B / 2 := by
        rw [norm_smul, Real.norm_of_nonneg (by positivity)]
        have := mul_le_mul (show r.dt / 2 ≤ H / 2 by linarith) (hB t0 ⟨le_rfl, by linarith⟩) (norm_nonneg _) (by positivity)
        linarith
      have a3 : ‖ι y0 - (ι (ψ t0) - (r.dt / 2) • ι (f (ψ t0) t0))‖ ≤ ‖ι y0 - ι (ψ t0)‖ + H * B / 2 := by
        rw [show ι y0 - (ι (ψ t0) - (r.dt / 2) • ι (f (ψ t0) t0)) = (ι y0 - ι (ψ t0)) + (r.dt / 2) • ι (f (ψ t0) t0) by abel]
        exact (norm_add_le _ _).trans (add_le_add le_rfl a2)
      have a4 := mul_le_mul_of_nonneg_left a3 (Real.sqrt_nonneg 2)
      have a5 : r.dt * (M * H) ≤ r.dt * (11 / 6 * (M * H)) := mul_le_mul_of_nonneg_left (by linarith) h0
      simp only [List.length_nil, Nat.cast_zero, sub_self, zero_mul, add_zero, zero_add, one_mul]
      linarith
    · rw [hl] at hres
      generalize timeAfter t0 pre = t at *
      have hnew : δ0 / 3 + 2 * k / 3 ≤ H := by linarith
      refine ⟨r.y, y1, y :: l, r.dt, δ0 / 3 + 2 * k / 3, by rw [hl], hs, h0, by linarith, hT, by positivity, hnew, ?_⟩
      have e1 := euler_defect ι f ψ M t0 T t r.dt hψ hM h0 (by linarith) hT
      have e2 := euler_defect ι f ψ M t0 T (t - k) (r.dt + k) hψ hM (by linarith) htk (by linarith)
      rw [show t - k + (r.dt + k) = t + r.dt by ring] at e2
      have e3 := hM (t + r.dt) ⟨by linarith, hT⟩ t ⟨by linarith, by linarith⟩
      rw [show t + r.dt - t = r.dt by ring, abs_of_nonneg h0] at e3
      have e4 := hM (t + r.dt) ⟨by linarith, hT⟩ (t - k) ⟨htk, by linarith⟩
      rw [show t + r.dt - (t - k) = r.dt + k by ring, abs_of_nonneg (by linarith)] at e4
      have hdef := bdf2_shifted_defect _ _ _ _ _ _ M H r.dt k δ0 hM0 h0 hk0 hs hk hδ hδH e1 e2 e3 e4
      have := bdf2_ref_step ι f L t r.dt (tol + r.dt * ε) _ (L * (H * B / 2)) h0 hL hLB hhL y1 y l r.y _ _ _ _ hres
        (hgen (t + r.dt) r.y ((δ0 / 3 + 2 * k / 3) / 3 + 2 * r.dt / 3) ⟨by linarith, hT⟩ (by positivity) (by linarith)) hdef
      rw [show t + r.dt - r.dt = t by ring]
      refine this.trans ?_
      have x1 : Real.exp (12 * L * (t + r.dt - t0)) = Real.exp (12 * (r.dt * L)) * Real.exp (12 * L * (t - t0)) := by rw [← Real.exp_add]; congr 1; ring
      rw [x1, mul_assoc]
      refine mul_le_mul_of_nonneg_left ?_ (Real.exp_nonneg _)
      have x2 : 0 ≤ tol + r.dt * ε + (r.dt * (11 / 6 * (M * H)) + k * (M * H / 2)) + r.dt * (L * (H * B / 2)) := by positivity
      have x3 : 6 * (tol + r.dt * ε + (r.dt * (11 / 6 * (M * H)) + k * (M * H / 2)) + r.dt * (L * (H * B / 2))) ≤ Real.exp (12 * L * (t - t0)) * (6 * (tol + r.dt * ε + (r.dt * (11 / 6 * (M * H)) + k * (M * H / 2)) + r.dt * (L * (H * B / 2)))) :=
        le_mul_of_one_le_left (by positivity) (Real.one_le_exp (mul_nonneg (by positivity) (by linarith)))
      refine (add_le_add hb x3).trans (le_of_eq ?_)
      rw [← mul_add]
      congr 1
      simp only [List.length_cons]
      push_cast
      ring

/-- **C76, BDF2 with changing steps.** First order (not second, see `C76_refuted_bdf2_second_order`), for any step sizes at most `H`, in any order. -/
theorem C76_bdf2_changing_steps (ι : Y →ₗ[ℝ] E) (tol : ℝ) (sys : ISystem ℝ Y J) (f : Y → ℝ → Y) (mem : SMem ℝ Y Y PMem) (atts : List (Attempt ℝ Y (Y × Option J))) (t0 : ℝ) (y0 : Y)
    (R : ConvergedRun ι tol .BDF2 sys f mem atts t0 y0) (H T : ℝ) (hS : StepsIn (fun h => h ≤ H) T (drive (stdStep .BDF2 sys) atts t0 [y0] y0 mem)) (L : ℝ) (hL : 0 ≤ L) (hH : 0 ≤ H) (hHL : 6 * (H * L) ≤ 1 / 2)
    (hlip : ∀ y z t, ‖ι (f y t) - ι (f z t)‖ ≤ L * ‖ι y - ι z‖) (ψ : ℝ → Y) (B M : ℝ) (hB0 : 0 ≤ B) (hM0 : 0 ≤ M) (hψ : SolvesIn ι f ψ t0 T) (hB : ∀ s ∈ Set.Icc t0 T, ‖ι (f (ψ s) s)‖ ≤ B) (hM : Smooth1In ι f ψ M t0 T) :
    ∀ pre post, drive (stdStep .BDF2 sys) atts t0 [y0] y0 mem = pre ++ post → ∃ y l, accepted y0 pre = y :: l ∧
      ‖ι y - ι (ψ (timeAfter t0 pre))‖ ≤ Real.exp (12 * L * (timeAfter t0 pre - t0)) * (Real.sqrt 2 * (‖ι y0 - ι (ψ t0)‖ + H * B / 2) + 6 * (l.length * tol + (timeAfter t0 pre - t0) * (H * (7 / 3 * M + L * B / 2)))) + H * B / 2 := by
  intro pre post e
  simpa using residuals_bdf2_changing_steps ι tol 0 f _ t0 y0 R.residuals le_rfl H T hS L hL hH hHL hlip ψ B M hB0 hM0 hψ hB hM pre post e

/-- **C76, refuted for BDF2 with changing steps: the order is not two.** For `y' = 1` and exactly solved steps of sizes `a, 2a, a, 2a, ...` the state after `2n` steps, at `t0 + 3 n a`, is too small by at least `a/3`, for
    all `n ≥ 1`: at every time the error is at least a sixth of the largest step. (The coefficients 4/3, 1/3, 2/3 are those for constant steps; with them not even `y' = 1` is integrated exactly.) -/
theorem C76_refuted_bdf2_second_order (sys : ISystem ℝ ℝ J) (mem : SMem ℝ ℝ ℝ PMem) (atts : List (Attempt ℝ ℝ (ℝ × Option J))) (t0 y0 a : ℝ) (ha : 0 < a)
    (R : ConvergedRun (E := ℝ) LinearMap.id 0 .BDF2 sys (fun _ _ => 1) mem atts t0 y0)
    (hsteps : ∀ pre r post, drive (stdStep .BDF2 sys) atts t0 [y0] y0 mem = pre ++ r :: post → r.stop = none → r.dt = if (accepted y0 pre).length % 2 = 1 then a else 2 * a) :
    ∀ pre post, drive (stdStep .BDF2 sys) atts t0 [y0] y0 mem = pre ++ post → ∀ n, 1 ≤ n → (accepted y0 pre).length = 2 * n + 1 →
      timeAfter t0 pre = t0 + 3 * n * a ∧ ∃ y l, accepted y0 pre = y :: l ∧ y + a / 3 ≤ y0 + (timeAfter t0 pre - t0) := by
  have main := accepted_induction (A := ℝ × Option J) (fun hist t => (hist = [y0] ∧ t = t0) ∨ ∃ y1 y l δ, hist = y1 :: y :: l ∧ δ = y1 - y ∧ y1 = y0 + (t - t0) + (a - δ) / 2 ∧
      ((∃ n : Nat, hist.length = 2 * n + 2 ∧ t = t0 + 3 * n * a + a ∧ a ≤ δ ∧ δ ≤ 5 / 4 * a) ∨ (∃ n : Nat, hist.length = 2 * n + 3 ∧ t = t0 + 3 * (n + 1) * a ∧ 5 / 3 * a ≤ δ ∧ δ ≤ 7 / 4 * a))) y0 t0 (Or.inl ⟨rfl, rfl⟩)
      (drive (stdStep .BDF2 sys) atts t0 [y0] y0 mem) ?_
  · intro pre post e n hn hlen
    rcases main pre post e with ⟨h1, -⟩ | ⟨y1, y, l, δ, h1, -, h3, ⟨m, hm, -⟩ | ⟨m, hm, ht, hδ, -⟩⟩
    · rw [h1] at hlen; simp at hlen; omega
    · omega
    · have : n = m + 1 := by omega
      subst this
      refine ⟨by rw [ht]; push_cast; ring, y1, y :: l, h1, ?_⟩
      rw [h3]; linarith
  · intro pre r post e hr hP
    have hres := R.residual e hr
    have hdt := hsteps pre r post e hr
    right
    rcases hP with ⟨hl, ht⟩ | ⟨y1, y, l, δ, hl, hδ, hy1, hc⟩
    · rw [hl] at hdt hres
      simp only [residualOf, LinearMap.id_coe, id_eq, smul_eq_mul, mul_one, norm_le_zero_iff] at hres
      simp only [List.length_singleton, Nat.mod_succ, if_true] at hdt
      refine ⟨r.y, y0, [], a, by rw [hl], by linarith, by rw [ht]; linarith, Or.inl ⟨0, by simp [hl], by rw [ht, hdt]; simp, le_rfl, by linarith⟩⟩
    · rw [hl] at hdt hres hc ⊢
      simp only [residualOf, LinearMap.id_coe, id_eq, smul_eq_mul, mul_one, norm_le_zero_iff] at hres
      have hry : r.y = y1 + δ / 3 + 2 / 3 * r.dt := by rw [hδ]; linarith
      refine ⟨r.y, y1, y :: l, δ / 3 + 2 / 3 * r.dt, rfl, by rw [hry]; ring, by rw [hry, hy1]; ring, ?_⟩
      rcases hc with ⟨n, hn, ht, hd1, hd2⟩ | ⟨n, hn, ht, hd1, hd2⟩
      · right
        rw [if_neg (by omega)] at hdt
        refine ⟨n, by simp only [List.length_cons] at hn ⊢; omega, by rw [ht, hdt]; ring, by rw [hdt]; linarith, by rw [hdt]; linarith⟩
      · left
        rw [if_pos (by omega)] at hdt
        refine ⟨n + 1, by simp only [List.length_cons] at hn ⊢; omega, by rw [ht, hdt]; push_cast; ring, by rw [hdt]; linarith, by rw [hdt]; linarith⟩

/-! ### Solvers that check the residual -/

/-- A solver that returns a state only if it has evaluated the residual there and found it to be at most `tol`; otherwise it may do anything. `P`: the states that have been found acceptable so far. -/
def Checks (ι : Y →ₗ[ℝ] E) (tol : ℝ) : (Y → Prop) → SolveTree Y (Y × Option J) → Prop
  | P, .ret y => P y
  | _, .stop _ _ => True
  | P, .ask x _ k => ∀ a, Checks ι tol (fun y => P y ∨ (y = x ∧ ∃ R j, a = .ok (R, j) ∧ ‖ι R‖ ≤ tol)) (k a)

theorem checks_converged (ι : Y →ₗ[ℝ] E) (tol : ℝ) (F : Y → Bool → Except Exc (Y × Option J)) (tree : SolveTree Y (Y × Option J)) :
    ∀ P : Y → Prop, Checks ι tol P tree → (outcome F tree).stop = none →
      P (outcome F tree).y ∨ ∃ q ∈ (outcome F tree).queries, ∃ R j, q.x = (outcome F tree).y ∧ q.ans = .ok (R, j) ∧ ‖ι R‖ ≤ tol := by
  induction tree with
  | ret y => intro P h _; exact Or.inl h
  | stop s y => intro P _ h; simp [outcome] at h
  | ask x w k ih =>
    intro P h hs
    have := ih (F x w) _ (h (F x w)) hs
    rcases this with (h1 | ⟨h1, R, j, h2, h3⟩) | ⟨q, hq, h1⟩
    · exact Or.inl h1
    · exact Or.inr ⟨⟨x, w, F x w⟩, by simp [outcome], R, j, h1.symm, h2, h3⟩
    · exact Or.inr ⟨q, by simp [outcome, hq], h1⟩

/-- runs with checking solvers are runs in which every accepted step has converged -/
theorem checked_run (ι : Y →ₗ[ℝ] E) (tol : ℝ) (name : Scheme) (sys : ISystem ℝ Y J) (hsys : NoTSF sys) (f : Y → ℝ → Y) (hf : Evaluates sys f) (mem : SMem ℝ Y Y PMem) (hmem : Ready name mem)
    (atts : List (Attempt ℝ Y (Y × Option J))) (hon : ∀ a ∈ atts, ∀ y, Honest (a.solver y)) (hch : ∀ a ∈ atts, ∀ y, Checks ι tol (fun _ => False) (a.solver y)) (t0 : ℝ) (y0 : Y) :
    ConvergedRun ι tol name sys f mem atts t0 y0 := by
  refine ⟨hsys, hf, hmem, hon, ?_⟩
  intro r hr hs
  rw [C19_run_is_ideal name sys hsys mem hmem atts hon] at hr
  obtain ⟨a, ha, yn, pv, e1, e2, e3, e4, e5⟩ := ideal_record _ _ _ _ _ r hr
  have hst : (outcome (textbook name sys r.hist r.t r.dt) (a.solver yn)).stop = none := by
    rw [e4] at hs
    split at hs
    · simp at hs
    · exact hs
  rw [hst] at e5
  rcases checks_converged ι tol (textbook name sys r.hist r.t r.dt) (a.solver yn) _ (hch a ha yn) hst with h | h
  · exact h.elim
  · unfold Converged
    rw [e3, e5]
    exact h

end Runs

/-! ### Runs that meet the hypotheses -/
section Examples
local notation "⟪" x ", " y "⟫" => @inner ℝ _ _ x y

/-- one Newton step for a scalar problem, with a check of the residual -/
noncomputable def checkedNewton (tol : ℝ) : ℝ → SolveTree ℝ (ℝ × Option ℝ) := fun y =>
  .ask y true (fun a => match a with
    | .ok (r, some j) => .ask (y - r / j) false (fun b => match b with
      | .ok (r', _) => if |r'| ≤ tol then .ret (y - r / j) else .stop (.exc .nonlinearSolveFailure) y
      | .error e => .stop (.exc e) y)
    | .ok (_, none) => .stop (.exc .outOfRange) y
    | .error e => .stop (.exc e) y)

theorem checkedNewton_honest (tol y : ℝ) : Honest (checkedNewton tol y) := by
  intro a ha
  rcases a with e | ⟨r, _ | j⟩
  · have := ha e rfl; simpa [Honest] using this
  · simp [Honest]
  · intro b hb
    rcases b with e | ⟨r', j'⟩
    · have := hb e rfl; simpa [Honest] using this
    · simp only; split_ifs <;> simp [Honest]

theorem checkedNewton_checks (tol y : ℝ) : Checks (E := ℝ) LinearMap.id tol (fun _ => False) (checkedNewton tol y) := by
  intro a
  rcases a with e | ⟨r, _ | j⟩
  · simp [Checks]
  · simp [Checks]
  · intro b
    rcases b with e | ⟨r', j'⟩
    · simp [Checks]
    · simp only
      split_ifs with h
      · exact Or.inr ⟨rfl, r', j', rfl, h⟩
      · simp [Checks]

/-- a scalar linear problem `y' = c y + d` with Jacobian `c` -/
def scalarSys (c d : ℝ) : ISystem ℝ ℝ ℝ := ⟨fun y _ w => .ok (c * y + d, if w then some c else none)⟩

theorem scalarSys_noTSF (c d : ℝ) : NoTSF (scalarSys c d) := by intro y t w e junk h; simp [scalarSys] at h
theorem scalarSys_evaluates (c d : ℝ) : Evaluates (scalarSys c d) (fun y _ => c * y + d) := by
  intro y t w g j h; simp only [scalarSys, Except.ok.injEq, Prod.mk.injEq] at h; exact h.1.symm

/-- a solver that fails -/
noncomputable def givesUp : ℝ → SolveTree ℝ (ℝ × Option ℝ) := fun y => .ask (y + 7) false (fun _ => .stop (.exc .nonlinearSolveFailure) (y + 100))

/-- runs with these solvers are converged runs, whatever the steps and failures -/
theorem scalar_run (name : Scheme) (c d tol : ℝ) (mem : SMem ℝ ℝ ℝ PMem) (hmem : Ready name mem) (steps : List (ℝ × Bool)) (t0 y0 : ℝ) :
    ConvergedRun (E := ℝ) LinearMap.id tol name (scalarSys c d) (fun y _ => c * y + d) mem (steps.map (fun s => ⟨s.1, if s.2 then checkedNewton tol else givesUp⟩)) t0 y0 := by
  refine checked_run _ _ _ _ (scalarSys_noTSF c d) _ (scalarSys_evaluates c d) _ hmem _ ?_ ?_ _ _
  · intro a ha y
    obtain ⟨⟨h, b⟩, -, rfl⟩ := List.mem_map.1 ha
    cases b
    · intro x _; simp [Honest]
    · exact checkedNewton_honest tol y
  · intro a ha y
    obtain ⟨⟨h, b⟩, -, rfl⟩ := List.mem_map.1 ha
    cases b
    · intro x; simp [Checks]
    · exact checkedNewton_checks tol y

def newBDF1R : SMem ℝ ℝ ℝ PMem := ⟨0, 0, 0, 0, [0], [], freshPMem⟩
def newBDF2R : SMem ℝ ℝ ℝ PMem := ⟨0, 0, 0, 0, [0, 0], [], freshPMem⟩
def newCNR : SMem ℝ ℝ ℝ PMem := ⟨0, 0, 0, 0, [0], [0, 0], freshPMem⟩

/-- `y' = -y` from 1 with BDF1: a step of size 1, a failed attempt, a step of size 1/2 -/
example : (drive (stdStep .BDF1 (scalarSys (-1) 0)) [⟨1, checkedNewton 0⟩, ⟨5, givesUp⟩, ⟨1/2, checkedNewton 0⟩] 0 [1] 1 newBDF1R).map (fun r => (r.dt, r.stop, r.y)) =
    [(1, none, 1/2), (5, some (.exc .timeStepFailure), 1/2), (1/2, none, 1/3)] := by
  have := (scalar_run .BDF1 (-1) 0 0 newBDF1R rfl [(1, true), (5, false), (1/2, true)] 0 1)
  have e := C19_run_is_ideal .BDF1 _ this.noTSF newBDF1R this.ready _ this.honest 0 1
  simp only [List.map_cons, List.map_nil, if_true, Bool.false_eq_true, if_false] at e
  rw [e]
  norm_num [ideal, outcome, checkedNewton, givesUp, textbook, scalarSys, bdf1Res, bdf1Jac]

/-- C75 on that problem, for all step sizes and failures -/
example (steps : List (ℝ × Bool)) (h : ∀ s ∈ steps, 0 ≤ s.1) := C75_bdf1 LinearMap.id (1/100) _ _ _ _ 0 1 (scalar_run .BDF1 (-1) 0 (1/100) newBDF1R rfl steps 0 1)
  (by intro a ha; obtain ⟨s, hs, rfl⟩ := List.mem_map.1 ha; exact h s hs) (by intro y t; simp; nlinarith [mul_self_nonneg y])

example (steps : List (ℝ × Bool)) (h : ∀ s ∈ steps, 0 ≤ s.1) := C75_bdf1_decay LinearMap.id (1/100) _ _ _ _ 0 1 (scalar_run .BDF1 (-3) 0 (1/100) newBDF1R rfl steps 0 1)
  (by intro a ha; obtain ⟨s, hs, rfl⟩ := List.mem_map.1 ha; exact h s hs) 3 (by intro y t; simp; nlinarith [mul_self_nonneg y])

example (steps : List (ℝ × Bool)) (h : ∀ s ∈ steps, 0 ≤ s.1) := C75_bdf2 LinearMap.id (1/100) _ _ _ _ 0 1 (scalar_run .BDF2 (-1) 0 (1/100) newBDF2R rfl steps 0 1)
  (by intro a ha; obtain ⟨s, hs, rfl⟩ := List.mem_map.1 ha; exact h s hs) (by intro y t; simp; nlinarith [mul_self_nonneg y])

example (steps : List (ℝ × Bool)) (h : ∀ s ∈ steps, 0 ≤ s.1) := C75_crank_nicolson (E := ℝ) LinearMap.id (1/100) _ ((-1 : ℝ) • (LinearMap.id : ℝ →ₗ[ℝ] ℝ)) _ _ 0 (1 : ℝ)
  (by simpa using scalar_run .CrankNicolson (-1) 0 (1/100) newCNR ⟨rfl, rfl, by decide⟩ steps 0 1)
  (by intro a ha; obtain ⟨s, hs, rfl⟩ := List.mem_map.1 ha; exact h s hs) (by intro y; simp; nlinarith [mul_self_nonneg y])

/-- the conservative case needs two dimensions: the rotation `(x, y)' = (-y, x)` in the Euclidean plane -/
def planeToC : (ℝ × ℝ) →ₗ[ℝ] ℂ where
  toFun p := ⟨p.1, p.2⟩
  map_add' _ _ := rfl
  map_smul' c p := by apply Complex.ext <;> simp

def rotation : (ℝ × ℝ) →ₗ[ℝ] (ℝ × ℝ) where
  toFun p := (-p.2, p.1)
  map_add' p q := by ext <;> simp; ring
  map_smul' c p := by ext <;> simp

theorem rotation_conserves : ∀ y, ⟪planeToC (rotation y), planeToC y⟫ = 0 := by
  intro y; simp [planeToC, rotation, Complex.inner]; ring

/-- the hypotheses of C76 on `y' = -y + 1` with solution `1 - exp(-t)` -/
theorem decay1_solves (a b : ℝ) : SolvesIn (E := ℝ) LinearMap.id (fun y _ => -1 * y + 1) (fun t => 1 - Real.exp (-t)) a b := by
  intro s _
  have h1 : HasDerivAt (fun t : ℝ => Real.exp (-t)) (-Real.exp (-s)) s := by
    have := (hasDerivAt_neg s).exp
    exact this.congr_deriv (by ring)
  have := h1.const_sub 1
  simp only [LinearMap.id_coe, id_eq]
  exact this.congr_deriv (by ring)

theorem decay1_smooth (T : ℝ) : Smooth2In (E := ℝ) LinearMap.id (fun y _ => -1 * y + 1) (fun t => 1 - Real.exp (-t)) (fun t => -Real.exp (-t)) 1 1 0 T := by
  have hd : ∀ s : ℝ, HasDerivAt (fun t : ℝ => Real.exp (-t)) (-Real.exp (-s)) s := fun s => by
    have := (hasDerivAt_neg s).exp
    exact this.congr_deriv (by ring)
  have hle : ∀ s ∈ Set.Icc (0:ℝ) T, |Real.exp (-s)| ≤ 1 := by
    intro s hs; rw [abs_of_pos (Real.exp_pos _)]; exact Real.exp_le_one_iff.2 (by linarith [hs.1])
  refine ⟨fun s hs => ⟨?_, ?_⟩, ?_⟩
  · have e : (fun s : ℝ => (LinearMap.id : ℝ →ₗ[ℝ] ℝ) (-1 * (1 - Real.exp (-s)) + 1)) = fun s => Real.exp (-s) := by funext s; simp
    rw [e]; exact hd s
  · rw [norm_neg]; exact hle s hs
  · have key : ∀ s ∈ Set.Icc (0:ℝ) T, ∀ u ∈ Set.Icc (0:ℝ) T, s ≤ u → |Real.exp (-u) - Real.exp (-s)| ≤ u - s := by
      intro s hs u hu hsu
      have := increment_le (fun t : ℝ => Real.exp (-t)) (fun t => -Real.exp (-t)) s u hsu (fun x _ => hd x) 0 (fun x => x - s) (fun _ => 1) (by simp)
        (fun x => ((hasDerivAt_id x).sub_const s)) (fun x hx => by rw [sub_zero, norm_neg]; exact hle x ⟨hs.1.trans hx.1, hx.2.trans hu.2⟩)
      simpa using this
    intro s hs u hu
    rw [show -Real.exp (-s) - -Real.exp (-u) = Real.exp (-u) - Real.exp (-s) by ring, one_mul, Real.norm_eq_abs]
    rcases le_total s u with h | h
    · rw [abs_sub_comm s u, abs_of_nonneg (sub_nonneg.2 h)]; exact key s hs u hu h
    · rw [abs_sub_comm, abs_of_nonneg (sub_nonneg.2 h)]; exact key u hu s hs h

/-- `y' = 1` with BDF2 and steps 1, 2, 1: at `t = 3` the state is 8/3 (`C76_refuted_bdf2_second_order` with `a = 1`) -/
example : (drive (stdStep .BDF2 (scalarSys 0 1)) [⟨1, checkedNewton 0⟩, ⟨2, checkedNewton 0⟩, ⟨1, checkedNewton 0⟩] 0 [0] 0 newBDF2R).map (fun r => (r.dt, r.stop, r.y)) =
    [(1, none, 1), (2, none, 8/3), (1, none, 35/9)] := by
  have := (scalar_run .BDF2 0 1 0 newBDF2R rfl [(1, true), (2, true), (1, true)] 0 0)
  have e := C19_run_is_ideal .BDF2 _ this.noTSF newBDF2R this.ready _ this.honest 0 0
  simp only [List.map_cons, List.map_nil, if_true] at e
  rw [e]
  norm_num [ideal, outcome, checkedNewton, textbook, scalarSys, bdf1Res, bdf1Jac, bdf2Res, bdf2Jac]

/-- the steps of these runs -/
theorem scalar_steps (name : Scheme) (c d tol : ℝ) (mem : SMem ℝ ℝ ℝ PMem) (hmem : Ready name mem) (steps : List (ℝ × Bool)) (t0 y0 : ℝ) (P : ℝ → Prop) (hP : ∀ s ∈ steps, P s.1 ∧ 0 ≤ s.1) :
    ∃ T, StepsIn P T (drive (stdStep name (scalarSys c d)) (steps.map (fun s => ⟨s.1, if s.2 then checkedNewton tol else givesUp⟩)) t0 [y0] y0 mem) := by
  obtain ⟨T, hT⟩ := exists_end (drive (stdStep name (scalarSys c d)) (steps.map (fun s => ⟨s.1, if s.2 then checkedNewton tol else givesUp⟩)) t0 [y0] y0 mem)
  refine ⟨T, fun r hr _ => ?_⟩
  obtain ⟨a, ha, hda⟩ := drive_dt name _ _ _ _ _ _ t0 y0 (scalar_run name c d tol mem hmem steps t0 y0) r hr
  obtain ⟨s, hs, rfl⟩ := List.mem_map.1 ha
  rw [hda]
  exact ⟨(hP s hs).1, (hP s hs).2, hda ▸ hT r hr⟩

theorem decay1_monotone : ∀ y z t : ℝ, ⟪(LinearMap.id : ℝ →ₗ[ℝ] ℝ) ((fun (y _ : ℝ) => -1 * y + 1) y t) - (LinearMap.id : ℝ →ₗ[ℝ] ℝ) ((fun (y _ : ℝ) => -1 * y + 1) z t), (LinearMap.id : ℝ →ₗ[ℝ] ℝ) y - (LinearMap.id : ℝ →ₗ[ℝ] ℝ) z⟫ ≤ 0 := by
  intro y z t; simp; nlinarith [mul_self_nonneg (y - z)]
theorem decay1_lipschitz : ∀ y z t : ℝ, ‖(LinearMap.id : ℝ →ₗ[ℝ] ℝ) ((fun (y _ : ℝ) => -1 * y + 1) y t) - (LinearMap.id : ℝ →ₗ[ℝ] ℝ) ((fun (y _ : ℝ) => -1 * y + 1) z t)‖ ≤ 1 * ‖(LinearMap.id : ℝ →ₗ[ℝ] ℝ) y - (LinearMap.id : ℝ →ₗ[ℝ] ℝ) z‖ := by
  intro y z t
  simp only [LinearMap.id_coe, id_eq, one_mul]
  rw [show -1 * y + 1 - (-1 * z + 1) = -(y - z) by ring, norm_neg]
theorem decay1_rate (T : ℝ) : ∀ s ∈ Set.Icc (0:ℝ) T, ‖(LinearMap.id : ℝ →ₗ[ℝ] ℝ) ((fun (y _ : ℝ) => -1 * y + 1) (1 - Real.exp (-s)) s)‖ ≤ 1 := by
  intro s hs
  simp only [LinearMap.id_coe, id_eq]
  rw [show -1 * (1 - Real.exp (-s)) + 1 = Real.exp (-s) by ring, Real.norm_eq_abs, abs_of_pos (Real.exp_pos _)]
  exact Real.exp_le_one_iff.2 (by linarith [hs.1])

/-- all of C76 on `y' = -y + 1`, whatever the step sizes (within the limits of the theorem) and failures -/
example (steps : List (ℝ × Bool)) (h : ∀ s ∈ steps, s.1 ≤ 3 ∧ 0 ≤ s.1) := C76_bdf1_monotone LinearMap.id (1/100) _ _ newBDF1R _ 0 2 (scalar_run .BDF1 (-1) 1 (1/100) newBDF1R rfl steps 0 2) 3
  _ (scalar_steps .BDF1 (-1) 1 (1/100) newBDF1R rfl steps 0 2 _ h).choose_spec decay1_monotone (fun t => 1 - Real.exp (-t)) 1 (by norm_num) (by norm_num) (decay1_solves _ _) (decay1_smooth _).smooth1
example (steps : List (ℝ × Bool)) (h : ∀ s ∈ steps, s.1 = 3 ∧ 0 ≤ s.1) := C76_bdf2_monotone LinearMap.id (1/100) _ _ newBDF2R _ 0 2 (scalar_run .BDF2 (-1) 1 (1/100) newBDF2R rfl steps 0 2) 3
  _ (scalar_steps .BDF2 (-1) 1 (1/100) newBDF2R rfl steps 0 2 _ h).choose_spec decay1_monotone (fun t => 1 - Real.exp (-t)) _ 1 1 (by norm_num) (by norm_num) (decay1_solves _ _) (decay1_smooth _)
example (steps : List (ℝ × Bool)) (h : ∀ s ∈ steps, s.1 ≤ 1/2 ∧ 0 ≤ s.1) := C76_bdf1_lipschitz LinearMap.id (1/100) _ _ newBDF1R _ 0 2 (scalar_run .BDF1 (-1) 1 (1/100) newBDF1R rfl steps 0 2) (1/2)
  _ (scalar_steps .BDF1 (-1) 1 (1/100) newBDF1R rfl steps 0 2 _ h).choose_spec 1 (by norm_num) (by norm_num) decay1_lipschitz (fun t => 1 - Real.exp (-t)) 1 (by norm_num) (by norm_num) (decay1_solves _ _) (decay1_smooth _).smooth1
example (steps : List (ℝ × Bool)) (h : ∀ s ∈ steps, s.1 ≤ 1 ∧ 0 ≤ s.1) := C76_crank_nicolson_lipschitz LinearMap.id (1/100) _ _ newCNR _ 0 2 (scalar_run .CrankNicolson (-1) 1 (1/100) newCNR ⟨rfl, rfl, by decide⟩ steps 0 2) 1
  _ (scalar_steps .CrankNicolson (-1) 1 (1/100) newCNR ⟨rfl, rfl, by decide⟩ steps 0 2 _ h).choose_spec 1 (by norm_num) (by norm_num) decay1_lipschitz (fun t => 1 - Real.exp (-t)) _ 1 1 (by norm_num) (decay1_solves _ _) (decay1_smooth _)
example (steps : List (ℝ × Bool)) (h : ∀ s ∈ steps, s.1 = 1/12 ∧ 0 ≤ s.1) := C76_bdf2_lipschitz LinearMap.id (1/100) _ _ newBDF2R _ 0 2 (scalar_run .BDF2 (-1) 1 (1/100) newBDF2R rfl steps 0 2) (1/12)
  _ (scalar_steps .BDF2 (-1) 1 (1/100) newBDF2R rfl steps 0 2 _ h).choose_spec 1 (by norm_num) (by norm_num) decay1_lipschitz (fun t => 1 - Real.exp (-t)) _ 1 1 (by norm_num) (by norm_num) (decay1_solves _ _) (decay1_smooth _)
example (steps : List (ℝ × Bool)) (h : ∀ s ∈ steps, s.1 ≤ 1/12 ∧ 0 ≤ s.1) := C76_bdf2_changing_steps LinearMap.id (1/100) _ _ newBDF2R _ 0 2 (scalar_run .BDF2 (-1) 1 (1/100) newBDF2R rfl steps 0 2) (1/12)
  _ (scalar_steps .BDF2 (-1) 1 (1/100) newBDF2R rfl steps 0 2 _ h).choose_spec 1 (by norm_num) (by norm_num) (by norm_num) decay1_lipschitz (fun t => 1 - Real.exp (-t)) 1 1 (by norm_num) (by norm_num) (decay1_solves _ _)
  (decay1_rate _) (decay1_smooth _).smooth1
theorem decay1_split : (fun (y _ : ℝ) => -1 * y + 1) = fun y t => ((-1 : ℝ) • (LinearMap.id : ℝ →ₗ[ℝ] ℝ)) y + (fun _ => 1 : ℝ → ℝ) t := by
  funext y t; simp
example (steps : List (ℝ × Bool)) (h : ∀ s ∈ steps, s.1 ≤ 3 ∧ 0 ≤ s.1) := C76_crank_nicolson_linear (E := ℝ) LinearMap.id (1/100) (scalarSys (-1) 1) ((-1 : ℝ) • (LinearMap.id : ℝ →ₗ[ℝ] ℝ)) (fun _ => 1) newCNR _ 0 (2 : ℝ)
  (decay1_split ▸ scalar_run .CrankNicolson (-1) 1 (1/100) newCNR ⟨rfl, rfl, by decide⟩ steps 0 2) 3
  _ (scalar_steps .CrankNicolson (-1) 1 (1/100) newCNR ⟨rfl, rfl, by decide⟩ steps 0 2 _ h).choose_spec (by intro y; simp; nlinarith [mul_self_nonneg y]) (fun t => 1 - Real.exp (-t)) (fun t => -Real.exp (-t)) 1 1 (by norm_num)
  (decay1_split ▸ decay1_solves _ _) (decay1_split ▸ decay1_smooth _)

/-- Crank-Nicolson on the rotation: the solver that knows the solution of each step of size `h` and checks the residual there -/
def rotSys : ISystem ℝ (ℝ × ℝ) (ℝ × ℝ) := ⟨fun y _ w => .ok (rotation y, if w then some 0 else none)⟩
noncomputable def rotSolver (h tol : ℝ) : (ℝ × ℝ) → SolveTree (ℝ × ℝ) ((ℝ × ℝ) × Option (ℝ × ℝ)) := fun y =>
  let x : ℝ × ℝ := (((1 - h ^ 2 / 4) * y.1 - h * y.2) / (1 + h ^ 2 / 4), ((1 - h ^ 2 / 4) * y.2 + h * y.1) / (1 + h ^ 2 / 4))
  .ask x false (fun a => match a with
    | .ok (r, _) => if ‖planeToC r‖ ≤ tol then .ret x else .stop (.exc .nonlinearSolveFailure) y
    | .error e => .stop (.exc e) y)
def newRotCN : SMem ℝ (ℝ × ℝ) (ℝ × ℝ) PMem := ⟨0, 0, 0, 0, [0], [0, 0], freshPMem⟩
theorem rot_run (tol : ℝ) (steps : List ℝ) (t0 : ℝ) (y0 : ℝ × ℝ) :
    ConvergedRun planeToC tol .CrankNicolson rotSys (fun y _ => rotation y) newRotCN (steps.map (fun h => ⟨h, rotSolver h tol⟩)) t0 y0 := by
  refine checked_run _ _ .CrankNicolson rotSys (by intro y t w e junk h; simp [rotSys] at h) _ (by intro y t w g j h; simp only [rotSys, Except.ok.injEq, Prod.mk.injEq] at h; exact h.1.symm) newRotCN ⟨rfl, rfl, by decide⟩ _ ?_ ?_ _ _
  · intro a ha y
    obtain ⟨h, -, rfl⟩ := List.mem_map.1 ha
    intro a ha
    rcases a with e | ⟨r, j⟩
    · simpa [Honest] using ha e rfl
    · simp only; split_ifs <;> simp [Honest]
  · intro a ha y
    obtain ⟨h, -, rfl⟩ := List.mem_map.1 ha
    intro a
    rcases a with e | ⟨r, j⟩
    · simp [Checks]
    · simp only
      split_ifs with h
      · exact Or.inr ⟨rfl, r, j, rfl, h⟩
      · simp [Checks]
example (steps : List ℝ) := C75_crank_nicolson_conserves planeToC (1/100) rotSys rotation newRotCN _ 0 (3, 4) (rot_run (1/100) steps 0 (3, 4)) rotation_conserves
/-- and the solver does succeed: from (3, 4) a step of size 2 and one of size -2/3 -/
example : (drive (stdStep .CrankNicolson rotSys) [⟨2, rotSolver 2 0⟩, ⟨-2/3, rotSolver (-2/3) 0⟩] 0 [(3, 4)] (3, 4) newRotCN).map (fun r => (r.dt, r.stop, r.y)) = [(2, none, (-4, 3)), (-2/3, none, (-7/5, 24/5))] := by
  have := rot_run 0 [2, -2/3] 0 (3, 4)
  have e := C19_run_is_ideal .CrankNicolson _ this.noTSF newRotCN this.ready _ this.honest 0 (3, 4)
  simp only [List.map_cons, List.map_nil] at e
  rw [e]
  have hz : (⟨0, 0⟩ : ℂ) = 0 := rfl
  norm_num [ideal, outcome, rotSolver, textbook, rotSys, rotation, cnRes, cnJac, planeToC, hz]

end Examples
end Pressio.Props
