import Verif.Props.Implicit
import Mathlib.Analysis.Calculus.FDeriv.Add
import Mathlib.Analysis.Calculus.FDeriv.Mul
import Mathlib.Analysis.Calculus.FDeriv.Linear
import Mathlib.Analysis.Calculus.Deriv.Mul
import Mathlib.Analysis.Calculus.Deriv.Basic
import Mathlib.Analysis.Calculus.Deriv.Add
import Mathlib.Analysis.Calculus.Deriv.Pow

/-
  C20: the Jacobians of the implicit steppers are derivatives of the residuals.
-/
namespace Pressio.Props
set_option autoImplicit false
open Pressio Pressio.Model.Implicit Pressio.Spec.Implicit Pressio.Lemmas.Implicit
open Pressio.Model.Explicit (Scheme)

variable {𝕜 E : Type} [NontriviallyNormedField 𝕜] [NormedAddCommGroup E] [NormedSpace 𝕜 E]

/-- the system with right-hand side `f y t` and Jacobian `Df y t`, evaluated without failures -/
def smoothSys (f : E → 𝕜 → E) (Df : E → 𝕜 → E →L[𝕜] E) : ISystem 𝕜 E (E →L[𝕜] E) :=
  ⟨fun y t w => .ok (f y t, if w then some (Df y t) else none)⟩

/-- **C20.** If `Df y t` is the Fréchet derivative of `f · t` at every `y`, then in every run with BDF1, BDF2 or CrankNicolson, whenever the solver asks for a
    Jacobian, it gets the Fréchet derivative at that point of the residual function of the attempt (the function that it evaluates throughout the attempt). -/
theorem C20_jacobian_is_derivative (name : Scheme) (f : E → 𝕜 → E) (Df : E → 𝕜 → E →L[𝕜] E)
    (hD : ∀ y t, HasFDerivAt (fun z => f z t) (Df y t) y) (mem : SMem 𝕜 E E PMem) (hmem : Ready name mem)
    (atts : List (Attempt 𝕜 E (E × Option (E →L[𝕜] E)))) (hon : ∀ a ∈ atts, ∀ y, Honest (a.solver y)) (t0 : 𝕜) (y0 : E)
    (r) (hr : r ∈ drive (stdStep name (smoothSys f Df)) atts t0 [y0] y0 mem) :
    ∃ g : E → E, ∀ q ∈ r.queries, ∃ jac, q.ans = .ok (g q.x, jac) ∧ (jac.isSome = q.wantJ) ∧
      ∀ D, jac = some D → HasFDerivAt g D q.x := by
  have hsys : NoTSF (smoothSys f Df) := by intro y t w e junk h; simp [smoothSys] at h
  obtain ⟨pre, post, hsplit⟩ := List.append_of_mem hr
  obtain ⟨h1, h2, h3⟩ := C19_every_evaluation name (smoothSys f Df) hsys mem hmem atts hon t0 y0 pre post r hsplit
  obtain ⟨yn, older, hyn⟩ : ∃ yn older, accepted y0 pre = yn :: older := by
    have : accepted y0 pre ≠ [] := by simp [accepted]
    exact List.exists_cons_of_ne_nil this
  have hid : ∀ y : E, HasFDerivAt (fun z : E => z) (1 : E →L[𝕜] E) y := fun y => hasFDerivAt_id y
  rw [hyn] at h3
  cases name <;> simp only [Ready] at hmem
  case BDF1 =>
    refine ⟨fun z => bdf1Res r.dt z yn (f z (timeAfter t0 pre + r.dt)), fun q hq => ?_⟩
    have h4 := h3 q hq
    simp only [textbook, smoothSys] at h4
    refine ⟨_, h4, by rcases q.wantJ <;> simp, ?_⟩
    intro D hDe
    rcases hw : q.wantJ with _ | _ <;> simp [hw] at hDe
    subst hDe
    exact ((hid q.x).sub_const yn).sub ((hD q.x _).const_smul r.dt)
  case BDF2 =>
    rcases older with _ | ⟨ynm1, older⟩
    · refine ⟨fun z => bdf1Res r.dt z yn (f z (timeAfter t0 pre + r.dt)), fun q hq => ?_⟩
      have h4 := h3 q hq
      simp only [textbook, smoothSys] at h4
      refine ⟨_, h4, by rcases q.wantJ <;> simp, ?_⟩
      intro D hDe
      rcases hw : q.wantJ with _ | _ <;> simp [hw] at hDe
      subst hDe
      exact ((hid q.x).sub_const yn).sub ((hD q.x _).const_smul r.dt)
    · refine ⟨fun z => bdf2Res r.dt z yn ynm1 (f z (timeAfter t0 pre + r.dt)), fun q hq => ?_⟩
      have h4 := h3 q hq
      simp only [textbook, smoothSys] at h4
      refine ⟨_, h4, by rcases q.wantJ <;> simp, ?_⟩
      intro D hDe
      rcases hw : q.wantJ with _ | _ <;> simp [hw] at hDe
      subst hDe
      exact (((hid q.x).sub_const _).add_const _).sub ((hD q.x _).const_smul _)
  case CrankNicolson =>
    refine ⟨fun z => cnRes r.dt z yn (f z (timeAfter t0 pre + r.dt)) (f yn (timeAfter t0 pre)), fun q hq => ?_⟩
    have h4 := h3 q hq
    simp only [textbook, smoothSys] at h4
    refine ⟨_, h4, by rcases q.wantJ <;> simp, ?_⟩
    intro D hDe
    rcases hw : q.wantJ with _ | _ <;> simp [hw] at hDe
    subst hDe
    exact ((hid q.x).sub_const yn).sub (((hD q.x _).add_const _).const_smul _)

/-- the system with mass matrix `M t` that does not depend on the state -/
def smoothSysMM (M : E → 𝕜 → E →L[𝕜] E) (f : E → 𝕜 → E) (Df : E → 𝕜 → E →L[𝕜] E) : IMMSystem 𝕜 E (E →L[𝕜] E) (E →L[𝕜] E) :=
  ⟨fun y t w => .ok (M y t, f y t, if w then some (Df y t) else none)⟩

theorem hasFDerivAt_shift (A : E →L[𝕜] E) (c y : E) : HasFDerivAt (fun z => A (z + c)) A y := by
  have h := (A.hasFDerivAt (x := y + c)).comp y ((hasFDerivAt_id y).add_const c)
  have e : A.comp (ContinuousLinearMap.id 𝕜 E) = A := by ext x; rfl
  rw [e] at h
  exact h

/-- **C20, mass matrix independent of the state.** -/
theorem C20_jacobian_is_derivative_mass_matrix (name : Scheme) (M : 𝕜 → E →L[𝕜] E) (f : E → 𝕜 → E) (Df : E → 𝕜 → E →L[𝕜] E)
    (hD : ∀ y t, HasFDerivAt (fun z => f z t) (Df y t) y) (mem : SMem 𝕜 E E (MMMem E (E →L[𝕜] E))) (hmem : ReadyMM name mem)
    (atts : List (Attempt 𝕜 E (E × Option (E →L[𝕜] E)))) (hon : ∀ a ∈ atts, ∀ y, Honest (a.solver y)) (t0 : 𝕜) (y0 : E)
    (r) (hr : r ∈ drive (mmStep (fun M x => M x) id name (smoothSysMM (fun _ => M) f Df)) atts t0 [y0] y0 mem) :
    ∃ g : E → E, ∀ q ∈ r.queries, ∃ jac, q.ans = .ok (g q.x, jac) ∧ (jac.isSome = q.wantJ) ∧
      ∀ D, jac = some D → HasFDerivAt g D q.x := by
  have hsys : NoTSFMM (smoothSysMM (fun _ => M) f Df) := by intro y t w e junk h; simp [smoothSysMM] at h
  obtain ⟨pre, post, hsplit⟩ := List.append_of_mem hr
  obtain ⟨yn, older, hyn⟩ : ∃ yn older, accepted y0 pre = yn :: older := by
    have : accepted y0 pre ≠ [] := by simp [accepted]
    exact List.exists_cons_of_ne_nil this
  have heval : ∀ (x : E) (w : Bool), (smoothSysMM (fun _ => M) f Df).eval x (timeAfter t0 pre + r.dt) w =
      .ok (M (timeAfter t0 pre + r.dt), f x (timeAfter t0 pre + r.dt), if w then some (Df x (timeAfter t0 pre + r.dt)) else none) :=
    fun _ _ => rfl
  have h3 := fun q hq => C26_residual _ _ _ _ hsys mem hmem atts hon t0 y0 pre post r hsplit q hq _ _ _ (heval q.x q.wantJ) yn older hyn
  have hmap : ∀ (w : Bool) (x D : E →L[𝕜] E) (φ : (E →L[𝕜] E) → E →L[𝕜] E), (if w then some x else none).map φ = some D → φ x = D := by
    intro w x D φ h
    cases w <;> simp at h
    exact h
  have hsome : ∀ (w : Bool) (x : E →L[𝕜] E) (φ : (E →L[𝕜] E) → E →L[𝕜] E), ((if w then some x else none).map φ).isSome = w := by
    intro w x φ
    cases w <;> rfl
  by_cases hc : name = .BDF1 ∨ older = []
  · refine ⟨fun z => M (timeAfter t0 pre + r.dt) (z - yn) - r.dt • f z (timeAfter t0 pre + r.dt), fun q hq => ?_⟩
    refine ⟨_, (h3 q hq).1 hc, hsome _ _ _, ?_⟩
    intro D hDe
    rw [← hmap _ _ _ _ hDe]
    have e : (fun z => M (timeAfter t0 pre + r.dt) (z - yn) - r.dt • f z (timeAfter t0 pre + r.dt)) =
      fun z => M (timeAfter t0 pre + r.dt) (z + -yn) - r.dt • f z (timeAfter t0 pre + r.dt) := by
      funext z; rw [sub_eq_add_neg z yn]
    rw [e]
    exact (hasFDerivAt_shift _ _ q.x).sub ((hD q.x (timeAfter t0 pre + r.dt)).const_smul r.dt)
  · have hname : name = .BDF2 := by
      have h1 := (not_or.1 hc).1
      clear hr hsplit h3 hon
      cases name <;> simp only [ReadyMM] at hmem
      · exact absurd rfl h1
      · rfl
    obtain ⟨ynm1, rest, rfl⟩ := List.exists_cons_of_ne_nil (not_or.1 hc).2
    refine ⟨fun z => M (timeAfter t0 pre + r.dt) (z - ((4:𝕜)/3) • yn + ((1:𝕜)/3) • ynm1)
      - ((2:𝕜)/3 * r.dt) • f z (timeAfter t0 pre + r.dt), fun q hq => ?_⟩
    refine ⟨_, (h3 q hq).2 ynm1 rest hname rfl, hsome _ _ _, ?_⟩
    intro D hDe
    rw [← hmap _ _ _ _ hDe]
    have e : (fun z => M (timeAfter t0 pre + r.dt) (z - ((4:𝕜)/3) • yn + ((1:𝕜)/3) • ynm1)
        - ((2:𝕜)/3 * r.dt) • f z (timeAfter t0 pre + r.dt)) =
      fun z => M (timeAfter t0 pre + r.dt) (z + (-(((4:𝕜)/3) • yn) + ((1:𝕜)/3) • ynm1))
        - ((2:𝕜)/3 * r.dt) • f z (timeAfter t0 pre + r.dt) := by
      funext z; rw [sub_eq_add_neg z, add_assoc]
    rw [e]
    exact (hasFDerivAt_shift _ _ q.x).sub ((hD q.x (timeAfter t0 pre + r.dt)).const_smul ((2:𝕜)/3 * r.dt))

/-- The restriction to mass matrices that do not depend on the state is needed: with `M(y) = y` (one-dimensional) and `f = 0` the residual
    is `y (y - y_n)`, its derivative `2 y - y_n`, and the Jacobian given to the solver `y`. -/
theorem C20_refuted_state_dependent_mass_matrix (yn y t dt : ℝ) (hne : y ≠ yn) :
    ∃ (g : ℝ → ℝ) (D : ℝ →L[ℝ] ℝ),
      (∀ z w, ∃ jac, textbookMM (fun M x => M x) id .BDF1
        (smoothSysMM (fun y _ => y • (1 : ℝ →L[ℝ] ℝ)) (fun _ _ => 0) (fun _ _ => 0)) [yn] t dt z w = .ok (g z, jac)) ∧
      textbookMM (fun M x => M x) id .BDF1
        (smoothSysMM (fun y _ => y • (1 : ℝ →L[ℝ] ℝ)) (fun _ _ => 0) (fun _ _ => 0)) [yn] t dt y true = .ok (g y, some D) ∧
      ¬ HasFDerivAt g D y := by
  refine ⟨fun z => z * (z - yn), y • (1 : ℝ →L[ℝ] ℝ), ?_, ?_, ?_⟩
  · intro z w
    exact ⟨_, by simp only [textbookMM, smoothSysMM]; congr 2; simp⟩
  · simp [textbookMM, smoothSysMM]
  · intro h
    have h2 : HasDerivAt (fun z : ℝ => z * (z - yn)) (1 * (y - yn) + y * 1) y := by
      exact (hasDerivAt_id y).mul ((hasDerivAt_id y).sub_const yn)
    have h3 : HasDerivAt (fun z : ℝ => z * (z - yn)) y y := by
      have := h.hasDerivAt
      simpa using this
    have := h2.unique h3
    apply hne
    linarith

/-- C20 is about something: a smooth right-hand side that depends on the state and a run with one evaluation -/
example : ∃ r ∈ drive (stdStep .CrankNicolson (smoothSys (fun (y _ : ℝ) => 3 * y) (fun _ _ => (3:ℝ) • (1 : ℝ →L[ℝ] ℝ))))
    [⟨1, fun y => .ask y true (fun _ => .ret y)⟩] 0 [1] 1 ⟨0, 0, 0, 0, [0], [0, 0], freshPMem⟩, r.queries.length = 1 := by
  rw [C19_run_is_ideal .CrankNicolson _ (by intro y t w e junk h; simp [smoothSys] at h) _ (by simp [Ready, freshPMem])
    _ (by simp [Honest])]
  simp [ideal, outcome, textbook, smoothSys]

theorem cubic_hasFDeriv (y t : ℝ) : HasFDerivAt (fun z : ℝ => z ^ 3 - t) ((3 * y ^ 2 : ℝ) • (1 : ℝ →L[ℝ] ℝ)) y := by
  have h : HasDerivAt (fun z : ℝ => z ^ 3 - t) (3 * y ^ 2) y := (HasDerivAt.sub_const t (hasDerivAt_pow 3 y)).congr_deriv (by norm_num)
  exact h.hasFDerivAt.congr_fderiv (by ext; simp)
/-- every record of every run of `y' = y³ - t`, with two evaluations in each of two steps -/
example (r) := C20_jacobian_is_derivative .CrankNicolson (fun y t : ℝ => y ^ 3 - t) (fun y _ => (3 * y ^ 2 : ℝ) • (1 : ℝ →L[ℝ] ℝ)) cubic_hasFDeriv ⟨0, 0, 0, 0, [0], [0, 0], freshPMem⟩ (by simp [Ready, freshPMem])
  [⟨1, fun y => .ask y true (fun _ => .ask (y + 1) true (fun _ => .ret (y + 1)))⟩, ⟨1, fun y => .ask y true (fun _ => .ask (y - 2) true (fun _ => .ret (y - 2)))⟩] (by simp [Honest]) 0 1 r
example (r) := C20_jacobian_is_derivative_mass_matrix .BDF2 (fun t : ℝ => (2 + t ^ 2) • (1 : ℝ →L[ℝ] ℝ)) (fun y t : ℝ => y ^ 3 - t) (fun y _ => (3 * y ^ 2 : ℝ) • (1 : ℝ →L[ℝ] ℝ)) cubic_hasFDeriv
  ⟨0, 0, 0, 0, [0, 0], [], ⟨-1, 0, 0, 0⟩⟩ (by simp [ReadyMM])
  [⟨1, fun y => .ask y true (fun _ => .ask (y + 1) true (fun _ => .ret (y + 1)))⟩, ⟨1, fun y => .ask y true (fun _ => .ask (y - 2) true (fun _ => .ret (y - 2)))⟩] (by simp [Honest]) 0 1 r


end Pressio.Props
