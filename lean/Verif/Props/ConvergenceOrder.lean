import Verif.Props.Convergence
import Mathlib.Analysis.Normed.Operator.NormedSpace
import Mathlib.Analysis.Calculus.Deriv.Shift
import Mathlib.Analysis.SpecialFunctions.ExpDeriv

/-
  C74: the states of runs with the explicit schemes converge to the solution of the differential equation, with a rate.
-/
namespace Pressio.Props
set_option autoImplicit false
set_option linter.unusedSectionVars false
open Pressio Pressio.Model.Advance Pressio.Model.Explicit Pressio.Spec.Explicit Pressio.Spec.Run Pressio.Lemmas.Run Pressio.Lemmas.Numerics
open Pressio.Spec.AdvanceTarget

variable {Y : Type} [NormedAddCommGroup Y] [NormedSpace ℝ Y]

/-- `φ` solves the differential equation on `[a, b]` -/
def Solves (f : Y → ℝ → Y) (φ : ℝ → Y) (a b : ℝ) : Prop := ∀ s ∈ Set.Icc a b, HasDerivAt φ (f (φ s) s) s

/-- the derivative of the solution is Lipschitz on `[a, b]` -/
def Smooth1 (f : Y → ℝ → Y) (φ : ℝ → Y) (M a b : ℝ) : Prop := ∀ s ∈ Set.Icc a b, ∀ u ∈ Set.Icc a b, ‖f (φ s) s - f (φ u) u‖ ≤ M * |s - u|

/-- the solution has a second derivative `φ2`, bounded by `M2`, Lipschitz with constant `M3`, on `[a, b]` -/
def Smooth2 (f : Y → ℝ → Y) (φ φ2 : ℝ → Y) (M2 M3 a b : ℝ) : Prop :=
  (∀ s ∈ Set.Icc a b, HasDerivAt (fun s => f (φ s) s) (φ2 s) s ∧ ‖φ2 s‖ ≤ M2) ∧ ∀ s ∈ Set.Icc a b, ∀ u ∈ Set.Icc a b, ‖φ2 s - φ2 u‖ ≤ M3 * |s - u|

theorem Smooth2.smooth1 {f : Y → ℝ → Y} {φ φ2 : ℝ → Y} {M2 M3 a b : ℝ} (h : Smooth2 f φ φ2 M2 M3 a b) : Smooth1 f φ M2 a b := by
  have key : ∀ s ∈ Set.Icc a b, ∀ u ∈ Set.Icc a b, s ≤ u → ‖f (φ u) u - f (φ s) s‖ ≤ M2 * (u - s) := by
    intro s hs u hu hsu
    have := increment_le (fun s => f (φ s) s) φ2 s u hsu (fun x hx => (h.1 x ⟨hs.1.trans hx.1, hx.2.trans hu.2⟩).1) 0 (fun x => M2 * (x - s)) (fun _ => M2) (by simp)
      (fun x => (((hasDerivAt_id x).sub_const s).const_mul M2).congr_deriv (by simp)) (fun x hx => by rw [sub_zero]; exact (h.1 x ⟨hs.1.trans hx.1, hx.2.trans hu.2⟩).2)
    simpa using this
  intro s hs u hu
  rcases le_total s u with hsu | hsu
  · rw [norm_sub_rev, abs_of_nonpos (by linarith), neg_sub]; exact key s hs u hu hsu
  · rw [abs_of_nonneg (by linarith)]; exact key u hu s hs hsu

/-! ### Local errors -/

theorem euler_local (f : Y → ℝ → Y) (φ : ℝ → Y) (M t h : ℝ) (hh : 0 ≤ h) (hφ : Solves f φ t (t + h)) (hM : Smooth1 f φ M t (t + h)) :
    ‖rkStep eulerTableau f (φ t) t h - φ (t + h)‖ ≤ h * (M * h / 2) := by
  rw [euler_unfold, norm_sub_rev]
  have hl : t ∈ Set.Icc t (t + h) := ⟨le_rfl, by linarith⟩
  have := taylor_left φ (fun s => f (φ s) s) t (t + h) M (by linarith) hφ (fun s hs => by
    have := hM s hs t hl
    rwa [abs_of_nonneg (by linarith [hs.1])] at this)
  rw [show t + h - t = h by ring] at this
  calc _ = ‖φ (t + h) - φ t - h • f (φ t) t‖ := by congr 1; abel
    _ ≤ _ := this
    _ = _ := by ring

theorem half_local (f : Y → ℝ → Y) (φ : ℝ → Y) (M t h : ℝ) (hh : 0 ≤ h) (hφ : Solves f φ t (t + h)) (hM : Smooth1 f φ M t (t + h)) :
    ‖φ (t + h / 2) - (φ t + (h / 2) • f (φ t) t)‖ ≤ M * h ^ 2 / 8 ∧ ‖φ (t + h / 2) - (φ t + (h / 2) • f (φ (t + h / 2)) (t + h / 2))‖ ≤ M * h ^ 2 / 8 ∧
    ‖φ (t + h) - (φ t + h • f (φ (t + h / 2)) (t + h / 2))‖ ≤ M * h ^ 2 / 4 ∧
    ‖φ (t + h / 2) - (φ t + (h / 4) • (f (φ t) t + f (φ (t + h)) (t + h)))‖ ≤ 3 / 8 * (M * h ^ 2) := by
  have hl : t ∈ Set.Icc t (t + h) := ⟨le_rfl, by linarith⟩
  have hr : t + h ∈ Set.Icc t (t + h) := ⟨by linarith, le_rfl⟩
  have hm : t + h / 2 ∈ Set.Icc t (t + h) := ⟨by linarith, by linarith⟩
  have sub : ∀ s ∈ Set.Icc t (t + h / 2), s ∈ Set.Icc t (t + h) := fun s hs => ⟨hs.1, by linarith [hs.2]⟩
  have sub2 : ∀ s ∈ Set.Icc (t + h / 2) (t + h), s ∈ Set.Icc t (t + h) := fun s hs => ⟨by linarith [hs.1], hs.2⟩
  have a1 := taylor_left φ (fun s => f (φ s) s) t (t + h / 2) M (by linarith) (fun s hs => hφ s (sub s hs)) (fun s hs => by
    have := hM s (sub s hs) t hl
    rwa [abs_of_nonneg (by linarith [hs.1])] at this)
  have a2 := taylor_right φ (fun s => f (φ s) s) t (t + h / 2) M (by linarith) (fun s hs => hφ s (sub s hs)) (fun s hs => by
    have := hM s (sub s hs) _ hm
    rwa [abs_of_nonpos (by linarith [hs.2]), neg_sub] at this)
  have a3 := taylor_left φ (fun s => f (φ s) s) (t + h / 2) (t + h) M (by linarith) (fun s hs => hφ s (sub2 s hs)) (fun s hs => by
    have := hM s (sub2 s hs) _ hm
    rwa [abs_of_nonneg (by linarith [hs.1])] at this)
  have a4 := hM _ hr t hl
  rw [show t + h - t = h by ring, abs_of_nonneg hh] at a4
  rw [show t + h / 2 - t = h / 2 by ring] at a1 a2
  rw [show t + h - (t + h / 2) = h / 2 by ring] at a3
  refine ⟨?_, ?_, ?_, ?_⟩
  · calc _ = ‖φ (t + h / 2) - φ t - (h / 2) • f (φ t) t‖ := by congr 1; abel
      _ ≤ _ := a1
      _ = _ := by ring
  · calc _ = ‖φ (t + h / 2) - φ t - (h / 2) • f (φ (t + h / 2)) (t + h / 2)‖ := by congr 1; abel
      _ ≤ _ := a2
      _ = _ := by ring
  · calc _ = ‖(φ (t + h) - φ (t + h / 2) - (h / 2) • f (φ (t + h / 2)) (t + h / 2)) + (φ (t + h / 2) - φ t - (h / 2) • f (φ (t + h / 2)) (t + h / 2))‖ := by congr 1; module
      _ ≤ _ := (norm_add_le _ _).trans (add_le_add a3 a2)
      _ = _ := by ring
  · calc _ = ‖(φ (t + h / 2) - φ t - (h / 2) • f (φ t) t) - (h / 4) • (f (φ (t + h)) (t + h) - f (φ t) t)‖ := by congr 1; module
      _ ≤ M * (h / 2) ^ 2 / 2 + h / 4 * (M * h) := by
          refine (norm_sub_le _ _).trans (add_le_add a1 ?_)
          rw [norm_smul, Real.norm_of_nonneg (by positivity)]
          gcongr
      _ = _ := by ring

theorem rk4_local (f : Y → ℝ → Y) (φ φ2 : ℝ → Y) (L M2 M3 t h : ℝ) (hL : 0 ≤ L) (hf : Lip f L) (hM2 : 0 ≤ M2) (hM3 : 0 ≤ M3) (hh : 0 ≤ h) (hφ : Solves f φ t (t + h)) (hM : Smooth2 f φ φ2 M2 M3 t (t + h)) :
    ‖rkStep rk4Tableau f (φ t) t h - φ (t + h)‖ ≤ Real.exp (L * h) * (h * (h ^ 2 * (M3 / 3 + L * M2 / 8))) := by
  have hz : 0 ≤ L * h := mul_nonneg hL hh
  have hl : t ∈ Set.Icc t (t + h) := ⟨le_rfl, by linarith⟩
  obtain ⟨q1, q2, q3, -⟩ := half_local f φ M2 t h hh hφ hM.smooth1
  have qs := simpson φ (fun s => f (φ s) s) φ2 t h M3 hh hφ (fun s hs => (hM.1 s hs).1) (fun s hs => by
    have := hM.2 s hs t hl
    rwa [abs_of_nonneg (by linarith [hs.1])] at this)
  rw [rk4_unfold]
  set k1 := f (φ t) t
  set k2 := f (φ t + (h / 2) • k1) (t + h / 2) with hk2
  set k3 := f (φ t + (h / 2) • k2) (t + h / 2) with hk3
  set k4 := f (φ t + h • k3) (t + h) with hk4
  set d2 := f (φ (t + h / 2)) (t + h / 2) with hd2
  set d4 := f (φ (t + h)) (t + h) with hd4
  have b2 : ‖k2 - d2‖ ≤ L * (M2 * h ^ 2 / 8) := by
    rw [hk2, hd2]
    refine (hf _ _ _).trans (mul_le_mul_of_nonneg_left ?_ hL)
    rw [norm_sub_rev]; exact q1
  have b3 : ‖k3 - d2‖ ≤ L * (M2 * h ^ 2 / 8 + h / 2 * (L * (M2 * h ^ 2 / 8))) := by
    rw [hk3, hd2]
    refine (hf _ _ _).trans (mul_le_mul_of_nonneg_left ?_ hL)
    have e : φ t + (h / 2) • k2 - φ (t + h / 2) = (h / 2) • (k2 - d2) - (φ (t + h / 2) - (φ t + (h / 2) • d2)) := by module
    rw [e]
    refine (norm_sub_le _ _).trans ?_
    rw [norm_smul, Real.norm_of_nonneg (by positivity)]
    have := mul_le_mul_of_nonneg_left b2 (by positivity : 0 ≤ h / 2)
    linarith
  have b4 : ‖k4 - d4‖ ≤ L * (M2 * h ^ 2 / 4 + h * (L * (M2 * h ^ 2 / 8 + h / 2 * (L * (M2 * h ^ 2 / 8))))) := by
    rw [hk4, hd4]
    refine (hf _ _ _).trans (mul_le_mul_of_nonneg_left ?_ hL)
    have e : φ t + h • k3 - φ (t + h) = h • (k3 - d2) - (φ (t + h) - (φ t + h • d2)) := by module
    rw [e]
    refine (norm_sub_le _ _).trans ?_
    rw [norm_smul, Real.norm_of_nonneg hh]
    have := mul_le_mul_of_nonneg_left b3 hh
    linarith
  have e : φ t + h • ((1/6:ℝ) • k1 + (1/3:ℝ) • k2 + (1/3:ℝ) • k3 + (1/6:ℝ) • k4) - φ (t + h) =
      (h * (1/3)) • (k2 - d2) + (h * (1/3)) • (k3 - d2) + (h * (1/6)) • (k4 - d4) - (φ (t + h) - φ t - h • ((1/6:ℝ) • k1 + (2/3:ℝ) • d2 + (1/6:ℝ) • d4)) := by module
  rw [e]
  have n : ∀ (c : ℝ) (v : Y), 0 ≤ c → ‖c • v‖ = c * ‖v‖ := fun c v hc => by rw [norm_smul, Real.norm_of_nonneg hc]
  have hsum := (norm_sub_le ((h * (1/3)) • (k2 - d2) + (h * (1/3)) • (k3 - d2) + (h * (1/6)) • (k4 - d4)) (φ (t + h) - φ t - h • ((1/6:ℝ) • k1 + (2/3:ℝ) • d2 + (1/6:ℝ) • d4))).trans
    (add_le_add ((norm_add_le _ _).trans (add_le_add_left (norm_add_le _ _) _)) qs)
  rw [n _ _ (by positivity), n _ _ (by positivity), n _ _ (by positivity)] at hsum
  refine hsum.trans ?_
  have c2 := mul_le_mul_of_nonneg_left b2 (by positivity : 0 ≤ h * (1/3))
  have c3 := mul_le_mul_of_nonneg_left b3 (by positivity : 0 ≤ h * (1/3))
  have c4 := mul_le_mul_of_nonneg_left b4 (by positivity : 0 ≤ h * (1/6))
  have hx := exp_ge (L * h) hz 3
  simp only [Finset.sum_range_succ, Finset.sum_range_zero, Nat.factorial, pow_zero, pow_one] at hx
  push_cast at hx
  have hx1 : 1 ≤ Real.exp (L * h) := Real.one_le_exp hz
  have hp : 0 ≤ h * (h ^ 2 * (L * M2)) := by positivity
  have hq : 0 ≤ h * (h ^ 2 * (M3 / 3)) := by positivity
  have f1 := mul_le_mul_of_nonneg_right hx1 hq
  have f2 : (1 / 8 + L * h / 24 + (L * h) ^ 2 / 96) * (h * (h ^ 2 * (L * M2))) ≤ Real.exp (L * h) / 8 * (h * (h ^ 2 * (L * M2))) := by
    refine mul_le_mul_of_nonneg_right ?_ hp
    have := sq_nonneg (L * h)
    linarith
  have target : Real.exp (L * h) * (h * (h ^ 2 * (M3 / 3 + L * M2 / 8))) = Real.exp (L * h) * (h * (h ^ 2 * (M3 / 3))) + Real.exp (L * h) / 8 * (h * (h ^ 2 * (L * M2))) := by ring
  rw [target]
  have lhs : h * (1/3) * (L * (M2 * h ^ 2 / 8)) + h * (1/3) * (L * (M2 * h ^ 2 / 8 + h / 2 * (L * (M2 * h ^ 2 / 8)))) +
      h * (1/6) * (L * (M2 * h ^ 2 / 4 + h * (L * (M2 * h ^ 2 / 8 + h / 2 * (L * (M2 * h ^ 2 / 8)))))) + M3 * h ^ 3 / 3 =
      1 * (h * (h ^ 2 * (M3 / 3))) + (1 / 8 + L * h / 24 + (L * h) ^ 2 / 96) * (h * (h ^ 2 * (L * M2))) := by ring
  linarith

theorem ssprk3_local (f : Y → ℝ → Y) (φ φ2 : ℝ → Y) (L M2 M3 t h : ℝ) (hL : 0 ≤ L) (hf : Lip f L) (hM2 : 0 ≤ M2) (hM3 : 0 ≤ M3) (hh : 0 ≤ h) (hφ : Solves f φ t (t + h)) (hM : Smooth2 f φ φ2 M2 M3 t (t + h)) :
    ‖rkStep ssprk3Tableau f (φ t) t h - φ (t + h)‖ ≤ Real.exp (L * h) * (h * (h ^ 2 * (M3 / 3 + L * M2 / 3))) := by
  have hz : 0 ≤ L * h := mul_nonneg hL hh
  have hl : t ∈ Set.Icc t (t + h) := ⟨le_rfl, by linarith⟩
  obtain ⟨-, -, -, q4⟩ := half_local f φ M2 t h hh hφ hM.smooth1
  have q1 := euler_local f φ M2 t h hh hφ hM.smooth1
  rw [euler_unfold] at q1
  have qs := simpson φ (fun s => f (φ s) s) φ2 t h M3 hh hφ (fun s hs => (hM.1 s hs).1) (fun s hs => by
    have := hM.2 s hs t hl
    rwa [abs_of_nonneg (by linarith [hs.1])] at this)
  rw [ssprk3_unfold]
  set k1 := f (φ t) t
  set k2 := f (φ t + h • k1) (t + h) with hk2
  set k3 := f (φ t + (h / 4) • (k1 + k2)) (t + h / 2) with hk3
  set d2 := f (φ (t + h / 2)) (t + h / 2) with hd2
  set d4 := f (φ (t + h)) (t + h) with hd4
  have b2 : ‖k2 - d4‖ ≤ L * (M2 * h ^ 2 / 2) := by
    rw [hk2, hd4]
    refine (hf _ _ _).trans (mul_le_mul_of_nonneg_left ?_ hL)
    refine q1.trans (le_of_eq (by ring))
  have b3 : ‖k3 - d2‖ ≤ L * (3 / 8 * (M2 * h ^ 2) + h / 4 * (L * (M2 * h ^ 2 / 2))) := by
    rw [hk3, hd2]
    refine (hf _ _ _).trans (mul_le_mul_of_nonneg_left ?_ hL)
    have e : φ t + (h / 4) • (k1 + k2) - φ (t + h / 2) = (h / 4) • (k2 - d4) - (φ (t + h / 2) - (φ t + (h / 4) • (k1 + d4))) := by module
    rw [e]
    refine (norm_sub_le _ _).trans ?_
    rw [norm_smul, Real.norm_of_nonneg (by positivity)]
    have := mul_le_mul_of_nonneg_left b2 (by positivity : 0 ≤ h / 4)
    linarith
  have e : φ t + h • ((1/6:ℝ) • k1 + (1/6:ℝ) • k2 + (2/3:ℝ) • k3) - φ (t + h) =
      (h * (1/6)) • (k2 - d4) + (h * (2/3)) • (k3 - d2) - (φ (t + h) - φ t - h • ((1/6:ℝ) • k1 + (2/3:ℝ) • d2 + (1/6:ℝ) • d4)) := by module
  rw [e]
  have n : ∀ (c : ℝ) (v : Y), 0 ≤ c → ‖c • v‖ = c * ‖v‖ := fun c v hc => by rw [norm_smul, Real.norm_of_nonneg hc]
  have hsum := (norm_sub_le ((h * (1/6)) • (k2 - d4) + (h * (2/3)) • (k3 - d2)) (φ (t + h) - φ t - h • ((1/6:ℝ) • k1 + (2/3:ℝ) • d2 + (1/6:ℝ) • d4))).trans
    (add_le_add (norm_add_le _ _) qs)
  rw [n _ _ (by positivity), n _ _ (by positivity)] at hsum
  refine hsum.trans ?_
  have c2 := mul_le_mul_of_nonneg_left b2 (by positivity : 0 ≤ h * (1/6))
  have c3 := mul_le_mul_of_nonneg_left b3 (by positivity : 0 ≤ h * (2/3))
  have hx := Real.add_one_le_exp (L * h)
  have hx1 : 1 ≤ Real.exp (L * h) := Real.one_le_exp hz
  have hp : 0 ≤ h * (h ^ 2 * (L * M2)) := by positivity
  have hq : 0 ≤ h * (h ^ 2 * (M3 / 3)) := by positivity
  have f1 := mul_le_mul_of_nonneg_right hx1 hq
  have f2 : (1 / 3 + L * h / 12) * (h * (h ^ 2 * (L * M2))) ≤ Real.exp (L * h) / 3 * (h * (h ^ 2 * (L * M2))) := by
    refine mul_le_mul_of_nonneg_right ?_ hp
    linarith
  have target : Real.exp (L * h) * (h * (h ^ 2 * (M3 / 3 + L * M2 / 3))) = Real.exp (L * h) * (h * (h ^ 2 * (M3 / 3))) + Real.exp (L * h) / 3 * (h * (h ^ 2 * (L * M2))) := by ring
  rw [target]
  have lhs : h * (1/6) * (L * (M2 * h ^ 2 / 2)) + h * (2/3) * (L * (3 / 8 * (M2 * h ^ 2) + h / 4 * (L * (M2 * h ^ 2 / 2)))) + M3 * h ^ 3 / 3 =
      1 * (h * (h ^ 2 * (M3 / 3))) + (1 / 3 + L * h / 12) * (h * (h ^ 2 * (L * M2))) := by ring
  linarith

/-! ### Global errors -/

/-- a one-step scheme whose local errors are at most `exp(L h) h τ` -/
theorem one_step_convergence (f : Y → ℝ → Y) (φ : ℝ → Y) (L τ : ℝ) (hL : 0 ≤ L) (hτ : 0 ≤ τ) (hf : Lip f L) (scheme : Scheme) (tab : Tableau ℝ) (htab : tableauOf scheme = some tab) (y0 : Y) (t h : Nat → ℝ)
    (hh : ∀ k, 0 ≤ h k) (ht : ∀ k, t (k+1) = t k + h k) (N : Nat)
    (hloc : ∀ k < N, ‖rkStep tab f (φ (t k)) (t k) (h k) - φ (t k + h k)‖ ≤ Real.exp (L * h k) * (h k * τ)) :
    ∀ k ≤ N, t 0 ≤ t k ∧ ‖seqOf scheme f y0 t h k - φ (t k)‖ ≤ Real.exp (L * (t k - t 0)) * (‖y0 - φ (t 0)‖ + (t k - t 0) * τ) := by
  have := gronwall (fun k => ‖seqOf scheme f y0 t h k - φ (t k)‖) t h L τ hL hτ N (fun k _ => hh k) (fun k _ => ht k) (by
    intro k hk
    simp only [seqOf, htab, oneStepSeq, ht k]
    have a := rk_perturbation f f L 0 hL le_rfl hf (fun y s => by simp) scheme tab htab (oneStepSeq (rkStep tab f) y0 t h k) (φ (t k)) (t k) (h k) (hh k)
    rw [mul_zero, add_zero] at a
    have b := hloc k hk
    have e : rkStep tab f (oneStepSeq (rkStep tab f) y0 t h k) (t k) (h k) - φ (t k + h k) =
        (rkStep tab f (oneStepSeq (rkStep tab f) y0 t h k) (t k) (h k) - rkStep tab f (φ (t k)) (t k) (h k)) + (rkStep tab f (φ (t k)) (t k) (h k) - φ (t k + h k)) := by abel
    rw [e, mul_add]
    exact (norm_add_le _ _).trans (add_le_add a b))
  intro k hk
  have h1 := this k hk
  simp only [seqOf_zero] at h1
  exact h1

theorem t_mono (t h : Nat → ℝ) (hh : ∀ k, 0 ≤ h k) (ht : ∀ k, t (k+1) = t k + h k) : Monotone t :=
  monotone_nat_of_le_succ (fun k => by rw [ht k]; linarith [hh k])

/-- **C74, first order.** ForwardEuler: if `φ` solves the equation on the time interval of the run with derivative Lipschitz (constant `M`), and the step sizes are at most `H`, then at every observation the error is at most
    `exp(L (t - start)) (‖y₀ - φ(start)‖ + (t - start) M H / 2)`: the error tends to zero like `H`. -/
theorem C74_forward_euler (sys : System ℝ Y) (f : Y → ℝ → Y) (hsys : Computes sys f) (L M H : ℝ) (hL : 0 ≤ L) (hM0 : 0 ≤ M) (hf : Lip f L)
    (obs : RhsEv ℝ Y → Except Exc Unit) (hobs : ∀ e, obs e = .ok ()) (pol : Int → ℝ → ℝ → ℝ) (hpol : ∀ n t d, 0 ≤ pol n t d ∧ pol n t d ≤ H) (start : ℝ) (N : Nat) (hN : (N : Int) < int32Max) (y0 : Y)
    (φ : ℝ → Y) (hφ : Solves f φ start (tSeq 0 pol start N)) (hM : Smooth1 f φ M start (tSeq 0 pol start N)) (m : EMem ℝ Y) (hlen : m.1.length = numRhs .ForwardEuler) :
    ∃ s, run 0 pol (asStepper sys .ForwardEuler obs) N start y0 m = .ok () s ∧ ∀ k ≤ N, ∃ t y, (observations s.log)[k]? = some ((k : Int), t, y) ∧ (k = N → s.y = y) ∧
      ‖y - φ t‖ ≤ Real.exp (L * (t - start)) * (‖y0 - φ start‖ + (t - start) * (M * H / 2)) := by
  obtain ⟨s, a1, a2, a3⟩ := explicit_run sys f hsys .ForwardEuler (by simp [isExplicit]) obs hobs pol start N hN y0 m hlen
  refine ⟨s, a1, ?_⟩
  have hH : 0 ≤ H := (hpol 0 0 0).1.trans (hpol 0 0 0).2
  have hmono := t_mono (tSeq 0 pol start) (hSeq 0 pol start) (fun k => (hpol _ _ _).1) (fun k => rfl)
  have := one_step_convergence f φ L (M * H / 2) hL (by positivity) hf .ForwardEuler eulerTableau rfl y0 (tSeq 0 pol start) (hSeq 0 pol start) (fun k => (hpol _ _ _).1) (fun k => rfl) N (by
    intro k hk
    have hk0 : 0 ≤ hSeq 0 pol start k := (hpol _ _ _).1
    have hsub : ∀ x ∈ Set.Icc (tSeq 0 pol start k) (tSeq 0 pol start k + hSeq 0 pol start k), x ∈ Set.Icc start (tSeq 0 pol start N) :=
      fun x hx => ⟨(hmono (Nat.zero_le k)).trans hx.1, hx.2.trans (hmono (by omega : k + 1 ≤ N))⟩
    have l := euler_local f φ M _ _ hk0 (fun x hx => hφ x (hsub x hx)) (fun x hx u hu => hM x (hsub x hx) u (hsub u hu))
    refine l.trans ?_
    have : hSeq 0 pol start k * (M * hSeq 0 pol start k / 2) ≤ hSeq 0 pol start k * (M * H / 2) := by
      have := (hpol (k + 1) (clock 0 pol start k).1 (clock 0 pol start k).2).2
      refine mul_le_mul_of_nonneg_left ?_ hk0
      have : M * hSeq 0 pol start k ≤ M * H := mul_le_mul_of_nonneg_left this hM0
      linarith
    exact this.trans (le_mul_of_one_le_left (by positivity) (Real.one_le_exp (mul_nonneg hL hk0))))
  intro k hk
  exact ⟨_, _, a3 k hk, by rintro rfl; exact a2, (this k hk).2⟩

/-- constants of the second-order error bounds -/
noncomputable def errorConstant (L M2 M3 : ℝ) : Scheme → ℝ
  | .RungeKutta4 => M3 / 3 + L * M2 / 8
  | _ => M3 / 3 + L * M2 / 3

/-- **C74, right-hand sides that are not smooth.** Full order for smooth right-hand sides: `C74_full_order`. SSPRungeKutta3 and RungeKutta4: the error at every observation is at most `exp(L (t - start)) (‖y₀ - φ(start)‖ + (t - start) H² C)`, for every right-hand side that is Lipschitz
    in the state (no more smoothness of `f` is needed, only that of the solution); for linear systems see `C74_linear_systems`. -/
theorem C74_runge_kutta_rough (sys : System ℝ Y) (f : Y → ℝ → Y) (hsys : Computes sys f) (L M2 M3 H : ℝ) (hL : 0 ≤ L) (hM2 : 0 ≤ M2) (hM3 : 0 ≤ M3) (hf : Lip f L)
    (scheme : Scheme) (hs : scheme = .SSPRungeKutta3 ∨ scheme = .RungeKutta4)
    (obs : RhsEv ℝ Y → Except Exc Unit) (hobs : ∀ e, obs e = .ok ()) (pol : Int → ℝ → ℝ → ℝ) (hpol : ∀ n t d, 0 ≤ pol n t d ∧ pol n t d ≤ H) (start : ℝ) (N : Nat) (hN : (N : Int) < int32Max) (y0 : Y)
    (φ φ2 : ℝ → Y) (hφ : Solves f φ start (tSeq 0 pol start N)) (hM : Smooth2 f φ φ2 M2 M3 start (tSeq 0 pol start N)) (m : EMem ℝ Y) (hlen : m.1.length = numRhs scheme) :
    ∃ s, run 0 pol (asStepper sys scheme obs) N start y0 m = .ok () s ∧ ∀ k ≤ N, ∃ t y, (observations s.log)[k]? = some ((k : Int), t, y) ∧ (k = N → s.y = y) ∧
      ‖y - φ t‖ ≤ Real.exp (L * (t - start)) * (‖y0 - φ start‖ + (t - start) * (H ^ 2 * errorConstant L M2 M3 scheme)) := by
  obtain ⟨s, a1, a2, a3⟩ := explicit_run sys f hsys scheme (by rcases hs with rfl | rfl <;> simp [isExplicit]) obs hobs pol start N hN y0 m hlen
  refine ⟨s, a1, ?_⟩
  have hmono := t_mono (tSeq 0 pol start) (hSeq 0 pol start) (fun k => (hpol _ _ _).1) (fun k => rfl)
  obtain ⟨tab, htab⟩ : ∃ tab : Tableau ℝ, tableauOf scheme = some tab := by rcases hs with rfl | rfl <;> exact ⟨_, rfl⟩
  have hC : 0 ≤ errorConstant L M2 M3 scheme := by rcases hs with rfl | rfl <;> simp only [errorConstant] <;> positivity
  have := one_step_convergence f φ L (H ^ 2 * errorConstant L M2 M3 scheme) hL (by positivity) hf scheme tab htab y0 (tSeq 0 pol start) (hSeq 0 pol start) (fun k => (hpol _ _ _).1) (fun k => rfl) N (by
    intro k hk
    have hk0 : 0 ≤ hSeq 0 pol start k := (hpol _ _ _).1
    have hkH : hSeq 0 pol start k ≤ H := (hpol _ _ _).2
    have hsub : ∀ x ∈ Set.Icc (tSeq 0 pol start k) (tSeq 0 pol start k + hSeq 0 pol start k), x ∈ Set.Icc start (tSeq 0 pol start N) :=
      fun x hx => ⟨(hmono (Nat.zero_le k)).trans hx.1, hx.2.trans (hmono (by omega : k + 1 ≤ N))⟩
    have hM' : Smooth2 f φ φ2 M2 M3 (tSeq 0 pol start k) (tSeq 0 pol start k + hSeq 0 pol start k) := ⟨fun x hx => hM.1 x (hsub x hx), fun x hx u hu => hM.2 x (hsub x hx) u (hsub u hu)⟩
    have l : ‖rkStep tab f (φ (tSeq 0 pol start k)) (tSeq 0 pol start k) (hSeq 0 pol start k) - φ (tSeq 0 pol start k + hSeq 0 pol start k)‖ ≤
        Real.exp (L * hSeq 0 pol start k) * (hSeq 0 pol start k * (hSeq 0 pol start k ^ 2 * errorConstant L M2 M3 scheme)) := by
      rcases hs with rfl | rfl <;> simp only [tableauOf, Option.some.injEq] at htab <;> subst htab
      · exact ssprk3_local f φ φ2 L M2 M3 _ _ hL hf hM2 hM3 hk0 (fun x hx => hφ x (hsub x hx)) hM'
      · exact rk4_local f φ φ2 L M2 M3 _ _ hL hf hM2 hM3 hk0 (fun x hx => hφ x (hsub x hx)) hM'
    refine l.trans ?_
    have : hSeq 0 pol start k ^ 2 ≤ H ^ 2 := by gcongr
    gcongr)
  intro k hk
  exact ⟨_, _, a3 k hk, by rintro rfl; exact a2, (this k hk).2⟩

/-! ### Adams-Bashforth -/

/-- **C74, AdamsBashforth2, arbitrary step sizes.** First order: the error at every observation is at most `exp(2 L (t - start)) (‖y₀ - φ(start)‖ + (t - start) M H)`. -/
theorem C74_adams_bashforth (sys : System ℝ Y) (f : Y → ℝ → Y) (hsys : Computes sys f) (L M H : ℝ) (hL : 0 ≤ L) (hM0 : 0 ≤ M) (hf : Lip f L)
    (obs : RhsEv ℝ Y → Except Exc Unit) (hobs : ∀ e, obs e = .ok ()) (pol : Int → ℝ → ℝ → ℝ) (hpol : ∀ n t d, 0 ≤ pol n t d ∧ pol n t d ≤ H) (start : ℝ) (N : Nat) (hN : (N : Int) < int32Max) (y0 : Y)
    (φ : ℝ → Y) (hφ : Solves f φ start (tSeq 0 pol start N)) (hM : Smooth1 f φ M start (tSeq 0 pol start N)) (m : EMem ℝ Y) (hlen : m.1.length = numRhs .AdamsBashforth2) :
    ∃ s, run 0 pol (asStepper sys .AdamsBashforth2 obs) N start y0 m = .ok () s ∧ ∀ k ≤ N, ∃ t y, (observations s.log)[k]? = some ((k : Int), t, y) ∧ (k = N → s.y = y) ∧
      ‖y - φ t‖ ≤ Real.exp (2 * L * (t - start)) * (‖y0 - φ start‖ + (t - start) * (M * H)) := by
  obtain ⟨s, a1, a2, a3⟩ := explicit_run sys f hsys .AdamsBashforth2 (by simp [isExplicit]) obs hobs pol start N hN y0 m hlen
  refine ⟨s, a1, ?_⟩
  have hH : 0 ≤ H := (hpol 0 0 0).1.trans (hpol 0 0 0).2
  obtain ⟨t, htd⟩ : ∃ t, t = tSeq 0 pol start := ⟨_, rfl⟩
  obtain ⟨h, hhd⟩ : ∃ h, h = hSeq 0 pol start := ⟨_, rfl⟩
  have hh : ∀ k, 0 ≤ h k := by intro k; rw [hhd]; exact (hpol _ _ _).1
  have hhH : ∀ k, h k ≤ H := by intro k; rw [hhd]; exact (hpol _ _ _).2
  have ht : ∀ k, t (k+1) = t k + h k := by intro k; rw [htd, hhd]; rfl
  have ht0 : t 0 = start := by rw [htd]; rfl
  have hmono := t_mono t h hh ht
  rw [← htd] at hφ hM
  rw [← htd, ← hhd] at a2
  simp only [← htd, ← hhd] at a3
  have hin : ∀ k ≤ N, t k ∈ Set.Icc start (t N) := fun k hk => ⟨ht0 ▸ hmono (Nat.zero_le k), hmono hk⟩
  have hsub : ∀ k < N, ∀ x ∈ Set.Icc (t k) (t k + h k), x ∈ Set.Icc start (t N) :=
    fun k hk x hx => ⟨(hin k (by omega)).1.trans hx.1, hx.2.trans (by rw [← ht k]; exact hmono (by omega : k + 1 ≤ N))⟩
  have hEuler : ∀ k < N, ‖φ (t k) + h k • f (φ (t k)) (t k) - φ (t (k+1))‖ ≤ h k * (M * H / 2) := by
    intro k hk
    have l := euler_local f φ M _ _ (hh k) (fun x hx => hφ x (hsub k hk x hx)) (fun x hx u hu => hM x (hsub k hk x hx) u (hsub k hk u hu))
    rw [euler_unfold, ← ht k] at l
    refine l.trans (mul_le_mul_of_nonneg_left ?_ (hh k))
    have := mul_le_mul_of_nonneg_left (hhH k) hM0
    linarith
  have hAB2 : ∀ k, k + 1 < N → ‖ab2 f y0 t h (k+2) - φ (t (k+2))‖ ≤ ‖ab2 f y0 t h (k+1) - φ (t (k+1))‖ + h (k+1) * (L * (3/2 * ‖ab2 f y0 t h (k+1) - φ (t (k+1))‖ + 1/2 * ‖ab2 f y0 t h k - φ (t k)‖) + M * H) := by
    intro k hk
    rw [ab2]
    set a := ab2 f y0 t h (k+1)
    set b := ab2 f y0 t h k
    have h1 := hEuler (k+1) hk
    have h2 := hf a (φ (t (k+1))) (t (k+1))
    have h3 := hf b (φ (t k)) (t k)
    have h4 := hM _ (hin (k+1) (by omega)) _ (hin k (by omega))
    rw [show t (k+1) - t k = h k by rw [ht k]; ring, abs_of_nonneg (hh k)] at h4
    set A := f a (t (k+1))
    set B := f b (t k)
    set A' := f (φ (t (k+1))) (t (k+1))
    set B' := f (φ (t k)) (t k)
    have e : a + h (k+1) • (((3:ℝ)/2) • A - ((1:ℝ)/2) • B) - φ (t (k+2)) =
        ((a - φ (t (k+1))) + h (k+1) • ((((3:ℝ)/2) • (A - A') - ((1:ℝ)/2) • (B - B')) + ((1:ℝ)/2) • (A' - B'))) + (φ (t (k+1)) + h (k+1) • A' - φ (t (k+2))) := by module
    rw [e]
    have n : ∀ (c : ℝ) (v : Y), 0 ≤ c → ‖c • v‖ = c * ‖v‖ := fun c v hc => by rw [norm_smul, Real.norm_of_nonneg hc]
    have i1 : ‖(((3:ℝ)/2) • (A - A') - ((1:ℝ)/2) • (B - B')) + ((1:ℝ)/2) • (A' - B')‖ ≤ L * (3/2 * ‖a - φ (t (k+1))‖ + 1/2 * ‖b - φ (t k)‖) + M * H / 2 := by
      refine (norm_add_le _ _).trans ?_
      have j1 := norm_sub_le (((3:ℝ)/2) • (A - A')) (((1:ℝ)/2) • (B - B'))
      rw [n _ _ (by norm_num), n _ _ (by norm_num)] at j1
      rw [n _ _ (by norm_num)]
      have := mul_le_mul_of_nonneg_left (hhH k) hM0
      linarith
    have i2 := mul_le_mul_of_nonneg_left i1 (hh (k+1))
    calc _ ≤ (‖a - φ (t (k+1))‖ + ‖h (k+1) • ((((3:ℝ)/2) • (A - A') - ((1:ℝ)/2) • (B - B')) + ((1:ℝ)/2) • (A' - B'))‖) + ‖φ (t (k+1)) + h (k+1) • A' - φ (t (k+2))‖ :=
          (norm_add_le _ _).trans (add_le_add_left (norm_add_le _ _) _)
      _ ≤ (‖a - φ (t (k+1))‖ + h (k+1) * (L * (3/2 * ‖a - φ (t (k+1))‖ + 1/2 * ‖b - φ (t k)‖) + M * H / 2)) + h (k+1) * (M * H / 2) := by
          rw [n _ _ (hh _)]
          exact add_le_add (add_le_add_right i2 _) h1
      _ = _ := by ring
  have hall : ∀ k ≤ N, ‖ab2 f y0 t h k - φ (t k)‖ ≤ Real.exp (2 * L * (t k - start)) * (‖y0 - φ start‖ + (t k - start) * (M * H)) := by
    intro k hk
    cases N with
    | zero =>
      obtain rfl : k = 0 := by omega
      rw [ht0]; simp [ab2]
    | succ N =>
      have := gronwall_two_step (fun k => ‖ab2 f y0 t h k - φ (t k)‖) t h L (M * H) hL (by positivity) (fun _ => norm_nonneg _) hh ht ‖y0 - φ start‖ (by simp [ab2, ht0]) (by
        show ‖y0 + h 0 • f y0 (t 0) - φ (t 1)‖ ≤ _
        have l := hEuler 0 (by omega)
        have e : y0 + h 0 • f y0 (t 0) - φ (t 1) = ((y0 + h 0 • f y0 (t 0)) - (φ (t 0) + h 0 • f (φ (t 0)) (t 0))) + (φ (t 0) + h 0 • f (φ (t 0)) (t 0) - φ (t (0+1))) := by abel
        rw [e]
        have d := norm_add_smul_diff y0 (φ (t 0)) (f y0 (t 0)) (f (φ (t 0)) (t 0)) (h 0) _ _ (hh 0) (hf _ _ _) le_rfl
        refine (norm_add_le _ _).trans ((add_le_add d l).trans ?_)
        rw [ht0]
        have q := Real.add_one_le_exp (2 * L * h 0)
        have q0 := mul_nonneg hL (hh 0)
        have q1 : 1 ≤ Real.exp (2 * L * h 0) := Real.one_le_exp (by linarith)
        have q2 := mul_le_mul_of_nonneg_right q (norm_nonneg (y0 - φ start))
        have q3 : h 0 * (M * H) ≤ Real.exp (2 * L * h 0) * (h 0 * (M * H)) := le_mul_of_one_le_left (mul_nonneg (hh 0) (by positivity)) q1
        have q4 := mul_nonneg q0 (norm_nonneg (y0 - φ start))
        have q5 : 0 ≤ h 0 * (M * H) := mul_nonneg (hh 0) (by positivity)
        nlinarith) N (fun j hj => hAB2 j (by omega)) k (by omega)
      rw [ht0] at this
      exact this.2
  intro k hk
  exact ⟨_, _, a3 k hk, by rintro rfl; exact a2, hall k hk⟩

/-- **C74, AdamsBashforth2, constant step size `η`.** Second order: the error is at most `exp(2 L (t - start)) (‖y₀ - φ(start)‖ + M2 η² / 2 + (t - start) 5/12 M3 η²)`. -/
theorem C74_adams_bashforth_constant_step (sys : System ℝ Y) (f : Y → ℝ → Y) (hsys : Computes sys f) (L M2 M3 η : ℝ) (hL : 0 ≤ L) (hM20 : 0 ≤ M2) (hM30 : 0 ≤ M3) (hη : 0 ≤ η) (hf : Lip f L)
    (obs : RhsEv ℝ Y → Except Exc Unit) (hobs : ∀ e, obs e = .ok ()) (start : ℝ) (N : Nat) (hN : (N : Int) < int32Max) (y0 : Y)
    (φ φ2 : ℝ → Y) (hφ : Solves f φ start (start + N * η)) (hM : Smooth2 f φ φ2 M2 M3 start (start + N * η)) (m : EMem ℝ Y) (hlen : m.1.length = numRhs .AdamsBashforth2) :
    ∃ s, run 0 (fun _ _ _ => η) (asStepper sys .AdamsBashforth2 obs) N start y0 m = .ok () s ∧ ∀ k ≤ N, ∃ t y, (observations s.log)[k]? = some ((k : Int), t, y) ∧ (k = N → s.y = y) ∧ t = start + k * η ∧
      ‖y - φ t‖ ≤ Real.exp (2 * L * (t - start)) * (‖y0 - φ start‖ + M2 * η ^ 2 / 2 + (t - start) * (5 / 12 * M3 * η ^ 2)) := by
  obtain ⟨s, a1, a2, a3⟩ := explicit_run sys f hsys .AdamsBashforth2 (by simp [isExplicit]) obs hobs (fun _ _ _ => η) start N hN y0 m hlen
  refine ⟨s, a1, ?_⟩
  have hclock : ∀ k : Nat, tSeq 0 (fun _ _ _ => η) start k = start + k * η := by
    intro k
    induction k with
    | zero => simp [tSeq, clock]
    | succ k ih =>
      have : tSeq 0 (fun _ _ _ => η) start (k+1) = tSeq 0 (fun _ _ _ => η) start k + η := rfl
      rw [this, ih]; push_cast; ring
  obtain ⟨t, htd⟩ : ∃ t, t = tSeq 0 (fun _ _ _ => η) start := ⟨_, rfl⟩
  obtain ⟨h, hhd⟩ : ∃ h, h = hSeq 0 (fun _ _ _ => η) start := ⟨_, rfl⟩
  have hk : ∀ k, h k = η := by intro k; rw [hhd]; rfl
  have hh : ∀ k, 0 ≤ h k := by intro k; rw [hk]; exact hη
  have ht : ∀ k, t (k+1) = t k + h k := by intro k; rw [htd, hhd]; rfl
  have ht0 : t 0 = start := by rw [htd]; rfl
  have hmono := t_mono t h hh ht
  rw [← hclock N, ← htd] at hφ hM
  rw [← htd, ← hhd] at a2
  simp only [← htd, ← hhd] at a3
  have hin : ∀ k ≤ N, t k ∈ Set.Icc start (t N) := fun k hk => ⟨ht0 ▸ hmono (Nat.zero_le k), hmono hk⟩
  have hsub : ∀ k < N, ∀ x ∈ Set.Icc (t k) (t (k+1)), x ∈ Set.Icc start (t N) :=
    fun k hk x hx => ⟨(hin k (by omega)).1.trans hx.1, hx.2.trans (hmono (by omega : k + 1 ≤ N))⟩
  have hη' : ∀ k, t (k+1) - t k = η := by intro k; rw [ht, hk]; ring
  have hloc : ∀ k, k + 1 < N → ‖φ (t (k+1)) + h (k+1) • (((3:ℝ)/2) • f (φ (t (k+1))) (t (k+1)) - ((1:ℝ)/2) • f (φ (t k)) (t k)) - φ (t (k+2))‖ ≤ h (k+1) * (5 / 12 * M3 * η ^ 2) := by
    intro k hkN
    have l1 := taylor_second φ (fun s => f (φ s) s) φ2 (t (k+1)) (t (k+2)) M3 (hmono (by omega)) (fun x hx => hφ x (hsub (k+1) hkN x hx)) (fun x hx => (hM.1 x (hsub (k+1) hkN x hx)).1) (fun x hx => by
      have := hM.2 x (hsub (k+1) hkN x hx) _ (hin (k+1) (by omega))
      rwa [abs_of_nonneg (by linarith [hx.1])] at this)
    have l2 := taylor_right (fun s => f (φ s) s) φ2 (t k) (t (k+1)) M3 (hmono (by omega)) (fun x hx => (hM.1 x (hsub k (by omega) x hx)).1) (fun x hx => by
      have := hM.2 x (hsub k (by omega) x hx) _ (hin (k+1) (by omega))
      rwa [abs_of_nonpos (by linarith [hx.2]), neg_sub] at this)
    rw [hη'] at l1 l2
    rw [hk]
    set A := f (φ (t (k+1))) (t (k+1))
    set B := f (φ (t k)) (t k)
    have e : φ (t (k+1)) + η • (((3:ℝ)/2) • A - ((1:ℝ)/2) • B) - φ (t (k+2)) =
        (η / 2) • (A - B - η • φ2 (t (k+1))) - (φ (t (k+2)) - φ (t (k+1)) - η • A - (η ^ 2 / 2) • φ2 (t (k+1))) := by module
    rw [e]
    refine (norm_sub_le _ _).trans ?_
    rw [norm_smul, Real.norm_of_nonneg (by positivity)]
    have := mul_le_mul_of_nonneg_left l2 (by positivity : 0 ≤ η / 2)
    calc _ ≤ η / 2 * (M3 * η ^ 2 / 2) + M3 * η ^ 3 / 6 := add_le_add this l1
      _ = _ := by ring
  have hAB2 : ∀ k, k + 1 < N → ‖ab2 f y0 t h (k+2) - φ (t (k+2))‖ ≤ ‖ab2 f y0 t h (k+1) - φ (t (k+1))‖ + h (k+1) * (L * (3/2 * ‖ab2 f y0 t h (k+1) - φ (t (k+1))‖ + 1/2 * ‖ab2 f y0 t h k - φ (t k)‖) + 5 / 12 * M3 * η ^ 2) := by
    intro k hkN
    rw [ab2]
    set a := ab2 f y0 t h (k+1)
    set b := ab2 f y0 t h k
    have h1 := hloc k hkN
    have h2 := hf a (φ (t (k+1))) (t (k+1))
    have h3 := hf b (φ (t k)) (t k)
    set A := f a (t (k+1))
    set B := f b (t k)
    set A' := f (φ (t (k+1))) (t (k+1))
    set B' := f (φ (t k)) (t k)
    have e : a + h (k+1) • (((3:ℝ)/2) • A - ((1:ℝ)/2) • B) - φ (t (k+2)) =
        ((a - φ (t (k+1))) + h (k+1) • (((3:ℝ)/2) • (A - A') - ((1:ℝ)/2) • (B - B'))) + (φ (t (k+1)) + h (k+1) • (((3:ℝ)/2) • A' - ((1:ℝ)/2) • B') - φ (t (k+2))) := by module
    rw [e]
    have n : ∀ (c : ℝ) (v : Y), 0 ≤ c → ‖c • v‖ = c * ‖v‖ := fun c v hc => by rw [norm_smul, Real.norm_of_nonneg hc]
    have i1 : ‖((3:ℝ)/2) • (A - A') - ((1:ℝ)/2) • (B - B')‖ ≤ L * (3/2 * ‖a - φ (t (k+1))‖ + 1/2 * ‖b - φ (t k)‖) := by
      have j1 := norm_sub_le (((3:ℝ)/2) • (A - A')) (((1:ℝ)/2) • (B - B'))
      rw [n _ _ (by norm_num), n _ _ (by norm_num)] at j1
      linarith
    have i2 := mul_le_mul_of_nonneg_left i1 (hh (k+1))
    calc _ ≤ (‖a - φ (t (k+1))‖ + ‖h (k+1) • (((3:ℝ)/2) • (A - A') - ((1:ℝ)/2) • (B - B'))‖) + ‖φ (t (k+1)) + h (k+1) • (((3:ℝ)/2) • A' - ((1:ℝ)/2) • B') - φ (t (k+2))‖ :=
          (norm_add_le _ _).trans (add_le_add_left (norm_add_le _ _) _)
      _ ≤ (‖a - φ (t (k+1))‖ + h (k+1) * (L * (3/2 * ‖a - φ (t (k+1))‖ + 1/2 * ‖b - φ (t k)‖))) + h (k+1) * (5 / 12 * M3 * η ^ 2) := by
          rw [n _ _ (hh _)]
          exact add_le_add (add_le_add_right i2 _) h1
      _ = _ := by ring
  have hall : ∀ k ≤ N, ‖ab2 f y0 t h k - φ (t k)‖ ≤ Real.exp (2 * L * (t k - start)) * (‖y0 - φ start‖ + M2 * η ^ 2 / 2 + (t k - start) * (5 / 12 * M3 * η ^ 2)) := by
    intro k hkN
    cases N with
    | zero =>
      obtain rfl : k = 0 := by omega
      rw [ht0]
      have : 0 ≤ M2 * η ^ 2 / 2 := by positivity
      simpa [ab2] using this
    | succ N =>
      have := gronwall_two_step (fun k => ‖ab2 f y0 t h k - φ (t k)‖) t h L (5 / 12 * M3 * η ^ 2) hL (by positivity) (fun _ => norm_nonneg _) hh ht (‖y0 - φ start‖ + M2 * η ^ 2 / 2) (by
        have : 0 ≤ M2 * η ^ 2 / 2 := by positivity
        simpa [ab2, ht0] using this) (by
        show ‖y0 + h 0 • f y0 (t 0) - φ (t 1)‖ ≤ _
        have l := euler_local f φ M2 (t 0) (h 0) (hh 0) (fun x hx => hφ x (hsub 0 (by omega) x (by rwa [ht 0]))) (fun x hx u hu => hM.smooth1 x (hsub 0 (by omega) x (by rwa [ht 0])) u (hsub 0 (by omega) u (by rwa [ht 0])))
        rw [euler_unfold, ← ht 0] at l
        have e : y0 + h 0 • f y0 (t 0) - φ (t 1) = ((y0 + h 0 • f y0 (t 0)) - (φ (t 0) + h 0 • f (φ (t 0)) (t 0))) + (φ (t 0) + h 0 • f (φ (t 0)) (t 0) - φ (t (0+1))) := by abel
        rw [e]
        have d := norm_add_smul_diff y0 (φ (t 0)) (f y0 (t 0)) (f (φ (t 0)) (t 0)) (h 0) _ _ (hh 0) (hf _ _ _) le_rfl
        refine (norm_add_le _ _).trans ((add_le_add d l).trans ?_)
        rw [ht0, hk]
        have q := Real.add_one_le_exp (2 * L * η)
        have q0 := mul_nonneg hL hη
        have q1 : 1 ≤ Real.exp (2 * L * η) := Real.one_le_exp (by linarith)
        have q2 := mul_le_mul_of_nonneg_right q (norm_nonneg (y0 - φ start))
        have q6 : 0 ≤ M2 * η ^ 2 / 2 := by positivity
        have q3 : M2 * η ^ 2 / 2 ≤ Real.exp (2 * L * η) * (M2 * η ^ 2 / 2) := le_mul_of_one_le_left q6 q1
        have q4 := mul_nonneg q0 (norm_nonneg (y0 - φ start))
        have q5 : 0 ≤ Real.exp (2 * L * η) * (η * (5 / 12 * M3 * η ^ 2)) := by positivity
        nlinarith) N (fun j hj => hAB2 j (by omega)) k (by omega)
      rw [ht0] at this
      exact this.2
  intro k hkN
  exact ⟨_, _, a3 k hkN, by rintro rfl; exact a2, by rw [htd]; exact hclock k, hall k hkN⟩

/-! ### Linear systems -/

/-- Taylor remainder of the solution of a linear system -/
theorem linear_remainder (A : Y →L[ℝ] Y) (φ : ℝ → Y) (B t h : ℝ) (hφ : ∀ s ∈ Set.Icc t (t + h), HasDerivAt φ (A (φ s)) s) (hB : ∀ s ∈ Set.Icc t (t + h), ‖φ s‖ ≤ B) (n : Nat) :
    ∀ x ∈ Set.Icc 0 h, ‖φ (t + x) - ∑ k ∈ Finset.range n, (x ^ k / (Nat.factorial k : ℝ)) • ((A : Y →ₗ[ℝ] Y) ^ k) (φ t)‖ ≤ B * ‖A‖ ^ n * x ^ n / (Nat.factorial n : ℝ) := by
  have hmono : ∀ n (x : ℝ), HasDerivAt (fun x : ℝ => x ^ (n+1) / (Nat.factorial (n+1) : ℝ)) (x ^ n / (Nat.factorial n : ℝ)) x := by
    intro n x
    refine ((hasDerivAt_pow (n+1) x).div_const _).congr_deriv ?_
    have : (Nat.factorial n : ℝ) ≠ 0 := by positivity
    rw [Nat.factorial_succ]
    push_cast
    have h2 : ((n:ℝ) + 1) ≠ 0 := by positivity
    field_simp
  have hS : ∀ n (x : ℝ), HasDerivAt (fun x : ℝ => ∑ k ∈ Finset.range (n+1), (x ^ k / (Nat.factorial k : ℝ)) • ((A : Y →ₗ[ℝ] Y) ^ k) (φ t))
      (A (∑ k ∈ Finset.range n, (x ^ k / (Nat.factorial k : ℝ)) • ((A : Y →ₗ[ℝ] Y) ^ k) (φ t))) x := by
    intro n
    induction n with
    | zero => intro x; simpa using hasDerivAt_const x (φ t)
    | succ n ih =>
      intro x
      have h1 := (ih x).add ((hmono n x).smul_const (((A : Y →ₗ[ℝ] Y) ^ (n+1)) (φ t)))
      have e : (fun x : ℝ => ∑ k ∈ Finset.range (n+1+1), (x ^ k / (Nat.factorial k : ℝ)) • ((A : Y →ₗ[ℝ] Y) ^ k) (φ t)) =
          (fun x : ℝ => ∑ k ∈ Finset.range (n+1), (x ^ k / (Nat.factorial k : ℝ)) • ((A : Y →ₗ[ℝ] Y) ^ k) (φ t)) + (fun x : ℝ => (x ^ (n+1) / (Nat.factorial (n+1) : ℝ)) • ((A : Y →ₗ[ℝ] Y) ^ (n+1)) (φ t)) := by
        funext x; rw [Pi.add_apply, Finset.sum_range_succ]
      rw [e]
      refine h1.congr_deriv ?_
      rw [Finset.sum_range_succ, map_add, map_smul, pow_succ']
      rfl
  induction n with
  | zero =>
    intro x hx
    simpa using hB (t + x) ⟨by linarith [hx.1], by linarith [hx.2]⟩
  | succ n ih =>
    intro x hx
    have key := increment_le (fun x => φ (t + x) - ∑ k ∈ Finset.range (n+1), (x ^ k / (Nat.factorial k : ℝ)) • ((A : Y →ₗ[ℝ] Y) ^ k) (φ t))
      (fun x => A (φ (t + x) - ∑ k ∈ Finset.range n, (x ^ k / (Nat.factorial k : ℝ)) • ((A : Y →ₗ[ℝ] Y) ^ k) (φ t))) 0 x hx.1 (by
        intro s hs
        have h1 : HasDerivAt (fun x => φ (t + x)) (A (φ (t + s))) s := (hφ (t + s) ⟨by linarith [hs.1], by linarith [hs.2, hx.2]⟩).comp_const_add t s
        rw [map_sub]
        exact h1.sub (hS n s)) 0 (fun x => B * ‖A‖ ^ (n+1) * (x ^ (n+1) / (Nat.factorial (n+1) : ℝ))) (fun x => B * ‖A‖ ^ (n+1) * (x ^ n / (Nat.factorial n : ℝ))) (by simp)
      (fun x => (hmono n x).const_mul _) (by
        intro s hs
        rw [sub_zero]
        refine (A.le_opNorm _).trans ?_
        have := mul_le_mul_of_nonneg_left (ih s ⟨hs.1, hs.2.trans hx.2⟩) (norm_nonneg A)
        refine this.trans (le_of_eq ?_)
        rw [pow_succ]; ring)
    have e0 : ∑ k ∈ Finset.range (n+1), ((0:ℝ) ^ k / (Nat.factorial k : ℝ)) • ((A : Y →ₗ[ℝ] Y) ^ k) (φ t) = φ t := by
      rw [Finset.sum_range_succ']
      simp
    rw [e0] at key
    simp only [add_zero, sub_self, sub_zero, smul_zero] at key
    refine key.trans (le_of_eq ?_)
    ring

/-- **C74, linear systems.** For `y' = A y` the schemes have their full order `p` (1 for ForwardEuler, 3 for SSPRungeKutta3, 4 for RungeKutta4): the error at every observation is at most
    `exp(‖A‖ (t - start)) (‖y₀ - φ(start)‖ + (t - start) B ‖A‖^(p+1) H^p / (p+1)!)`, where `B` bounds the solution. -/
theorem C74_linear_systems (sys : System ℝ Y) (A : Y →L[ℝ] Y) (hsys : Computes sys (fun y _ => A y)) (B H : ℝ)
    (scheme : Scheme) (hs : scheme = .ForwardEuler ∨ scheme = .SSPRungeKutta3 ∨ scheme = .RungeKutta4)
    (obs : RhsEv ℝ Y → Except Exc Unit) (hobs : ∀ e, obs e = .ok ()) (pol : Int → ℝ → ℝ → ℝ) (hpol : ∀ n t d, 0 ≤ pol n t d ∧ pol n t d ≤ H) (start : ℝ) (N : Nat) (hN : (N : Int) < int32Max) (y0 : Y)
    (φ : ℝ → Y) (hφ : ∀ s ∈ Set.Icc start (tSeq 0 pol start N), HasDerivAt φ (A (φ s)) s ∧ ‖φ s‖ ≤ B) (m : EMem ℝ Y) (hlen : m.1.length = numRhs scheme) :
    ∃ s, run 0 pol (asStepper sys scheme obs) N start y0 m = .ok () s ∧ ∀ k ≤ N, ∃ t y, (observations s.log)[k]? = some ((k : Int), t, y) ∧ (k = N → s.y = y) ∧
      ‖y - φ t‖ ≤ Real.exp (‖A‖ * (t - start)) * (‖y0 - φ start‖ + (t - start) * (B * ‖A‖ ^ (orderOf scheme + 1) * H ^ orderOf scheme / (Nat.factorial (orderOf scheme + 1) : ℝ))) := by
  obtain ⟨s, a1, a2, a3⟩ := explicit_run sys _ hsys scheme (by rcases hs with rfl | rfl | rfl <;> simp [isExplicit]) obs hobs pol start N hN y0 m hlen
  refine ⟨s, a1, ?_⟩
  have hmono := t_mono (tSeq 0 pol start) (hSeq 0 pol start) (fun k => (hpol _ _ _).1) (fun k => rfl)
  obtain ⟨tab, htab⟩ : ∃ tab : Tableau ℝ, tableauOf scheme = some tab := by rcases hs with rfl | rfl | rfl <;> exact ⟨_, rfl⟩
  have hB0 : 0 ≤ B := (norm_nonneg _).trans (hφ start ⟨le_rfl, hmono (Nat.zero_le N)⟩).2
  have hH : 0 ≤ H := (hpol 0 0 0).1.trans (hpol 0 0 0).2
  have hLip : Lip (fun (y : Y) (_ : ℝ) => A y) ‖A‖ := by intro y z t; rw [← map_sub]; exact A.le_opNorm _
  have := one_step_convergence (fun y _ => A y) φ ‖A‖ (B * ‖A‖ ^ (orderOf scheme + 1) * H ^ orderOf scheme / (Nat.factorial (orderOf scheme + 1) : ℝ)) (norm_nonneg _) (by positivity) hLip scheme tab htab y0
    (tSeq 0 pol start) (hSeq 0 pol start) (fun k => (hpol _ _ _).1) (fun k => rfl) N (by
    intro k hk
    have hk0 : 0 ≤ hSeq 0 pol start k := (hpol _ _ _).1
    have hkH : hSeq 0 pol start k ≤ H := (hpol _ _ _).2
    have hsub : ∀ x ∈ Set.Icc (tSeq 0 pol start k) (tSeq 0 pol start k + hSeq 0 pol start k), x ∈ Set.Icc start (tSeq 0 pol start N) :=
      fun x hx => ⟨(hmono (Nat.zero_le k)).trans hx.1, hx.2.trans (hmono (by omega : k + 1 ≤ N))⟩
    have l := linear_remainder A φ B (tSeq 0 pol start k) (hSeq 0 pol start k) (fun x hx => (hφ x (hsub x hx)).1) (fun x hx => (hφ x (hsub x hx)).2) (orderOf scheme + 1) _ ⟨hk0, le_rfl⟩
    have e := rkStep_linear (A : Y →ₗ[ℝ] Y) (φ (tSeq 0 pol start k)) (tSeq 0 pol start k) (hSeq 0 pol start k) scheme tab htab
    have e' : rkStep tab (fun (y : Y) (_ : ℝ) => A y) (φ (tSeq 0 pol start k)) (tSeq 0 pol start k) (hSeq 0 pol start k) = taylorExp (A : Y →ₗ[ℝ] Y) (hSeq 0 pol start k) (orderOf scheme) (φ (tSeq 0 pol start k)) := e
    rw [e', norm_sub_rev]
    refine l.trans ?_
    have hq : B * ‖A‖ ^ (orderOf scheme + 1) * hSeq 0 pol start k ^ (orderOf scheme + 1) / (Nat.factorial (orderOf scheme + 1) : ℝ) ≤
        hSeq 0 pol start k * (B * ‖A‖ ^ (orderOf scheme + 1) * H ^ orderOf scheme / (Nat.factorial (orderOf scheme + 1) : ℝ)) := by
      have : hSeq 0 pol start k ^ orderOf scheme ≤ H ^ orderOf scheme := by gcongr
      calc _ = hSeq 0 pol start k * (B * ‖A‖ ^ (orderOf scheme + 1) * hSeq 0 pol start k ^ orderOf scheme / (Nat.factorial (orderOf scheme + 1) : ℝ)) := by rw [pow_succ (hSeq 0 pol start k)]; ring
        _ ≤ _ := by gcongr
    exact hq.trans (le_mul_of_one_le_left (by positivity) (Real.one_le_exp (mul_nonneg (norm_nonneg _) hk0))))
  intro k hk
  exact ⟨_, _, a3 k hk, by rintro rfl; exact a2, (this k hk).2⟩

/-! ### AdamsBashforth2 with step sizes that are not constant -/

/-- step sizes `a, 2a, a, 2a, ...` (steps are counted from 1) -/
noncomputable def alternating (a : ℝ) : Int → ℝ → ℝ → ℝ := fun n _ _ => if n % 2 = 0 then 2 * a else a

/-- **C74, refuted for AdamsBashforth2 with non-constant steps.** For `y' = t` (as smooth as can be, solution `t²/2`) and steps `a, 2a, a, 2a, ...` the result at `t = 3 n a` is too small by `a² (n + 2) / 2 ≥ t a / 6`: with
    `H = 2 a` the error at a fixed time is at least `t H / 12`, so the order is one, not two. -/
theorem C74_refuted_adams_bashforth_second_order (sys : System ℝ ℝ) (hsys : Computes sys (fun _ t => t)) (obs : RhsEv ℝ ℝ → Except Exc Unit) (hobs : ∀ e, obs e = .ok ())
    (a : ℝ) (ha : 0 < a) (n : Nat) (hn : 1 ≤ n) (hN : ((2 * n : Nat) : Int) < int32Max) (m : EMem ℝ ℝ) (hlen : m.1.length = numRhs .AdamsBashforth2) :
    ∃ s, run 0 (alternating a) (asStepper sys .AdamsBashforth2 obs) (2 * n) 0 0 m = .ok () s ∧ tSeq 0 (alternating a) 0 (2 * n) = 3 * n * a ∧
      s.y = (3 * n * a) ^ 2 / 2 - a ^ 2 * (n + 2) / 2 ∧ (3 * n * a) * (2 * a) / 12 ≤ ‖s.y - (3 * n * a) ^ 2 / 2‖ := by
  obtain ⟨s, a1, a2, -⟩ := explicit_run sys _ hsys .AdamsBashforth2 (by simp [isExplicit]) obs hobs (alternating a) 0 (2 * n) hN 0 m hlen
  have hs : ∀ k : Nat, hSeq 0 (alternating a) 0 (2 * k) = a ∧ hSeq 0 (alternating a) 0 (2 * k + 1) = 2 * a := by
    intro k
    constructor
    · simp only [hSeq, alternating]; rw [if_neg (by omega)]
    · simp only [hSeq, alternating]; rw [if_pos (by omega)]
  have htn : ∀ k, tSeq 0 (alternating a) 0 (k + 1) = tSeq 0 (alternating a) 0 k + hSeq 0 (alternating a) 0 k := fun k => rfl
  have ht : ∀ k : Nat, tSeq 0 (alternating a) 0 (2 * k) = 3 * k * a := by
    intro k
    induction k with
    | zero => simp [tSeq, clock]
    | succ k ih => rw [show 2 * (k + 1) = 2 * k + 1 + 1 by ring, htn, htn, ih, (hs k).1, (hs k).2]; push_cast; ring
  have ht1 : ∀ k : Nat, tSeq 0 (alternating a) 0 (2 * k + 1) = 3 * k * a + a := by intro k; rw [htn, ht, (hs k).1]
  have hy : ∀ k : Nat, ab2 (fun _ t : ℝ => t) 0 (tSeq 0 (alternating a) 0) (hSeq 0 (alternating a) 0) (2 * k + 2) = (3 * (k + 1) * a) ^ 2 / 2 - a ^ 2 * (k + 3) / 2 := by
    intro k
    induction k with
    | zero =>
      have e0 := ht 0; have e1 := ht1 0; have e2 := hs 0
      simp only [Nat.mul_zero, Nat.cast_zero, zero_add] at e0 e1 e2 ⊢
      simp only [ab2, e0, e1, e2.1, e2.2, smul_eq_mul]
      ring
    | succ k ih =>
      have e : ab2 (fun _ t : ℝ => t) 0 (tSeq 0 (alternating a) 0) (hSeq 0 (alternating a) 0) (2 * (k + 1) + 2) =
          ab2 (fun _ t : ℝ => t) 0 (tSeq 0 (alternating a) 0) (hSeq 0 (alternating a) 0) (2 * k + 2) +
            hSeq 0 (alternating a) 0 (2 * (k + 1)) * ((3/2) * tSeq 0 (alternating a) 0 (2 * (k + 1)) - (1/2) * tSeq 0 (alternating a) 0 (2 * k + 1)) +
            hSeq 0 (alternating a) 0 (2 * (k + 1) + 1) * ((3/2) * tSeq 0 (alternating a) 0 (2 * (k + 1) + 1) - (1/2) * tSeq 0 (alternating a) 0 (2 * (k + 1))) := rfl
      rw [e, ih, ht, ht1, ht1, (hs _).1, (hs _).2]
      push_cast
      ring
  have hfin : s.y = (3 * n * a) ^ 2 / 2 - a ^ 2 * (n + 2) / 2 := by
    obtain ⟨k, rfl⟩ : ∃ k, n = k + 1 := ⟨n - 1, by omega⟩
    rw [a2]
    have : seqOf .AdamsBashforth2 (fun _ t : ℝ => t) 0 (tSeq 0 (alternating a) 0) (hSeq 0 (alternating a) 0) (2 * (k + 1)) = _ := hy k
    rw [this]; push_cast; ring
  refine ⟨s, a1, ht n, hfin, ?_⟩
  rw [hfin, Real.norm_eq_abs]
  refine le_trans ?_ (neg_le_abs _)
  nlinarith [sq_nonneg a]

/-! ### A problem that meets the hypotheses -/

/-- `y' = -(y - t²) + 2 t`, with solution `t²` -/
def relaxation (y t : ℝ) : ℝ := -(y - t ^ 2) + 2 * t

theorem relaxation_lip : Lip relaxation 1 := by
  intro y z t
  have : relaxation y t - relaxation z t = -(y - z) := by simp only [relaxation]; ring
  rw [this, norm_neg, one_mul]

theorem relaxation_solves (a b : ℝ) : Solves relaxation (fun t => t ^ 2) a b := by
  intro s _
  have : HasDerivAt (fun t : ℝ => t ^ 2) (2 * s) s := by simpa using hasDerivAt_pow 2 s
  simpa [relaxation] using this

theorem relaxation_smooth (a b : ℝ) : Smooth2 relaxation (fun t => t ^ 2) (fun _ => 2) 2 0 a b := by
  refine ⟨fun s _ => ⟨?_, by simp⟩, fun s _ u _ => by simp⟩
  have e : (fun s : ℝ => relaxation (s ^ 2) s) = fun s => 2 * s := by funext s; simp [relaxation]
  rw [e]
  simpa using (hasDerivAt_id s).const_mul 2

/-- the hypotheses of C73: `y' = -y` and `y' = -y + 1/100` -/
example : Lip (fun (y : ℝ) (_ : ℝ) => -y) 1 ∧ ∀ y _t : ℝ, ‖(-y) - (-y + 1/100)‖ ≤ (1/100 : ℝ) := by
  refine ⟨fun y z t => ?_, fun y _ => ?_⟩
  · rw [show -y - -z = -(y - z) by ring, norm_neg, one_mul]
  · rw [show -y - (-y + 1/100) = -(1/100 : ℝ) by ring, norm_neg, Real.norm_of_nonneg (by norm_num)]

/-- the problem as an object that overwrites what it is given -/
def relaxationSystem : System ℝ ℝ := ⟨fun y t _ => .ok () (relaxation y t)⟩
theorem relaxation_computes : Computes relaxationSystem relaxation := fun _ _ _ => rfl
/-- sizes 1/50 at odd and 1/100 at even steps -/
noncomputable def twoSizes : Int → ℝ → ℝ → ℝ := fun n _ _ => if n % 2 = 0 then 1/100 else 1/50
theorem twoSizes_range (n : Int) (t d : ℝ) : 0 ≤ twoSizes n t d ∧ twoSizes n t d ≤ 1/50 := by
  unfold twoSizes
  split <;> norm_num

/-- hundred steps from an initial value that is off by 3 -/
example := C74_forward_euler relaxationSystem relaxation relaxation_computes 1 2 (1/50) (by norm_num) (by norm_num) relaxation_lip
  dummyObserver (fun _ => rfl) twoSizes twoSizes_range 0 100 (by decide) 3 _ (relaxation_solves _ _)
  ((relaxation_smooth _ _).smooth1) ([7], 7, []) rfl
example := C74_runge_kutta_rough relaxationSystem relaxation relaxation_computes 1 2 0 (1/50) (by norm_num) (by norm_num) (by norm_num) relaxation_lip
  .RungeKutta4 (Or.inr rfl) dummyObserver (fun _ => rfl) twoSizes twoSizes_range 0 100 (by decide) 3 _ _ (relaxation_solves _ _)
  (relaxation_smooth _ _) ([7, 7, 7, 7], 7, []) rfl
example := C74_adams_bashforth relaxationSystem relaxation relaxation_computes 1 2 (1/50) (by norm_num) (by norm_num) relaxation_lip
  dummyObserver (fun _ => rfl) twoSizes twoSizes_range 0 100 (by decide) 3 _ (relaxation_solves _ _)
  ((relaxation_smooth _ _).smooth1) ([7, 7], 7, []) rfl
example := C74_adams_bashforth_constant_step relaxationSystem relaxation relaxation_computes 1 2 0 (1/50) (by norm_num) (by norm_num) (by norm_num)
  (by norm_num) relaxation_lip dummyObserver (fun _ => rfl) 0 100 (by decide) 3 _ _ (relaxation_solves _ _) (relaxation_smooth _ _) ([7, 7], 7, []) rfl
/-- the decay `y' = -y` from a perturbed initial value -/
example := C74_linear_systems decay (-ContinuousLinearMap.id ℝ ℝ) (fun _ _ _ => rfl) 1 (1/50) .SSPRungeKutta3 (Or.inr (Or.inl rfl)) dummyObserver (fun _ => rfl)
  twoSizes twoSizes_range 0 100 (by decide) (11/10) (fun t => Real.exp (-t))
  (fun s hs => ⟨by simpa using HasDerivAt.exp (hasDerivAt_neg s), by rw [Real.norm_eq_abs, Real.abs_exp, Real.exp_le_one_iff]; linarith [hs.1]⟩) ([7], 7, []) rfl
/-- C73: the same problem with right-hand sides that differ by 1/100 -/
example := C73_dependence_on_data relaxationSystem ⟨fun y t _ => .ok () (relaxation y t + 1/100)⟩ relaxation (fun y t => relaxation y t + 1/100)
  relaxation_computes (fun _ _ _ => rfl) 1 (1/100) (by norm_num) (by norm_num) relaxation_lip
  (fun y t => by rw [sub_add_cancel_left, norm_neg, Real.norm_of_nonneg (by norm_num)])
  .AdamsBashforth2 (Or.inr (Or.inr (Or.inr rfl))) dummyObserver dummyObserver (fun _ => rfl) (fun _ => rfl) twoSizes (fun n t d => (twoSizes_range n t d).1) 0 100 (by decide)
  3 4 ([7, 7], 7, []) ([8, 8], 8, []) rfl rfl

end Pressio.Props
