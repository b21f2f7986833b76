import Verif.Lemmas.Numerics
import Mathlib.Analysis.Calculus.ContDiff.Basic
import Mathlib.Analysis.Calculus.ContDiff.FiniteDimension
import Mathlib.Analysis.Calculus.MeanValue
import Mathlib.Analysis.Normed.Module.FiniteDimension
import Mathlib.Tactic.Module
import Mathlib.Analysis.Calculus.Deriv.Shift

/-
  Expansions in powers of the step size, uniformly along a bounded curve: lemmas for C74.
-/
namespace Pressio.Lemmas.TaylorOrder
set_option autoImplicit false
set_option linter.unusedSectionVars false
open Pressio.Lemmas.Numerics

variable {Z : Type} [NormedAddCommGroup Z] [NormedSpace ℝ Z]

/-- continuous linear maps; written so that the norms of repeated derivatives are found -/
abbrev Lin (Z E : Type) [NormedAddCommGroup Z] [NormedSpace ℝ Z] [NormedAddCommGroup E] [NormedSpace ℝ E] := Z →L[ℝ] E

/-- `u` is at most a constant times the `p`-th power of the second coordinate, on `D` -/
def Small (D : Set (ℝ × ℝ)) (p : Nat) (u : ℝ × ℝ → Z) : Prop := ∃ C, 0 ≤ C ∧ ∀ x ∈ D, ‖u x‖ ≤ C * x.2 ^ p

/-- the second coordinate is between 0 and `H` -/
def Steps (D : Set (ℝ × ℝ)) (H : ℝ) : Prop := ∀ x ∈ D, 0 ≤ x.2 ∧ x.2 ≤ H

variable {D : Set (ℝ × ℝ)} {H : ℝ} {p q r : Nat} {u v w : ℝ × ℝ → Z}

theorem Small.add (hu : Small D p u) (hv : Small D p v) : Small D p (fun x => u x + v x) := by
  obtain ⟨C, hC, h1⟩ := hu
  obtain ⟨C', hC', h2⟩ := hv
  refine ⟨C + C', add_nonneg hC hC', fun x hx => ?_⟩
  rw [add_mul]
  exact (norm_add_le _ _).trans (add_le_add (h1 x hx) (h2 x hx))

theorem Small.neg (hu : Small D p u) : Small D p (fun x => -u x) := by
  obtain ⟨C, hC, h1⟩ := hu
  exact ⟨C, hC, fun x hx => by rw [norm_neg]; exact h1 x hx⟩

theorem Small.sub (hu : Small D p u) (hv : Small D p v) : Small D p (fun x => u x - v x) := by
  simpa only [sub_eq_add_neg] using hu.add hv.neg

theorem Small.const_smul (c : ℝ) (hu : Small D p u) : Small D p (fun x => c • u x) := by
  obtain ⟨C, hC, h1⟩ := hu
  refine ⟨|c| * C, by positivity, fun x hx => ?_⟩
  rw [norm_smul, Real.norm_eq_abs, mul_assoc]
  exact mul_le_mul_of_nonneg_left (h1 x hx) (abs_nonneg c)

theorem Small.congr (hu : Small D p u) (h : ∀ x ∈ D, v x = u x) : Small D p v := by
  obtain ⟨C, hC, h1⟩ := hu
  exact ⟨C, hC, fun x hx => by rw [h x hx]; exact h1 x hx⟩

theorem Small.pow_smul (hD : Steps D H) (k : Nat) (hu : Small D p u) : Small D (p + k) (fun x => x.2 ^ k • u x) := by
  obtain ⟨C, hC, h1⟩ := hu
  refine ⟨C, hC, fun x hx => ?_⟩
  have h0 := (hD x hx).1
  rw [norm_smul, Real.norm_eq_abs, abs_of_nonneg (by positivity)]
  calc x.2 ^ k * ‖u x‖ ≤ x.2 ^ k * (C * x.2 ^ p) := mul_le_mul_of_nonneg_left (h1 x hx) (by positivity)
    _ = C * x.2 ^ (p + k) := by ring

theorem Small.mono (hD : Steps D H) (hu : Small D q u) (hpq : p ≤ q) : Small D p u := by
  obtain ⟨C, hC, h1⟩ := hu
  refine ⟨C * |H| ^ (q - p), by positivity, fun x hx => (h1 x hx).trans ?_⟩
  have h0 := (hD x hx).1
  have h2 : x.2 ^ (q - p) ≤ |H| ^ (q - p) := pow_le_pow_left₀ h0 ((hD x hx).2.trans (le_abs_self H)) _
  calc C * x.2 ^ q = C * (x.2 ^ (q - p) * x.2 ^ p) := by rw [← pow_add, Nat.sub_add_cancel hpq]
    _ ≤ C * (|H| ^ (q - p) * x.2 ^ p) := by gcongr
    _ = _ := by ring

/-- one term of an expansion -/
theorem Small.term (hD : Steps D H) (k : Nat) (hk : p ≤ k) (c : ℝ) (hu : Small D 0 u) : Small D p (fun x => (c * x.2 ^ k) • u x) := by
  have := ((hu.pow_smul hD k).const_smul c).mono (p := p) hD (by omega)
  simpa only [smul_smul] using this

section Maps
variable {A1 : ℝ × ℝ → Lin Z Z} {A2 : ℝ × ℝ → Lin Z (Lin Z Z)} {A3 : ℝ × ℝ → Lin Z (Lin Z (Lin Z Z))}

theorem Small.lin (hA : Small D 0 A1) (hu : Small D p u) : Small D p (fun x => A1 x (u x)) := by
  obtain ⟨B, hB, h0⟩ := hA
  obtain ⟨C, hC, h1⟩ := hu
  refine ⟨B * C, by positivity, fun x hx => ((A1 x).le_opNorm _).trans ?_⟩
  have h0 := h0 x hx
  rw [pow_zero, mul_one] at h0
  rw [mul_assoc]
  exact mul_le_mul h0 (h1 x hx) (norm_nonneg _) hB

theorem Small.bilin (hD : Steps D H) (hA : Small D 0 A2) (hu : Small D p u) (hv : Small D q v) : Small D (p + q) (fun x => A2 x (u x) (v x)) := by
  obtain ⟨B, hB, h0⟩ := hA
  obtain ⟨C, hC, h1⟩ := hu
  obtain ⟨C', hC', h2⟩ := hv
  refine ⟨B * C * C', by positivity, fun x hx => ?_⟩
  have h0 := h0 x hx
  have hx0 := (hD x hx).1
  rw [pow_zero, mul_one] at h0
  calc ‖A2 x (u x) (v x)‖ ≤ ‖A2 x‖ * ‖u x‖ * ‖v x‖ := (A2 x).le_opNorm₂ _ _
    _ ≤ B * (C * x.2 ^ p) * (C' * x.2 ^ q) := by gcongr <;> [exact h1 x hx; exact h2 x hx]
    _ = B * C * C' * x.2 ^ (p + q) := by ring

theorem Small.trilin (hD : Steps D H) (hA : Small D 0 A3) (hu : Small D p u) (hv : Small D q v) (hw : Small D r w) : Small D (p + q + r) (fun x => A3 x (u x) (v x) (w x)) := by
  obtain ⟨B, hB, h0⟩ := hA
  obtain ⟨C, hC, h1⟩ := hu
  obtain ⟨C', hC', h2⟩ := hv
  obtain ⟨C'', hC'', h3⟩ := hw
  refine ⟨B * C * C' * C'', by positivity, fun x hx => ?_⟩
  have h0 := h0 x hx
  have hx0 := (hD x hx).1
  rw [pow_zero, mul_one] at h0
  calc ‖A3 x (u x) (v x) (w x)‖ ≤ ‖A3 x (u x)‖ * ‖v x‖ * ‖w x‖ := (A3 x (u x)).le_opNorm₂ _ _
    _ ≤ (‖A3 x‖ * ‖u x‖) * ‖v x‖ * ‖w x‖ := by gcongr; exact (A3 x).le_opNorm _
    _ ≤ (B * (C * x.2 ^ p)) * (C' * x.2 ^ q) * (C'' * x.2 ^ r) := by gcongr <;> [exact h1 x hx; exact h2 x hx; exact h3 x hx]
    _ = B * C * C' * C'' * x.2 ^ (p + q + r) := by ring
end Maps

/-! ### Functions with a Taylor expansion on bounded sets -/

/-- second order Taylor expansion with cubic remainder, uniformly on bounded sets -/
def Taylor2 (F : Z → Z) (F1 : Z → Lin Z Z) (F2 : Z → Lin Z (Lin Z Z)) : Prop :=
  ∀ R : ℝ, ∃ C, 0 ≤ C ∧ ∀ z, ‖z‖ ≤ R → ‖F z‖ ≤ C ∧ ‖F1 z‖ ≤ C ∧ ‖F2 z‖ ≤ C ∧ ∀ δ, ‖δ‖ ≤ R → ‖F (z + δ) - (F z + F1 z δ + (1/2 : ℝ) • F2 z δ δ)‖ ≤ C * ‖δ‖ ^ 3

/-- third order Taylor expansion with quartic remainder, uniformly on bounded sets -/
def Taylor3 (F : Z → Z) (F1 : Z → Lin Z Z) (F2 : Z → Lin Z (Lin Z Z)) (F3 : Z → Lin Z (Lin Z (Lin Z Z))) : Prop :=
  ∀ R : ℝ, ∃ C, 0 ≤ C ∧ ∀ z, ‖z‖ ≤ R → ‖F z‖ ≤ C ∧ ‖F1 z‖ ≤ C ∧ ‖F2 z‖ ≤ C ∧ ‖F3 z‖ ≤ C ∧
    ∀ δ, ‖δ‖ ≤ R → ‖F (z + δ) - (F z + F1 z δ + (1/2 : ℝ) • F2 z δ δ + (1/6 : ℝ) • F3 z δ δ δ)‖ ≤ C * ‖δ‖ ^ 4

section Compose
variable {F : Z → Z} {F1 : Z → Lin Z Z} {F2 : Z → Lin Z (Lin Z Z)} {F3 : Z → Lin Z (Lin Z (Lin Z Z))} {z δ k1 k2 k3 : ℝ × ℝ → Z}

theorem small_zero_bound (hu : Small D 0 u) : ∃ R, 0 ≤ R ∧ ∀ x ∈ D, ‖u x‖ ≤ R := by
  obtain ⟨C, hC, h⟩ := hu
  exact ⟨C, hC, fun x hx => by simpa using h x hx⟩

theorem bound_small_zero {W : Type} [NormedAddCommGroup W] [NormedSpace ℝ W] {u : ℝ × ℝ → W} (R : ℝ) (hR : 0 ≤ R) (h : ∀ x ∈ D, ‖u x‖ ≤ R) : Small D 0 u := ⟨R, hR, fun x hx => by simpa using h x hx⟩

theorem Taylor2.data (hT : Taylor2 F F1 F2) (hz : Small D 0 z) : Small D 0 (fun x => F (z x)) ∧ Small D 0 (fun x => F1 (z x)) ∧ Small D 0 (fun x => F2 (z x)) := by
  obtain ⟨R, -, hR⟩ := small_zero_bound hz
  obtain ⟨C, hC, h⟩ := hT R
  exact ⟨bound_small_zero C hC fun x hx => (h _ (hR x hx)).1, bound_small_zero C hC fun x hx => (h _ (hR x hx)).2.1, bound_small_zero C hC fun x hx => (h _ (hR x hx)).2.2.1⟩

theorem Taylor3.data (hT : Taylor3 F F1 F2 F3) (hz : Small D 0 z) :
    Small D 0 (fun x => F (z x)) ∧ Small D 0 (fun x => F1 (z x)) ∧ Small D 0 (fun x => F2 (z x)) ∧ Small D 0 (fun x => F3 (z x)) := by
  obtain ⟨R, -, hR⟩ := small_zero_bound hz
  obtain ⟨C, hC, h⟩ := hT R
  exact ⟨bound_small_zero C hC fun x hx => (h _ (hR x hx)).1, bound_small_zero C hC fun x hx => (h _ (hR x hx)).2.1, bound_small_zero C hC fun x hx => (h _ (hR x hx)).2.2.1,
    bound_small_zero C hC fun x hx => (h _ (hR x hx)).2.2.2.1⟩

theorem Taylor2.remainder (hT : Taylor2 F F1 F2) (hD : Steps D H) (hz : Small D 0 z) (hδ : Small D 1 δ) :
    Small D 3 (fun x => F (z x + δ x) - (F (z x) + F1 (z x) (δ x) + (1/2 : ℝ) • F2 (z x) (δ x) (δ x))) := by
  obtain ⟨R, hR0, hR⟩ := small_zero_bound hz
  obtain ⟨R', hR0', hR'⟩ := small_zero_bound (hδ.mono hD (Nat.zero_le 1))
  obtain ⟨C, hC, h⟩ := hT (max R R')
  obtain ⟨B, hB, h1⟩ := hδ
  refine ⟨C * B ^ 3, by positivity, fun x hx => ((h _ ((hR x hx).trans (le_max_left _ _))).2.2.2 _ ((hR' x hx).trans (le_max_right _ _))).trans ?_⟩
  have := h1 x hx
  rw [pow_one] at this
  calc C * ‖δ x‖ ^ 3 ≤ C * (B * x.2) ^ 3 := by gcongr
    _ = C * B ^ 3 * x.2 ^ 3 := by ring

theorem Taylor3.remainder (hT : Taylor3 F F1 F2 F3) (hD : Steps D H) (hz : Small D 0 z) (hδ : Small D 1 δ) :
    Small D 4 (fun x => F (z x + δ x) - (F (z x) + F1 (z x) (δ x) + (1/2 : ℝ) • F2 (z x) (δ x) (δ x) + (1/6 : ℝ) • F3 (z x) (δ x) (δ x) (δ x))) := by
  obtain ⟨R, hR0, hR⟩ := small_zero_bound hz
  obtain ⟨R', hR0', hR'⟩ := small_zero_bound (hδ.mono hD (Nat.zero_le 1))
  obtain ⟨C, hC, h⟩ := hT (max R R')
  obtain ⟨B, hB, h1⟩ := hδ
  refine ⟨C * B ^ 4, by positivity, fun x hx => ((h _ ((hR x hx).trans (le_max_left _ _))).2.2.2.2 _ ((hR' x hx).trans (le_max_right _ _))).trans ?_⟩
  have := h1 x hx
  rw [pow_one] at this
  calc C * ‖δ x‖ ^ 4 ≤ C * (B * x.2) ^ 4 := by gcongr
    _ = C * B ^ 4 * x.2 ^ 4 := by ring

/-- `F` of an expansion, second order -/
theorem compose2 (hT : Taylor2 F F1 F2) (hD : Steps D H) (hz : Small D 0 z) (hk1 : Small D 0 k1) (hk2 : Small D 0 k2)
    (hδ : Small D 3 (fun x => δ x - (x.2 • k1 x + x.2 ^ 2 • k2 x))) :
    Small D 3 (fun x => F (z x + δ x) - (F (z x) + x.2 • F1 (z x) (k1 x) + x.2 ^ 2 • (F1 (z x) (k2 x) + (1/2 : ℝ) • F2 (z x) (k1 x) (k1 x)))) := by
  obtain ⟨-, b1, b2⟩ := hT.data hz
  have hP : Small D 1 (fun x => x.2 • k1 x + x.2 ^ 2 • k2 x) := by
    have := (Small.term hD 1 le_rfl 1 hk1).add (Small.term hD (p := 1) 2 (by norm_num) 1 hk2)
    simpa only [one_mul, pow_one] using this
  have hδ1 : Small D 1 δ := ((hδ.mono hD (by norm_num : 1 ≤ 3)).add hP).congr (fun x _ => by abel)
  have s1 := hT.remainder hD hz hδ1
  have s2 := b1.lin hδ
  have s3 := ((b2.bilin hD hδ hδ1).mono (p := 3) hD (by norm_num)).const_smul (1/2)
  have s4 := ((b2.bilin hD hP hδ).mono (p := 3) hD (by norm_num)).const_smul (1/2)
  have s5 := (Small.term hD (p := 3) 3 le_rfl (1/2) ((b2.bilin hD hk1 hk2).add (b2.bilin hD hk2 hk1)))
  have s6 := (Small.term hD (p := 3) 4 (by norm_num) (1/2) (b2.bilin hD hk2 hk2))
  refine (((((s1.add s2).add s3).add s4).add s5).add s6).congr (fun x _ => ?_)
  simp only [map_sub, map_add, map_smul, _root_.sub_apply, _root_.add_apply, _root_.smul_apply, smul_add, smul_sub]
  module

theorem bilin_expand (hD : Steps D H) {A2 : ℝ × ℝ → Lin Z (Lin Z Z)} (b2 : Small D 0 A2) (hk1 : Small D 0 k1) (hk2 : Small D 0 k2) (hδ : Small D 3 (fun x => δ x - (x.2 • k1 x + x.2 ^ 2 • k2 x))) :
    Small D 4 (fun x => A2 x (δ x) (δ x) - (x.2 ^ 2 • A2 x (k1 x) (k1 x) + x.2 ^ 3 • (A2 x (k1 x) (k2 x) + A2 x (k2 x) (k1 x)))) := by
  have hP : Small D 1 (fun x => x.2 • k1 x + x.2 ^ 2 • k2 x) := by
    have := (Small.term hD 1 le_rfl 1 hk1).add (Small.term hD (p := 1) 2 (by norm_num) 1 hk2)
    simpa only [one_mul, pow_one] using this
  have hδ1 : Small D 1 δ := ((hδ.mono hD (by norm_num : 1 ≤ 3)).add hP).congr (fun x _ => by abel)
  have s3 := b2.bilin hD hδ hδ1
  have s4 := b2.bilin hD hP hδ
  have s6 := (Small.term hD (p := 4) 4 le_rfl 1 (b2.bilin hD hk2 hk2))
  refine ((s3.add s4).add s6).congr (fun x _ => ?_)
  simp only [map_sub, map_add, map_smul, _root_.sub_apply, _root_.add_apply, _root_.smul_apply, smul_add]
  module

theorem trilin_expand (hD : Steps D H) {A3 : ℝ × ℝ → Lin Z (Lin Z (Lin Z Z))} (b3 : Small D 0 A3) (hk1 : Small D 0 k1) (hδ : Small D 2 (fun x => δ x - x.2 • k1 x)) :
    Small D 4 (fun x => A3 x (δ x) (δ x) (δ x) - x.2 ^ 3 • A3 x (k1 x) (k1 x) (k1 x)) := by
  have hk1' : Small D 1 (fun x => x.2 • k1 x) := by simpa only [one_mul, pow_one] using Small.term hD 1 le_rfl 1 hk1
  have hδ1 : Small D 1 δ := ((hδ.mono hD (by norm_num : 1 ≤ 2)).add hk1').congr (fun x _ => by abel)
  have s1 := b3.trilin hD hδ hδ1 hδ1
  have s2 := b3.trilin hD hk1' hδ hδ1
  have s3 := b3.trilin hD hk1' hk1' hδ
  refine ((s1.add s2).add s3).congr (fun x _ => ?_)
  simp only [map_sub, map_smul, _root_.sub_apply, _root_.smul_apply]
  module

/-- `F` of an expansion, third order -/
theorem compose3 (hT : Taylor3 F F1 F2 F3) (hD : Steps D H) (hz : Small D 0 z) (hk1 : Small D 0 k1) (hk2 : Small D 0 k2) (hk3 : Small D 0 k3)
    (hδ : Small D 4 (fun x => δ x - (x.2 • k1 x + x.2 ^ 2 • k2 x + x.2 ^ 3 • k3 x))) :
    Small D 4 (fun x => F (z x + δ x) - (F (z x) + x.2 • F1 (z x) (k1 x) + x.2 ^ 2 • (F1 (z x) (k2 x) + (1/2 : ℝ) • F2 (z x) (k1 x) (k1 x)) +
      x.2 ^ 3 • (F1 (z x) (k3 x) + (1/2 : ℝ) • (F2 (z x) (k1 x) (k2 x) + F2 (z x) (k2 x) (k1 x)) + (1/6 : ℝ) • F3 (z x) (k1 x) (k1 x) (k1 x)))) := by
  obtain ⟨-, b1, b2, b3⟩ := hT.data hz
  have e3 : Small D 3 (fun x => δ x - (x.2 • k1 x + x.2 ^ 2 • k2 x)) := by
    refine ((hδ.mono hD (by norm_num : 3 ≤ 4)).add (Small.term hD 3 le_rfl 1 hk3)).congr (fun x _ => ?_)
    module
  have e2 : Small D 2 (fun x => δ x - x.2 • k1 x) := by
    refine ((e3.mono hD (by norm_num : 2 ≤ 3)).add (Small.term hD 2 le_rfl 1 hk2)).congr (fun x _ => ?_)
    module
  have hδ1 : Small D 1 δ := by
    refine ((e2.mono hD (by norm_num : 1 ≤ 2)).add (Small.term hD 1 le_rfl 1 hk1)).congr (fun x _ => ?_)
    module
  have s1 := hT.remainder hD hz hδ1
  have s2 := b1.lin hδ
  have s3 := (bilin_expand hD b2 hk1 hk2 e3).const_smul (1/2)
  have s4 := (trilin_expand hD b3 hk1 e2).const_smul (1/6)
  refine (((s1.add s2).add s3).add s4).congr (fun x _ => ?_)
  simp only [map_sub, map_add, map_smul]
  module
end Compose

/-! ### Solutions -/

/-- times and steps of a curve on `[a, b]`, steps at most `H` -/
def Within (a b H : ℝ) : Set (ℝ × ℝ) := {x | a ≤ x.1 ∧ 0 ≤ x.2 ∧ x.2 ≤ H ∧ x.1 + x.2 ≤ b}

theorem within_steps (a b H : ℝ) : Steps (Within a b H) H := fun _ hx => ⟨hx.2.1, hx.2.2.1⟩

theorem within_le {a b H s h r : ℝ} (hx : (s, h) ∈ Within a b H) (h0 : 0 ≤ r) (hr : r ≤ h) : (s, r) ∈ Within a b H :=
  ⟨hx.1, h0, hr.trans hx.2.2.1, by have := hx.2.2.2; simp only at this ⊢; linarith⟩

/-- a function that vanishes for step 0 and whose derivative with respect to the step is small of order `p` is small of order `p + 1` -/
theorem small_of_deriv {a b H : ℝ} {p : Nat} (g g1 : ℝ × ℝ → Z) (h0 : ∀ s, g (s, 0) = 0) (hg : ∀ x ∈ Within a b H, HasDerivAt (fun r => g (x.1, r)) (g1 x) x.2)
    (hs : Small (Within a b H) p g1) : Small (Within a b H) (p + 1) g := by
  obtain ⟨C, hC, h1⟩ := hs
  refine ⟨C / (p + 1), by positivity, ?_⟩
  rintro ⟨s, h⟩ hx
  have hh : 0 ≤ h := hx.2.1
  have := increment_le (fun r => g (s, r)) (fun r => g1 (s, r)) 0 h hh (fun r hr => hg (s, r) (within_le hx hr.1 hr.2)) 0 (fun r => C / (p + 1) * r ^ (p + 1)) (fun r => C * r ^ p) (by simp)
    (fun r => by
      have := ((hasDerivAt_id r).fun_pow (p + 1)).const_mul (C / (p + 1))
      refine this.congr_deriv ?_
      have hp : ((p : ℝ) + 1) ≠ 0 := by positivity
      simp only [id_eq, Nat.add_sub_cancel, mul_one]
      push_cast
      field_simp)
    (fun r hr => by rw [sub_zero]; exact h1 (s, r) (within_le hx hr.1 hr.2))
  simpa [h0] using this

theorem deriv_pow_smul (n : Nat) (c : ℝ) (v : Z) (h : ℝ) : HasDerivAt (fun r : ℝ => (c * r ^ (n + 1)) • v) ((c * (n + 1) * h ^ n) • v) h := by
  have := (((hasDerivAt_id h).fun_pow (n + 1)).const_mul c).smul_const v
  refine this.congr_deriv ?_
  congr 1
  simp only [id_eq, Nat.add_sub_cancel, mul_one]
  push_cast
  ring

section Solution
variable {F : Z → Z} {F1 : Z → Lin Z Z} {F2 : Z → Lin Z (Lin Z Z)} {F3 : Z → Lin Z (Lin Z (Lin Z Z))} {φ : ℝ → Z} {a b H : ℝ}

/-- the values of the solution are bounded -/
theorem solution_bounded (hφ : ∀ s ∈ Set.Icc a b, HasDerivAt φ (F (φ s)) s) : ∃ R, 0 ≤ R ∧ ∀ s ∈ Set.Icc a b, ‖φ s‖ ≤ R := by
  have hc : ContinuousOn φ (Set.Icc a b) := fun s hs => (hφ s hs).continuousAt.continuousWithinAt
  obtain ⟨R, hR⟩ := (isCompact_Icc.image_of_continuousOn hc).isBounded.exists_norm_le
  exact ⟨max R 0, le_max_right _ _, fun s hs => (hR _ ⟨s, hs, rfl⟩).trans (le_max_left _ _)⟩

theorem solution_small_zero (hφ : ∀ s ∈ Set.Icc a b, HasDerivAt φ (F (φ s)) s) : Small (Within a b H) 0 (fun x => φ x.1) ∧ Small (Within a b H) 0 (fun x => φ (x.1 + x.2)) := by
  obtain ⟨R, hR, h⟩ := solution_bounded hφ
  exact ⟨bound_small_zero R hR fun x hx => h _ ⟨hx.1, by have := hx.2.2.2; have := hx.2.1; linarith⟩,
    bound_small_zero R hR fun x hx => h _ ⟨by have := hx.1; have := hx.2.1; linarith, hx.2.2.2⟩⟩

theorem solution_deriv (hφ : ∀ s ∈ Set.Icc a b, HasDerivAt φ (F (φ s)) s) (x : ℝ × ℝ) (hx : x ∈ Within a b H) : HasDerivAt (fun r => φ (x.1 + r) - φ x.1) (F (φ (x.1 + x.2))) x.2 := by
  have h1 := hφ (x.1 + x.2) ⟨by have := hx.1; have := hx.2.1; linarith, hx.2.2.2⟩
  exact (h1.comp_const_add x.1 x.2).sub_const _

/-- the solution to second order, remainder cubic -/
theorem solution2 (hT : Taylor2 F F1 F2) (hφ : ∀ s ∈ Set.Icc a b, HasDerivAt φ (F (φ s)) s) :
    Small (Within a b H) 3 (fun x => (φ (x.1 + x.2) - φ x.1) - (x.2 • F (φ x.1) + x.2 ^ 2 • ((1/2 : ℝ) • F1 (φ x.1) (F (φ x.1))))) := by
  have hD := within_steps a b H
  obtain ⟨z0, z1⟩ := solution_small_zero (H := H) hφ
  obtain ⟨f0, b1, b2⟩ := hT.data z0
  have f1 := (hT.data z1).1
  have r1 : Small (Within a b H) 1 (fun x => φ (x.1 + x.2) - φ x.1) := small_of_deriv (fun x => φ (x.1 + x.2) - φ x.1) _ (fun s => by simp) (fun x hx => solution_deriv hφ x hx) f1
  -- first order
  have r2 : Small (Within a b H) 2 (fun x => (φ (x.1 + x.2) - φ x.1) - x.2 • F (φ x.1)) := by
    refine small_of_deriv (fun x => (φ (x.1 + x.2) - φ x.1) - x.2 • F (φ x.1)) (fun x => F (φ (x.1 + x.2)) - F (φ x.1)) (fun s => by simp) (fun x hx => ?_) ?_
    · have := (solution_deriv hφ x hx).fun_sub (deriv_pow_smul 0 1 (F (φ x.1)) x.2)
      simpa using this
    · have s1 := (hT.remainder hD z0 r1).mono (p := 1) hD (by norm_num)
      have s2 := b1.lin r1
      have s3 := ((b2.bilin hD r1 r1).mono (p := 1) hD (by norm_num)).const_smul (1/2)
      refine ((s1.add s2).add s3).congr (fun x _ => ?_)
      simp only [add_sub_cancel]
      module
  have hF0 := f0
  have hz2 : Small (Within a b H) 0 (fun _ : ℝ × ℝ => (0 : Z)) := bound_small_zero 0 le_rfl (by simp)
  refine small_of_deriv (fun x => (φ (x.1 + x.2) - φ x.1) - (x.2 • F (φ x.1) + x.2 ^ 2 • ((1/2 : ℝ) • F1 (φ x.1) (F (φ x.1)))))
    (fun x => F (φ (x.1 + x.2)) - (F (φ x.1) + x.2 • F1 (φ x.1) (F (φ x.1)))) (fun s => by simp) (fun x hx => ?_) ?_
  · have := (solution_deriv hφ x hx).sub ((deriv_pow_smul 0 1 (F (φ x.1)) x.2).add (deriv_pow_smul 1 (1/2) (F1 (φ x.1) (F (φ x.1))) x.2))
    refine (this.congr_deriv ?_).congr_of_eventuallyEq (Filter.Eventually.of_forall fun r => ?_)
    · norm_num
    · simp only [Pi.sub_apply, Pi.add_apply]; module
  · have s1 := (hT.remainder hD z0 r1).mono (p := 2) hD (by norm_num)
    have s2 := b1.lin r2
    have s3 := ((b2.bilin hD r1 r1).mono (p := 2) hD (by norm_num)).const_smul (1/2)
    refine ((s1.add s2).add s3).congr (fun x _ => ?_)
    simp only [add_sub_cancel, map_sub, map_smul]
    module

/-- the solution to third order, remainder quartic (three derivatives are not needed) -/
theorem solution3 (hT : Taylor2 F F1 F2) (hφ : ∀ s ∈ Set.Icc a b, HasDerivAt φ (F (φ s)) s) :
    Small (Within a b H) 4 (fun x => (φ (x.1 + x.2) - φ x.1) - (x.2 • F (φ x.1) + x.2 ^ 2 • ((1/2 : ℝ) • F1 (φ x.1) (F (φ x.1))) +
      x.2 ^ 3 • ((1/6 : ℝ) • (F1 (φ x.1) (F1 (φ x.1) (F (φ x.1))) + F2 (φ x.1) (F (φ x.1)) (F (φ x.1)))))) := by
  have hD := within_steps a b H
  obtain ⟨z0, z1⟩ := solution_small_zero (H := H) hφ
  obtain ⟨f0, b1, b2⟩ := hT.data z0
  refine small_of_deriv (fun x => (φ (x.1 + x.2) - φ x.1) - (x.2 • F (φ x.1) + x.2 ^ 2 • ((1/2 : ℝ) • F1 (φ x.1) (F (φ x.1))) +
      x.2 ^ 3 • ((1/6 : ℝ) • (F1 (φ x.1) (F1 (φ x.1) (F (φ x.1))) + F2 (φ x.1) (F (φ x.1)) (F (φ x.1))))))
    (fun x => F (φ x.1 + (φ (x.1 + x.2) - φ x.1)) - (F (φ x.1) + x.2 • F1 (φ x.1) (F (φ x.1)) + x.2 ^ 2 • (F1 (φ x.1) ((1/2 : ℝ) • F1 (φ x.1) (F (φ x.1))) + (1/2 : ℝ) • F2 (φ x.1) (F (φ x.1)) (F (φ x.1)))))
    (fun s => by simp) (fun x hx => ?_) (compose2 hT hD z0 f0 ((b1.lin f0).const_smul (1/2)) (solution2 hT hφ))
  have := (solution_deriv hφ x hx).sub (((deriv_pow_smul 0 1 (F (φ x.1)) x.2).add (deriv_pow_smul 1 (1/2) (F1 (φ x.1) (F (φ x.1))) x.2)).add
    (deriv_pow_smul 2 (1/6) (F1 (φ x.1) (F1 (φ x.1) (F (φ x.1))) + F2 (φ x.1) (F (φ x.1)) (F (φ x.1))) x.2))
  refine (this.congr_deriv ?_).congr_of_eventuallyEq (Filter.Eventually.of_forall fun r => ?_)
  · rw [add_sub_cancel, map_smul]
    push_cast
    module
  · simp only [Pi.sub_apply, Pi.add_apply]; module

theorem Taylor3.taylor2 (hT : Taylor3 F F1 F2 F3) : Taylor2 F F1 F2 := by
  intro R
  obtain ⟨C, hC, h⟩ := hT R
  refine ⟨C * (|R| + 1) + C, by positivity, fun z hz => ?_⟩
  obtain ⟨h1, h2, h3, h4, h5⟩ := h z hz
  have hle : C ≤ C * (|R| + 1) + C := le_add_of_nonneg_left (by positivity)
  refine ⟨h1.trans hle, h2.trans hle, h3.trans hle, fun δ hδ => ?_⟩
  have h6 := h5 δ hδ
  have h7 : ‖F3 z δ δ δ‖ ≤ C * ‖δ‖ ^ 3 := by
    calc ‖F3 z δ δ δ‖ ≤ ‖F3 z δ‖ * ‖δ‖ * ‖δ‖ := (F3 z δ).le_opNorm₂ _ _
      _ ≤ (‖F3 z‖ * ‖δ‖) * ‖δ‖ * ‖δ‖ := by gcongr; exact (F3 z).le_opNorm _
      _ ≤ (C * ‖δ‖) * ‖δ‖ * ‖δ‖ := by gcongr
      _ = _ := by ring
  have e : F (z + δ) - (F z + F1 z δ + (1/2 : ℝ) • F2 z δ δ) = (F (z + δ) - (F z + F1 z δ + (1/2 : ℝ) • F2 z δ δ + (1/6 : ℝ) • F3 z δ δ δ)) + (1/6 : ℝ) • F3 z δ δ δ := by abel
  rw [e]
  refine (norm_add_le _ _).trans ?_
  rw [norm_smul]
  have h8 : C * ‖δ‖ ^ 4 ≤ C * |R| * ‖δ‖ ^ 3 := by
    have : ‖δ‖ ≤ |R| := hδ.trans (le_abs_self R)
    calc C * ‖δ‖ ^ 4 = C * ‖δ‖ * ‖δ‖ ^ 3 := by ring
      _ ≤ _ := by gcongr
  have h9 : ‖(1/6 : ℝ)‖ * ‖F3 z δ δ δ‖ ≤ 1 * (C * ‖δ‖ ^ 3) := by gcongr; norm_num
  have : 0 ≤ C * ‖δ‖ ^ 3 := by positivity
  nlinarith

/-- the solution to fourth order, remainder of fifth order -/
theorem solution4 (hT : Taylor3 F F1 F2 F3) (hφ : ∀ s ∈ Set.Icc a b, HasDerivAt φ (F (φ s)) s) :
    Small (Within a b H) 5 (fun x => (φ (x.1 + x.2) - φ x.1) - (x.2 • F (φ x.1) + x.2 ^ 2 • ((1/2 : ℝ) • F1 (φ x.1) (F (φ x.1))) +
      x.2 ^ 3 • ((1/6 : ℝ) • (F1 (φ x.1) (F1 (φ x.1) (F (φ x.1))) + F2 (φ x.1) (F (φ x.1)) (F (φ x.1)))) +
      x.2 ^ 4 • ((1/24 : ℝ) • (F1 (φ x.1) (F1 (φ x.1) (F1 (φ x.1) (F (φ x.1)))) + F1 (φ x.1) (F2 (φ x.1) (F (φ x.1)) (F (φ x.1))) + F3 (φ x.1) (F (φ x.1)) (F (φ x.1)) (F (φ x.1))) +
        (1/16 : ℝ) • (F2 (φ x.1) (F (φ x.1)) (F1 (φ x.1) (F (φ x.1))) + F2 (φ x.1) (F1 (φ x.1) (F (φ x.1))) (F (φ x.1)))))) := by
  have hD := within_steps a b H
  obtain ⟨z0, z1⟩ := solution_small_zero (H := H) hφ
  obtain ⟨f0, b1, b2, b3⟩ := hT.data z0
  have c := compose3 hT hD z0 f0 ((b1.lin f0).const_smul (1/2)) (((b1.lin (b1.lin f0)).add (b2.bilin hD f0 f0)).const_smul (1/6)) (solution3 (H := H) hT.taylor2 hφ)
  refine small_of_deriv _ _ (fun s => by simp) (fun x hx => ?_) c
  have := (solution_deriv hφ x hx).sub ((((deriv_pow_smul 0 1 (F (φ x.1)) x.2).add (deriv_pow_smul 1 (1/2) (F1 (φ x.1) (F (φ x.1))) x.2)).add
    (deriv_pow_smul 2 (1/6) (F1 (φ x.1) (F1 (φ x.1) (F (φ x.1))) + F2 (φ x.1) (F (φ x.1)) (F (φ x.1))) x.2)).add
    (deriv_pow_smul 3 1 ((1/24 : ℝ) • (F1 (φ x.1) (F1 (φ x.1) (F1 (φ x.1) (F (φ x.1)))) + F1 (φ x.1) (F2 (φ x.1) (F (φ x.1)) (F (φ x.1))) + F3 (φ x.1) (F (φ x.1)) (F (φ x.1)) (F (φ x.1))) +
        (1/16 : ℝ) • (F2 (φ x.1) (F (φ x.1)) (F1 (φ x.1) (F (φ x.1))) + F2 (φ x.1) (F1 (φ x.1) (F (φ x.1))) (F (φ x.1)))) x.2))
  refine (this.congr_deriv ?_).congr_of_eventuallyEq (Filter.Eventually.of_forall fun r => ?_)
  · rw [add_sub_cancel]
    simp only [map_smul, map_add, _root_.smul_apply]
    push_cast
    module
  · simp only [Pi.sub_apply, Pi.add_apply]; module

end Solution

end Pressio.Lemmas.TaylorOrder
