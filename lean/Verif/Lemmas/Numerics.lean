import Mathlib.Analysis.Calculus.MeanValue
import Mathlib.Analysis.Calculus.Deriv.Pow
import Mathlib.Analysis.SpecialFunctions.Exp
import Mathlib.Analysis.Complex.Exponential
import Mathlib.Tactic.Module
import Mathlib.Tactic.Linarith
import Mathlib.Tactic.Positivity

/-
  Facts of analysis used for the convergence theorems: Taylor remainders for vector-valued functions, and a discrete Gronwall inequality.
-/
namespace Pressio.Lemmas.Numerics
set_option autoImplicit false

variable {Y : Type} [NormedAddCommGroup Y] [NormedSpace ℝ Y]

/-- fencing: the increment of `g` differs from that with constant slope `v` by at most `B b`, if `B` grows faster than the slope differs -/
theorem increment_le (g g1 : ℝ → Y) (a b : ℝ) (hab : a ≤ b) (hg : ∀ s ∈ Set.Icc a b, HasDerivAt g (g1 s) s) (v : Y) (B B' : ℝ → ℝ)
    (hB0 : 0 ≤ B a) (hB : ∀ x, HasDerivAt B (B' x) x) (hb : ∀ s ∈ Set.Icc a b, ‖g1 s - v‖ ≤ B' s) : ‖g b - g a - (b - a) • v‖ ≤ B b := by
  have hd : ∀ s ∈ Set.Icc a b, HasDerivAt (fun x => g x - g a - (x - a) • v) (g1 s - v) s := by
    intro s hs
    have h2 : HasDerivAt (fun x : ℝ => (x - a) • v) ((1:ℝ) • v) s := ((hasDerivAt_id s).sub_const a).smul_const v
    have := ((hg s hs).sub_const (g a)).sub h2
    rwa [one_smul] at this
  have := image_norm_le_of_norm_deriv_right_le_deriv_boundary (f := fun x => g x - g a - (x - a) • v) (f' := fun s => g1 s - v) (a := a) (b := b)
    (fun x hx => (hd x hx).continuousAt.continuousWithinAt) (fun x hx => (hd x ⟨hx.1, hx.2.le⟩).hasDerivWithinAt) (B := B) (B' := B')
    (by simpa using hB0) hB (fun x hx => hb x ⟨hx.1, hx.2.le⟩)
  exact this (Set.right_mem_Icc.2 hab)

/-- slope taken at the left end -/
theorem taylor_left (g g1 : ℝ → Y) (a b M : ℝ) (hab : a ≤ b) (hg : ∀ s ∈ Set.Icc a b, HasDerivAt g (g1 s) s)
    (hM : ∀ s ∈ Set.Icc a b, ‖g1 s - g1 a‖ ≤ M * (s - a)) : ‖g b - g a - (b - a) • g1 a‖ ≤ M * (b - a) ^ 2 / 2 := by
  refine increment_le g g1 a b hab hg (g1 a) (fun x => M * (x - a) ^ 2 / 2) (fun x => M * (x - a)) (by simp) ?_ hM
  intro x
  have h : HasDerivAt (fun x : ℝ => (x - a) ^ 2) (2 * (x - a)) x := by
    have := ((hasDerivAt_id x).sub_const a).fun_pow 2
    simpa using this
  exact ((h.const_mul M).div_const 2).congr_deriv (by ring)

/-- slope taken at the right end -/
theorem taylor_right (g g1 : ℝ → Y) (a b M : ℝ) (hab : a ≤ b) (hg : ∀ s ∈ Set.Icc a b, HasDerivAt g (g1 s) s)
    (hM : ∀ s ∈ Set.Icc a b, ‖g1 s - g1 b‖ ≤ M * (b - s)) : ‖g b - g a - (b - a) • g1 b‖ ≤ M * (b - a) ^ 2 / 2 := by
  have := increment_le g g1 a b hab hg (g1 b) (fun x => M * (b - a) ^ 2 / 2 - M * (b - x) ^ 2 / 2) (fun x => M * (b - x)) (by simp) ?_ hM
  · simpa using this
  intro x
  have h : HasDerivAt (fun x : ℝ => (b - x) ^ 2) (2 * (b - x) * (-1)) x := by
    have := ((hasDerivAt_id x).const_sub b).fun_pow 2
    simpa using this
  exact (((h.const_mul M).div_const 2).const_sub (M * (b - a) ^ 2 / 2)).congr_deriv (by ring)

/-- second order remainder -/
theorem taylor_second (g g1 g2 : ℝ → Y) (a b M : ℝ) (hab : a ≤ b) (hg : ∀ s ∈ Set.Icc a b, HasDerivAt g (g1 s) s) (hg1 : ∀ s ∈ Set.Icc a b, HasDerivAt g1 (g2 s) s)
    (hM : ∀ s ∈ Set.Icc a b, ‖g2 s - g2 a‖ ≤ M * (s - a)) : ‖g b - g a - (b - a) • g1 a - ((b - a) ^ 2 / 2) • g2 a‖ ≤ M * (b - a) ^ 3 / 6 := by
  have hq : ∀ x, HasDerivAt (fun x : ℝ => (x - a) ^ 2 / 2) (x - a) x := by
    intro x
    exact ((((hasDerivAt_id x).sub_const a).fun_pow 2).div_const 2).congr_deriv (by simp)
  have h1 : ∀ s ∈ Set.Icc a b, HasDerivAt (fun x => g x - ((x - a) ^ 2 / 2) • g2 a) (g1 s - (s - a) • g2 a) s :=
    fun s hs => (hg s hs).sub ((hq s).smul_const (g2 a))
  have := increment_le (fun x => g x - ((x - a) ^ 2 / 2) • g2 a) (fun s => g1 s - (s - a) • g2 a) a b hab h1 (g1 a) (fun x => M * (x - a) ^ 3 / 6) (fun x => M * (x - a) ^ 2 / 2) (by simp) ?_ ?_
  · have e : g b - ((b - a) ^ 2 / 2) • g2 a - (g a - ((a - a) ^ 2 / 2) • g2 a) - (b - a) • g1 a = g b - g a - (b - a) • g1 a - ((b - a) ^ 2 / 2) • g2 a := by
      simp only [sub_self]
      module
    rwa [e] at this
  · intro x
    have h : HasDerivAt (fun x : ℝ => (x - a) ^ 3) (3 * (x - a) ^ 2) x := by
      have := ((hasDerivAt_id x).sub_const a).fun_pow 3
      simpa using this
    exact ((h.const_mul M).div_const 6).congr_deriv (by ring)
  · intro s hs
    have := taylor_left g1 g2 a s M hs.1 (fun u hu => hg1 u ⟨hu.1, hu.2.trans hs.2⟩) (fun u hu => hM u ⟨hu.1, hu.2.trans hs.2⟩)
    have e : g1 s - (s - a) • g2 a - g1 a = g1 s - g1 a - (s - a) • g2 a := by abel
    rw [e]; exact this

/-- second order remainder, expanded at the right end -/
theorem taylor_second_right (g g1 g2 : ℝ → Y) (a b M : ℝ) (hab : a ≤ b) (hg : ∀ s ∈ Set.Icc a b, HasDerivAt g (g1 s) s) (hg1 : ∀ s ∈ Set.Icc a b, HasDerivAt g1 (g2 s) s)
    (hM : ∀ s ∈ Set.Icc a b, ‖g2 s - g2 b‖ ≤ M * (b - s)) : ‖g b - g a - (b - a) • g1 b + ((b - a) ^ 2 / 2) • g2 b‖ ≤ M * (b - a) ^ 3 / 6 := by
  have hq : ∀ x, HasDerivAt (fun x : ℝ => (b - x) ^ 2 / 2) (-(b - x)) x := by
    intro x
    exact ((((hasDerivAt_id x).const_sub b).fun_pow 2).div_const 2).congr_deriv (by simp; ring)
  have h1 : ∀ s ∈ Set.Icc a b, HasDerivAt (fun x => g x - ((b - x) ^ 2 / 2) • g2 b) (g1 s - (-(b - s)) • g2 b) s :=
    fun s hs => (hg s hs).sub ((hq s).smul_const (g2 b))
  have := increment_le (fun x => g x - ((b - x) ^ 2 / 2) • g2 b) (fun s => g1 s - (-(b - s)) • g2 b) a b hab h1 (g1 b) (fun x => M * (b - a) ^ 3 / 6 - M * (b - x) ^ 3 / 6) (fun x => M * (b - x) ^ 2 / 2) (by simp) ?_ ?_
  · have e : g b - ((b - b) ^ 2 / 2) • g2 b - (g a - ((b - a) ^ 2 / 2) • g2 b) - (b - a) • g1 b = g b - g a - (b - a) • g1 b + ((b - a) ^ 2 / 2) • g2 b := by
      simp only [sub_self]
      module
    rw [e] at this
    simpa using this
  · intro x
    have h : HasDerivAt (fun x : ℝ => (b - x) ^ 3) (3 * (b - x) ^ 2 * (-1)) x := by
      have := ((hasDerivAt_id x).const_sub b).fun_pow 3
      simpa using this
    exact (((h.const_mul M).div_const 6).const_sub (M * (b - a) ^ 3 / 6)).congr_deriv (by ring)
  · intro s hs
    have := taylor_right g1 g2 s b M hs.2 (fun u hu => hg1 u ⟨hs.1.trans hu.1, hu.2⟩) (fun u hu => hM u ⟨hs.1.trans hu.1, hu.2⟩)
    have e : g1 s - (-(b - s)) • g2 b - g1 b = -(g1 b - g1 s - (b - s) • g2 b) := by module
    rw [e, norm_neg]; exact this

/-- the trapezoidal rule, under the assumption that the second derivative of `g` is Lipschitz -/
theorem trapezoid (g g1 g2 : ℝ → Y) (a h M : ℝ) (hh : 0 ≤ h) (hg : ∀ s ∈ Set.Icc a (a + h), HasDerivAt g (g1 s) s) (hg1 : ∀ s ∈ Set.Icc a (a + h), HasDerivAt g1 (g2 s) s)
    (hM : ∀ s ∈ Set.Icc a (a + h), ‖g2 s - g2 a‖ ≤ M * (s - a)) :
    ‖g (a + h) - g a - (h / 2) • (g1 (a + h) + g1 a)‖ ≤ 5 / 12 * M * h ^ 3 := by
  have e1 := taylor_second g g1 g2 a (a + h) M (by linarith) hg hg1 hM
  have e3 := taylor_left g1 g2 a (a + h) M (by linarith) hg1 hM
  rw [show a + h - a = h by ring] at e1 e3
  have e : g (a + h) - g a - (h / 2) • (g1 (a + h) + g1 a) = (g (a + h) - g a - h • g1 a - (h ^ 2 / 2) • g2 a) - (h / 2) • (g1 (a + h) - g1 a - h • g2 a) := by module
  rw [e]
  refine (norm_sub_le _ _).trans ?_
  rw [norm_smul, Real.norm_of_nonneg (by positivity)]
  have := mul_le_mul_of_nonneg_left e3 (by positivity : 0 ≤ h / 2)
  calc _ ≤ M * h ^ 3 / 6 + h / 2 * (M * h ^ 2 / 2) := add_le_add e1 this
    _ = _ := by ring

/-- Simpson's rule, under the assumption that the second derivative of `g` is Lipschitz -/
theorem simpson (g g1 g2 : ℝ → Y) (a h M : ℝ) (hh : 0 ≤ h) (hg : ∀ s ∈ Set.Icc a (a + h), HasDerivAt g (g1 s) s) (hg1 : ∀ s ∈ Set.Icc a (a + h), HasDerivAt g1 (g2 s) s)
    (hM : ∀ s ∈ Set.Icc a (a + h), ‖g2 s - g2 a‖ ≤ M * (s - a)) :
    ‖g (a + h) - g a - h • ((1/6:ℝ) • g1 a + (2/3:ℝ) • g1 (a + h / 2) + (1/6:ℝ) • g1 (a + h))‖ ≤ M * h ^ 3 / 3 := by
  have hs2 : ∀ s ∈ Set.Icc a (a + h / 2), s ∈ Set.Icc a (a + h) := fun s hs => ⟨hs.1, by linarith [hs.2]⟩
  have e1 := taylor_second g g1 g2 a (a + h) M (by linarith) hg hg1 hM
  have e2 := taylor_left g1 g2 a (a + h / 2) M (by linarith) (fun s hs => hg1 s (hs2 s hs)) (fun s hs => hM s (hs2 s hs))
  have e3 := taylor_left g1 g2 a (a + h) M (by linarith) hg1 hM
  rw [show a + h - a = h by ring] at e1 e3
  rw [show a + h / 2 - a = h / 2 by ring] at e2
  set u1 := g (a + h) - g a - h • g1 a - (h ^ 2 / 2) • g2 a with hu1
  set u2 := g1 (a + h / 2) - g1 a - (h / 2) • g2 a with hu2
  set u3 := g1 (a + h) - g1 a - h • g2 a with hu3
  have e : g (a + h) - g a - h • ((1/6:ℝ) • g1 a + (2/3:ℝ) • g1 (a + h / 2) + (1/6:ℝ) • g1 (a + h)) = u1 - (h * (2/3)) • u2 - (h * (1/6)) • u3 := by
    rw [hu1, hu2, hu3]; module
  rw [e]
  have n2 : ‖(h * (2/3)) • u2‖ ≤ h * (2/3) * (M * (h / 2) ^ 2 / 2) := by
    rw [norm_smul, Real.norm_of_nonneg (by positivity)]; gcongr
  have n3 : ‖(h * (1/6)) • u3‖ ≤ h * (1/6) * (M * h ^ 2 / 2) := by
    rw [norm_smul, Real.norm_of_nonneg (by positivity)]; gcongr
  calc _ ≤ ‖u1‖ + ‖(h * (2/3)) • u2‖ + ‖(h * (1/6)) • u3‖ := (norm_sub_le _ _).trans (add_le_add_left (norm_sub_le _ _) _)
    _ ≤ M * h ^ 3 / 6 + h * (2/3) * (M * (h / 2) ^ 2 / 2) + h * (1/6) * (M * h ^ 2 / 2) := by linarith
    _ = M * h ^ 3 / 3 := by ring

/-- Discrete Gronwall: errors that grow by a factor `exp(L h)` in a step of size `h`, after adding at most `h τ`. -/
theorem gronwall (e t h : Nat → ℝ) (L τ : ℝ) (hL : 0 ≤ L) (hτ : 0 ≤ τ) (N : Nat) (hh : ∀ k < N, 0 ≤ h k) (ht : ∀ k < N, t (k+1) = t k + h k)
    (hstep : ∀ k < N, e (k+1) ≤ Real.exp (L * h k) * (e k + h k * τ)) : ∀ k ≤ N, t 0 ≤ t k ∧ e k ≤ Real.exp (L * (t k - t 0)) * (e 0 + (t k - t 0) * τ) := by
  intro k
  induction k with
  | zero => intro _; simp
  | succ k ih =>
    intro hk
    obtain ⟨i1, i2⟩ := ih (by omega)
    have hk' := hh k (by omega)
    have htk := ht k (by omega)
    refine ⟨by linarith, ?_⟩
    have h1 : (1:ℝ) ≤ Real.exp (L * (t k - t 0)) := Real.one_le_exp (mul_nonneg hL (by linarith))
    calc e (k+1) ≤ Real.exp (L * h k) * (e k + h k * τ) := hstep k (by omega)
      _ ≤ Real.exp (L * h k) * (Real.exp (L * (t k - t 0)) * (e 0 + (t k - t 0) * τ) + Real.exp (L * (t k - t 0)) * (h k * τ)) := by
          have := mul_le_mul_of_nonneg_right h1 (mul_nonneg hk' hτ)
          rw [one_mul] at this
          gcongr
      _ = Real.exp (L * (t (k+1) - t 0)) * (e 0 + (t (k+1) - t 0) * τ) := by
          rw [htk, show L * (t k + h k - t 0) = L * h k + L * (t k - t 0) by ring, Real.exp_add]; ring

/-- the Taylor polynomials of `exp` used below -/
theorem exp_ge (z : ℝ) (hz : 0 ≤ z) (n : Nat) : ∑ k ∈ Finset.range n, z ^ k / (Nat.factorial k : ℝ) ≤ Real.exp z := Real.sum_le_exp_of_nonneg hz n

end Pressio.Lemmas.Numerics
