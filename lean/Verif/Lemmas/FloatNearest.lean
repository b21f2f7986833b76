import Verif.Lemmas.Float
import Verif.Spec.Float
import Mathlib.Algebra.Order.Ring.Int
import Mathlib.Tactic.IntervalCases

/-
  Rounding is rounding to the nearest number of the format, ties to even.
-/
namespace Pressio.Lemmas.Float
set_option autoImplicit false
open Pressio.Model.Float Pressio.Spec.Float

theorem nearest_nearest (x : ℚ) (k : Int) : |nearest x - x| ≤ |k - x| := by
  have h1 := Int.floor_le x
  have h2 := Int.lt_floor_add_one x
  rcases le_or_gt k ⌊x⌋ with h | h
  · have hk : (k:ℚ) ≤ ⌊x⌋ := by exact_mod_cast h
    rw [abs_sub_comm (k:ℚ), abs_of_nonneg (a := x - k) (by linarith), abs_le]
    unfold nearest
    split_ifs <;> push_cast <;> constructor <;> linarith
  · have hk : (⌊x⌋ + 1 : ℚ) ≤ k := by exact_mod_cast h
    rw [abs_of_nonneg (a := (k:ℚ) - x) (by linarith), abs_le]
    unfold nearest
    split_ifs <;> push_cast <;> constructor <;> linarith

theorem nearest_tie (x : ℚ) (k : Int) (hne : k ≠ nearest x) (h : |k - x| = |nearest x - x|) : nearest x % 2 = 0 := by
  have h1 := Int.floor_le x
  have h2 := Int.lt_floor_add_one x
  have hfrac : x - ⌊x⌋ = 1/2 := by
    by_contra hc
    rcases lt_or_gt_of_ne hc with hl | hg
    · have hn : nearest x = ⌊x⌋ := by unfold nearest; rw [if_pos hl]
      rw [hn] at h hne
      rw [abs_sub_comm (⌊x⌋:ℚ), abs_of_nonneg (a := x - ⌊x⌋) (by linarith)] at h
      rcases lt_or_gt_of_ne hne with h' | h'
      · have : (k:ℚ) + 1 ≤ ⌊x⌋ := by exact_mod_cast h'
        rw [abs_of_neg (by linarith)] at h; linarith
      · have : (⌊x⌋:ℚ) + 1 ≤ k := by exact_mod_cast h'
        rw [abs_of_pos (by linarith)] at h; linarith
    · have hn : nearest x = ⌊x⌋ + 1 := by unfold nearest; rw [if_neg (by linarith), if_pos hg]
      rw [hn] at h hne
      push_cast at h
      rw [abs_of_pos (a := (⌊x⌋:ℚ) + 1 - x) (by linarith)] at h
      rcases lt_or_gt_of_ne hne with h' | h'
      · have : (k:ℚ) ≤ ⌊x⌋ := by exact_mod_cast Int.lt_add_one_iff.1 h'
        rw [abs_of_nonpos (by linarith)] at h; linarith
      · have : (⌊x⌋:ℚ) + 1 + 1 ≤ k := by exact_mod_cast h'
        rw [abs_of_pos (by linarith)] at h; linarith
  unfold nearest
  rw [if_neg (by linarith), if_neg (by linarith)]
  split_ifs <;> omega

variable (F : Fmt)

theorem inFormat_neg {r : ℚ} (h : InFormat F r) : InFormat F (-r) := by
  obtain ⟨m, e, h1, h2, rfl⟩ := h
  exact ⟨-m, e, by rwa [abs_neg], h2, by push_cast; ring⟩

theorem rep_inFormat {q : ℚ} (h : Rep F q) : InFormat F q := by
  refine ⟨nearest (q / 2 ^ ulpExp F q), ulpExp F q, ?_, le_max_right _ _, h.symm⟩
  have h0 := two_pos (ulpExp F q)
  have h1 : |(nearest (q / 2 ^ ulpExp F q) : ℚ)| * 2 ^ ulpExp F q = |q| := by
    rw [← abs_of_pos h0, ← abs_mul, abs_of_pos h0]
    exact congrArg (fun z : ℚ => |z|) (show _ = _ from h)
  have h2 := lt_pow_log |q|
  have h3 : (2:ℚ) ^ (Int.log 2 |q| + 1) ≤ 2 ^ F.prec * 2 ^ ulpExp F q := by
    rw [← zpow_natCast, ← zpow_add₀ (by norm_num)]
    refine zpow_le_zpow_right₀ (by norm_num) ?_
    unfold ulpExp
    have := le_max_left (Int.log 2 |q| - (F.prec - 1 : Int)) F.emin
    omega
  have h4 : |(nearest (q / 2 ^ ulpExp F q) : ℚ)| < 2 ^ F.prec := by
    by_contra hc
    have := mul_le_mul_of_nonneg_right (not_lt.1 hc) h0.le
    linarith
  exact_mod_cast h4

theorem log_le_of_lt {q : ℚ} (hq : 0 < q) {k : Int} (h : q < 2 ^ k) : Int.log 2 q < k := by
  by_contra hc
  have h1 := pow_log_le hq
  have h2 : (2:ℚ) ^ k ≤ 2 ^ Int.log 2 q := zpow_le_zpow_right₀ (by norm_num) (not_lt.1 hc)
  linarith

theorem le_log_of_le {q : ℚ} {k : Int} (h : 2 ^ k ≤ q) : k ≤ Int.log 2 q := by
  by_contra hc
  have h1 := lt_pow_log q
  have h2 : (2:ℚ) ^ (Int.log 2 q + 1) ≤ 2 ^ k := zpow_le_zpow_right₀ (by norm_num) (by omega)
  linarith

theorem inFormat_rep {q : ℚ} (h : InFormat F q) : Rep F q := by
  obtain ⟨m, e, h1, h2, h3⟩ := h
  rcases eq_or_ne q 0 with h0 | h0
  · rw [h0]; exact round_zero F
  have hlog : Int.log 2 |q| < F.prec + e := by
    refine log_le_of_lt (abs_pos.2 h0) ?_
    rw [h3, abs_mul, abs_of_pos (two_pos e), zpow_add₀ (by norm_num), zpow_natCast]
    refine mul_lt_mul_of_pos_right ?_ (two_pos e)
    exact_mod_cast h1
  have hle : ulpExp F q ≤ e := by unfold ulpExp; omega
  refine rep_of_grid F q (m * 2 ^ (e - ulpExp F q).toNat) ?_
  have := pow_on_grid _ _ hle
  generalize ulpExp F q = u at this ⊢
  rw [h3, this]
  push_cast
  ring

theorem rep_iff {q : ℚ} : Rep F q ↔ InFormat F q := ⟨rep_inFormat F, inFormat_rep F⟩

/-- numbers of the format beyond the binade of `q` are on the grid of `q` -/
theorem on_grid {q r : ℚ} (hq : 0 < q) (hr : InFormat F r) (h : 2 ^ Int.log 2 q ≤ r ∨ ulpExp F q = F.emin) : ∃ k : Int, r = k * 2 ^ ulpExp F q := by
  have hrep := inFormat_rep F hr
  have hle : r = 0 ∨ ulpExp F q ≤ ulpExp F r := by
    rcases eq_or_ne r 0 with h0 | h0
    · exact Or.inl h0
    right
    rcases h with h | h
    · have hr0 : 0 < r := (two_pos _).trans_le h
      unfold ulpExp
      rw [abs_of_pos hq, abs_of_pos hr0]
      have := le_log_of_le h
      omega
    · rw [h]; exact le_max_right _ _
  rcases hle with rfl | hle
  · exact ⟨0, by simp⟩
  · refine ⟨nearest (r / 2 ^ ulpExp F r) * 2 ^ (ulpExp F r - ulpExp F q).toNat, ?_⟩
    have h1 : r = nearest (r / 2 ^ ulpExp F r) * 2 ^ ulpExp F r := hrep.symm
    have h2 := pow_on_grid _ _ hle
    generalize nearest (r / 2 ^ ulpExp F r) = N at h1 ⊢
    generalize ulpExp F r = u at h1 h2 ⊢
    rw [h1, h2]
    push_cast
    ring

theorem dist_grid {q : ℚ} (k : Int) : |(k:ℚ) * 2 ^ ulpExp F q - q| = |k - q / 2 ^ ulpExp F q| * 2 ^ ulpExp F q := by
  have h0 := two_pos (ulpExp F q)
  rw [← abs_of_pos h0, ← abs_mul, abs_of_pos h0]
  congr 1
  field_simp

theorem near_grid {q : ℚ} (k : Int) : |rnd F q - q| ≤ |(k:ℚ) * 2 ^ ulpExp F q - q| := by
  unfold rnd
  rw [dist_grid, dist_grid]
  exact mul_le_mul_of_nonneg_right (nearest_nearest _ _) (two_pos _).le

/-- numbers below the binade of `q` are farther than its lower end -/
theorem far_below (hp : 1 ≤ F.prec) {q r' : ℚ} (hq : 0 < q) (hn : ¬ (2 ^ Int.log 2 q ≤ r' ∨ ulpExp F q = F.emin)) : |rnd F q - q| < |r' - q| := by
  push Not at hn
  have hu : ulpExp F q ≤ Int.log 2 q := by
    have : ulpExp F q = max (Int.log 2 q - (F.prec - 1 : Int)) F.emin := by unfold ulpExp; rw [abs_of_pos hq]
    omega
  have h1 := near_grid F (q := q) (2 ^ (Int.log 2 q - ulpExp F q).toNat)
  rw [← pow_on_grid _ _ hu] at h1
  have h2 := pow_log_le hq
  rw [abs_of_nonpos (a := 2 ^ Int.log 2 q - q) (by linarith)] at h1
  rw [abs_of_neg (a := r' - q) (by linarith [hn.1])]
  linarith [hn.1]

theorem rounds_pos (hp : 2 ≤ F.prec) {q : ℚ} (hq : 0 < q) : RoundsTo F q (rnd F q) := by
  have h0 := two_pos (ulpExp F q)
  have hgrid := fun k => dist_grid F (q := q) k
  have hnear := fun k => near_grid F (q := q) k
  have hbelow := fun r' h => far_below F (by omega) (r' := r') hq h
  refine ⟨rep_inFormat F (rep_round F (by omega) q), fun r' hr' => ?_, fun r' hr' hne he => ?_⟩
  · by_cases h : 2 ^ Int.log 2 q ≤ r' ∨ ulpExp F q = F.emin
    · obtain ⟨k, rfl⟩ := on_grid F hq hr' h
      exact hnear k
    · exact (hbelow r' h).le
  · by_cases h : 2 ^ Int.log 2 q ≤ r' ∨ ulpExp F q = F.emin
    swap
    · exact absurd he (hbelow r' h).ne'
    obtain ⟨k, rfl⟩ := on_grid F hq hr' h
    have hr : rnd F q = nearest (q / 2 ^ ulpExp F q) * 2 ^ ulpExp F q := rfl
    rw [hr] at he hne
    rw [hgrid, hgrid] at he
    have hk : k ≠ nearest (q / 2 ^ ulpExp F q) := fun h => hne (by rw [h])
    have ht := nearest_tie _ _ hk (mul_right_cancel₀ h0.ne' he)
    obtain ⟨j, hj⟩ : ∃ j, nearest (q / 2 ^ ulpExp F q) = 2 * j := ⟨nearest (q / 2 ^ ulpExp F q) / 2, by omega⟩
    have hu : F.emin ≤ ulpExp F q := le_max_right _ _
    rw [hr, hj]
    have hbound : |2 * j| ≤ 2 ^ F.prec := by
      have h2 := (lt_pow_log q).le
      have h3 : (2:ℚ) ^ (Int.log 2 q + 1) ≤ ((2 ^ F.prec : Int) : ℚ) * 2 ^ ulpExp F q := by
        push_cast
        rw [← zpow_natCast, ← zpow_add₀ (by norm_num)]
        refine zpow_le_zpow_right₀ (by norm_num) ?_
        unfold ulpExp
        rw [abs_of_pos hq]
        omega
      have h4 := round_le_grid F q _ (h2.trans h3)
      rw [hr, hj] at h4
      have h5 : ((2 * j : Int) : ℚ) ≤ (2 ^ F.prec : Int) := le_of_mul_le_mul_right h4 h0
      have h6 : 2 * j ≤ 2 ^ F.prec := by exact_mod_cast h5
      have h7 := round_nonneg F hq.le
      rw [hr, hj] at h7
      have h8 : (0:ℚ) ≤ ((2 * j : Int) : ℚ) := nonneg_of_mul_nonneg_left h7 h0
      have h9 : 0 ≤ 2 * j := by exact_mod_cast h8
      rwa [abs_of_nonneg h9]
    rcases hbound.lt_or_eq with h' | h'
    · exact ⟨j, _, h', hu, rfl⟩
    · -- the next power of two
      have h7 := round_nonneg F hq.le
      rw [hr, hj] at h7
      have h8 : (0:ℚ) ≤ ((2 * j : Int) : ℚ) := nonneg_of_mul_nonneg_left h7 h0
      have h9 : 0 ≤ 2 * j := by exact_mod_cast h8
      rw [abs_of_nonneg h9] at h'
      obtain ⟨p, hp'⟩ : ∃ p, F.prec = p + 2 := ⟨F.prec - 2, by omega⟩
      refine ⟨2 ^ p, ulpExp F q + 1, ?_, by omega, ?_⟩
      · rw [abs_of_nonneg (by positivity), hp', pow_add]
        have : (0:Int) < 2 ^ p := by positivity
        omega
      · rw [h', hp', zpow_add_one₀ (by norm_num)]
        push_cast
        ring

theorem lastBitZero_neg {r : ℚ} (h : LastBitZero F r) : LastBitZero F (-r) := by
  obtain ⟨m, e, h1, h2, rfl⟩ := h
  exact ⟨-m, e, by rwa [mul_neg, abs_neg], h2, by push_cast; ring⟩

/-- `rnd` rounds to nearest, ties to even -/
theorem rounds (hp : 2 ≤ F.prec) (q : ℚ) : RoundsTo F q (rnd F q) := by
  rcases lt_trichotomy q 0 with h | rfl | h
  · have H := rounds_pos F hp (q := -q) (by linarith)
    rw [round_neg] at H
    have hab : ∀ a : ℚ, |-a - -q| = |a - q| := fun a => by rw [← abs_neg]; congr 1; ring
    refine ⟨by simpa using inFormat_neg F H.inFormat, fun r' hr' => ?_, fun r' hr' hne he => ?_⟩
    · have := H.nearest (-r') (inFormat_neg F hr')
      rwa [hab, hab] at this
    · have := H.even (-r') (inFormat_neg F hr') (by simpa using hne) (by rw [hab, hab]; exact he)
      simpa using lastBitZero_neg F this
  · rw [round_zero]
    refine ⟨⟨0, F.emin, by simp, le_rfl, by simp⟩, fun r' _ => by simp, fun r' _ hne he => ?_⟩
    simp at he
    exact absurd he hne
  · exact rounds_pos F hp h

theorem rounds_unique_pos (hp : 2 ≤ F.prec) {q r : ℚ} (hq : 0 < q) (h : RoundsTo F q r) : r = rnd F q := by
  have H := rounds_pos F hp hq
  have he : |r - q| = |rnd F q - q| := le_antisymm (h.nearest _ H.inFormat) (H.nearest _ h.inFormat)
  by_contra hne
  have hb : 2 ^ Int.log 2 q ≤ r ∨ ulpExp F q = F.emin := by
    by_contra hc
    exact (far_below F (by omega) hq hc).ne' he
  obtain ⟨k, hk⟩ := on_grid F hq h.inFormat hb
  have h0 := two_pos (ulpExp F q)
  have hr : rnd F q = nearest (q / 2 ^ ulpExp F q) * 2 ^ ulpExp F q := rfl
  -- the two neighbours have significands of different parity
  have hpar : k % 2 = 1 := by
    have h1 : k ≠ nearest (q / 2 ^ ulpExp F q) := fun e => hne (by rw [hk, hr, e])
    have he' := he
    rw [hk, hr, dist_grid, dist_grid] at he'
    have he2 := mul_right_cancel₀ h0.ne' he'
    have ht := nearest_tie _ _ h1 he2
    have hle := nearest_error (q / 2 ^ ulpExp F q)
    generalize q / 2 ^ ulpExp F q = x at *
    have hk2 : |(k:ℚ) - x| ≤ 1/2 := by rw [he2]; exact hle
    have h3 : |((k - nearest x : Int) : ℚ)| ≤ 1 := by
      push_cast
      have := abs_sub_le (k:ℚ) x (nearest x)
      rw [abs_sub_comm x] at this
      linarith
    have h4 : |k - nearest x| ≤ 1 := by exact_mod_cast h3
    rw [abs_le] at h4
    omega
  obtain ⟨m, e, g1, g2, g3⟩ := h.even _ H.inFormat (Ne.symm hne) he.symm
  rcases le_or_gt (ulpExp F q) e with hle | hlt
  · have h5 := pow_on_grid _ _ hle
    rw [hk, h5, ← mul_assoc] at g3
    have h6 := mul_right_cancel₀ h0.ne' g3
    have h7 : k = 2 * m * 2 ^ (e - ulpExp F q).toNat := by exact_mod_cast h6
    rw [h7, mul_assoc] at hpar
    omega
  · have hu : ulpExp F q = Int.log 2 q - (F.prec - 1 : Int) := by
      have : ulpExp F q = max (Int.log 2 q - (F.prec - 1 : Int)) F.emin := by unfold ulpExp; rw [abs_of_pos hq]
      omega
    rcases hb with hb | hb
    swap
    · omega
    rw [g3] at hb
    have h8 : (2:ℚ) ^ Int.log 2 q ≤ |((2 * m : Int) : ℚ)| * 2 ^ e := hb.trans (mul_le_mul_of_nonneg_right (le_abs_self _) (two_pos e).le)
    have h9 : |((2 * m : Int) : ℚ)| < 2 ^ F.prec := by exact_mod_cast g1
    have h10 : (2:ℚ) ^ Int.log 2 q < 2 ^ F.prec * 2 ^ e := h8.trans_lt (mul_lt_mul_of_pos_right h9 (two_pos e))
    rw [← zpow_natCast, ← zpow_add₀ (by norm_num)] at h10
    have := (zpow_lt_zpow_iff_right₀ (by norm_num : (1:ℚ) < 2)).1 h10
    omega

theorem roundsTo_neg {q r : ℚ} (h : RoundsTo F q r) : RoundsTo F (-q) (-r) := by
  have hab : ∀ a : ℚ, |-a - -q| = |a - q| := fun a => by rw [← abs_neg]; congr 1; ring
  refine ⟨inFormat_neg F h.inFormat, fun r' hr' => ?_, fun r' hr' hne he => ?_⟩
  · have := h.nearest (-r') (inFormat_neg F hr')
    rw [← hab (-r'), neg_neg] at this
    rwa [hab]
  · refine lastBitZero_neg F (h.even (-r') (inFormat_neg F hr') (fun e => hne (by rw [← e, neg_neg])) ?_)
    rw [← hab (-r'), neg_neg, he, hab]

/-- there is only one such number -/
theorem rounds_unique (hp : 2 ≤ F.prec) {q r : ℚ} (h : RoundsTo F q r) : r = rnd F q := by
  rcases lt_trichotomy q 0 with hq | rfl | hq
  · have := rounds_unique_pos F hp (by linarith) (roundsTo_neg F h)
    rw [round_neg] at this
    linarith
  · have := h.nearest 0 ⟨0, F.emin, by simp, le_rfl, by simp⟩
    simp at this
    rw [this, round_zero]
  · exact rounds_unique_pos F hp hq h

theorem finite_of_rep {q : ℚ} (h : Rep F q) (h' : |q| < 2 ^ F.emax) : Finite F q := ⟨rep_inFormat F h, h'⟩

/-- numbers above one are at least `1 + 2 ^ (1 - prec)` -/
theorem above_one {f : ℚ} (h : InFormat F f) (h1 : 1 < f) : 1 + 2 ^ (1 - F.prec : Int) ≤ f := by
  obtain ⟨m, e, g1, g2, rfl⟩ := h
  have hm : (m:ℚ) < 2 ^ F.prec := by
    have : m < 2 ^ F.prec := (le_abs_self m).trans_lt g1
    exact_mod_cast this
  have he : 1 - (F.prec:Int) ≤ e := by
    by_contra hc
    have h2 : (2:ℚ) ^ F.prec * 2 ^ e ≤ 1 := by
      rw [← zpow_natCast, ← zpow_add₀ (by norm_num)]
      exact zpow_le_one_of_nonpos₀ (by norm_num) (by omega)
    have h3 := mul_lt_mul_of_pos_right hm (two_pos e)
    linarith
  have h4 := pow_on_grid _ _ he
  have h5 : (1:ℚ) = ((2 ^ (0 - (1 - F.prec : Int)).toNat : Int) : ℚ) * 2 ^ (1 - F.prec : Int) ∨ F.prec = 0 := by
    rcases Nat.eq_zero_or_pos F.prec with h0 | h0
    · exact Or.inr h0
    · left; have := pow_on_grid (1 - F.prec : Int) 0 (by omega); rwa [zpow_zero] at this
  rcases h5 with h5 | h5
  swap
  · rw [h5] at g1
    have : m = 0 := by rw [pow_zero] at g1; exact Int.abs_lt_one_iff.1 g1
    rw [this] at h1; norm_num at h1
  have hpos := two_pos (1 - F.prec : Int)
  generalize (2:ℚ) ^ (1 - F.prec : Int) = w at *
  generalize (2 ^ (0 - (1 - F.prec : Int)).toNat : Int) = a at *
  rw [h4] at h1 ⊢
  generalize (2 ^ (e - (1 - F.prec : Int)).toNat : Int) = b at *
  rw [h5] at h1 ⊢
  have h6 : (a:ℚ) < (m * b : Int) := by
    push_cast
    rw [← mul_assoc] at h1
    exact lt_of_mul_lt_mul_right h1 hpos.le
  have h7 : a < m * b := by exact_mod_cast h6
  have h8 : ((a + 1 : Int) : ℚ) ≤ (m * b : Int) := by exact_mod_cast h7
  push_cast at h8
  have := mul_le_mul_of_nonneg_right h8 hpos.le
  linarith

/-- dividing a number of full precision by a number above one gives a smaller number, in spite of rounding -/
theorem rnd_div_lt (hp : 2 ≤ F.prec) {d f : ℚ} (hd : InFormat F d) (hn : minNormal F ≤ d) (hf : InFormat F f) (hf1 : 1 < f) : rnd F (d / f) < d := by
  have hmin : (0:ℚ) < minNormal F := two_pos _
  have hd0 : 0 < d := hmin.trans_le hn
  have hw := above_one F hf hf1
  have hrep := inFormat_rep F hd
  have hle : d / f ≤ d := div_le_self hd0.le hf1.le
  have hmono := round_mono F (by omega) hle
  rw [show rnd F d = d from hrep] at hmono
  refine lt_of_le_of_ne hmono (fun heq => ?_)
  have hlogn : F.emin + F.prec - 1 ≤ Int.log 2 d := le_log_of_le hn
  have hu : ulpExp F d = Int.log 2 d - (F.prec - 1 : Int) := by
    unfold ulpExp; rw [abs_of_pos hd0]; omega
  -- the number one unit below is in the format
  have hm : d = nearest (d / 2 ^ ulpExp F d) * 2 ^ ulpExp F d := hrep.symm
  obtain ⟨m, hm⟩ : ∃ m : Int, d = m * 2 ^ ulpExp F d := ⟨_, hm⟩
  have h0 := two_pos (ulpExp F d)
  have hbig : (2:ℚ) ^ (F.prec - 1 : Int) * 2 ^ ulpExp F d ≤ d := by
    have := pow_log_le hd0
    rw [← zpow_add₀ (by norm_num), hu]
    refine le_trans (le_of_eq ?_) this
    congr 1; ring
  have hlt : (m:ℚ) < 2 ^ F.prec := by
    have h1 := lt_pow_log d
    have h2 : (2:ℚ) ^ (Int.log 2 d + 1) = 2 ^ F.prec * 2 ^ ulpExp F d := by
      rw [← zpow_natCast, ← zpow_add₀ (by norm_num), hu]; congr 1; ring
    rw [h2] at h1
    nth_rewrite 1 [hm] at h1
    exact lt_of_mul_lt_mul_right h1 h0.le
  have hm1 : (1:ℚ) ≤ m := by
    have h1 : (1:ℚ) ≤ 2 ^ (F.prec - 1 : Int) := one_le_zpow₀ (by norm_num) (by omega)
    have h2 : 1 * 2 ^ ulpExp F d ≤ (m:ℚ) * 2 ^ ulpExp F d := by
      rw [← hm]; exact (mul_le_mul_of_nonneg_right h1 h0.le).trans hbig
    exact le_of_mul_le_mul_right h2 h0
  have hpred : InFormat F (d - 2 ^ ulpExp F d) := by
    refine ⟨m - 1, ulpExp F d, ?_, le_max_right _ _, ?_⟩
    · have h1 : 1 ≤ m := by exact_mod_cast hm1
      have h2 : m < 2 ^ F.prec := by exact_mod_cast hlt
      rw [abs_of_nonneg (by omega)]; omega
    · push_cast
      rw [sub_mul, one_mul, ← hm]
  have hnear := (rounds F hp (d / f)).nearest _ hpred
  rw [heq] at hnear
  -- but the quotient is more than half a unit below
  have hhalf : 2 ^ ulpExp F d < 2 * (d - d / f) := by
    have hw1 : (0:ℚ) < 2 ^ (1 - F.prec : Int) := two_pos _
    have hw2 : (2:ℚ) ^ (1 - F.prec : Int) < 1 := zpow_lt_one_of_neg₀ (by norm_num) (by omega)
    have hww : (2:ℚ) ^ (F.prec - 1 : Int) * 2 ^ (1 - F.prec : Int) = 1 := by rw [← zpow_add₀ (by norm_num)]; norm_num
    have e1 : d - d / f = d * (f - 1) / f := by field_simp
    rw [e1, mul_div_assoc', lt_div_iff₀ (by linarith)]
    have h1 : 2 ^ ulpExp F d ≤ d * 2 ^ (1 - F.prec : Int) := by
      have := mul_le_mul_of_nonneg_right hbig hw1.le
      nlinarith
    have h2 : f < 2 * (f - 1) / 2 ^ (1 - F.prec : Int) := by
      rw [lt_div_iff₀ hw1]
      nlinarith
    rw [lt_div_iff₀ hw1] at h2
    have h3 : 2 ^ ulpExp F d * f ≤ d * 2 ^ (1 - F.prec : Int) * f := mul_le_mul_of_nonneg_right h1 (by linarith)
    have h4 : d * (f * 2 ^ (1 - F.prec : Int)) < d * (2 * (f - 1)) := mul_lt_mul_of_pos_left h2 hd0
    linarith
  rw [abs_of_nonneg (a := d - d / f) (by linarith)] at hnear
  rcases le_or_gt (2 ^ ulpExp F d) (d - d / f) with hc | hc
  · rw [abs_of_nonneg (by linarith)] at hnear
    linarith
  · rw [abs_of_neg (by linarith)] at hnear
    linarith

end Pressio.Lemmas.Float
