import Verif.Model.Float
import Mathlib.Tactic.Linarith
import Mathlib.Tactic.Ring
import Mathlib.Tactic.FieldSimp
import Mathlib.Tactic.NormNum
import Mathlib.Tactic.Positivity
import Mathlib.Algebra.Order.Field.Power

/-
  Facts about rounding.
-/
namespace Pressio.Lemmas.Float
set_option autoImplicit false
open Pressio.Model.Float

theorem nearest_error (x : ℚ) : |nearest x - x| ≤ 1/2 := by
  have h1 := Int.floor_le x
  have h2 := Int.lt_floor_add_one x
  unfold nearest
  rw [abs_le]
  split_ifs <;> push_cast <;> constructor <;> linarith

theorem nearest_int (k : Int) : nearest (k : ℚ) = k := by
  unfold nearest
  simp

theorem nearest_mono {x y : ℚ} (h : x ≤ y) : nearest x ≤ nearest y := by
  have h1 := Int.floor_le x
  have h2 := Int.lt_floor_add_one x
  have h3 := Int.floor_le y
  have h4 := Int.lt_floor_add_one y
  have hf : ⌊x⌋ ≤ ⌊y⌋ := Int.floor_le_floor h
  rcases hf.eq_or_lt with e | hlt
  · unfold nearest
    rw [← e] at *
    have : x - ⌊x⌋ ≤ y - ⌊x⌋ := by linarith
    split_ifs <;> first | omega | (exfalso; linarith)
  · have hl : nearest x ≤ ⌊x⌋ + 1 := by unfold nearest; split_ifs <;> omega
    have hu : ⌊y⌋ ≤ nearest y := by unfold nearest; split_ifs <;> omega
    omega

theorem nearest_neg (x : ℚ) : nearest (-x) = - nearest x := by
  by_cases hx : x = ⌊x⌋
  · rw [hx, nearest_int, ← Int.cast_neg, nearest_int]
  have h1 := Int.floor_le x
  have h2 := Int.lt_floor_add_one x
  have h1' : (⌊x⌋ : ℚ) < x := lt_of_le_of_ne h1 (fun e => hx e.symm)
  have hf : ⌊-x⌋ = -⌊x⌋ - 1 := by
    rw [Int.floor_eq_iff]
    push_cast
    constructor <;> linarith
  unfold nearest
  rw [hf]
  push_cast
  split_ifs <;> first | omega | (exfalso; linarith)

variable (F : Fmt)

theorem two_pos (e : Int) : (0:ℚ) < 2 ^ e := by positivity

theorem ulpExp_neg (q : ℚ) : ulpExp F (-q) = ulpExp F q := by unfold ulpExp; rw [abs_neg]

theorem round_neg (q : ℚ) : rnd F (-q) = - rnd F q := by
  unfold rnd
  rw [ulpExp_neg, neg_div, nearest_neg]
  push_cast
  ring

theorem round_zero : rnd F 0 = 0 := by
  unfold rnd
  rw [zero_div, show nearest (0:ℚ) = 0 from by simpa using nearest_int 0]
  simp

theorem round_nonneg {q : ℚ} (h : 0 ≤ q) : 0 ≤ rnd F q := by
  unfold rnd
  have : (0:Int) ≤ nearest (q / 2 ^ ulpExp F q) := by
    have := nearest_mono (x := 0) (y := q / 2 ^ ulpExp F q) (by positivity)
    rwa [show nearest (0:ℚ) = 0 from by simpa using nearest_int 0] at this
  have h' : (0:ℚ) ≤ (nearest (q / 2 ^ ulpExp F q) : ℚ) := by exact_mod_cast this
  positivity

/-- numbers on the grid of `q` bound the rounded value if they bound `q` -/
theorem round_le_grid (q : ℚ) (k : Int) (h : q ≤ k * 2 ^ ulpExp F q) : rnd F q ≤ k * 2 ^ ulpExp F q := by
  unfold rnd
  have h1 : q / 2 ^ ulpExp F q ≤ (k : ℚ) := by rw [div_le_iff₀ (two_pos _)]; exact h
  have h2 := nearest_mono h1
  rw [nearest_int] at h2
  have : (nearest (q / 2 ^ ulpExp F q) : ℚ) ≤ k := by exact_mod_cast h2
  exact mul_le_mul_of_nonneg_right this (two_pos _).le

theorem grid_le_round (q : ℚ) (k : Int) (h : k * 2 ^ ulpExp F q ≤ q) : k * 2 ^ ulpExp F q ≤ rnd F q := by
  unfold rnd
  have h1 : (k : ℚ) ≤ q / 2 ^ ulpExp F q := by rw [le_div_iff₀ (two_pos _)]; exact h
  have h2 := nearest_mono h1
  rw [nearest_int] at h2
  have : (k : ℚ) ≤ (nearest (q / 2 ^ ulpExp F q) : ℚ) := by exact_mod_cast h2
  exact mul_le_mul_of_nonneg_right this (two_pos _).le

/-- powers of two are on every finer grid -/
theorem pow_on_grid (e k : Int) (h : e ≤ k) : (2:ℚ) ^ k = ((2 ^ (k - e).toNat : Int) : ℚ) * 2 ^ e := by
  have : (2:ℚ) ^ k = 2 ^ (k - e) * 2 ^ e := by rw [← zpow_add₀ (by norm_num)]; congr 1; omega
  rw [this]
  congr 1
  push_cast
  rw [← zpow_natCast]
  congr 1
  omega

theorem pow_log_le {q : ℚ} (h : 0 < q) : (2:ℚ) ^ Int.log 2 q ≤ q := by
  have := Int.zpow_log_le_self (b := 2) (by norm_num) h
  exact_mod_cast this

theorem lt_pow_log (q : ℚ) : q < (2:ℚ) ^ (Int.log 2 q + 1) := by
  have := Int.lt_zpow_succ_log_self (b := 2) (by norm_num) q
  exact_mod_cast this

/-- rounding error -/
theorem round_error (q : ℚ) : |rnd F q - q| ≤ 2 ^ (ulpExp F q - 1) := by
  have h := nearest_error (q / 2 ^ ulpExp F q)
  have hp := two_pos (ulpExp F q)
  have e : rnd F q - q = (nearest (q / 2 ^ ulpExp F q) - q / 2 ^ ulpExp F q) * 2 ^ ulpExp F q := by
    unfold rnd
    field_simp
  rw [e, abs_mul, abs_of_pos hp, zpow_sub_one₀ (by norm_num)]
  nlinarith

/-- relative and absolute error: unit roundoff `2 ^ -prec`, half of the smallest number -/
theorem round_error_le (q : ℚ) : |rnd F q - q| ≤ 2 ^ (-F.prec : Int) * |q| + 2 ^ (F.emin - 1) := by
  rcases eq_or_ne q 0 with rfl | hq
  · rw [round_zero]; simp; positivity
  have h := round_error F q
  have hl := pow_log_le (abs_pos.2 hq)
  have h0 : (0:ℚ) < 2 ^ (F.emin - 1) := two_pos _
  have h1 : (0:ℚ) ≤ 2 ^ (-F.prec : Int) * |q| := by positivity
  refine h.trans ?_
  unfold ulpExp
  rcases le_total (Int.log 2 |q| - (F.prec - 1 : Int)) F.emin with hm | hm
  · rw [max_eq_right hm]; linarith
  · rw [max_eq_left hm]
    have : (2:ℚ) ^ (Int.log 2 |q| - (F.prec - 1 : Int) - 1) = 2 ^ (-F.prec : Int) * 2 ^ Int.log 2 |q| := by
      rw [← zpow_add₀ (by norm_num)]; congr 1; ring
    rw [this]
    have := mul_le_mul_of_nonneg_left hl (two_pos (-F.prec : Int)).le
    linarith

theorem round_mono_pos {a b : ℚ} (ha : 0 < a) (h : a ≤ b) (hp : 1 ≤ F.prec) : rnd F a ≤ rnd F b := by
  have hb : 0 < b := ha.trans_le h
  have hlog : Int.log 2 a ≤ Int.log 2 b := Int.log_mono_right ha h
  have hea : ulpExp F a = max (Int.log 2 a - (F.prec - 1 : Int)) F.emin := by unfold ulpExp; rw [abs_of_pos ha]
  have heb : ulpExp F b = max (Int.log 2 b - (F.prec - 1 : Int)) F.emin := by unfold ulpExp; rw [abs_of_pos hb]
  by_cases he : ulpExp F a = ulpExp F b
  · unfold rnd
    rw [← he]
    have h2 := nearest_mono (div_le_div_of_nonneg_right h (two_pos (ulpExp F a)).le)
    have : (nearest (a / 2 ^ ulpExp F a) : ℚ) ≤ nearest (b / 2 ^ ulpExp F a) := by exact_mod_cast h2
    exact mul_le_mul_of_nonneg_right this (two_pos _).le
  · have hlt : Int.log 2 a < Int.log 2 b := by
      rcases hlog.eq_or_lt with e | e
      · exact absurd (by rw [hea, heb, e]) he
      · exact e
    have h1 : ulpExp F b = Int.log 2 b - (F.prec - 1 : Int) := by
      rw [heb]
      apply max_eq_left
      by_contra hc
      exact he (by rw [hea, heb, max_eq_right (by omega), max_eq_right (by omega)])
    have h2 : ulpExp F a ≤ Int.log 2 b := by rw [hea]; rw [heb] at h1; omega
    have h3 : a ≤ 2 ^ Int.log 2 b := (lt_pow_log a).le.trans (zpow_le_zpow_right₀ (by norm_num) (by omega))
    have h4 : rnd F a ≤ 2 ^ Int.log 2 b := by
      rw [pow_on_grid _ _ h2] at h3 ⊢
      exact round_le_grid F a _ h3
    have h5 : (2:ℚ) ^ Int.log 2 b ≤ rnd F b := by
      have := pow_log_le hb
      rw [pow_on_grid (ulpExp F b) _ (by omega)] at this ⊢
      exact grid_le_round F b _ this
    exact h4.trans h5

/-- rounding is monotone -/
theorem round_mono (hp : 1 ≤ F.prec) {a b : ℚ} (h : a ≤ b) : rnd F a ≤ rnd F b := by
  rcases lt_trichotomy a 0 with ha | rfl | ha
  · rcases lt_or_ge b 0 with hb | hb
    · have := round_mono_pos F (a := -b) (b := -a) (by linarith) (by linarith) hp
      rw [round_neg, round_neg] at this
      linarith
    · have h1 := round_nonneg F (q := -a) (by linarith)
      have h2 := round_nonneg F hb
      rw [round_neg] at h1
      linarith
  · rw [round_zero]; exact round_nonneg F h
  · exact round_mono_pos F ha h hp

/-- the numbers of the format (without upper limit): those that rounding leaves -/
def Rep (q : ℚ) : Prop := rnd F q = q

/-- multiples of the unit in the last place -/
theorem rep_of_grid (q : ℚ) (k : Int) (h : q = k * 2 ^ ulpExp F q) : Rep F q := by
  refine le_antisymm ?_ ?_
  · have := round_le_grid F q k h.le
    rwa [← h] at this
  · have := grid_le_round F q k h.ge
    rwa [← h] at this

theorem rep_pow (hp : 1 ≤ F.prec) (k : Int) (hk : F.emin ≤ k) : Rep F ((2:ℚ) ^ k) := by
  refine rep_of_grid F _ (2 ^ (k - ulpExp F (2 ^ k)).toNat) (pow_on_grid _ _ ?_)
  unfold ulpExp
  rw [abs_of_pos (two_pos k)]
  have : Int.log 2 ((2:ℚ) ^ k) = k := by
    have := Int.log_zpow (R := ℚ) (b := 2) (by norm_num) k
    exact_mod_cast this
  rw [this]
  omega

/-- rounded values are in the format -/
theorem rep_round (hp : 1 ≤ F.prec) (q : ℚ) : Rep F (rnd F q) := by
  -- positive numbers suffice
  suffices H : ∀ q : ℚ, 0 < q → Rep F (rnd F q) by
    rcases lt_trichotomy q 0 with h | rfl | h
    · have := H (-q) (by linarith)
      unfold Rep at this ⊢
      rw [round_neg, round_neg] at this
      linarith
    · unfold Rep; rw [round_zero, round_zero]
    · exact H q h
  intro q hq
  set e := ulpExp F q with he
  have heq : e = max (Int.log 2 q - (F.prec - 1 : Int)) F.emin := by rw [he]; unfold ulpExp; rw [abs_of_pos hq]
  have hgrid : rnd F q = nearest (q / 2 ^ e) * 2 ^ e := rfl
  rcases (round_nonneg F hq.le).eq_or_lt with h0 | hpos
  · rw [← h0]; unfold Rep; exact round_zero F
  -- if the exponent of the result is not larger, it is on its own grid
  by_cases hle : ulpExp F (rnd F q) ≤ e
  · refine rep_of_grid F _ (nearest (q / 2 ^ e) * 2 ^ (e - ulpExp F (rnd F q)).toNat) ?_
    have := pow_on_grid _ _ hle
    generalize ulpExp F (rnd F q) = e' at this ⊢
    rw [hgrid]
    generalize nearest (q / 2 ^ e) = N
    rw [this]
    push_cast
    ring
  · -- otherwise the result is the next power of two
    have hup : rnd F q ≤ 2 ^ (Int.log 2 q + 1) ∨ rnd F q ≤ 2 ^ e := by
      by_cases hc : e ≤ Int.log 2 q + 1
      · left
        have := (lt_pow_log q).le
        rw [pow_on_grid e _ hc] at this ⊢
        exact round_le_grid F q _ this
      · right
        have : q ≤ ((1:Int):ℚ) * 2 ^ e := by
          have h1 := (lt_pow_log q).le
          have h2 : (2:ℚ) ^ (Int.log 2 q + 1) ≤ 2 ^ e := zpow_le_zpow_right₀ (by norm_num) (by omega)
          push_cast; linarith
        have := round_le_grid F q 1 this
        push_cast at this
        linarith
    have hlog2 : ulpExp F (rnd F q) = max (Int.log 2 (rnd F q) - (F.prec - 1 : Int)) F.emin := by
      unfold ulpExp; rw [abs_of_pos hpos]
    have hlogle := pow_log_le hpos
    rcases hup with hup | hup
    · have h1 : Int.log 2 (rnd F q) ≤ Int.log 2 q + 1 := by
        by_contra hc
        have : (2:ℚ) ^ (Int.log 2 q + 1) < 2 ^ Int.log 2 (rnd F q) := zpow_lt_zpow_right₀ (by norm_num) (by omega)
        linarith
      have h2 : Int.log 2 (rnd F q) = Int.log 2 q + 1 := by omega
      have h3 : rnd F q = 2 ^ (Int.log 2 q + 1) := le_antisymm hup (by rw [← h2]; exact hlogle)
      rw [h3]
      exact rep_pow F hp _ (by omega)
    · have h1 : Int.log 2 (rnd F q) ≤ e := by
        by_contra hc
        have : (2:ℚ) ^ e < 2 ^ Int.log 2 (rnd F q) := zpow_lt_zpow_right₀ (by norm_num) (by omega)
        linarith
      omega

end Pressio.Lemmas.Float
