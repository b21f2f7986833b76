import Verif.Model.Float

/-
  What IEEE 754 says about rounding to nearest even, independently of how it is computed.
-/
namespace Pressio.Spec.Float
set_option autoImplicit false
open Pressio.Model.Float (Fmt Fl)

/-- numbers with at most `prec` significant bits that are multiples of the smallest number `2 ^ emin`; no upper limit -/
def InFormat (F : Fmt) (r : ℚ) : Prop := ∃ m e : Int, |m| < 2 ^ F.prec ∧ F.emin ≤ e ∧ r = m * 2 ^ e

/-- the same with an even significand: the last bit is 0 -/
def LastBitZero (F : Fmt) (r : ℚ) : Prop := ∃ m e : Int, |2 * m| < 2 ^ F.prec ∧ F.emin ≤ e ∧ r = (2 * m : Int) * 2 ^ e

/-- `r` is the number of the format nearest to `q`, the one with last bit 0 if there are two -/
structure RoundsTo (F : Fmt) (q r : ℚ) : Prop where
  inFormat : InFormat F r
  nearest : ∀ r', InFormat F r' → |r - q| ≤ |r' - q|
  even : ∀ r', InFormat F r' → r' ≠ r → |r' - q| = |r - q| → LastBitZero F r

/-- `x` is the result of an operation with exact result `q`: rounded, or infinite with the sign of `q` if the rounded number is too large -/
def ResultOf (F : Fmt) (q : ℚ) (x : Fl) : Prop :=
  ∃ r, RoundsTo F q r ∧ ((|r| < 2 ^ F.emax ∧ x = .fin r) ∨ (2 ^ F.emax ≤ |r| ∧ ((0 < q ∧ x = .inf false) ∨ (q < 0 ∧ x = .inf true))))

/-- smallest positive number with full precision -/
def minNormal (F : Fmt) : ℚ := 2 ^ (F.emin + F.prec - 1)

/-- a finite number of the format -/
def Finite (F : Fmt) (q : ℚ) : Prop := InFormat F q ∧ |q| < 2 ^ F.emax

end Pressio.Spec.Float
