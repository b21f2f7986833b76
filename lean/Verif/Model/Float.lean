import Mathlib.Data.Int.Log
import Mathlib.Algebra.Order.Archimedean.Basic
import Mathlib.Data.Rat.Floor

/-
  Binary floating-point numbers (IEEE 754, round to nearest, ties to even): the arithmetic of `float` and `double`, used as the independent variable of the advancers.
  This is not pressio code but the meaning of the C++ operators it applies to `IndVarType` (`include/pressio/ode/impl/ode_advance_n_steps.hpp:95`,
  `include/pressio/ode/impl/ode_advance_to_target_time.hpp:100-184`).  Simplified: one zero (the advancers never divide by a number that may be zero without having
  compared it with 1 first), one NaN, flags and traps are left out.
-/
namespace Pressio.Model.Float
set_option autoImplicit false

/-- a format: `prec` significant bits, smallest positive number `2 ^ emin`, finite numbers below `2 ^ emax`. The types of the independent variable, `include/pressio/ode/impl/ode_advance_to_target_time.hpp:84-90`. -/
structure Fmt where
  prec : Nat
  emin : Int
  emax : Int
deriving DecidableEq, Repr

/-- `double` (`include/pressio/ode/impl/ode_advance_to_target_time.hpp:84-90` with `IndVarType = double`) -/
def binary64 : Fmt := ⟨53, -1074, 1024⟩
/-- `float` (`include/pressio/ode/impl/ode_advance_to_target_time.hpp:84-90` with `IndVarType = float`) -/
def binary32 : Fmt := ⟨24, -149, 128⟩

/-- the integer nearest to `x`, the even one if there are two. IEEE 754 rounding of the operations at `include/pressio/ode/impl/ode_advance_to_target_time.hpp:160,177,181`. -/
def nearest (x : ℚ) : Int :=
  if x - ⌊x⌋ < 1/2 then ⌊x⌋
  else if 1/2 < x - ⌊x⌋ then ⌊x⌋ + 1
  else if ⌊x⌋ % 2 = 0 then ⌊x⌋ else ⌊x⌋ + 1

/-- exponent of the unit in the last place of `q`. IEEE 754 rounding of the operations at `include/pressio/ode/impl/ode_advance_to_target_time.hpp:160,177,181`. -/
def ulpExp (F : Fmt) (q : ℚ) : Int := max (Int.log 2 |q| - (F.prec - 1 : Int)) F.emin

/-- rounding to `prec` bits, without upper limit. IEEE 754 rounding of the operations at `include/pressio/ode/impl/ode_advance_to_target_time.hpp:160,177,181`. -/
def rnd (F : Fmt) (q : ℚ) : ℚ := nearest (q / 2 ^ ulpExp F q) * 2 ^ ulpExp F q

/-- a datum: finite, infinite or not a number. Values of the variables at `include/pressio/ode/impl/ode_advance_to_target_time.hpp:111-115`. -/
inductive Fl where
  | fin (q : ℚ)
  | inf (neg : Bool)
  | nan
deriving DecidableEq, Repr

/-- the result of an operation with exact result `q`. For the operations at `include/pressio/ode/impl/ode_advance_to_target_time.hpp:160,177,181`. -/
def deliver (F : Fmt) (q : ℚ) : Fl := if |rnd F q| < 2 ^ F.emax then .fin (rnd F q) else .inf (decide (q < 0))

/-- `a + b` (`include/pressio/ode/impl/ode_advance_to_target_time.hpp:177`) -/
def add (F : Fmt) : Fl → Fl → Fl
  | .fin a, .fin b => deliver F (a + b)
  | .fin _, .inf s => .inf s
  | .inf s, .fin _ => .inf s
  | .inf s, .inf s' => if s = s' then .inf s else .nan
  | .nan, _ => .nan
  | _, .nan => .nan

/-- `-a`. used in `sub`, `include/pressio/ode/impl/ode_advance_to_target_time.hpp:181` -/
def neg : Fl → Fl
  | .fin a => .fin (-a)
  | .inf s => .inf (!s)
  | .nan => .nan

/-- `a - b` (`include/pressio/ode/impl/ode_advance_to_target_time.hpp:181`) -/
def sub (F : Fmt) (a b : Fl) : Fl := add F a (neg b)

/-- `a / b` (`include/pressio/ode/impl/ode_advance_to_target_time.hpp:160`) -/
def div (F : Fmt) : Fl → Fl → Fl
  | .fin a, .fin b => if b = 0 then (if a = 0 then .nan else .inf (decide (a < 0))) else deliver F (a / b)
  | .fin _, .inf _ => .fin 0
  | .inf s, .fin b => .inf (xor s (decide (b < 0)))
  | .inf _, .inf _ => .nan
  | .nan, _ => .nan
  | _, .nan => .nan

/-- `std::abs` (`include/pressio/ode/impl/ode_advance_to_target_time.hpp:181`) -/
def abs : Fl → Fl
  | .fin a => .fin |a|
  | .inf _ => .inf false
  | .nan => .nan

/-- `a < b` (`include/pressio/ode/impl/ode_advance_to_target_time.hpp:101,133,161,184`) -/
def lt : Fl → Fl → Bool
  | .fin a, .fin b => decide (a < b)
  | .fin _, .inf s => !s
  | .inf s, .fin _ => s
  | .inf s, .inf s' => s && !s'
  | .nan, _ => false
  | _, .nan => false

/-- `a == b` (`include/pressio/ode/impl/ode_advance_to_target_time.hpp:105`) -/
def eq : Fl → Fl → Bool
  | .fin a, .fin b => decide (a = b)
  | .inf s, .inf s' => decide (s = s')
  | _, _ => false

/-- `a <= b` (`include/pressio/ode/impl/ode_advance_to_target_time.hpp:138,181`) -/
def le (a b : Fl) : Bool := lt a b || eq a b

/-- `std::numeric_limits<T>::epsilon()` (`include/pressio/ode/impl/ode_advance_to_target_time.hpp:122`) -/
def epsilon (F : Fmt) : Fl := .fin (2 ^ (1 - F.prec : Int))

end Pressio.Model.Float
