import Verif.Spec.NonlinearObjects
import Mathlib.Data.Rat.Defs
import Mathlib.Algebra.Order.Ring.Rat
import Mathlib.Data.Fintype.Basic

/-
  Concrete user objects for the non-vacuity examples: one unknown, one equation, rational numbers.
-/
namespace Pressio.Spec.Nonlinear
set_option autoImplicit false
open Pressio Pressio.Model.Nonlinear Matrix

/-- scalar as vector, as matrix -/
def v1 (a : ℚ) : Unit → ℚ := fun _ => a
def m1 (a : ℚ) : Matrix Unit Unit ℚ := fun _ _ => a

/-- inner solver: divides, and throws when the matrix is singular; counts its calls in its own state -/
def div1 (A : Matrix Unit Unit ℚ) (b : Unit → ℚ) : Prog ((Unit → ℚ) × ℚ) Unit := fun (c, l) =>
  if A () () = 0 then .stop (.exc (.other 0)) (c, l) else .ok () (v1 (b () / A () ()), l)

/-- user objects: absolute value as norm, division as inner solver, weight 2, compact weight 3, `applyJacobian` of `x² - 2` -/
def env1 : Env ℚ Unit Unit Unit ℚ where
  normM := fun v => |v ()|
  normN := fun v => |v ()|
  lin := div1
  linJ := div1
  applyJac := fun x v _ => v1 (2 * x () * v ())
  krylov := fun op b c => if op (v1 1) (v1 0) () = 0 then .stop (.exc (.other 0)) c else .ok () (v1 (b () / op (v1 1) (v1 0) ()))
  qrThin := fun J _ => .ok () (J () ())
  qrApplyQT := fun r (_, l) => .ok () (r, l)
  qrSolve := fun b (c, l) => if l = 0 then .stop (.exc (.other 0)) (c, l) else .ok () (v1 (b () / l), l)
  wR := fun r => v1 (2 * r ())
  wJ := fun J => m1 (2 * J () ())
  cwR := fun r => v1 (3 * r ())
  cwJ := fun J => m1 (3 * J () ())
  createState := v1 0

/-- the same with a Newton linear solver that always answers (0 for a singular matrix) and counts its calls -/
def env1t : Env ℚ Unit Unit Unit ℚ := { env1 with linJ := fun A b (_, l) => .ok () (v1 (b () / A () ()), l + 1) }

/-- memory of a new solver object called on the state `x` -/
def reg1 (names : List Diagnostic) (x : ℚ) : Reg ℚ Unit Unit Unit ℚ where
  x := v1 x
  trial := v1 7
  c := v1 7
  r := v1 7
  J := m1 7
  g := v1 7
  H := m1 7
  H0 := m1 7
  damp := 7
  Wr := v1 7
  WJ := m1 7
  cWr := v1 7
  cWJ := m1 7
  QTr := v1 7
  nu := 7
  cDiagH := v1 7
  lin := 7
  diag := newContainer names
  files := []
  log := []

/-- `x² - 2` -/
def sq2 : Sys ℚ Unit Unit := Sys.ofFun (fun x => v1 (x () * x () - 2)) (fun x => m1 (2 * x ()))

/-- `a x - b` -/
def aff1 (a b : ℚ) : Sys ℚ Unit Unit := Sys.ofFun (fun x => v1 (a * x () - b)) (fun _ => m1 a)

end Pressio.Spec.Nonlinear
