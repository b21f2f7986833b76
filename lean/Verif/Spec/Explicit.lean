import Mathlib.Algebra.Module.Basic
import Mathlib.Algebra.BigOperators.Group.List.Basic
import Verif.Model.Explicit

/-
  Textbook definitions of the explicit schemes, independent of the model of the code.
-/
namespace Pressio.Spec.Explicit
set_option autoImplicit false
open Pressio

/-- A Butcher tableau with `s` stages. -/
structure Tableau (K : Type) where
  s : Nat
  a : Nat → Nat → K
  b : Nat → K
  c : Nat → K

variable {K Y : Type} [Field K] [AddCommGroup Y] [Module K Y]

/-- sum over `j < i` -/
def sumBelow (g : Nat → Y) : Nat → Y
  | 0 => 0
  | i+1 => sumBelow g i + g i

/-- The stage derivatives `k_0, ..., k_{i-1}` of the explicit Runge-Kutta method:
    `k_i = f(y + h * sum_{j<i} a_ij k_j, t + c_i h)`. -/
def stages (tab : Tableau K) (f : Y → K → Y) (y : Y) (t h : K) : Nat → List Y
  | 0 => []
  | i+1 =>
    let ks := stages tab f y t h i
    ks ++ [f (y + h • sumBelow (fun j => tab.a i j • ks.getD j 0) i) (t + tab.c i * h)]

/-- One step: `y + h * sum_i b_i k_i`. -/
def rkStep (tab : Tableau K) (f : Y → K → Y) (y : Y) (t h : K) : Y :=
  y + h • sumBelow (fun i => tab.b i • (stages tab f y t h tab.s).getD i 0) tab.s

/-- entry `(i,j)` of a list of rows -/
def ofRows (rows : List (List K)) : Nat → Nat → K := fun i j => (rows.getD i []).getD j 0
def ofRow (row : List K) : Nat → K := fun i => row.getD i 0

/-- Euler -/
def eulerTableau : Tableau K := ⟨1, ofRows [[]], ofRow [1], ofRow [0]⟩

/-- Shu-Osher's third order strong-stability-preserving method -/
def ssprk3Tableau : Tableau K :=
  ⟨3, ofRows [[], [1], [1/4, 1/4]], ofRow [1/6, 1/6, 2/3], ofRow [0, 1, 1/2]⟩

/-- the classical fourth order method -/
def rk4Tableau : Tableau K :=
  ⟨4, ofRows [[], [1/2], [0, 1/2], [0, 0, 1]], ofRow [1/6, 1/3, 1/3, 1/6], ofRow [0, 1/2, 1/2, 1]⟩

/-- Adams-Bashforth of order 2 with an Euler start, for given times and step sizes: the sequence of states. -/
def ab2 (f : Y → K → Y) (y0 : Y) (t h : Nat → K) : Nat → Y
  | 0 => y0
  | 1 => y0 + h 0 • f y0 (t 0)
  | n+2 => ab2 f y0 t h (n+1) + h (n+1) • (((3:K)/2) • f (ab2 f y0 t h (n+1)) (t (n+1))
      - ((1:K)/2) • f (ab2 f y0 t h n) (t n))

/-- Contract of a user system: whatever the buffer contained, `rhs` fills it with `f(y,t)` and returns. -/
def Computes (sys : Model.Explicit.System K Y) (f : Y → K → Y) : Prop :=
  ∀ y t b, sys.rhs y t b = .ok () (f y t)

end Pressio.Spec.Explicit
