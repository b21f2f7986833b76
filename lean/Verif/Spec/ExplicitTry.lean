import Verif.Spec.Explicit
import Verif.Model.ExplicitMM

/-
  Textbook definition of an attempted step of an explicit scheme whose ingredients may throw, independent of the model of the code.
-/
namespace Pressio.Spec.ExplicitTry
set_option autoImplicit false
open Pressio Pressio.Spec.Explicit
open Pressio.Model.Explicit (RhsEv)

variable {K Y E : Type} [Field K] [AddCommGroup Y] [Module K Y]

/-- The stages of an explicit Runge-Kutta method, in order, until something throws.  `rhs` evaluates the user's functions, `seen` is the part of the result that the right-hand-side observer `obs` is
    shown, `slope` makes the stage derivative from it.  Result: the calls of the observer, and the stage derivatives or the first exception. -/
def tryStages (tab : Tableau K) (rhs : Y → K → Except Exc E) (seen : E → Y) (slope : E → Except Exc Y) (obs : RhsEv K Y → Except Exc Unit) (n : Int) (y : Y) (t h : K) :
    Nat → List (RhsEv K Y) × Except Exc (List Y)
  | 0 => ([], .ok [])
  | i+1 =>
    match tryStages tab rhs seen slope obs n y t h i with
    | (l, .error e) => (l, .error e)
    | (l, .ok ks) =>
      match rhs (y + h • sumBelow (fun j => tab.a i j • ks.getD j 0) i) (t + tab.c i * h) with
      | .error e => (l, .error e)
      | .ok r =>
        match obs ⟨n, i, t + tab.c i * h, seen r⟩ with
        | .error e => (l ++ [⟨n, i, t + tab.c i * h, seen r⟩], .error e)
        | .ok _ =>
          match slope r with
          | .error e => (l ++ [⟨n, i, t + tab.c i * h, seen r⟩], .error e)
          | .ok k => (l ++ [⟨n, i, t + tab.c i * h, seen r⟩], .ok (ks ++ [k]))

/-- The step: the new state, or the first exception. -/
def tryStep (tab : Tableau K) (rhs : Y → K → Except Exc E) (seen : E → Y) (slope : E → Except Exc Y) (obs : RhsEv K Y → Except Exc Unit) (n : Int) (y : Y) (t h : K) :
    List (RhsEv K Y) × Except Exc Y :=
  match tryStages tab rhs seen slope obs n y t h tab.s with
  | (l, .error e) => (l, .error e)
  | (l, .ok ks) => (l, .ok (y + h • sumBelow (fun i => tab.b i • ks.getD i 0) tab.s))

/-- Adams-Bashforth of order 2: one evaluation; the derivative of the previous step is given, except in the first step. -/
def tryAB2 (rhs : Y → K → Except Exc E) (seen : E → Y) (slope : E → Except Exc Y) (obs : RhsEv K Y → Except Exc Unit) (n : Int) (y : Y) (t h : K) (previous : Y) :
    List (RhsEv K Y) × Except Exc Y :=
  match rhs y t with
  | .error e => ([], .error e)
  | .ok r =>
    match obs ⟨n, 0, t, seen r⟩ with
    | .error e => ([⟨n, 0, t, seen r⟩], .error e)
    | .ok _ =>
      match slope r with
      | .error e => ([⟨n, 0, t, seen r⟩], .error e)
      | .ok k => ([⟨n, 0, t, seen r⟩], .ok (if n = 1 then y + h • k else y + h • (((3:K)/2) • k - ((1:K)/2) • previous)))

/-- A user system that computes `f(y, t)` or throws, in which case it may have written anything into its output. -/
def Tries (sys : Model.Explicit.System K Y) (f : Y → K → Except Exc Y) : Prop :=
  ∃ junk : Y → K → Y → Y, ∀ y t b, sys.rhs y t b = (match f y t with | .ok v => .ok () v | .error e => .stop (.exc e) (junk y t b))

/-- The same for a system with mass matrix: `f(y, t)` is the pair of mass matrix and right-hand side. -/
def TriesMM {Mt : Type} (sys : Model.ExplicitMM.MMSystem K Y Mt) (f : Y → K → Except Exc (Mt × Y)) : Prop :=
  ∃ junk : Y → K → Mt × Y → Mt × Y, ∀ y t b, sys.massMatrixAndRhs y t b = (match f y t with | .ok v => .ok () v | .error e => .stop (.exc e) (junk y t b))

/-- A linear solver, called as `solve(M, x, b)`, that computes `x = g(M, b)` and leaves `b`, or throws, in which case it may have written anything into `x` and `b`. -/
def TriesSolve {Mt : Type} (ls : Model.ExplicitMM.LinSolve Y Mt) (g : Mt → Y → Except Exc Y) : Prop :=
  ∃ junk : Mt → Y × Y → Y × Y, ∀ M x b, ls M (x, b) = (match g M b with | .ok v => .ok () (v, b) | .error e => .stop (.exc e) (junk M (x, b)))

end Pressio.Spec.ExplicitTry
