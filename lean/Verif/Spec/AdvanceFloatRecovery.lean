import Verif.Spec.AdvanceFloat
import Verif.Model.AdvanceFloat

/-
  Vocabulary for C85: runs with step-size recovery, in any arithmetic.
-/
namespace Pressio.Spec.AdvanceFloat
set_option autoImplicit false
open Pressio Pressio.Model.Advance Pressio.Model.AdvanceFloat

variable {T : Type}

/-- the size of the `k`-th retry: divided `k` times by the factor, each time in the arithmetic of the machine -/
def shrunk (A : Arith T) (dt factor : T) : Nat → T
  | 0 => dt
  | k+1 => A.div (shrunk A dt factor k) factor

/-- A step is described by what the policy has set and by the number of failed attempts. The time after some steps. -/
def endOf (A : Arith T) (t : T) : List (DtVars T × Nat) → T
  | [] => t
  | (v, m) :: l => endOf A (A.add t (shrunk A v.dt v.factor m)) l

/-- all calls of the stepper: step number, start time, step size -/
def attempts (A : Arith T) (n : Int) (t : T) : List (DtVars T × Nat) → List (Int × T × T)
  | [] => []
  | (v, m) :: l => (List.range (m+1)).map (fun k => (n, t, shrunk A v.dt v.factor k)) ++ attempts A (n+1) (A.add t (shrunk A v.dt v.factor m)) l

/-- all calls of the observer after the first: step number, time -/
def seen (A : Arith T) (n : Int) (t : T) : List (DtVars T × Nat) → List (Int × T)
  | [] => []
  | (v, m) :: l => (n, A.add t (shrunk A v.dt v.factor m)) :: seen A (n+1) (A.add t (shrunk A v.dt v.factor m)) l

/-- what the policy has set passes the checks, and no attempted size is below the minimum -/
def Admissible (A : Arith T) (x : DtVars T × Nat) : Prop :=
  A.le x.1.factor A.one = false ∧ ∀ k ≤ x.2, A.lt (shrunk A x.1.dt x.1.factor k) x.1.minDt = false

end Pressio.Spec.AdvanceFloat
