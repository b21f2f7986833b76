import Verif.Model.Advance

/-
  Vocabulary for C83: runs of an advancer in which no user object throws and the step size depends on step number and start time only.
-/
namespace Pressio.Spec.AdvanceFloat
set_option autoImplicit false
open Pressio Pressio.Model.Advance

variable {W T Y : Type}

/-- the start times: each is the sum, in the arithmetic of the machine, of the previous one and the step size -/
def times (add : T → T → T) (d : Int → T → T) (t0 : T) : Nat → T
  | 0 => t0
  | k+1 => add (times add d t0 k) (d (1 + k) (times add d t0 k))

/-- the policy sets `d(step, time)`, nothing throws -/
structure Plain (c : Calls W T Y) (d : Int → T → T) : Prop where
  policy : ∀ n t x w, ∃ w', c.dtPolicy3 n t x w = .ok (d n t) w'
  stepper : ∀ t n x s, (c.stepper t n x s).isOk = true
  observer : ∀ n t y w, (c.observer n t y w).isOk = true

/-- the calls of the stepper in a log: step number, start time, step size -/
def steps : List (Ev T Y) → List (Int × T × T)
  | [] => []
  | .step n t h _ :: l => (n, t, h) :: steps l
  | _ :: l => steps l

/-- the calls of the observer in a log: step number, time -/
def observed : List (Ev T Y) → List (Int × T)
  | [] => []
  | .obs n t _ :: l => (n, t) :: observed l
  | _ :: l => observed l

end Pressio.Spec.AdvanceFloat
