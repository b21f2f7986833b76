import Verif.Model.Advance

/-
  Independent description of what a sequence of steps is, used to state C01, C02, C12.
  Nothing here refers to the loops of the model.
-/
namespace Pressio.Spec.Advance
set_option autoImplicit false
open Pressio Pressio.Model.Advance

variable {W T Y : Type}

/-- Everything that happens in a sequence of steps, indexed by k = 0, 1, 2, ... (the k-th step is
    the one numbered `first + k`):
    `t k` start time, `dt k` size used, `y k` state before, `g k` state after the guesser,
    `wA..wD k` the user's world before the policy / after policy / after guesser / after stepper. -/
structure Trace (W T Y : Type) where
  t : Nat → T
  dt : Nat → T
  y : Nat → Y
  g : Nat → Y
  wA : Nat → W
  wB : Nat → W
  wC : Nat → W
  wD : Nat → W

/-- the value of `dt` the policy sees: what it left there at the previous step, `dt0` the first time -/
def Trace.dtBefore (tr : Trace W T Y) (dt0 : T) : Nat → T
  | 0 => dt0
  | k+1 => tr.dt k

/-- Step number `k` of the trace is what the four user objects do, called in the order
    policy, guesser, stepper, observer, with the start time, step number, size and state of that step. -/
structure StepOk [Add T] (c : Calls W T Y) (first : Int) (dt0 : T) (tr : Trace W T Y) (k : Nat) : Prop where
  policy : c.dtPolicy3 (first + k) (tr.t k) (tr.dtBefore dt0 k) (tr.wA k) = .ok (tr.dt k) (tr.wB k)
  guesser : c.guesser (first + k) (tr.t k) (tr.y k, tr.wB k) = .ok () (tr.g k, tr.wC k)
  stepper : c.stepper (tr.t k) (first + k) (tr.dt k) (tr.g k, tr.wC k) = .ok () (tr.y (k+1), tr.wD k)
  time : tr.t (k+1) = tr.t k + tr.dt k
  observer : c.observer (first + k) (tr.t (k+1)) (tr.y (k+1)) (tr.wD k) = .ok () (tr.wA (k+1))

/-- the four calls of one step -/
def block (first : Int) (tr : Trace W T Y) (k : Nat) : List (Ev T Y) :=
  [ .setDt (first + k) (tr.t k) (tr.dt k),
    .guess (first + k) (tr.t k) (tr.y k),
    .step (first + k) (tr.t k) (tr.dt k) (tr.g k),
    .obs (first + k) (tr.t (k+1)) (tr.y (k+1)) ]

/-- the calls of `n` consecutive steps -/
def blocks (first : Int) (tr : Trace W T Y) (n : Nat) : List (Ev T Y) :=
  (List.range n).flatMap (block first tr)

/-- The call of step `k` that did not return, with the calls of that step made so far
    and the state and world it left. -/
inductive FailsAt [Add T] (c : Calls W T Y) (first : Int) (dt0 : T) (tr : Trace W T Y) (k : Nat) (h : Stop) :
    List (Ev T Y) → Y → W → Prop
  | policy {w'} : c.dtPolicy3 (first + k) (tr.t k) (tr.dtBefore dt0 k) (tr.wA k) = .stop h w' →
      FailsAt c first dt0 tr k h [] (tr.y k) w'
  | guesser {y' w'} :
      c.dtPolicy3 (first + k) (tr.t k) (tr.dtBefore dt0 k) (tr.wA k) = .ok (tr.dt k) (tr.wB k) →
      c.guesser (first + k) (tr.t k) (tr.y k, tr.wB k) = .stop h (y', w') →
      FailsAt c first dt0 tr k h
        [.setDt (first + k) (tr.t k) (tr.dt k), .guess (first + k) (tr.t k) (tr.y k)] y' w'
  | stepper {y' w'} :
      c.dtPolicy3 (first + k) (tr.t k) (tr.dtBefore dt0 k) (tr.wA k) = .ok (tr.dt k) (tr.wB k) →
      c.guesser (first + k) (tr.t k) (tr.y k, tr.wB k) = .ok () (tr.g k, tr.wC k) →
      c.stepper (tr.t k) (first + k) (tr.dt k) (tr.g k, tr.wC k) = .stop h (y', w') →
      FailsAt c first dt0 tr k h
        [.setDt (first + k) (tr.t k) (tr.dt k), .guess (first + k) (tr.t k) (tr.y k),
         .step (first + k) (tr.t k) (tr.dt k) (tr.g k)] y' w'
  | observer {w'} :
      c.dtPolicy3 (first + k) (tr.t k) (tr.dtBefore dt0 k) (tr.wA k) = .ok (tr.dt k) (tr.wB k) →
      c.guesser (first + k) (tr.t k) (tr.y k, tr.wB k) = .ok () (tr.g k, tr.wC k) →
      c.stepper (tr.t k) (first + k) (tr.dt k) (tr.g k, tr.wC k) = .ok () (tr.y (k+1), tr.wD k) →
      c.observer (first + k) (tr.t k + tr.dt k) (tr.y (k+1)) (tr.wD k) = .stop h w' →
      FailsAt c first dt0 tr k h
        [.setDt (first + k) (tr.t k) (tr.dt k), .guess (first + k) (tr.t k) (tr.y k),
         .step (first + k) (tr.t k) (tr.dt k) (tr.g k),
         .obs (first + k) (tr.t k + tr.dt k) (tr.y (k+1))] (tr.y (k+1)) w'

end Pressio.Spec.Advance
