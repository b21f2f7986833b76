import Verif.Spec.AdvanceTarget

/-
  Independent description of a run of the target-time advancer that does not return normally (C07, C08, C09).
-/
namespace Pressio.Spec.AdvanceTarget
set_option autoImplicit false
open Pressio Pressio.Model.Advance

variable {W T Y : Type}

/-- at step index `k` the policy returned, leaving `v k` in its variables and the world `wa k 0`;
    the state is still the one before the step -/
def PolicyReturned [Field T] (recovery : Bool) (c : Calls W T Y) (first : Int) (v0 : DtVars T) (tr : TTrace W T Y)
    (k : Nat) : Prop :=
  tr.ya k 0 = tr.y k ∧
  if recovery then c.dtPolicy5 (first + k) (tr.t k) (tr.before v0 k) (tr.w k) = .ok (tr.v k) (tr.wa k 0)
  else c.dtPolicy3 (first + k) (tr.t k) (tr.before v0 k).dt (tr.w k) = .ok (tr.v k).dt (tr.wa k 0) ∧
    (tr.v k).minDt = (tr.before v0 k).minDt ∧ (tr.v k).factor = (tr.before v0 k).factor

/-- the values set by the policy are acceptable, the first `j` attempts failed with `TimeStepFailure`, and none of
    the attempts up to and including number `j` is smaller than the minimum -/
structure FailedBefore [Field T] [LinearOrder T] (recovery : Bool) (c : Calls W T Y) (first : Int) (tr : TTrace W T Y)
    (k j : Nat) : Prop where
  factor : recovery = true → 1 < (tr.v k).factor
  single : recovery = false → j = 0
  bounded : ∀ i ≤ j, (tr.v k).minDt ≤ tr.size k i
  failed : ∀ i < j, c.stepper (tr.t k) (first + k) (tr.size k i) (tr.ya k i, tr.wa k i)
      = .stop (.exc .timeStepFailure) (tr.ya k (i+1), tr.wa k (i+1))

/-- the attempts `0..j` of step index `k`, as calls -/
def attemptsUpTo [Field T] (first : Int) (tr : TTrace W T Y) (k j : Nat) : List (Ev T Y) :=
  (List.range (j+1)).map (fun i => .step (first + k) (tr.t k) (tr.size k i) (tr.ya k i))

/-- The ways in which step index `k` can end the run, with the calls of that step made so far, and the state and world
    in which the run ended. -/
inductive TFails [Field T] [LinearOrder T] (recovery : Bool) (c : Calls W T Y) (first : Int) (v0 : DtVars T)
    (tr : TTrace W T Y) (k : Nat) : Stop → List (Ev T Y) → Y → W → Prop
  /-- the policy did not return -/
  | policy {h w'} :
      (if recovery then c.dtPolicy5 (first + k) (tr.t k) (tr.before v0 k) (tr.w k) = .stop h w'
       else c.dtPolicy3 (first + k) (tr.t k) (tr.before v0 k).dt (tr.w k) = .stop h w') →
      TFails recovery c first v0 tr k h [] (tr.y k) w'
  /-- the policy asked for less than the minimum: the stepper is not called -/
  | tooSmall : PolicyReturned recovery c first v0 tr k → (tr.v k).dt < (tr.v k).minDt →
      TFails recovery c first v0 tr k (.exc (.runtimeError "time step size smaller than the minimum value"))
        [.setVars (first + k) (tr.t k) (tr.v k)] (tr.y k) (tr.wa k 0)
  /-- the reduction factor is not larger than 1: the stepper is not called -/
  | badFactor : PolicyReturned recovery c first v0 tr k → recovery = true → (tr.v k).factor ≤ 1 →
      TFails recovery c first v0 tr k (.exc (.runtimeError "time step size reduction factor must be > 1"))
        [.setVars (first + k) (tr.t k) (tr.v k)] (tr.y k) (tr.wa k 0)
  /-- attempt `j` ended in a way that is not retried -/
  | stepper {h y' w'} (j : Nat) : PolicyReturned recovery c first v0 tr k → FailedBefore recovery c first tr k j →
      c.stepper (tr.t k) (first + k) (tr.size k j) (tr.ya k j, tr.wa k j) = .stop h (y', w') →
      (recovery = true → h ≠ .exc .timeStepFailure) →
      TFails recovery c first v0 tr k h (.setVars (first + k) (tr.t k) (tr.v k) :: attemptsUpTo first tr k j) y' w'
  /-- attempt `j` failed and the next size would be below the minimum -/
  | exhausted {y' w'} (j : Nat) : PolicyReturned recovery c first v0 tr k → FailedBefore recovery c first tr k j →
      recovery = true →
      c.stepper (tr.t k) (first + k) (tr.size k j) (tr.ya k j, tr.wa k j) = .stop (.exc .timeStepFailure) (y', w') →
      tr.size k (j+1) < (tr.v k).minDt →
      TFails recovery c first v0 tr k (.exc (.runtimeError "violation of minimum time step while recovering"))
        (.setVars (first + k) (tr.t k) (tr.v k) :: attemptsUpTo first tr k j) y' w'
  /-- the observer did not return -/
  | observer {h y' w1 w'} (j : Nat) : PolicyReturned recovery c first v0 tr k → FailedBefore recovery c first tr k j →
      c.stepper (tr.t k) (first + k) (tr.size k j) (tr.ya k j, tr.wa k j) = .ok () (y', w1) →
      c.observer (first + k) (tr.t k + tr.size k j) y' w1 = .stop h w' →
      TFails recovery c first v0 tr k h
        (.setVars (first + k) (tr.t k) (tr.v k) :: attemptsUpTo first tr k j
          ++ [.obs (first + k) (tr.t k + tr.size k j) y']) y' w'
  /-- the step was completed and its number is the largest representable one -/
  | overflow : TStepOk recovery c first v0 tr k → first + k = int32Max →
      TFails recovery c first v0 tr k (.ub "signed overflow of step counter") (tblock first tr k)
        (tr.y (k+1)) (tr.w (k+1))

/-- what the observer was given: step number, time and state -/
def observations (l : List (Ev T Y)) : List (Int × T × Y) :=
  l.filterMap (fun e => match e with | .obs n t y => some (n, t, y) | _ => none)

/-- number of stepper calls in a log -/
def stepperCalls (l : List (Ev T Y)) : Nat :=
  (l.filter (fun e => match e with | .step .. => true | _ => false)).length

/-- The contract of C11, for a relation `R n t y` between two worlds ("the stepper cannot tell them apart when it is about to do step `n` from
    time `t` and state `y`"): a successful call does the same in both and leaves related worlds; a call that throws
    `TimeStepFailure` leaves the state as it was and a world still related to the other one; so do policy and observer. -/
structure FailureTransparent [Add T] (c : Calls W T Y) (R : Int → T → Y → W → W → Prop) : Prop where
  respects : ∀ t n d y y' w w1 w', R n t y w w1 → c.stepper t n d (y, w) = .ok () (y', w') →
    ∃ w1', c.stepper t n d (y, w1) = .ok () (y', w1') ∧ R (n+1) (t+d) y' w' w1'
  failure : ∀ t n d y y' w w1 w', R n t y w w1 → c.stepper t n d (y, w) = .stop (.exc .timeStepFailure) (y', w') →
    y' = y ∧ R n t y w' w1
  policy : ∀ n t y v w w1 v' w', R n t y w w1 → c.dtPolicy5 n t v w = .ok v' w' → R n t y w' w1
  observer : ∀ n t y w w1 w', R (n+1) t y w w1 → c.observer n t y w = .ok () w' → R (n+1) t y w' w1

end Pressio.Spec.AdvanceTarget
