import Verif.Model.Advance

/-
  Independent description of a run of the target-time advancer, used to state C05 - C11.
-/
namespace Pressio.Spec.AdvanceTarget
set_option autoImplicit false
open Pressio Pressio.Model.Advance

variable {W T Y : Type}

/-- A run, indexed by k = 0, 1, ... (step number `first + k`): `t k` start time, `v k` what the policy set for it, `m k`
    how many attempts failed, `y k`/`w k` state and world before the step; `ya k j`/`wa k j`
    state and world before its attempt j. -/
structure TTrace (W T Y : Type) where
  t : Nat → T
  v : Nat → DtVars T
  m : Nat → Nat
  y : Nat → Y
  w : Nat → W
  ya : Nat → Nat → Y
  wa : Nat → Nat → W

/-- size of attempt `j` at step index `k`: `dt / f^j` -/
def TTrace.size [Field T] (tr : TTrace W T Y) (k j : Nat) : T := (tr.v k).dt / (tr.v k).factor ^ j

/-- size that succeeded at step index `k` -/
def TTrace.used [Field T] (tr : TTrace W T Y) (k : Nat) : T := tr.size k (tr.m k)

/-- what the policy finds in the three variables (`v0` the first time) -/
def TTrace.before [Field T] (tr : TTrace W T Y) (v0 : DtVars T) : Nat → DtVars T
  | 0 => v0
  | k+1 => ⟨tr.used k, (tr.v k).minDt, (tr.v k).factor⟩

/-- the calls of step index `k`: policy, attempts, observation -/
def tblock [Field T] (first : Int) (tr : TTrace W T Y) (k : Nat) : List (Ev T Y) :=
  .setVars (first + k) (tr.t k) (tr.v k) ::
    (List.range (tr.m k + 1)).map (fun j => .step (first + k) (tr.t k) (tr.size k j) (tr.ya k j))
    ++ [.obs (first + k) (tr.t k + tr.used k) (tr.y (k+1))]

/-- the calls of the first `n` steps -/
def tblocks [Field T] (first : Int) (tr : TTrace W T Y) (n : Nat) : List (Ev T Y) := (List.range n).flatMap (tblock first tr)

/-- Step index `k` of the run is made of a policy call, `m k` attempts that fail with `TimeStepFailure`, one that
    succeeds, and an observation; the time advances by the size that succeeded; no attempt is
    smaller than the minimum; without recovery there is a single attempt and the three-argument policy is used. -/
structure TStepOk [Field T] [LinearOrder T] (recovery : Bool) (c : Calls W T Y)
    (first : Int) (v0 : DtVars T) (tr : TTrace W T Y) (k : Nat) : Prop where
  policy : ∃ w', (if recovery then c.dtPolicy5 (first + k) (tr.t k) (tr.before v0 k) (tr.w k) = .ok (tr.v k) w'
      else c.dtPolicy3 (first + k) (tr.t k) (tr.before v0 k).dt (tr.w k) = .ok (tr.v k).dt w' ∧
        (tr.v k).minDt = (tr.before v0 k).minDt ∧ (tr.v k).factor = (tr.before v0 k).factor) ∧ tr.wa k 0 = w'
  start : tr.ya k 0 = tr.y k
  failed : ∀ j < tr.m k, c.stepper (tr.t k) (first + k) (tr.size k j) (tr.ya k j, tr.wa k j)
      = .stop (.exc .timeStepFailure) (tr.ya k (j+1), tr.wa k (j+1))
  bounded : ∀ j ≤ tr.m k, (tr.v k).minDt ≤ tr.size k j
  factor : recovery = true → 1 < (tr.v k).factor
  single : recovery = false → tr.m k = 0
  time : tr.t (k+1) = tr.t k + tr.used k
  success : ∃ w', c.stepper (tr.t k) (first + k) (tr.used k) (tr.ya k (tr.m k), tr.wa k (tr.m k)) = .ok () (tr.y (k+1), w') ∧
    c.observer (first + k) (tr.t (k+1)) (tr.y (k+1)) w' = .ok () (tr.w (k+1))

/-- the stopping test of the advancer -/
def Reached [Field T] [LinearOrder T] (eps final t : T) : Prop := |t - final| ≤ eps ∨ final < t

/-- Reading a log from the left while remembering the minimum step size set last by the policy: every stepper
    call has a size that is at least that minimum. -/
def MinRespected [LE T] : Option T → List (Ev T Y) → Prop
  | _, [] => True
  | _, .setVars _ _ v :: l => MinRespected (some v.minDt) l
  | cur, .step _ _ d _ :: l => (∃ mn, cur = some mn ∧ mn ≤ d) ∧ MinRespected cur l
  | cur, _ :: l => MinRespected cur l

end Pressio.Spec.AdvanceTarget
