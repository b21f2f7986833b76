import Verif.Spec.SolverRun

/-
  What a user sees of the attempts of a run, when the run is continued by other objects.
-/
namespace Pressio.Spec.Restart
set_option autoImplicit false
open Pressio Pressio.Spec.Implicit

variable {K Y A : Type}

/-- an attempt: start time, size, how it ended, state left in the caller's object, and all evaluations with their answers -/
def told (r : Record K Y A) : K × K × Option Stop × Y × List (Query Y A) := (r.t, r.dt, r.stop, r.y, r.queries)

/-- the run has not been ended by an exception: every attempt was accepted, or failed with `TimeStepFailure`, after which the step can be repeated -/
def Alive (run : List (Record K Y A)) : Prop := ∀ r ∈ run, r.stop = none ∨ r.stop = some (.exc .timeStepFailure)

/-- the caller's state after a run that began with `y` -/
def stateOf (y : Y) (run : List (Record K Y A)) : Y := (run.getLast?.map (·.y)).getD y

end Pressio.Spec.Restart
