import Verif.Spec.AdvanceTargetFail
import Verif.Spec.SolverRun

/-
  Which attempts an advancer makes with a stepper object, in terms of the sizes alone.
-/
namespace Pressio.Spec.AdvanceDrive
set_option autoImplicit false
open Pressio Pressio.Model.Advance Pressio.Spec.AdvanceTarget

variable {K Y M U : Type}

/-- the user objects of an advancer: a stepper object with memory `M` (and whatever it uses: solvers, ...), and step-size policies and an observer that use the rest `U` of the world; no guesser -/
def userObjects (st : K → Int → K → Prog (Y × M) Unit) (pol3 : Int → K → K → Prog U K) (pol5 : Int → K → DtVars K → Prog U (DtVars K)) (obs : Int → K → Y → Prog U Unit) : Calls (M × U) K Y where
  dtPolicy3 := fun i t d w => match pol3 i t d w.2 with
    | .ok d' u => .ok d' (w.1, u)
    | .stop h u => .stop h (w.1, u)
  dtPolicy5 := fun i t v w => match pol5 i t v w.2 with
    | .ok v' u => .ok v' (w.1, u)
    | .stop h u => .stop h (w.1, u)
  guesser := noopGuesser
  stepper := fun t i d x => match st t i d (x.1, x.2.1) with
    | .ok _ s => .ok () (s.1, (s.2, x.2.2))
    | .stop h s => .stop h (s.1, (s.2, x.2.2))
  observer := fun i t y w => match obs i t y w.2 with
    | .ok _ u => .ok () (w.1, u)
    | .stop h u => .stop h (w.1, u)

/-- an attempt at a step: step number, start time, size, how it ended, state left in the caller's object -/
structure Att (K Y : Type) where
  num : Int
  t : K
  dt : K
  stop : Option Stop
  y : Y

/-- where a run stands: time, number of the next step, state, memory of the stepper -/
structure Pos (K Y M : Type) where
  t : K
  num : Int
  y : Y
  m : M

/-- One attempt of size `d`, and where the run stands afterwards: an attempt that returns is accepted; after `TimeStepFailure` the step can be repeated; anything else ends the run. -/
def attemptAt [Add K] (st : K → Int → K → Prog (Y × M) Unit) (c : Pos K Y M) (d : K) : Att K Y × Option (Pos K Y M) :=
  match st c.t c.num d (c.y, c.m) with
  | .ok _ s => (⟨c.num, c.t, d, none, s.1⟩, some ⟨c.t + d, c.num + 1, s.1, s.2⟩)
  | .stop h s => (⟨c.num, c.t, d, some h, s.1⟩, if h = .exc .timeStepFailure then some ⟨c.t, c.num, s.1, s.2⟩ else none)

/-- attempts of the given sizes, one after the other -/
def attempts [Add K] (st : K → Int → K → Prog (Y × M) Unit) : List K → Pos K Y M → List (Att K Y)
  | [], _ => []
  | d :: l, c => (attemptAt st c d).1 :: match (attemptAt st c d).2 with
    | some c' => attempts st l c'
    | none => []

/-- the stepper calls in the log of an advancer: step number, start time, size -/
def stepCalls (l : List (Ev K Y)) : List (Int × K × K) :=
  l.filterMap (fun e => match e with | .step n t d _ => some (n, t, d) | _ => none)

/-- what an observer sees of these attempts: the accepted ones -/
def seen [Add K] (l : List (Att K Y)) : List (Int × K × Y) := (l.filter (fun a => a.stop.isNone)).map (fun a => (a.num, a.t + a.dt, a.y))

/-- the caller's state after these attempts -/
def stateAfter (y : Y) (l : List (Att K Y)) : Y := (l.getLast?.map (·.y)).getD y

/-- the run `atts` of attempts is what happened in a call of an advancer that began at time `start` with state `y0` and an empty log, and ended as `r` -/
structure IsRunOf [Add K] {W α : Type} (atts : List (Att K Y)) (start : K) (y0 : Y) (recovery : Bool) (r : Res (St W K Y) α) : Prop where
  /-- every attempt is a call of the stepper, and the other way round -/
  calls : stepCalls r.state.log = atts.map (fun a => (a.num, a.t, a.dt))
  /-- the observer sees the initial state and the accepted ones -/
  observer : observations r.state.log = (0, start, y0) :: seen atts
  /-- the caller is left with the state of the last attempt -/
  state : r.state.y = stateAfter y0 atts
  /-- an attempt that fails is the last one and its exception ends the call, except that `TimeStepFailure` can be recovered from -/
  fails : ∀ pre a post, atts = pre ++ a :: post → a.stop = none ∨ (recovery = true ∧ a.stop = some (.exc .timeStepFailure)) ∨ (post = [] ∧ r.stop? = a.stop)

section
variable [Field K] [LinearOrder K] (pol3 : Int → K → K → Prog U K) (pol5 : Int → K → DtVars K → Prog U (DtVars K))

/-- what a step-size policy can ask for: without recovery the size that it sets; with recovery that size divided by a power of the factor that it sets, at least the minimum that it sets -/
def Asked (rec : Bool) (d : K) : Prop :=
  if rec = true then ∃ i t v u v' u', pol5 i t v u = .ok v' u' ∧ v'.minDt ≤ v'.dt ∧ 1 < v'.factor ∧ ∃ j : Nat, d = v'.dt / v'.factor ^ j ∧ v'.minDt ≤ d
  else ∃ i t d0 u u', pol3 i t d0 u = .ok d u'

/-- the policy never throws and sets sizes with `ok`; with recovery also a minimum that is not larger and a factor above one -/
def Obliging (rec : Bool) (ok : K → Prop) : Prop :=
  if rec = true then ∀ i t v u, ∃ v' u', pol5 i t v u = .ok v' u' ∧ ok v'.dt ∧ v'.minDt ≤ v'.dt ∧ 1 < v'.factor
  else ∀ i t d u, ∃ d' u', pol3 i t d u = .ok d' u' ∧ ok d'
end

/-- the observer never throws -/
def Patient (obs : Int → K → Y → Prog U Unit) : Prop := ∀ i t y u, (obs i t y u).stop? = none

open Pressio.Spec.Implicit Pressio.Spec.SolverRun in
open Pressio.Model.Nonlinear (Reg Ans SP) in
/-- An implicit stepper object with memory `S` together with a solver object with memory `Reg` that is passed to it in every call, as in `advance_...(stepper, ..., solver)`: the memory of both is carried from call to call. -/
def objStepper {m n p L S : Type} (step : ((n → K) → SolveTree (n → K) (Ans K m n)) → K → K → Int → Prog (SolveSt (n → K) S (Ans K m n)) Unit) (solve : SP K m n p L Unit) :
    K → Int → K → Prog ((n → K) × (S × Reg K m n p L)) Unit := fun t i d x =>
  let after := fun (s : SolveSt (n → K) S (Ans K m n)) => (s.y, (s.mem, (solve { x.2.2 with x := x.1 }).replay x.2.2 (s.log.map (·.ans))))
  match step (solverOf solve x.2.2) t d i ⟨x.1, x.2.1, []⟩ with
  | .ok _ s => .ok () (after s)
  | .stop h s => .stop h (after s)

/-- a record of a run of a stepper object, as an attempt -/
def toAtt {A : Type} (r : Spec.Implicit.Record K Y A) : Att K Y := ⟨r.hist.length, r.t, r.dt, r.stop, r.y⟩

end Pressio.Spec.AdvanceDrive
