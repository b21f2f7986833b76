import Verif.Model.Advance

/-
  Model of the public overloads of the advancers: which overload a call selects, and what the selected overload hands to the implementation.
  Files: `include/pressio/ode/ode_advance_n_steps.hpp`, `ode_advance_n_steps_variadic.hpp`, `ode_advance_n_steps_with_guesser.hpp`, `ode_advance_n_steps_with_guesser_variadic.hpp`,
  `ode_advance_to_target_point.hpp`, `ode_advance_to_target_point_variadic.hpp`, `ode_advance_to_target_point_with_step_recovery.hpp`, `ode_advance_to_target_point_with_step_recovery_variadic.hpp`.
-/
namespace Pressio.Model.Overloads
set_option autoImplicit false
open Pressio Pressio.Model.Advance

variable {W T Y : Type}

/-- An argument of a call, by what its type allows: `obs` if it satisfies `StateObserver`, `guess` if `StateGuesser`, `policy3` if `StepSizePolicy`, `policy5` if `StepSizePolicyWithReductionScheme`
    (`include/pressio/ode/concepts/ode_others.hpp:65-152`), `ind` if it has the type of the independent variable; each time what calling it does. A type can satisfy several. -/
structure Arg (W T Y : Type) where
  obs : Option (Int → T → Y → Prog W Unit)
  guess : Option (Int → T → Prog (Y × W) Unit)
  policy3 : Option (Int → T → T → Prog W T)
  policy5 : Option (Int → T → DtVars T → Prog W (DtVars T))
  ind : Option T
  /-- identity, so that steppers can distinguish their auxiliary arguments -/
  tag : Nat

/-- A stepper: what a step with the given auxiliary arguments does; `none` if the call is ill-formed (`Steppable`, `SteppableWithAuxiliaryArgs`: `include/pressio/ode/concepts/ode_others.hpp:7-62`; the
    `Strongly` variants are aliases). -/
abbrev Stepper (W T Y : Type) := List (Arg W T Y) → Option (T → Int → T → Prog (Y × W) Unit)

/-- An overload of `advance_n_steps` (`guesser = false`) or `advance_n_steps_with_pre_step_guesser`: takes a step-size policy or a fixed size; a guesser; an observer; auxiliary arguments (at least one). Parameter lists in `include/pressio/ode/ode_advance_n_steps.hpp:62-164` and the three files named below. -/
structure Overload where
  policy : Bool
  guesser : Bool
  observer : Bool
  variadic : Bool
deriving DecidableEq

/-- The overloads of `advance_n_steps` (`include/pressio/ode/ode_advance_n_steps.hpp:62-164`, `include/pressio/ode/ode_advance_n_steps_variadic.hpp:60-190`) and of
    `advance_n_steps_with_pre_step_guesser` (`include/pressio/ode/ode_advance_n_steps_with_guesser.hpp:59-172`, `include/pressio/ode/ode_advance_n_steps_with_guesser_variadic.hpp:58-188`). -/
def nOverloads (guesser : Bool) : List Overload :=
  [⟨false, guesser, false, false⟩, ⟨true, guesser, false, false⟩, ⟨false, guesser, true, false⟩, ⟨true, guesser, true, false⟩,
   ⟨false, guesser, false, true⟩, ⟨true, guesser, false, true⟩, ⟨false, guesser, true, true⟩, ⟨true, guesser, true, true⟩]

/-- The objects that an overload passes on: step size policy or fixed size, guesser, observer, stepper with its auxiliary arguments. Arguments of the calls at `include/pressio/ode/ode_advance_n_steps.hpp:71-76,99-103,129-133,158-162`. -/
structure Bound (W T Y : Type) where
  size : T ⊕ (Int → T → T → Prog W T)
  guesser : Option (Int → T → Prog (Y × W) Unit)
  observer : Option (Int → T → Y → Prog W Unit)
  step : T → Int → T → Prog (Y × W) Unit

/-- take the first argument if the parameter exists: `none` if it is missing or its type does not satisfy the constraint. Constraints such as `include/pressio/ode/ode_advance_n_steps.hpp:62-164`. -/
def take {α : Type} (wanted : Bool) (f : Arg W T Y → Option α) (l : List (Arg W T Y)) : Option (Option α × List (Arg W T Y)) :=
  if wanted then
    match l with
    | a :: r => (f a).map (fun v => (some v, r))
    | [] => none
  else some (none, l)

/-- Binding the arguments of a call `(stepper, state, start, size, numSteps, rest...)` to an overload; `none` if the overload is not viable (arity, deduction of the type of the independent variable, or
    constraints). Deduction for the parameter lists at `include/pressio/ode/ode_advance_n_steps.hpp:62-164` and in the other three files. -/
def bindN (o : Overload) (st : Stepper W T Y) (size : Arg W T Y) (rest : List (Arg W T Y)) : Option (Bound W T Y) := do
  let sz ← if o.policy then size.policy3.map Sum.inr else size.ind.map Sum.inl
  let (g, r1) ← take o.guesser Arg.guess rest
  let (ob, r2) ← take o.observer Arg.obs r1
  if o.variadic = r2.isEmpty then none
  else do
    let s ← st r2
    some ⟨sz, g, ob, s⟩

/-- Number of parameters after `numSteps` that are not in the pack: `Args && ...` (the first auxiliary argument is a parameter of its own). Parameter lists at `include/pressio/ode/ode_advance_n_steps_variadic.hpp:60-190`. -/
def Overload.fixed (o : Overload) : Nat := o.guesser.toNat + o.observer.toNat + o.variadic.toNat

/-- Partial ordering of function templates ([temp.deduct.partial]) for two overloads viable for the same call.  A fixed size and a policy are different kinds of parameters (`const IndVarType &`, tied to the
    type of `startVal`, and `StepSizePolicyType &&`): neither is preferred here. Otherwise all parameters are forwarding references to distinct template parameters: a template without a trailing pack is more
    specialised than one with; of two with a pack the one with more parameters in front of it. For the parameter lists at `include/pressio/ode/ode_advance_n_steps_variadic.hpp:60-190` and `include/pressio/ode/ode_advance_n_steps.hpp:62-164`. -/
def moreSpecialised (a b : Overload) : Bool :=
  a.policy == b.policy && a.guesser == b.guesser && ((!a.variadic && b.variadic) || (a.variadic && b.variadic && decide (b.fixed < a.fixed)))

/-- Overload resolution: the viable overload that is more specialised than all other viable ones; `none`: the call does not compile (none viable, or ambiguous). Among the overloads at `include/pressio/ode/ode_advance_n_steps.hpp:62-164` and in the other three files. -/
def resolveN (guesser : Bool) (st : Stepper W T Y) (size : Arg W T Y) (rest : List (Arg W T Y)) : Option Overload :=
  let v := (nOverloads guesser).filter (fun o => (bindN o st size rest).isSome)
  v.find? (fun o => v.all (fun o' => o' == o || moreSpecialised o o'))

/-- The body of every overload: no-op objects for what is missing (`include/pressio/ode/ode_advance_n_steps.hpp:71-76,99-103,129-133,158-162` and the corresponding lines of the other three files). -/
def runBound [Add T] (zero : T) (b : Bound W T Y) (numSteps : Int) (start : T) : Prog (St W T Y) Unit :=
  let c : (Int → T → T → Prog W T) → Calls W T Y := fun p =>
    ⟨p, fun _ _ v => pure v, b.guesser.getD noopGuesser, b.step, b.observer.getD noopObserver⟩
  match b.size with
  | .inl d => advanceNFixed zero (c (fun _ _ d => pure d)) numSteps start d
  | .inr p => advanceN zero (c p) numSteps start

/-- The call `advance_n_steps(stepper, state, start, size, numSteps, rest...)` or, with `guesser`, `advance_n_steps_with_pre_step_guesser(...)`; `none`: does not compile (`include/pressio/ode/ode_advance_n_steps.hpp:62-164` and the other three files) -/
def callN [Add T] (zero : T) (guesser : Bool) (st : Stepper W T Y) (size : Arg W T Y) (rest : List (Arg W T Y)) (numSteps : Int) (start : T) : Option (Prog (St W T Y) Unit) := do
  let o ← resolveN guesser st size rest
  let b ← bindN o st size rest
  some (runBound zero b numSteps start)

/-! ### Target point -/

/-- An overload of `advance_to_target_point` or (`recovery`) `advance_to_target_point_with_step_recovery` (`include/pressio/ode/ode_advance_to_target_point.hpp:58-108` and the three other files) -/
structure TOverload where
  observer : Bool
  variadic : Bool
deriving DecidableEq

/-- `include/pressio/ode/ode_advance_to_target_point.hpp:58-108`, `include/pressio/ode/ode_advance_to_target_point_variadic.hpp:58-122`,
    `include/pressio/ode/ode_advance_to_target_point_with_step_recovery.hpp:58-110`, `include/pressio/ode/ode_advance_to_target_point_with_step_recovery_variadic.hpp:58-123` -/
def tOverloads : List TOverload := [⟨false, false⟩, ⟨true, false⟩, ⟨false, true⟩, ⟨true, true⟩]

/-- Constraint on the first auxiliary argument: `!StateObserver<AuxT>` in both variadic overloads without recovery (`include/pressio/ode/ode_advance_to_target_point_variadic.hpp:69,103`), with recovery only in the one
    without observer (`include/pressio/ode/ode_advance_to_target_point_with_step_recovery_variadic.hpp:69` and `:100-104`). -/
def auxOk (recovery : Bool) (o : TOverload) (aux : List (Arg W T Y)) : Bool :=
  match aux with
  | [] => true
  | a :: _ => if recovery && o.observer then true else a.obs.isNone

/-- what the call hands on: observer and stepper (the policy is separate). Deduction for the parameter lists at `include/pressio/ode/ode_advance_to_target_point.hpp:58-108` and in the three other files. -/
def bindT (recovery : Bool) (o : TOverload) (st : Stepper W T Y) (policy : Arg W T Y) (rest : List (Arg W T Y)) : Option (Option (Int → T → Y → Prog W Unit) × (T → Int → T → Prog (Y × W) Unit)) := do
  let _ ← if recovery then policy.policy5.map (fun _ => ()) else policy.policy3.map (fun _ => ())
  let (ob, r) ← take o.observer Arg.obs rest
  if o.variadic = r.isEmpty then none
  else if o.variadic && !auxOk recovery o r then none
  else do
    let s ← st r
    some (ob, s)

/-- Number of parameters after the policy that are not in the pack, `include/pressio/ode/ode_advance_to_target_point_variadic.hpp:58-122`. -/
def TOverload.fixed (o : TOverload) : Nat := o.observer.toNat + o.variadic.toNat

/-- Partial ordering of the function templates at `include/pressio/ode/ode_advance_to_target_point_variadic.hpp:58-122` and in the three other files. -/
def moreSpecialisedT (a b : TOverload) : Bool := (!a.variadic && b.variadic) || (a.variadic && b.variadic && decide (b.fixed < a.fixed))

/-- Overload resolution among those at `include/pressio/ode/ode_advance_to_target_point.hpp:58-108` and in the three other files. -/
def resolveT (recovery : Bool) (st : Stepper W T Y) (policy : Arg W T Y) (rest : List (Arg W T Y)) : Option TOverload :=
  let v := tOverloads.filter (fun o => (bindT recovery o st policy rest).isSome)
  v.find? (fun o => v.all (fun o' => o' == o || moreSpecialisedT o o'))

/-- The bodies: without extra arguments the implementation is instantiated with `false` in both functions, with extra arguments with `recovery`.  The implementation without recovery calls the policy with three
    arguments, otherwise with five: a policy without that call is a compile-time error in the body (`none`) (`include/pressio/ode/ode_advance_to_target_point.hpp:58-108`, `include/pressio/ode/ode_advance_to_target_point_with_step_recovery_variadic.hpp:58-123`) -/
def callT [Field T] [LinearOrder T] (eps : T) (recovery : Bool) (st : Stepper W T Y) (policy : Arg W T Y) (rest : List (Arg W T Y)) (fuel : Nat) (start final : T) : Option (Prog (St W T Y) T) := do
  let o ← resolveT recovery st policy rest
  let (ob, s) ← bindT recovery o st policy rest
  let c : (Int → T → T → Prog W T) → (Int → T → DtVars T → Prog W (DtVars T)) → Calls W T Y := fun p3 p5 => ⟨p3, p5, noopGuesser, s, ob.getD noopObserver⟩
  if recovery && o.variadic then do
    let p ← policy.policy5
    some (advanceToTargetPointWithStepRecoveryVariadic eps (c (fun _ _ d => pure d) p) fuel start final)
  else do
    let p ← policy.policy3
    some (if recovery then advanceToTargetPointWithStepRecovery eps (c p (fun _ _ v => pure v)) fuel start final else advanceToTargetPoint eps (c p (fun _ _ v => pure v)) fuel start final)

/-! ### Forwarding of auxiliary arguments -/

/-- A step in an advancer: `stepper(odeState, ..., std::forward<Args>(args)...)` (`include/pressio/ode/impl/ode_advance_n_steps.hpp:97-100`, `include/pressio/ode/impl/ode_advance_to_target_time.hpp:150-155,170-174`).  The
    auxiliary arguments live outside of the loop (in the world, second component).  `moves`: the argument was passed as a temporary (so `std::forward` casts it to an rvalue) and the stepper takes it by value, so that
    its parameter is move-constructed from it, which leaves `moved a` behind. -/
def forwardingStep {A : Type} (moves : Bool) (moved : A → A) (step : A → T → Int → T → Prog (Y × W) Unit) : T → Int → T → Prog (Y × W × A) Unit := fun t n d x =>
  match step x.2.2 t n d (x.1, x.2.1) with
  | .ok _ s => .ok () (s.1, s.2, if moves then moved x.2.2 else x.2.2)
  | .stop h s => .stop h (s.1, s.2, if moves then moved x.2.2 else x.2.2)

end Pressio.Model.Overloads
