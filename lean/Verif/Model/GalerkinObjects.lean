import Verif.Model.Galerkin

/-
  Explicit Galerkin problems as objects in memory (`include/pressio/rom/impl/galerkin_unsteady_explicit_problem.hpp`).
  A problem owns its Galerkin system `galSystem_` and a stepper `stepper_`; the stepper holds a *reference* to the system it was created with
  (`include/pressio/ode/impl/ode_explicit_stepper_without_mass_matrix.hpp:74`, `InstanceOrReferenceWrapper<SystemType>` with an lvalue argument).
-/
namespace Pressio.Model.GalerkinObjects
set_option autoImplicit false
open Pressio Pressio.Model.Galerkin Pressio.Model.Explicit

variable {K m q n : Type} [Field K] [Fintype m] [Fintype q] [Fintype n]

/-- A problem. `sysRef` is the address of the problem whose `galSystem_` the stepper refers to. `uses` is ghost: in how many steps the buffers of this object's system have been used.
    Simplification: the buffers are not followed through a step (their content does not matter, `C49_buffers_do_not_matter`) (`include/pressio/rom/impl/galerkin_unsteady_explicit_problem.hpp:38-40`) -/
structure Obj (K m q n : Type) where
  trial : Trial K m n
  fom : Fom K m m n
  bufs : GSt K m m q n
  uses : Nat
  scheme : Scheme
  sysRef : Nat
  store : List (n → K) × (n → K) × List (RhsEv K (n → K))

/-- objects by address; `none`: no live object there. Where the objects of `include/pressio/rom/impl/galerkin_unsteady_explicit_problem.hpp:7-41` live. -/
abbrev Heap (K m q n : Type) := Nat → Option (Obj K m q n)

/-- construct a problem at a free address: `galSystem_(args...), stepper_(create_explicit_stepper(schemeName, galSystem_))`
    (`include/pressio/rom/impl/galerkin_unsteady_explicit_problem.hpp:24-29`); the scheme has been checked -/
def construct (a : Nat) (S : Trial K m n) (F : Fom K m m n) (scheme : Scheme) (bufs : GSt K m m q n) (st : List (n → K) × (n → K) × List (RhsEv K (n → K)))
    (h : Heap K m q n) : Heap K m q n := fun b => if b = a then some ⟨S, F, bufs, 0, scheme, a, st⟩ else h b

/-- The copy constructor (implicit, memberwise): the reference in the stepper is copied. A move does the same to the stepper, which has a user-declared copy constructor and no move constructor
    (`include/pressio/ode/impl/ode_explicit_stepper_without_mass_matrix.hpp:80`). -/
def copyTo (src dst : Nat) (h : Heap K m q n) : Heap K m q n :=
  match h src with
  | none => h
  | some o => fun b => if b = dst then some { o with uses := 0 } else h b

/-- the destructor. Implicit destructor of `include/pressio/rom/impl/galerkin_unsteady_explicit_problem.hpp:7-41`. -/
def destroy (a : Nat) (h : Heap K m q n) : Heap K m q n := fun b => if b = a then none else h b

/-- one more use of the system at `a`. Ghost: calls of `galSystem_` made through `include/pressio/rom/impl/galerkin_unsteady_explicit_problem.hpp:35`. -/
def countUse (a : Nat) (h : Heap K m q n) : Heap K m q n := fun b => if b = a then (h b).map (fun o => { o with uses := o.uses + 1 }) else h b

/-- new stepper storage of the object at `a`. Members of `stepper_` (`include/pressio/rom/impl/galerkin_unsteady_explicit_problem.hpp:40`) after a step. -/
def setStore (a : Nat) (st : List (n → K) × (n → K) × List (RhsEv K (n → K))) (h : Heap K m q n) : Heap K m q n :=
  fun b => if b = a then (h b).map (fun o => { o with store := st }) else h b

/-- `problem(state, startAt, count, size)`: forwards to the stepper (`include/pressio/rom/impl/galerkin_unsteady_explicit_problem.hpp:31-37`), which calls the system it refers to -/
def step (a : Nat) (t : K) (cnt : Int) (dt : K) : Prog ((n → K) × Heap K m q n) Unit := fun s =>
  match s.2 a with
  | none => .stop (.ub "no object at this address") s
  | some o =>
    match s.2 o.sysRef with
    | none => .stop (.ub "reference to a destroyed system") s
    | some tgt =>
      match asStepper (asSystem (defaultRhs tgt.trial tgt.fom) tgt.bufs) o.scheme dummyObserver t cnt dt (s.1, o.store) with
      | .ok _ r => .ok () (r.1, countUse o.sysRef (setStore a r.2 s.2))
      | .stop e r => .stop e (r.1, countUse o.sysRef (setStore a r.2 s.2))

end Pressio.Model.GalerkinObjects
