import Verif.Common

/-
  Model of the stencil containers: `include/pressio/ode/impl/ode_stencil_data_container_dynamic.hpp` and `..._static.hpp`.
  Objects live in a heap of cells; a handle is the index of a cell.  Two kinds of value types: copying one with value semantics makes a new cell, copying one with view semantics
  (Kokkos views, ...) copies the handle only.
-/
namespace Pressio.Model.Stencil
set_option autoImplicit false
open Pressio

variable {V : Type}

/-- copy semantics of the value type. What copying a `ValueType` does, `include/pressio/ode/impl/ode_stencil_data_container_dynamic.hpp:70-80`. -/
inductive Kind
  | value | view
deriving DecidableEq

/-- the tags; `nMinusFour` is used nowhere (`include/pressio/ode/ode_enum_and_tags.hpp:92-97`) -/
inductive Tag
  | nPlusOne | n | nMinusOne | nMinusTwo | nMinusThree
deriving DecidableEq

/-- first entry of the stencil (`include/pressio/ode/impl/ode_stencil_data_container_dynamic.hpp:61-62,139-140`) -/
inductive Start
  | nPlusOne | n
deriving DecidableEq

/-- The overload set of `operator()` and the index each overload uses (`include/pressio/ode/impl/ode_stencil_data_container_dynamic.hpp:86-125, 164-204`, `include/pressio/ode/impl/ode_stencil_data_container_static.hpp:112-158, 226-272`).
    `none`: there is no overload for the tag, the call does not compile. -/
def slot : Start → Tag → Option Nat
  | .nPlusOne, .nPlusOne => some 0
  | .nPlusOne, .n => some 1
  | .nPlusOne, .nMinusOne => some 2
  | .nPlusOne, .nMinusTwo => some 3
  | .nPlusOne, .nMinusThree => none
  | .n, .nPlusOne => none
  | .n, .n => some 0
  | .n, .nMinusOne => some 1
  | .n, .nMinusTwo => some 2
  | .n, .nMinusThree => some 3

/-- A container: `data_` (handles) and `size_`; `none` is the indeterminate `size_` of a container built by the default constructor (`include/pressio/ode/impl/ode_stencil_data_container_dynamic.hpp:68, 129-131`).
    For the static container `size` is `N`. -/
structure Cont where
  start : Start
  data : List Nat
  size : Option Nat
deriving DecidableEq

/-- The objects that elements of `include/pressio/ode/impl/ode_stencil_data_container_dynamic.hpp:130,208` refer to. -/
abbrev Heap (V : Type) := List V

/-- new cell. Object creation by `include/pressio/ode/impl/ode_stencil_data_container_static.hpp:76,84-85,92-94,101-104`. -/
def alloc (v : V) : Prog (Heap V) Nat := fun h => .ok h.length (h ++ [v])

/-- contents of a cell. Reading what `include/pressio/ode/impl/ode_stencil_data_container_dynamic.hpp:87-127` returns. -/
def load (a : Nat) : Prog (Heap V) V := fun h =>
  match h[a]? with
  | some v => .ok v h
  | none => .stop (.ub "dangling handle") h

/-- write into a cell. Writing through what `include/pressio/ode/impl/ode_stencil_data_container_dynamic.hpp:87-106` returns. -/
def store (a : Nat) (v : V) : Prog (Heap V) Unit := fun h =>
  if a < h.length then .ok () (h.set a v) else .stop (.ub "dangling handle") h

/-- copy construction of an element (what `std::vector`/`std::array` do with `ValueType`) (`include/pressio/ode/impl/ode_stencil_data_container_dynamic.hpp:71,149`) -/
def copyElem (k : Kind) (a : Nat) : Prog (Heap V) Nat :=
  match k with
  | .value => do let v ← load a; alloc v
  | .view => do let _ ← load a; pure a

/-- `ops::clone`: always a new object. Called at `include/pressio/ode/impl/ode_stencil_data_container_static.hpp:76,84-85,92-94,101-104`. -/
def clone (a : Nat) : Prog (Heap V) Nat := do
  let v ← load a
  alloc v

/-- copies of all elements (`include/pressio/ode/impl/ode_stencil_data_container_dynamic.hpp:71,78,149,156`) -/
def copyAll (k : Kind) : List Nat → Prog (Heap V) (List Nat)
  | [] => pure []
  | a :: as => do
    let b ← copyElem k a
    let bs ← copyAll k as
    pure (b :: bs)

/-- `for (auto & it : data_) ops::set_zero(it)` (`include/pressio/ode/impl/ode_stencil_data_container_dynamic.hpp:73-75,151-153`, `include/pressio/ode/impl/ode_stencil_data_container_static.hpp:167-169,283-285`) -/
def zeroAll [Zero V] : List Nat → Prog (Heap V) Unit
  | [] => pure ()
  | a :: as => do
    store a 0
    zeroAll as

/-- constructor of the dynamic container from an initialiser list (`include/pressio/ode/impl/ode_stencil_data_container_dynamic.hpp:70-76, 149-155`) -/
def dynCreate [Zero V] (start : Start) (k : Kind) (il : List Nat) : Prog (Heap V) Cont := do
  let data ← copyAll k il
  zeroAll data
  pure ⟨start, data, some data.length⟩

/-- default constructor of the dynamic container (`include/pressio/ode/impl/ode_stencil_data_container_dynamic.hpp:68,146`) -/
def dynDefault (start : Start) : Cont := ⟨start, [], none⟩

/-- `{clone(y), ..., clone(y)}` (`include/pressio/ode/impl/ode_stencil_data_container_static.hpp:76,84-85,92-94,101-104`) -/
def cloneN (y : Nat) : Nat → Prog (Heap V) (List Nat)
  | 0 => pure []
  | N + 1 => do
    let b ← clone y
    let bs ← cloneN y N
    pure (b :: bs)

/-- constructors of the static container with `N ∈ {1,2,3,4}` (`include/pressio/ode/impl/ode_stencil_data_container_static.hpp:70-106, 186-222`); the constructor for `N = 0` has no argument; other `N` have no constructor -/
def staticCreate [Zero V] (start : Start) (N : Nat) (y : Nat) : Prog (Heap V) Cont := do
  let data ← cloneN y N
  zeroAll data
  pure ⟨start, data, some N⟩

/-- defaulted copy constructor of either container (`include/pressio/ode/impl/ode_stencil_data_container_dynamic.hpp:78,156`) -/
def copyCont (k : Kind) (c : Cont) : Prog (Heap V) Cont := do
  let data ← copyAll k c.data
  pure ⟨c.start, data, c.size⟩

/-- defaulted move constructor of the dynamic container: the vector is handed over, `size_` is copied and stays in the source (result: new container, what remains) (`include/pressio/ode/impl/ode_stencil_data_container_dynamic.hpp:80,158`) -/
def moveDyn (c : Cont) : Cont × Cont := (c, { c with data := [] })

/-- `size()` (`include/pressio/ode/impl/ode_stencil_data_container_dynamic.hpp:85, 163`; `ode_stencil_data_container_static.hpp:115, 231`): reading an indeterminate `size_` is undefined -/
def contSize (c : Cont) : Prog (Heap V) Nat := fun h =>
  match c.size with
  | none => .stop (.ub "size_ is not initialised") h
  | some n => .ok n h

/-- `operator()(tag)`: the handle of the entry.  The check of the size is an `assert` (dynamic) or `static_assert` (static); reading an indeterminate `size_` and indexing beyond `data_` are undefined (`include/pressio/ode/impl/ode_stencil_data_container_dynamic.hpp:87-127,165-205`) -/
def entry (c : Cont) (tag : Tag) : Prog (Heap V) Nat := fun h =>
  match slot c.start tag with
  | none => .stop (.ub "no such overload") h
  | some k =>
    match c.size with
    | none => .stop (.ub "size_ is not initialised") h
    | some sz =>
      if k < sz then
        match c.data[k]? with
        | some a => .ok a h
        | none => .stop (.ub "index beyond data_") h
      else .stop (.ub "assert on size_") h

/-- write through `operator()`: `deep_copy(c(tag), v)`. Through `include/pressio/ode/impl/ode_stencil_data_container_dynamic.hpp:87-106,165-184`, e.g. `include/pressio/ode/impl/ode_implicit_stepper_arbitrary.hpp:201-203`. -/
def put (c : Cont) (tag : Tag) (v : V) : Prog (Heap V) Unit := do
  let a ← entry c tag
  store a v

/-- read through `operator() const`. Through `include/pressio/ode/impl/ode_stencil_data_container_dynamic.hpp:108-127,186-205`, e.g. `include/pressio/ode/impl/ode_implicit_stepper_arbitrary.hpp:143`. -/
def get (c : Cont) (tag : Tag) : Prog (Heap V) V := do
  let a ← entry c tag
  load a

end Pressio.Model.Stencil
