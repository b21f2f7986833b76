/-
  Outcomes and the program monad used by every model file.

  A C++ call in pressio ends with a value, with an exception, with undefined
  behaviour, or not at all.  The four cases are kept apart.
-/
namespace Pressio
set_option autoImplicit false

/-- Exceptions that cross pressio's API.

    Models `include/pressio/ode/exceptions.hpp:56-125` (TimeStepFailure,
    VelocityFailureUnrecoverable, DiscreteTimeResidualFailureUnrecoverable) and
    `include/pressio/solvers_nonlinear/solvers_exceptions.hpp:54-138` (the others), plus the standard
    library exceptions thrown by pressio itself.  The message text is dropped, except that
    `runtimeError` keeps a short tag saying which `throw` it is.
    `other k` stands for any exception type of user code that pressio does not know. -/
inductive Exc where
  | timeStepFailure
  | nonlinearSolveFailure
  | residualEvaluationFailureUnrecoverable
  | residualHasNans
  | velocityFailureUnrecoverable
  | discreteTimeResidualFailureUnrecoverable
  | lineSearchStepTooSmall
  | lineSearchObjFunctionChangeTooSmall
  | runtimeError (what : String)
  | outOfRange
  | other (k : Nat)
deriving DecidableEq, Repr

/-- Why a computation did not produce a value: an exception, undefined behaviour
    (never caught by a `catch`), or exhaustion of the fuel given to an unbounded loop. -/
inductive Stop where
  | exc (e : Exc)
  | ub (why : String)
  | fuel
deriving DecidableEq, Repr

/-- Result of running a program on a state: the state is kept in every case, as C++
    objects keep the modifications made before a `throw`. -/
inductive Res (σ α : Type _) where
  | ok (a : α) (s : σ)
  | stop (h : Stop) (s : σ)
deriving DecidableEq, Repr

namespace Res
/-- the state in which the computation ended -/
def state {σ α} : Res σ α → σ
  | .ok _ s => s
  | .stop _ s => s
/-- `none` for a normal return, otherwise why it stopped -/
def stop? {σ α} : Res σ α → Option Stop
  | .ok _ _ => none
  | .stop h _ => some h
/-- normal return -/
def isOk {σ α} : Res σ α → Bool
  | .ok _ _ => true
  | .stop _ _ => false

@[simp] theorem state_ok {σ α} (a : α) (s : σ) : (Res.ok a s).state = s := rfl
@[simp] theorem state_stop {σ α} (h : Stop) (s : σ) : (Res.stop h s : Res σ α).state = s := rfl
@[simp] theorem stop?_ok {σ α} (a : α) (s : σ) : (Res.ok a s).stop? = none := rfl
@[simp] theorem stop?_stop {σ α} (h : Stop) (s : σ) : (Res.stop h s : Res σ α).stop? = some h := rfl
@[simp] theorem isOk_ok {σ α} (a : α) (s : σ) : (Res.ok a s).isOk = true := rfl
@[simp] theorem isOk_stop {σ α} (h : Stop) (s : σ) : (Res.stop h s : Res σ α).isOk = false := rfl
end Res

/-- Imperative programs over a mutable state `σ`. -/
def Prog (σ α : Type _) := σ → Res σ α

namespace Prog
variable {σ α β : Type _}

/-- run -/
def run (p : Prog σ α) (s : σ) : Res σ α := p s

protected def pure (a : α) : Prog σ α := fun s => .ok a s

protected def bind (p : Prog σ α) (f : α → Prog σ β) : Prog σ β := fun s =>
  match p s with
  | .ok a s' => f a s'
  | .stop h s' => .stop h s'

instance : Monad (Prog σ) where
  pure := Prog.pure
  bind := Prog.bind

/-- read the state -/
def get : Prog σ σ := fun s => .ok s s
/-- replace the state -/
def put (s : σ) : Prog σ PUnit := fun _ => .ok ⟨⟩ s
/-- assignment -/
def modify (f : σ → σ) : Prog σ PUnit := fun s => .ok ⟨⟩ (f s)
/-- C++ `throw` -/
def throwE (e : Exc) : Prog σ α := fun s => .stop (.exc e) s
/-- undefined behaviour -/
def undef (why : String) : Prog σ α := fun s => .stop (.ub why) s
/-- fuel exhausted -/
def noFuel : Prog σ α := fun s => .stop .fuel s

/-- `try { p } catch (...)` for the exceptions on which `h` is defined; other
    exceptions, undefined behaviour and fuel exhaustion pass through. -/
def catchE (p : Prog σ α) (h : Exc → Option (Prog σ α)) : Prog σ α := fun s =>
  match p s with
  | .ok a s' => .ok a s'
  | .stop (.exc e) s' =>
    match h e with
    | some q => q s'
    | none => .stop (.exc e) s'
  | .stop u s' => .stop u s'

/-- run user code that returns a value or throws -/
def ofExcept (x : Except Exc α) : Prog σ α := fun s =>
  match x with
  | .ok a => .ok a s
  | .error e => .stop (.exc e) s

@[simp] theorem pure_run (a : α) (s : σ) : (pure a : Prog σ α) s = .ok a s := rfl
theorem bind_run (p : Prog σ α) (f : α → Prog σ β) (s : σ) :
    (p >>= f) s = match p s with
      | .ok a s' => f a s'
      | .stop h s' => .stop h s' := rfl
@[simp] theorem get_run (s : σ) : (get : Prog σ σ) s = .ok s s := rfl
@[simp] theorem put_run (s t : σ) : (put t : Prog σ PUnit) s = .ok ⟨⟩ t := rfl
@[simp] theorem modify_run (f : σ → σ) (s : σ) : modify f s = .ok ⟨⟩ (f s) := rfl
@[simp] theorem throwE_run (e : Exc) (s : σ) : (throwE e : Prog σ α) s = .stop (.exc e) s := rfl
@[simp] theorem undef_run (w : String) (s : σ) : (undef w : Prog σ α) s = .stop (.ub w) s := rfl
@[simp] theorem noFuel_run (s : σ) : (noFuel : Prog σ α) s = .stop .fuel s := rfl
@[simp] theorem ofExcept_ok (a : α) (s : σ) : (ofExcept (.ok a) : Prog σ α) s = .ok a s := rfl
@[simp] theorem ofExcept_error (e : Exc) (s : σ) :
    (ofExcept (.error e) : Prog σ α) s = .stop (.exc e) s := rfl
end Prog

/-- Largest value of `int32_t`, the type of `StepCount`
    (`include/pressio/ode/ode_strong_types.hpp:114-120`). -/
def int32Max : Int := 2147483647

end Pressio
