import Verif.Model.SolveTree

/-
  Programs of nonlinear solvers: imperative programs over the solver's registry that may call the user's system.
-/
namespace Pressio
set_option autoImplicit false

/-- A computation that may call the system: `ask x w` is one call of `residualAndJacobian(x, R, J)` (`w`: with Jacobian), or of
    `residual(x, R)`; the continuation gets the answer or the exception. The calls are those at `include/pressio/solvers_nonlinear/impl/functions.hpp:23,40,57,68`. -/
inductive Ask (X A ρ : Type) : Type where
  | ret (r : ρ)
  | ask (x : X) (w : Bool) (k : Except Exc A → Ask X A ρ)

namespace Ask
variable {X A ρ τ : Type}

/-- one computation after the other (sequencing of statements, e.g. `include/pressio/solvers_nonlinear/impl/functions.hpp:99-101`) -/
protected def bind : Ask X A ρ → (ρ → Ask X A τ) → Ask X A τ
  | .ret r, f => f r
  | .ask x w k, f => .ask x w (fun a => (k a).bind f)

/-- run with a system that is a function of the state. Answers given by the system in the calls at `include/pressio/solvers_nonlinear/impl/functions.hpp:23,40,57,68`. -/
def eval (F : X → Bool → Except Exc A) : Ask X A ρ → ρ
  | .ret r => r
  | .ask x w k => (k (F x w)).eval F

theorem eval_bind (F : X → Bool → Except Exc A) (m : Ask X A ρ) (f : ρ → Ask X A τ) :
    (m.bind f).eval F = (f (m.eval F)).eval F := by
  induction m with
  | ret r => rfl
  | ask x w k ih => exact ih _

end Ask

/-- Solver programs over the registry `σ`. Functions on the registry that call the system, as in `include/pressio/solvers_nonlinear/impl/functions.hpp:18-507`, `include/pressio/solvers_nonlinear/impl/root_finder.cpp:18-114`. -/
def SM (X A σ α : Type) := σ → Ask X A (Res σ α)

namespace SM
variable {X A σ α β : Type}

/-- the program that only returns a value, e.g. the last statement of `include/pressio/solvers_nonlinear/impl/functions.hpp:93-102` -/
protected def pure (a : α) : SM X A σ α := fun s => .ret (.ok a s)
/-- sequencing of statements, e.g. `include/pressio/solvers_nonlinear/impl/functions.hpp:99-101` -/
protected def bind (p : SM X A σ α) (f : α → SM X A σ β) : SM X A σ β := fun s =>
  (p s).bind (fun
    | .ok a s' => f a s'
    | .stop h s' => .ret (.stop h s'))

instance : Monad (SM X A σ) where
  pure := SM.pure
  bind := SM.bind

/-- a program that does not call the system. E.g. `include/pressio/solvers_nonlinear/impl/functions.hpp:339-357`. -/
def lift (p : Prog σ α) : SM X A σ α := fun s => .ret (p s)
/-- call the system (`include/pressio/solvers_nonlinear/impl/functions.hpp:23,40,57,68`) -/
def call (x : X) (w : Bool) : SM X A σ (Except Exc A) := fun s => .ask x w (fun a => .ret (.ok a s))
/-- `try`/`catch` (`include/pressio/solvers_nonlinear/impl/root_finder.cpp:64-76,96-112`, `include/pressio/solvers_nonlinear/impl/nonlinear_least_squares.hpp:52-63,82-101`) -/
def catchE (p : SM X A σ α) (h : Exc → Option (SM X A σ α)) : SM X A σ α := fun s =>
  (p s).bind (fun
    | .ok a s' => .ret (.ok a s')
    | .stop (.exc e) s' =>
      match h e with
      | some q => q s'
      | none => .ret (.stop (.exc e) s')
    | .stop u s' => .ret (.stop u s'))

/-- the program when the system is the function `F`. A solve such as `include/pressio/solvers_nonlinear/impl/root_finder.cpp:18-114` on a system without state. -/
def run (F : X → Bool → Except Exc A) (p : SM X A σ α) : Prog σ α := fun s => (p s).eval F

@[simp] theorem run_pure (F : X → Bool → Except Exc A) (a : α) : run F (pure a : SM X A σ α) = pure a := rfl
@[simp] theorem run_lift (F : X → Bool → Except Exc A) (p : Prog σ α) : run F (lift p : SM X A σ α) = p := rfl
@[simp] theorem run_call (F : X → Bool → Except Exc A) (x : X) (w : Bool) : run F (call x w : SM X A σ _) = pure (F x w) := rfl
@[simp] theorem run_bind (F : X → Bool → Except Exc A) (p : SM X A σ α) (f : α → SM X A σ β) :
    run F (p >>= f) = (run F p >>= fun a => run F (f a)) := by
  funext s
  show ((p s).bind _).eval F = Prog.bind (run F p) (fun a => run F (f a)) s
  rw [Ask.eval_bind]
  unfold Prog.bind run
  cases (p s).eval F <;> rfl
@[simp] theorem run_catchE (F : X → Bool → Except Exc A) (p : SM X A σ α) (h : Exc → Option (SM X A σ α)) :
    run F (catchE p h) = Prog.catchE (run F p) (fun e => (h e).map (run F)) := by
  funext s
  show ((p s).bind _).eval F = _
  rw [Ask.eval_bind]
  unfold Prog.catchE run
  rcases (p s).eval F with ⟨a, s'⟩ | ⟨e | u | _, s'⟩
  · rfl
  · dsimp only
    cases h e <;> rfl
  · rfl
  · rfl
@[simp] theorem run_ite (F : X → Bool → Except Exc A) (c : Prop) [Decidable c] (p q : SM X A σ α) :
    run F (if c then p else q) = if c then run F p else run F q := by split <;> rfl

end SM

/-- the behaviour of a solver program as seen by the system: `getX` reads the caller's state in the registry. How a solver object is seen from the stepper's call at `include/pressio/ode/impl/ode_implicit_stepper_arbitrary.hpp:127`. -/
def Ask.toTree {X A σ : Type} (getX : σ → X) : Ask X A (Res σ Unit) → SolveTree X A
  | .ret (.ok _ s) => .ret (getX s)
  | .ret (.stop h s) => .stop h (getX s)
  | .ask x w k => .ask x w (fun a => (k a).toTree getX)

end Pressio
