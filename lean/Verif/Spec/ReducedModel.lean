import Verif.Spec.Galerkin
import Verif.Spec.Explicit
import Mathlib.Analysis.InnerProductSpace.PiL2

/-
  Specification for error and stability of reduced models: the Euclidean norm of arrays, reduced models of a differential equation and how far they are from it.
-/
namespace Pressio.Spec.Reduced
set_option autoImplicit false
open Pressio Pressio.Model.Galerkin Pressio.Spec.Galerkin Pressio.Spec.Implicit

variable {E m n A B : Type} [NormedAddCommGroup E] [NormedSpace ℝ E] [Fintype m] [Fintype n]

/-- an array as a vector of Euclidean space -/
noncomputable def eu (m : Type) [Fintype m] : (m → ℝ) →ₗ[ℝ] EuclideanSpace ℝ m := (WithLp.linearEquiv 2 ℝ (m → ℝ)).symm.toLinearMap

/-- Defect of the reduced model `x' = g(x, t)` on the trial space `S` with respect to `y' = f(y, t)`, at a reduced state and time: distance of the time derivative `Phi g` of the lifted state to `f`. -/
noncomputable def defect (ι : (m → ℝ) →ₗ[ℝ] E) (S : Trial ℝ m n) (f : (m → ℝ) → ℝ → m → ℝ) (g : (n → ℝ) → ℝ → n → ℝ) (x : n → ℝ) (t : ℝ) : ℝ :=
  ‖ι (f (lift S x) t) - ι (S.basis.mulVec (g x t))‖

/-- the defect is at most `ε` at the initial state and at all accepted states of the run -/
def DefectOn (ι : (m → ℝ) →ₗ[ℝ] E) (S : Trial ℝ m n) (f : (m → ℝ) → ℝ → m → ℝ) (g : (n → ℝ) → ℝ → n → ℝ) (ε : ℝ) (x0 : n → ℝ) (t0 : ℝ) (rs : List (Record ℝ (n → ℝ) A)) : Prop :=
  ∀ pre post x l, rs = pre ++ post → accepted x0 pre = x :: l → defect ι S f g x (timeAfter t0 pre) ≤ ε

/-- an attempt of a reduced run, with the states lifted to the full space (the evaluations inside the solver are left out) -/
noncomputable def liftRecord (S : Trial ℝ m n) (r : Record ℝ (n → ℝ) A) : Record ℝ (m → ℝ) B := ⟨r.hist.map (lift S), r.t, r.dt, [], r.stop, lift S r.y⟩

section
open Pressio.Spec.Explicit Pressio.Model.Explicit
variable {X : Type} [AddCommGroup X] [Module ℝ X]

/-- states and times at which an explicit Runge-Kutta step from `(x, t)` evaluates the right-hand side -/
noncomputable def rkPoints (tab : Tableau ℝ) (g : X → ℝ → X) (x : X) (t h : ℝ) : List (X × ℝ) :=
  (List.range tab.s).map (fun i => (x + h • sumBelow (fun j => tab.a i j • (stages tab g x t h i).getD j 0) i, t + tab.c i * h))

/-- states and times at which step `k + 1` of a scheme evaluates the right-hand side; `x k`, `t k`, `h k` are its states, times and step sizes -/
noncomputable def evalPoints (scheme : Scheme) (g : X → ℝ → X) (x : Nat → X) (t h : Nat → ℝ) (k : Nat) : List (X × ℝ) :=
  match scheme with
  | .ForwardEuler => rkPoints eulerTableau g (x k) (t k) (h k)
  | .SSPRungeKutta3 => rkPoints ssprk3Tableau g (x k) (t k) (h k)
  | .RungeKutta4 => rkPoints rk4Tableau g (x k) (t k) (h k)
  | _ => [(x k, t k)]

end
end Pressio.Spec.Reduced
