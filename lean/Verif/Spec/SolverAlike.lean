import Verif.Spec.NonlinearObjects
import Mathlib.LinearAlgebra.Matrix.NonsingularInverse

/-
  When two nonlinear solvers of different kinds are expected to do the same.
-/
namespace Pressio.Spec.SolverAlike
set_option autoImplicit false
open Pressio Matrix
open Pressio.Model.Nonlinear (Env Cfg Reg Ans Update StopCrit)
open Pressio.Spec.Nonlinear (Sys)

variable {K m n p q L : Type} [Field K] [Fintype m] [Fintype n] [Fintype p]

/-- the system with residual `M r` and Jacobian `M J` -/
def scaledSys (M : Matrix q m K) (sys : Sys K m n) : Sys K q n :=
  ⟨fun x => (sys.resJac x).map (fun a => (M *ᵥ a.1, M * a.2)), fun x => (sys.res x).map (fun r => M *ᵥ r)⟩

/-- the norm of residuals is the Euclidean one -/
def Euclidean (norm : (m → K) → K) : Prop := ∀ r, norm r ^ 2 = r ⬝ᵥ r

/-- a linear solver that solves systems with regular matrices, whatever it finds in its output vector and in its own memory -/
def SolvesRegular [DecidableEq n] (lin : Matrix n n K → (n → K) → Prog ((n → K) × L) Unit) : Prop :=
  ∀ A b c l, IsUnit A.det → ∃ x l', lin A b (c, l) = .ok () (x, l') ∧ A *ᵥ x = b

/-- a QR solver that finds the least-squares solution for Jacobians of full column rank, whatever it finds in its output vectors; its own memory is as described by `I`, before and after -/
def FactorsRegular [DecidableEq n] (env : Env K m n p L) (I : L → Prop) : Prop :=
  ∀ (J : Matrix m n K) r c b l, I l → IsUnit (Jᵀ * J).det → ∃ l1 b2 l2 x l3, env.qrThin J l = .ok () l1 ∧ env.qrApplyQT r (b, l1) = .ok () (b2, l2) ∧ env.qrSolve b2 (c, l2) = .ok () (x, l3) ∧
    (Jᵀ * J) *ᵥ x = Jᵀ *ᵥ r ∧ I l3

/-- two calls have the same outcome, end in the same state, and evaluated their systems at the same points in the same order -/
def SameCalls {m' p' L' : Type} (s : Reg K m n p L) (s' : Reg K m' n p' L') (res : Res (Reg K m n p L) Unit) (res' : Res (Reg K m' n p' L') Unit) : Prop :=
  res.stop? = res'.stop? ∧ res.state.x = res'.state.x ∧ ∃ Q Q', res.state.log = s.log ++ Q ∧ res'.state.log = s'.log ++ Q' ∧ Q.map (fun a => (a.x, a.wantJ)) = Q'.map (fun a => (a.x, a.wantJ))

/-- two calls on the same system have the same outcome, end in the same state, and made the same evaluations in the same order -/
def SameEvals {p' L' : Type} (s : Reg K m n p L) (s' : Reg K m n p' L') (res : Res (Reg K m n p L) Unit) (res' : Res (Reg K m n p' L') Unit) : Prop :=
  res.stop? = res'.stop? ∧ res.state.x = res'.state.x ∧ ∃ Q, res.state.log = s.log ++ Q ∧ res'.state.log = s'.log ++ Q

/-- criteria that do not look at the residual -/
def notResidual : StopCrit → Bool
  | .WhenAbsolutel2NormOfResidualBelowTolerance | .WhenRelativel2NormOfResidualBelowTolerance => false
  | _ => true

/-- The options `cfg'` of a Gauss-Newton solver that correspond to the options `cfg` of a Newton solver: the same criterion, tolerance and number of iterations; standard updates in both, or backtracking in both, where the factor of the
    Gauss-Newton solver, whose objective is half the squared norm, is the square of that of the Newton solver, whose objective is the norm (no factor: 1 in both); factors are not negative. -/
def Matching [LinearOrder K] (cfg cfg' : Cfg K) : Prop :=
  cfg'.maxIters = cfg.maxIters ∧ cfg'.stop = cfg.stop ∧ cfg'.tol = cfg.tol ∧
    ((cfg.update = .Standard ∧ cfg'.update = .Standard) ∨
     (cfg.update = .BacktrackStrictlyDecreasingObjective ∧ cfg'.update = .BacktrackStrictlyDecreasingObjective ∧
      ((cfg.params = none ∧ cfg'.params = none) ∨ ∃ z l l', 0 ≤ z ∧ cfg.params = some (z :: l) ∧ cfg'.params = some (z ^ 2 :: l'))))

end Pressio.Spec.SolverAlike
