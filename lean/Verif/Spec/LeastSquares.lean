import Verif.Spec.NonlinearObjects
import Mathlib.LinearAlgebra.Matrix.DotProduct

/-
  Vocabulary for the properties of the least-squares solvers.
-/
namespace Pressio.Spec.Nonlinear
set_option autoImplicit false
open Pressio Matrix
open Pressio.Model.Nonlinear (Env Cfg Tag StopCrit Diagnostic)

variable {K m n p L : Type} [Field K] [LinearOrder K] [Fintype m] [Fintype n] [Fintype p]

/-- the quadratic model of each method: squared norm of the linearised residual `J d + r`, in the norm given by the weights -/
def linModel (env : Env K m n p L) (tag : Tag) (r : m → K) (J : Matrix m n K) (d : n → K) : K :=
  match tag with
  | .wgn => (J *ᵥ d + r) ⬝ᵥ env.wR (J *ᵥ d + r)
  | .cwgn => env.cwR (J *ᵥ d + r) ⬝ᵥ env.cwR (J *ᵥ d + r)
  | _ => (J *ᵥ d + r) ⬝ᵥ (J *ᵥ d + r)

/-- whenever the inner solver returns, it has solved the linear system -/
def ExactLin (env : Env K m n p L) : Prop := ∀ H g st c' l', env.lin H g st = .ok () (c', l') → H *ᵥ c' = g

/-- whenever the QR solver returns: `computeThin(J)` found `J = Q R` with `Qᵀ Q = 1`, `applyQTranspose` multiplies by `Qᵀ`, `solve` solves with `R` -/
def ExactQR [DecidableEq n] (env : Env K m n p L) : Prop :=
  ∀ J l l1, env.qrThin J l = .ok () l1 → ∃ (Q : Matrix m n K) (R : Matrix n n K), J = Q * R ∧ Qᵀ * Q = 1 ∧
    ∀ r b b' l2, env.qrApplyQT r (b, l1) = .ok () (b', l2) → b' = Qᵀ *ᵥ r ∧
      ∀ c c' l3, env.qrSolve b' (c, l2) = .ok () (c', l3) → R *ᵥ c' = b'

/-- the weighting operator multiplies by a constant symmetric positive semidefinite matrix -/
def LinearWeights (env : Env K m n p L) : Prop :=
  ∃ W : Matrix m m K, Wᵀ = W ∧ (∀ v, 0 ≤ v ⬝ᵥ W *ᵥ v) ∧ (∀ r, env.wR r = W *ᵥ r) ∧ ∀ J, env.wJ J = W * J

/-- the compact weighting operator multiplies by a constant matrix -/
def LinearCompactWeights (env : Env K m n p L) : Prop :=
  ∃ W : Matrix p m K, (∀ r, env.cwR r = W *ᵥ r) ∧ ∀ J, env.cwJ J = W * J

/-- the user objects of each method do what they should -/
def InnerExact [DecidableEq n] (env : Env K m n p L) : Tag → Prop
  | .gnQr => ExactQR env
  | .wgn => ExactLin env ∧ LinearWeights env
  | .cwgn => ExactLin env ∧ LinearCompactWeights env
  | _ => ExactLin env

/-- the update options with which a least-squares solver works -/
def LsOption (cfg : Cfg K) (tag : Tag) : Prop :=
  cfg.update = .Standard ∨ ((cfg.update = .BacktrackStrictlyDecreasingObjective ∨ cfg.update = .Armijo) ∧ cfg.params ≠ some []) ∨
    (tag = .lm ∧ (cfg.update = .LMSchedule1 ∨ cfg.update = .LMSchedule2))

/-- the factor `zeta` of backtracking: first entry of the line-search parameters, 1 if there are none -/
def zetaOf (cfg : Cfg K) : K :=
  match cfg.params with
  | some (z :: _) => z
  | _ => 1

/-- which of the norms a public diagnostic is about -/
def quantity : Diagnostic → Norms K → K
  | .correctionRelativel2Norm, N | .correctionAbsolutel2Norm, N => N.corr
  | .residualRelativel2Norm, N | .residualAbsolutel2Norm, N => N.resid
  | .gradientRelativel2Norm, N | .gradientAbsolutel2Norm, N => N.grad
  | .objectiveRelative, N | .objectiveAbsolute, N => N.obj
  | .invalid, _ => 0

end Pressio.Spec.Nonlinear
