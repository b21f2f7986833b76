import Verif.Spec.SolverAlike
import Verif.Spec.Lspg
import Verif.Spec.Implicit

/-
  Two descriptions of the same trial space by different coordinates, and what of a solve or a run does not depend on them.
-/
namespace Pressio.Spec.Coordinates
set_option autoImplicit false
open Pressio Matrix
open Pressio.Model.Nonlinear (Env Cfg Reg Ans StopCrit)
open Pressio.Spec.Nonlinear (Sys)
open Pressio.Spec.Implicit (Record)
open Pressio.Model.Galerkin (Trial)
open Pressio.Spec.Galerkin (lift)

variable {K m m' n n' p q L L' A A' : Type} [Field K] [Fintype m] [Fintype m'] [Fintype n] [Fintype n']

/-- new coordinates `x'` of the point with the coordinates `B x' + a` -/
def chart (B : Matrix n n' K) (a : n → K) (x : n' → K) : n → K := B *ᵥ x + a

/-- Two trial spaces contain the same states: `S'` has at `x` the state that `S` has at `B x + a`, with an invertible matrix `B`.  (Another basis of the same space, another reference state of it.) -/
def SameSpace [DecidableEq n] (S S' : Trial K m n) (B : Matrix n n K) (a : n → K) : Prop := IsUnit B.det ∧ ∀ x, lift S' x = lift S (chart B a x)

/-- the system `sys'` is `sys` in coordinates `x = B x' + a`, with equations combined by `A`: `r'(x') = A r(x)`, `J'(x') = A J(x) B`, and it throws when `sys` throws -/
def SameSystem (A : Matrix m' m K) (B : Matrix n n K) (a : n → K) (sys : Sys K m n) (sys' : Sys K m' n) : Prop :=
  (∀ x, sys'.resJac x = (sys.resJac (chart B a x)).map (fun v => (A *ᵥ v.1, A * v.2 * B))) ∧ ∀ x, sys'.res x = (sys.res (chart B a x)).map (fun r => A *ᵥ r)

/-- what the stopping criterion measures is the same in both coordinates -/
def SameMeasure (A : Matrix m' m K) (B : Matrix n n K) (normM : (m → K) → K) (normM' : (m' → K) → K) (normN normN' : (n → K) → K) : StopCrit → Prop
  | .WhenAbsolutel2NormOfCorrectionBelowTolerance | .WhenRelativel2NormOfCorrectionBelowTolerance => ∀ c, normN' c = normN (B *ᵥ c)
  | .WhenAbsolutel2NormOfResidualBelowTolerance | .WhenRelativel2NormOfResidualBelowTolerance => ∀ r, normM' (A *ᵥ r) = normM r
  | .WhenAbsolutel2NormOfGradientBelowTolerance | .WhenRelativel2NormOfGradientBelowTolerance => ∀ g, normN' (Bᵀ *ᵥ g) = normN g
  | _ => True

/-- two calls of solvers in different coordinates: same outcome, the result is the same point, and the evaluations were made at the same points in the same order -/
def SamePoints {m' n' p' : Type} (φ : (n' → K) → n → K) (s : Reg K m n p L) (s' : Reg K m' n' p' L') (res : Res (Reg K m n p L) Unit) (res' : Res (Reg K m' n' p' L') Unit) : Prop :=
  res.stop? = res'.stop? ∧ res.state.x = φ res'.state.x ∧
    ∃ Q Q', res.state.log = s.log ++ Q ∧ res'.state.log = s'.log ++ Q' ∧ Q.map (fun a => (a.x, a.wantJ)) = Q'.map (fun a => (φ a.x, a.wantJ))

/-- what a run shows of a step: time, size, how it ended, the accepted states before, the state after, and where the solver evaluated; states seen through `φ` -/
def shown {Z : Type} (φ : (n → K) → Z) (r : Record K (n → K) A) : K × K × Option Stop × List Z × Z × List (Z × Bool) :=
  (r.t, r.dt, r.stop, r.hist.map φ, φ r.y, r.queries.map (fun q => (φ q.x, q.wantJ)))

end Pressio.Spec.Coordinates
