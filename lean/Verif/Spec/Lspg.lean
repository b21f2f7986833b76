import Verif.Model.Lspg
import Verif.Spec.Galerkin

/-
  Specification of LSPG and of fully discrete reduced-order models: what one evaluation of the reduced equations must give, in terms of the full-order operators at points of the trial space and of the accepted
  reduced states.
-/
namespace Pressio.Spec.Lspg
set_option autoImplicit false
open Pressio Pressio.Model.Galerkin Pressio.Model.Lspg Pressio.Spec.Galerkin
open Pressio.Model.Explicit (Scheme)
open scoped Matrix

variable {K m p q n : Type} [Field K] [Fintype m] [Fintype p] [Fintype q] [Fintype n]

/-- the coefficient of the right-hand side in the scheme: `dt`, or `2/3 dt` for BDF2 from its second step on -/
def coef {V : Type} (name : Scheme) (hist : List V) (dt : K) : K :=
  match name, hist with
  | .BDF2, _ :: _ :: _ => (2:K) / 3 * dt
  | _, _ => dt

/-- the combination of states in the scheme: `y - y_n`, or `y - 4/3 y_n + 1/3 y_{n-1}` for BDF2 from its second step on -/
def combination (name : Scheme) (y : m → K) (hist : List (m → K)) : m → K :=
  match name, hist with
  | .BDF2, yn :: ynm1 :: _ => y - ((4:K) / 3) • yn + ((1:K) / 3) • ynm1
  | _, yn :: _ => y - yn
  | _, [] => y

/-- LSPG residual and Jacobian at reduced state `x`, in a step of size `dt` from time `t`, accepted reduced states `hist` (newest first): the full-order time-discrete residual
    at `Phi x + s`, and its Jacobian times `Phi`.  An exception of the FOM is the answer. -/
def lspg (name : Scheme) (S : Trial K m n) (f : (m → K) → K → Except Exc (m → K)) (Df : (m → K) → K → Except Exc (Matrix m m K))
    (hist : List (n → K)) (t dt : K) (x : n → K) (w : Bool) : Except Exc ((m → K) × Option (Matrix m n K)) := do
  let v ← f (lift S x) (t + dt)
  let J ← if w then (Df (lift S x) (t + dt)).map (fun D => some (S.basis - coef name hist dt • (D * S.basis))) else pure none
  pure (combination name (lift S x) (hist.map (lift S)) - coef name hist dt • v, J)

/-- Hyper-reduced LSPG: `f`, `Df` live on the sample mesh, states on the stencil mesh; `E` restricts from the stencil mesh to the sample mesh. -/
def hypredLspg (E : Matrix p m K) (name : Scheme) (S : Trial K m n) (f : (m → K) → K → Except Exc (p → K)) (Df : (m → K) → K → Except Exc (Matrix p m K))
    (hist : List (n → K)) (t dt : K) (x : n → K) (w : Bool) : Except Exc ((p → K) × Option (Matrix p n K)) := do
  let v ← f (lift S x) (t + dt)
  let J ← if w then (Df (lift S x) (t + dt)).map (fun D => some (E * S.basis - coef name hist dt • (D * S.basis))) else pure none
  pure (E.mulVec (combination name (lift S x) (hist.map (lift S))) - coef name hist dt • v, J)

/-- Masked LSPG: the mask applied to the residual and Jacobian.  The full Jacobian is evaluated even if it is not wanted (so its exceptions matter). -/
def maskedLspg (mv : (m → K) → (q → K)) (mm : Matrix m n K → Matrix q n K) (name : Scheme) (S : Trial K m n) (f : (m → K) → K → Except Exc (m → K)) (Df : (m → K) → K → Except Exc (Matrix m m K))
    (hist : List (n → K)) (t dt : K) (x : n → K) (w : Bool) : Except Exc ((q → K) × Option (Matrix q n K)) := do
  let a ← lspg name S f Df hist t dt x true
  pure (mv a.1, if w then a.2.map mm else none)

/-- Scaled LSPG: the scaler applied to whatever the unscaled equations give, with the FOM state of the evaluation and the time at the end of the step. -/
def scaled (sc : Scaler K m p n) (S : Trial K m n) (base : List (n → K) → K → K → (n → K) → Bool → Except Exc ((p → K) × Option (Matrix p n K)))
    (hist : List (n → K)) (t dt : K) (x : n → K) (w : Bool) : Except Exc ((p → K) × Option (Matrix p n K)) := do
  let a ← base hist t dt x w
  sc (lift S x) (t + dt) a

/-- contract of a hyper-reduction updater: `R := a R + b E y` -/
structure UpdaterIs (U : Updater K m p n) (E : Matrix p m K) : Prop where
  vec : ∀ R a y b, U.vec R a y b = a • R + b • E.mulVec y
  mat : ∀ J a B b, U.mat J a B b = a • J + b • (E * B)

/-- a fully discrete FOM object implements `g(step, t, dt, y, previous states)` with Jacobian matrix `Dg`; each may throw; `Dg` is only evaluated if wanted -/
structure DFomIs (F : DFom K m p n) (g : Int → K → K → (m → K) → List (m → K) → Except Exc (p → K)) (Dg : Int → K → K → (m → K) → List (m → K) → Except Exc (Matrix p m K)) : Prop where
  residualOnly : ∀ k t dt B y prev b, ((F.eval k t dt B false y prev b).map Prod.fst).mapError Prod.fst = g k t dt y prev
  residualAndJac : ∀ k t dt B y prev, Gives (F.eval k t dt B true y prev) (do let r ← g k t dt y prev; let D ← Dg k t dt y prev; pure (r, D * B))

/-- The FOM discrete residual at points of the trial space: previous states are the accepted ones, lifted, newest first, followed by `init` (what the manager's slot contained before the run: zero after
    construction); `N` is the number of states including the unknown. -/
def fullyDiscrete (N : Nat) (S : Trial K m n) (g : Int → K → K → (m → K) → List (m → K) → Except Exc (p → K)) (Dg : Int → K → K → (m → K) → List (m → K) → Except Exc (Matrix p m K))
    (init : m → K) (hist : List (n → K)) (t dt : K) (x : n → K) (w : Bool) : Except Exc ((p → K) × Option (Matrix p n K)) :=
  let prev := (hist.map (lift S) ++ [init]).take (N - 1)
  (do
    let r ← g hist.length (t + dt) dt (lift S x) prev
    let J ← if w then (Dg hist.length (t + dt) dt (lift S x) prev).map (fun D => some (D * S.basis)) else pure none
    pure (r, J) : Except Exc ((p → K) × Option (Matrix p n K))).mapError (fun e => if e = .discreteTimeResidualFailureUnrecoverable then .residualEvaluationFailureUnrecoverable else e)

end Pressio.Spec.Lspg
