import Verif.Model.Galerkin
import Verif.Spec.Implicit
import Mathlib.Data.Matrix.Basic

/-
  Specification of Galerkin reduced-order models: mathematical FOM operators, the contract of user callbacks, and the reduced operators.
-/
namespace Pressio.Spec.Galerkin
set_option autoImplicit false
open Pressio Pressio.Model.Galerkin
open scoped Matrix

variable {K m p q n : Type} [Field K] [Fintype m] [Fintype p] [Fintype q] [Fintype n]

/-- point of the trial space with coordinates `x`: `Phi x + s`, or `Phi x` if the space is not affine -/
def lift (S : Trial K m n) (x : n → K) : m → K := S.basis.mulVec x + if S.isAffine then S.translation else 0

/-- the callback writes the value `e`, whatever the buffer contained, or throws the exception `e` -/
def Gives {V : Type} (c : Call V) (e : Except Exc V) : Prop := ∀ b, (c b).mapError Prod.fst = e

/-- The FOM object implements: right-hand side `f(y,t)`, its Jacobian matrix `Df(y,t)`, mass matrix `Mm(y,t)`; each of them may throw. -/
structure FomIs (F : Fom K m p n) (f : (m → K) → K → Except Exc (p → K)) (Df Mm : (m → K) → K → Except Exc (Matrix p m K)) : Prop where
  rhs : ∀ y t, Gives (F.rhs y t) (f y t)
  jac : ∀ y B t, Gives (F.applyJac y B t) ((Df y t).map (fun D => D * B))
  mm : ∀ y B t, Gives (F.applyMM y B t) ((Mm y t).map (fun M => M * B))

/-- a steady FOM object implements: residual `f(y)`, its Jacobian matrix `Df(y)` -/
structure SteadyIs (F : SteadyFom K m p n) (f : (m → K) → Except Exc (p → K)) (Df : (m → K) → Except Exc (Matrix p m K)) : Prop where
  residual : ∀ y, Gives (F.residual y) (f y)
  residualOnly : ∀ y B b, ((F.residualAndJac y B false b).map Prod.fst).mapError Prod.fst = f y
  residualAndJac : ∀ y B, Gives (F.residualAndJac y B true) (do let r ← f y; let D ← Df y; pure (r, D * B))

/-- matrix-free use of a steady FOM: `jacobianAction(y, v, out)` gives `Df(y) v` -/
def JacActionIs (F : SteadyFom K m p n) (Df : (m → K) → Except Exc (Matrix m m K)) : Prop :=
  ∀ y v, Gives (F.jacAction y v) ((Df y).map (fun D => D.mulVec v))

/-- a hyper-reduction operator is a pair of functions -/
structure HypIs (H : HypRed K p n) (hv : K → (p → K) → (n → K)) (hm : K → Matrix p n K → Matrix n n K) : Prop where
  vec : ∀ v t b, H.vec v t b = .ok (hv t v)
  mat : ∀ v t b, H.mat v t b = .ok (hm t v)

/-- a masker is a pair of functions -/
structure MaskIs (Mk : Masker K p q n) (mv : (p → K) → (q → K)) (mm : Matrix p n K → Matrix q n K) : Prop where
  vec : ∀ v b, Mk.vec v b = .ok (mv v)
  mat : ∀ v b, Mk.mat v b = .ok (mm v)

/-- The reduced operators at `x`: evaluate the FOM at the point of the trial space, project vectors with `pv` and actions on the basis with `pm`; the old Jacobian and mass matrix are
    kept if they are not wanted.  The first FOM evaluation that throws decides. -/
def reduced (S : Trial K m n) (f : (m → K) → K → Except Exc (p → K)) (Df Mm : (m → K) → K → Except Exc (Matrix p m K)) (pv : (p → K) → (n → K)) (pm : Matrix p n K → Matrix n n K)
    (x : n → K) (t : K) (wantM wantJ : Bool) (oldJ oldM : Matrix n n K) : Except Exc ((n → K) × Matrix n n K × Matrix n n K) := do
  let v ← f (lift S x) t
  let M ← if wantM then (Mm (lift S x) t).map (fun A => pm (A * S.basis)) else pure oldM
  let J ← if wantJ then (Df (lift S x) t).map (fun D => pm (D * S.basis)) else pure oldJ
  pure (pv v, J, M)

/-- the call ends with these values in the output arguments, or with this exception -/
def Ends (res : Res (GSt K m p q n) Unit) (e : Except Exc ((n → K) × Matrix n n K × Matrix n n K)) : Prop :=
  match e with
  | .ok v => ∃ s, res = .ok () s ∧ (s.r, s.J, s.M) = v
  | .error x => ∃ s, res = .stop (.exc x) s

/-- orthonormal columns -/
def Orthonormal [DecidableEq n] (S : Trial K m n) : Prop := S.basisᵀ * S.basis = 1

/-- the FOM itself as a system for an implicit stepper -/
def fomSystem (f : (m → K) → K → Except Exc (m → K)) (Df : (m → K) → K → Except Exc (Matrix m m K)) : Model.Implicit.ISystem K (m → K) (Matrix m m K) where
  eval := fun y t w =>
    match f y t with
    | .error e => .error (e, 0)
    | .ok v =>
      if w then
        match Df y t with
        | .error e => .error (e, 0)
        | .ok D => .ok (v, some D)
      else .ok (v, none)

/-- the FOM itself as a system with mass matrix -/
def fomSystemMM (f : (m → K) → K → Except Exc (m → K)) (Df Mm : (m → K) → K → Except Exc (Matrix m m K)) : Model.Implicit.IMMSystem K (m → K) (Matrix m m K) (Matrix m m K) where
  eval := fun y t w =>
    match f y t with
    | .error e => .error (e, 0, 0)
    | .ok v =>
      match Mm y t with
      | .error e => .error (e, 0, 0)
      | .ok A =>
        if w then
          match Df y t with
          | .error e => .error (e, 0, 0)
          | .ok D => .ok (A, v, some D)
        else .ok (A, v, none)

/-- Galerkin projection of a residual and Jacobian: `Phi^T r`, `Phi^T J Phi` -/
def project (S : Trial K m n) : (m → K) × Option (Matrix m m K) → (n → K) × Option (Matrix n n K) :=
  fun a => (S.basisᵀ.mulVec a.1, a.2.map (fun J => S.basisᵀ * J * S.basis))

end Pressio.Spec.Galerkin
