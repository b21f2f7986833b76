import Verif.Model.Subspace
import Verif.Model.Explicit
import Verif.Model.ExplicitMM
import Verif.Model.Implicit
import Mathlib.Data.Matrix.Mul
import Mathlib.LinearAlgebra.Matrix.Notation

/-
  Model of the Galerkin systems: `include/pressio/rom/impl/galerkin_steady_system_*.hpp`,
  `include/pressio/rom/impl/galerkin_unsteady_system_*.hpp` (those for semi-discrete FOMs), and of the problems that own a stepper.
  The public functions in `include/pressio/rom/galerkin_steady.hpp:12-76`, `include/pressio/rom/galerkin_unsteady_explicit.hpp` and `include/pressio/rom/galerkin_unsteady_implicit.hpp` check the scheme (`Verif/Model/Factory.lean`),
  name one of these systems and forward their arguments to its constructor.

  Vectors and matrices have their sizes in their types: `m` indexes the FOM state, `p` the FOM right-hand side or residual (the same as `m`, or the
  sample mesh for hyper-reduced systems), `q` the masked quantities, `n` the reduced unknowns.  The trial subspace is given by its content
  (`Trial`); `C46_map` relates it to the heap model of `TrialColumnSubspace`.
-/
namespace Pressio.Model.Galerkin
set_option autoImplicit false
open Pressio
open scoped Matrix

variable {K m p q n : Type} [Field K] [Fintype m] [Fintype p] [Fintype q] [Fintype n]

/-! ### The trial subspace -/

/-- content of a `TrialColumnSubspace` (`include/pressio/rom/impl/linear_trial_column_subspace.hpp:49-51`) -/
structure Trial (K m n : Type) where
  basis : Matrix m n K
  translation : m → K
  isAffine : Bool

/-- `mapFromReducedStateWithoutTranslation(x, out)`: new content of `out` (`include/pressio/rom/impl/linear_trial_column_subspace.hpp:138-149`) -/
def Trial.mapNo (S : Trial K m n) (x : n → K) (out : m → K) : m → K := (0:K) • out + (1:K) • S.basis.mulVec x

/-- `mapFromReducedState(x, out)`: new content of `out` (`include/pressio/rom/impl/linear_trial_column_subspace.hpp:151-163`) -/
def Trial.map (S : Trial K m n) (x : n → K) (out : m → K) : m → K :=
  if S.isAffine then (1:K) • S.mapNo x out + (1:K) • S.translation else S.mapNo x out

/-! ### User callbacks -/

/-- A user function with an output argument: old content to new content, or an exception and the content left behind. E.g. `include/pressio/rom/impl/galerkin_unsteady_system_default_rhs_only.hpp:59`. -/
abbrev Call (V : Type) := V → Except (Exc × V) V

/-- run a callback on a part of the state. E.g. `include/pressio/rom/impl/galerkin_unsteady_system_default_rhs_only.hpp:59`. -/
def call {σ V : Type} (get : σ → V) (set : σ → V → σ) (c : Call V) : Prog σ Unit := fun s =>
  match c (get s) with
  | .ok v => .ok () (set s v)
  | .error (e, v) => .stop (.exc e) (set s v)

/-- A semi-discrete FOM: `rhs(y, t, f)`, `applyJacobian(y, B, t, out)`, `applyMassMatrix(y, B, t, out)`. Called at `include/pressio/rom/impl/galerkin_unsteady_system_default_rhs_and_jacobian_and_mm.hpp:85,98,105`. -/
structure Fom (K m p n : Type) where
  rhs : (m → K) → K → Call (p → K)
  applyJac : (m → K) → Matrix m n K → K → Call (Matrix p n K)
  applyMM : (m → K) → Matrix m n K → K → Call (Matrix p n K)

/-- A steady FOM: `residual(y, r)`, `residualAndJacobianAction(y, r, B, optional out)`, `jacobianAction(y, v, out)`. Called at `include/pressio/rom/impl/galerkin_steady_system_default.hpp:76,98,123`. -/
structure SteadyFom (K m p n : Type) where
  residual : (m → K) → Call (p → K)
  residualAndJac : (m → K) → Matrix m n K → Bool → Call ((p → K) × Matrix p n K)
  jacAction : (m → K) → (m → K) → Call (m → K)

/-- A hyper-reduction operator, on vectors and on matrices; the unsteady ones get the time. Called at `include/pressio/rom/impl/galerkin_unsteady_system_hypred_rhs_and_jacobian.hpp:82,86`, `include/pressio/rom/impl/galerkin_steady_system_hypred.hpp:89,91`. -/
structure HypRed (K p n : Type) where
  vec : (p → K) → K → Call (n → K)
  mat : Matrix p n K → K → Call (Matrix n n K)

/-- A masker, on vectors and on matrices. Called at `include/pressio/rom/impl/galerkin_unsteady_system_masked_rhs_and_jacobian.hpp:95,101`, `include/pressio/rom/impl/galerkin_steady_system_masked.hpp:102,105`. -/
structure Masker (K p q n : Type) where
  vec : (p → K) → Call (q → K)
  mat : Matrix p n K → Call (Matrix q n K)

/-! ### Memory -/

/-- The members of the Galerkin systems (buffers; each class has the ones it needs) and the output arguments of the call: `r` reduced residual or right-hand
    side, `J` reduced Jacobian, `M` reduced mass matrix. Members: `include/pressio/rom/impl/galerkin_unsteady_system_default_rhs_and_jacobian_and_mm.hpp:120-123`, `include/pressio/rom/impl/galerkin_unsteady_system_masked_rhs_and_jacobian.hpp:109-119`, `include/pressio/rom/impl/galerkin_steady_system_default.hpp:136-140`. -/
structure GSt (K m p q n : Type) where
  fomState : m → K
  fomRhs : p → K
  fomJac : Matrix p n K
  fomMM : Matrix p n K
  masked : q → K
  maskedJac : Matrix q n K
  aux : m → K
  aux2 : m → K
  r : n → K
  J : Matrix n n K
  M : Matrix n n K

/-- `trialSubspace_.get().mapFromReducedState(x, fomState_)` (`include/pressio/rom/impl/galerkin_unsteady_system_default_rhs_only.hpp:56` and the same line of the other systems) -/
def mapState (S : Trial K m n) (x : n → K) : Prog (GSt K m p q n) Unit := Prog.modify (fun s => { s with fomState := S.map x s.fomState })

/-- `fomSystem_.get().rhs(fomState_, t, fomRhs_)` (`include/pressio/rom/impl/galerkin_unsteady_system_default_rhs_only.hpp:59` and the same line of the other systems) -/
def callRhs (F : Fom K m p n) (t : K) : Prog (GSt K m p q n) Unit := fun s =>
  call (fun s => s.fomRhs) (fun s v => { s with fomRhs := v }) (F.rhs s.fomState t) s

/-- `fomSystem_.get().applyJacobian(fomState_, phi, t, fomJacAction_)` (`include/pressio/rom/impl/galerkin_unsteady_system_default_rhs_and_jacobian.hpp:91`) -/
def callJac (S : Trial K m n) (F : Fom K m p n) (t : K) : Prog (GSt K m p q n) Unit := fun s =>
  call (fun s => s.fomJac) (fun s v => { s with fomJac := v }) (F.applyJac s.fomState S.basis t) s

/-- `fomSystem_.get().applyMassMatrix(fomState_, phi, t, fomMMAction_)` (`include/pressio/rom/impl/galerkin_unsteady_system_default_rhs_with_mass_matrix.hpp:72`) -/
def callMM (S : Trial K m n) (F : Fom K m p n) (t : K) : Prog (GSt K m p q n) Unit := fun s =>
  call (fun s => s.fomMM) (fun s v => { s with fomMM := v }) (F.applyMM s.fomState S.basis t) s

/-- `ops::product(transpose, 1, phi, fomRhs_, 0, r)` (`include/pressio/rom/impl/galerkin_unsteady_system_default_rhs_only.hpp:67-69`) -/
def projRhs (S : Trial K m n) : Prog (GSt K m m q n) Unit :=
  Prog.modify (fun s => { s with r := (0:K) • s.r + (1:K) • S.basisᵀ.mulVec s.fomRhs })
/-- `ops::product(transpose, nontranspose, 1, phi, fomJacAction_, 0, J)` (`include/pressio/rom/impl/galerkin_unsteady_system_default_rhs_and_jacobian.hpp:96-98`) -/
def projJac (S : Trial K m n) : Prog (GSt K m m q n) Unit :=
  Prog.modify (fun s => { s with J := (0:K) • s.J + (1:K) • (S.basisᵀ * s.fomJac) })
/-- `ops::product(transpose, nontranspose, 1, phi, fomMMAction_, 0, M)` (`include/pressio/rom/impl/galerkin_unsteady_system_default_rhs_with_mass_matrix.hpp:75-77`) -/
def projMM (S : Trial K m n) : Prog (GSt K m m q n) Unit :=
  Prog.modify (fun s => { s with M := (0:K) • s.M + (1:K) • (S.basisᵀ * s.fomMM) })

/-! ### Default systems -/

/-- `GalerkinDefaultOdeSystemOnlyRhs::rhs` (`include/pressio/rom/impl/galerkin_unsteady_system_default_rhs_only.hpp:51-70`) -/
def defaultRhs (S : Trial K m n) (F : Fom K m m n) (x : n → K) (t : K) : Prog (GSt K m m q n) Unit := do
  mapState S x
  callRhs F t
  projRhs S

/-- `GalerkinDefaultOdeSystemOnlyRhsAndMassMatrix::massMatrixAndRhs`
    (`include/pressio/rom/impl/galerkin_unsteady_system_default_rhs_with_mass_matrix.hpp:51-78`) -/
def defaultMMRhs (S : Trial K m n) (F : Fom K m m n) (x : n → K) (t : K) : Prog (GSt K m m q n) Unit := do
  mapState S x
  callRhs F t
  projRhs S
  callMM S F t
  projMM S

/-- `GalerkinDefaultOdeSystemRhsAndJacobian::rhsAndJacobian`
    (`include/pressio/rom/impl/galerkin_unsteady_system_default_rhs_and_jacobian.hpp:68-101`) -/
def defaultRhsJac (S : Trial K m n) (F : Fom K m m n) (x : n → K) (t : K) (w : Bool) : Prog (GSt K m m q n) Unit := do
  mapState S x
  callRhs F t
  projRhs S
  if w then do
    callJac S F t
    projJac S
  else pure ()

/-- `GalerkinDefaultOdeSystemRhsJacobianMassMatrix::massMatrixAndRhsAndJacobian`
    (`include/pressio/rom/impl/galerkin_unsteady_system_default_rhs_and_jacobian_and_mm.hpp:74-115`) -/
def defaultMMRhsJac (S : Trial K m n) (F : Fom K m m n) (x : n → K) (t : K) (w : Bool) : Prog (GSt K m m q n) Unit := do
  mapState S x
  callRhs F t
  projRhs S
  callMM S F t
  projMM S
  if w then do
    callJac S F t
    projJac S
  else pure ()

/-! ### Hyper-reduced systems -/

/-- `hyperReducer_(fomRhs_, t, r)` (`include/pressio/rom/impl/galerkin_unsteady_system_hypred_rhs_only.hpp:63`) -/
def hypRhs (H : HypRed K p n) (t : K) : Prog (GSt K m p q n) Unit := fun s =>
  call (fun s => s.r) (fun s v => { s with r := v }) (H.vec s.fomRhs t) s
/-- `hyperReducer_(fomJacAction_, t, J)` (`include/pressio/rom/impl/galerkin_unsteady_system_hypred_rhs_and_jacobian.hpp:86`) -/
def hypJac (H : HypRed K p n) (t : K) : Prog (GSt K m p q n) Unit := fun s =>
  call (fun s => s.J) (fun s v => { s with J := v }) (H.mat s.fomJac t) s

/-- `GalerkinHyperReducedOdeSystemOnlyRhs::rhs` (`include/pressio/rom/impl/galerkin_unsteady_system_hypred_rhs_only.hpp:53-64`) -/
def hypredRhs (S : Trial K m n) (F : Fom K m p n) (H : HypRed K p n) (x : n → K) (t : K) : Prog (GSt K m p q n) Unit := do
  mapState S x
  callRhs F t
  hypRhs H t

/-- `GalerkinHypRedOdeSystemRhsAndJacobian::rhsAndJacobian` (`include/pressio/rom/impl/galerkin_unsteady_system_hypred_rhs_and_jacobian.hpp:74-88`) -/
def hypredRhsJac (S : Trial K m n) (F : Fom K m p n) (H : HypRed K p n) (x : n → K) (t : K) (w : Bool) : Prog (GSt K m p q n) Unit := do
  mapState S x
  callRhs F t
  hypRhs H t
  if w then do
    callJac S F t
    hypJac H t
  else pure ()

/-! ### Masked systems -/

/-- `masker_(unMaskedFomRhs_, maskedFomRhs_)` (`include/pressio/rom/impl/galerkin_unsteady_system_masked_rhs_only.hpp:72`) -/
def maskRhs (Mk : Masker K p q n) : Prog (GSt K m p q n) Unit := fun s =>
  call (fun s => s.masked) (fun s v => { s with masked := v }) (Mk.vec s.fomRhs) s
/-- `masker_(unMaskedFomJacAction_, maskedFomJacAction_)` (`include/pressio/rom/impl/galerkin_unsteady_system_masked_rhs_and_jacobian.hpp:101`) -/
def maskJac (Mk : Masker K p q n) : Prog (GSt K m p q n) Unit := fun s =>
  call (fun s => s.maskedJac) (fun s v => { s with maskedJac := v }) (Mk.mat s.fomJac) s
/-- `hyperReducer_(maskedFomRhs_, t, r)` (`include/pressio/rom/impl/galerkin_unsteady_system_masked_rhs_only.hpp:74`) -/
def hypMaskedRhs (H : HypRed K q n) (t : K) : Prog (GSt K m p q n) Unit := fun s =>
  call (fun s => s.r) (fun s v => { s with r := v }) (H.vec s.masked t) s
/-- `hyperReducer_(maskedFomJacAction_, t, J)` (`include/pressio/rom/impl/galerkin_unsteady_system_masked_rhs_and_jacobian.hpp:102`) -/
def hypMaskedJac (H : HypRed K q n) (t : K) : Prog (GSt K m p q n) Unit := fun s =>
  call (fun s => s.J) (fun s v => { s with J := v }) (H.mat s.maskedJac t) s

/-- `GalerkinMaskedOdeSystemOnlyRhs::rhs` (`include/pressio/rom/impl/galerkin_unsteady_system_masked_rhs_only.hpp:62-75`) -/
def maskedRhs (S : Trial K m n) (F : Fom K m p n) (Mk : Masker K p q n) (H : HypRed K q n) (x : n → K) (t : K) : Prog (GSt K m p q n) Unit := do
  mapState S x
  callRhs F t
  maskRhs Mk
  hypMaskedRhs H t

/-- `GalerkinMaskedOdeSystemRhsAndJacobian::rhsAndJacobian` (`include/pressio/rom/impl/galerkin_unsteady_system_masked_rhs_and_jacobian.hpp:87-104`) -/
def maskedRhsJac (S : Trial K m n) (F : Fom K m p n) (Mk : Masker K p q n) (H : HypRed K q n) (x : n → K) (t : K) (w : Bool) : Prog (GSt K m p q n) Unit := do
  mapState S x
  callRhs F t
  maskRhs Mk
  hypMaskedRhs H t
  if w then do
    callJac S F t
    maskJac Mk
    hypMaskedJac H t
  else pure ()

/-! ### Steady systems -/

/-- `fomSystem_.get().residual(fomState_, fomResidual_)` (`include/pressio/rom/impl/galerkin_steady_system_default.hpp:76`) -/
def callResidual (F : SteadyFom K m p n) : Prog (GSt K m p q n) Unit := fun s =>
  call (fun s => s.fomRhs) (fun s v => { s with fomRhs := v }) (F.residual s.fomState) s

/-- `fomSystem_.get().residualAndJacobianAction(fomState_, fomResidual_, phi, opt)`; the Jacobian buffer is passed only if wanted (`include/pressio/rom/impl/galerkin_steady_system_default.hpp:98`) -/
def callResidualJac (S : Trial K m n) (F : SteadyFom K m p n) (w : Bool) : Prog (GSt K m p q n) Unit := fun s =>
  call (fun s => (s.fomRhs, s.fomJac)) (fun s v => { s with fomRhs := v.1, fomJac := if w then v.2 else s.fomJac }) (F.residualAndJac s.fomState S.basis w) s

/-- `GalerkinSteadyDefaultSystem::residual` (`include/pressio/rom/impl/galerkin_steady_system_default.hpp:70-79`) -/
def steadyResidual (S : Trial K m n) (F : SteadyFom K m m n) (x : n → K) : Prog (GSt K m m q n) Unit := do
  mapState S x
  callResidual F
  projRhs S

/-- `GalerkinSteadyDefaultSystem::residualAndJacobian` (`include/pressio/rom/impl/galerkin_steady_system_default.hpp:81-111`) -/
def steadyResidualJac (S : Trial K m n) (F : SteadyFom K m m n) (x : n → K) (w : Bool) : Prog (GSt K m m q n) Unit := do
  mapState S x
  callResidualJac S F w
  projRhs S
  if w then projJac S else pure ()

/-- `fomSystem_.get().jacobianAction(fomState_, auxFomVec_, auxFomVec2_)` (`include/pressio/rom/impl/galerkin_steady_system_default.hpp:123`) -/
def callJacAction (F : SteadyFom K m p n) : Prog (GSt K m p q n) Unit := fun s =>
  call (fun s => s.aux2) (fun s v => { s with aux2 := v }) (F.jacAction s.fomState s.aux) s

/-- `GalerkinSteadyDefaultSystem::applyJacobian` (`include/pressio/rom/impl/galerkin_steady_system_default.hpp:113-131`); the result is `r` -/
def steadyApplyJac (S : Trial K m n) (F : SteadyFom K m m n) (x v : n → K) : Prog (GSt K m m q n) Unit := do
  mapState S x
  Prog.modify (fun s => { s with aux := 0 })
  Prog.modify (fun s => { s with aux := S.mapNo v s.aux })
  Prog.modify (fun s => { s with aux2 := 0 })
  callJacAction F
  Prog.modify (fun s => { s with r := (0:K) • s.r + (1:K) • S.basisᵀ.mulVec s.aux2 })

/-- `GalerkinSteadyHypRedSystem::residualAndJacobian` (`include/pressio/rom/impl/galerkin_steady_system_hypred.hpp:76-93`); the time argument of the operator is a dummy -/
def steadyHypredResidualJac (S : Trial K m n) (F : SteadyFom K m p n) (H : HypRed K p n) (x : n → K) (w : Bool) : Prog (GSt K m p q n) Unit := do
  mapState S x
  callResidualJac S F w
  hypRhs H 0
  if w then hypJac H 0 else pure ()

/-- `GalerkinSteadyHypRedSystem::residual` (`include/pressio/rom/impl/galerkin_steady_system_hypred.hpp:95-99`) -/
def steadyHypredResidual (_x : n → K) : Prog (GSt K m p q n) Unit := Prog.throwE (.runtimeError "missing impl")
/-- `GalerkinSteadyHypRedSystem::applyJacobian` (`include/pressio/rom/impl/galerkin_steady_system_hypred.hpp:101-107`) -/
def steadyHypredApplyJac (_x _v : n → K) : Prog (GSt K m p q n) Unit := Prog.throwE (.runtimeError "missing impl")

/-- `GalerkinSteadyMaskedSystem::residualAndJacobian` (`include/pressio/rom/impl/galerkin_steady_system_masked.hpp:84-108`) -/
def steadyMaskedResidualJac (S : Trial K m n) (F : SteadyFom K m p n) (Mk : Masker K p q n) (H : HypRed K q n) (x : n → K) (w : Bool) : Prog (GSt K m p q n) Unit := do
  mapState S x
  callResidualJac S F w
  maskRhs Mk
  hypMaskedRhs H 0
  if w then do
    maskJac Mk
    hypMaskedJac H 0
  else pure ()

/-! ### As systems for the steppers

The steppers of `Verif/Model/Explicit.lean`, `ExplicitMM.lean`, `Implicit.lean` call systems without memory of their own; here the buffers of the Galerkin system are
in an arbitrary state `s0` at every call (`C49` shows that their content does not matter). -/

/-- the object given to an explicit stepper (`include/pressio/rom/impl/galerkin_unsteady_explicit_problem.hpp:26-27`) -/
def asSystem (f : (n → K) → K → Prog (GSt K m p q n) Unit) (s0 : GSt K m p q n) : Model.Explicit.System K (n → K) where
  rhs := fun x t b =>
    match f x t { s0 with r := b } with
    | .ok _ s => .ok () s.r
    | .stop h s => .stop h s.r

/-- the object given to an explicit stepper with mass matrix (`include/pressio/rom/impl/galerkin_unsteady_explicit_problem.hpp:63-64`) -/
def asMMSystem (f : (n → K) → K → Prog (GSt K m p q n) Unit) (s0 : GSt K m p q n) : Model.ExplicitMM.MMSystem K (n → K) (Matrix n n K) where
  massMatrixAndRhs := fun x t b =>
    match f x t { s0 with M := b.1, r := b.2 } with
    | .ok _ s => .ok () (s.M, s.r)
    | .stop h s => .stop h (s.M, s.r)

/-- why a call stopped, as an exception (Galerkin systems do not stop for other reasons: `C49`). What a policy sees of a failed call at `include/pressio/ode/impl/ode_implicit_policy_residual_jacobian_without_mass_matrix.hpp:158,195,211`. -/
def excOf : Stop → Exc
  | .exc e => e
  | _ => .other 0

/-- the object given to an implicit stepper (`include/pressio/rom/galerkin_unsteady_implicit.hpp:28-48`) -/
def asISystem (f : (n → K) → K → Bool → Prog (GSt K m p q n) Unit) (s0 : GSt K m p q n) : Model.Implicit.ISystem K (n → K) (Matrix n n K) where
  eval := fun x t w =>
    match f x t w s0 with
    | .ok _ s => .ok (s.r, if w then some s.J else none)
    | .stop h s => .error (excOf h, s.r)

/-- the object given to an implicit stepper with mass matrix (`include/pressio/rom/galerkin_unsteady_implicit.hpp:63-83`) -/
def asIMMSystem (f : (n → K) → K → Bool → Prog (GSt K m p q n) Unit) (s0 : GSt K m p q n) : Model.Implicit.IMMSystem K (n → K) (Matrix n n K) (Matrix n n K) where
  eval := fun x t w =>
    match f x t w s0 with
    | .ok _ s => .ok (s.M, s.r, if w then some s.J else none)
    | .stop h s => .error (excOf h, s.M, s.r)

end Pressio.Model.Galerkin
