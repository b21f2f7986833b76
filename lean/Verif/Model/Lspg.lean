import Verif.Model.Galerkin

/-
  Model of unsteady LSPG (`include/pressio/rom/impl/lspg_unsteady_*.hpp`), steady LSPG (`lspg_steady_system_*.hpp`; the functions in `include/pressio/rom/lspg_steady.hpp:12-90` construct these systems, with the scaler of
  `include/pressio/rom/impl/noop.hpp`, which does nothing, if none is given), the manager of reconstructed FOM states
  (`lspg_unsteady_fom_states_manager.hpp`, also used for fully discrete Galerkin problems: `galerkin_unsteady_fom_states_manager.hpp:57`) and the fully discrete Galerkin systems.

  Sizes are in the types, as in `Verif/Model/Galerkin.lean`.
-/
namespace Pressio.Model.Lspg
set_option autoImplicit false
open Pressio Pressio.Model.Galerkin Pressio.Model.Implicit
open Pressio.Model.Explicit (Scheme)
open scoped Matrix

variable {K m p q n : Type} [Field K] [Fintype m] [Fintype p] [Fintype q] [Fintype n]

/-! ### Manager of FOM states -/

/-- `data_`: slots `n+1`, `n`, `n-1`,  (`include/pressio/rom/impl/lspg_unsteady_fom_states_manager.hpp:172-173`) -/
abbrev Mgr (K m : Type) := List (m → K)

/-- constructor: as many states as given, all set to zero (`include/pressio/rom/impl/lspg_unsteady_fom_states_manager.hpp:70-75,164-167`) -/
def createMgr (size : Nat) : Mgr K m := List.replicate size 0

/-- `create_lspg_fom_states_manager(name, trialSubspace)` (`include/pressio/rom/impl/lspg_unsteady_fom_states_manager.hpp:174-204`) -/
def createMgrFor (name : Scheme) : Except Exc (Mgr K m) :=
  match name with
  | .BDF1 => .ok (createMgr 2)
  | .BDF2 => .ok (createMgr 3)
  | .CrankNicolson => .ok (createMgr 2)
  | _ => .error (.runtimeError "Unsteady LSPG prob members: Invalid enum value")

/-- `create_lspg_fom_states_manager<N>(trialSubspace)`, `create_galerkin_fom_states_manager<N>`
    (`include/pressio/rom/impl/lspg_unsteady_fom_states_manager.hpp:207-228`, `include/pressio/rom/impl/galerkin_unsteady_fom_states_manager.hpp:59-78`) -/
def createMgrN (N : Nat) : Except Exc (Mgr K m) :=
  if N = 2 then .ok (createMgr 2) else if N = 3 then .ok (createMgr 3) else .error (.runtimeError "Unsteady LSPG prob members: Invalid case")

/-- names of slots (`include/pressio/rom/impl/lspg_unsteady_fom_states_manager.hpp:80-98`) -/
inductive Slot where
  | nPlusOne | n | nMinusOne | nMinusTwo
deriving DecidableEq, Repr

/-- `operator()(tag)` (`include/pressio/rom/impl/lspg_unsteady_fom_states_manager.hpp:80-98`); outside of the vector: undefined (an `assert` in debug builds) -/
def mgrRead (tag : Slot) (d : Mgr K m) : Option (m → K) :=
  match tag with
  | .nPlusOne => d[0]?
  | .n => d[1]?
  | .nMinusOne => d[2]?
  | .nMinusTwo => d[3]?

/-- `reconstructAtWithoutStencilUpdate(x, tag)` (`include/pressio/rom/impl/lspg_unsteady_fom_states_manager.hpp:100-130`): `none` if it writes outside of the vector.
    The last one writes `data_[4]`. -/
def mgrSet (S : Trial K m n) (x : n → K) (tag : Slot) (d : Mgr K m) : Option (Mgr K m) :=
  let i := match tag with
    | .nPlusOne => 0
    | .n => 1
    | .nMinusOne => 2
    | .nMinusTwo => 4
  match d[i]? with
  | some old => some (d.set i (S.map x old))
  | none => none

/-- `reconstructAtWithStencilUpdate(x, n)` (`include/pressio/rom/impl/lspg_unsteady_fom_states_manager.hpp:132-162`): `none` if there are fewer than two states (an `assert` in debug builds; in release builds
    nothing happens) -/
def mgrPush (S : Trial K m n) (x : n → K) (d : Mgr K m) : Option (Mgr K m) :=
  match d with
  | [d0, d1] => some [d0, S.map x d1]
  | [d0, d1, _] => some [d0, S.map x d1, d1]
  | [d0, d1, d2, _] => some [d0, S.map x d1, d1, d2]
  | d0 :: d1 :: rest => some (d0 :: d1 :: rest)
  | _ => none

/-! ### Memory of a problem -/

/-- The FOM states manager, `stepTracker_`, `fomStateHelperInstance_` (hyper-reduced), and the objects `R` and `J` passed by the solver (or the unmasked ones of the mask decorator, or the buffers of the fully
    discrete Galerkin systems) (`include/pressio/rom/impl/lspg_unsteady_rj_policy_default.hpp:206-210`, `include/pressio/rom/impl/lspg_unsteady_rj_policy_hypred.hpp:257-263`, `include/pressio/rom/impl/lspg_unsteady_mask_decorator.hpp:130-132`) -/
structure LMem (K m p n : Type) where
  data : Mgr K m
  tracker : Int
  helper : m → K
  R : p → K
  J : Matrix p n K

/-- a manager operation (`include/pressio/rom/impl/lspg_unsteady_rj_policy_default.hpp:151-152,161-162`) -/
def withMgr (f : Mgr K m → Option (Mgr K m)) : Prog (LMem K m p n) Unit := fun s =>
  match f s.data with
  | some d => .ok () { s with data := d }
  | none => .stop (.ub "FOM state slot out of range") s

/-- read a FOM state (`include/pressio/rom/impl/lspg_unsteady_rj_policy_default.hpp:153`) -/
def fomAt (tag : Slot) : Prog (LMem K m p n) (m → K) := fun s =>
  match mgrRead tag s.data with
  | some y => .ok y s
  | none => .stop (.ub "FOM state slot out of range") s

/-- The beginning of every evaluation: reconstruct at `n+1`; if the step number changed, also at `n`, shifting older states; `states` is the stepper's stencil of reduced states.
    (`include/pressio/rom/impl/lspg_unsteady_rj_policy_default.hpp:146-163`, `lspg_unsteady_rj_policy_hypred.hpp:151-168`,
    `lspg_unsteady_fully_discrete_system.hpp:162-193`, `galerkin_unsteady_system_fully_discrete_fom.hpp:180-210`) -/
def track (S : Trial K m n) (x : n → K) (states : List (n → K)) (step : Int) : Prog (LMem K m p n) Unit := do
  withMgr (mgrSet S x .nPlusOne)
  let s ← Prog.get
  if s.tracker ≠ step then do
    let yn ← readState states 0
    withMgr (mgrPush S yn)
    Prog.modify (fun s => { s with tracker := step })
  else pure ()

/-- `fomSystem_.get().rhs(y, t, R)` (`include/pressio/rom/impl/lspg_unsteady_rj_policy_default.hpp:168`, `include/pressio/rom/impl/lspg_unsteady_rj_policy_hypred.hpp:181,206`) -/
def callR (F : Fom K m p n) (y : m → K) (t : K) : Prog (LMem K m p n) Unit :=
  call (fun s => s.R) (fun s v => { s with R := v }) (F.rhs y t)
/-- `fomSystem_.get().applyJacobian(y, phi, t, J)` (`include/pressio/rom/impl/lspg_unsteady_rj_policy_default.hpp:183`, `include/pressio/rom/impl/lspg_unsteady_rj_policy_hypred.hpp:235`) -/
def callJ (S : Trial K m n) (F : Fom K m p n) (y : m → K) (t : K) : Prog (LMem K m p n) Unit :=
  call (fun s => s.J) (fun s v => { s with J := v }) (F.applyJac y S.basis t)

/-- what the solver gets. Output arguments of `include/pressio/rom/impl/lspg_unsteady_rj_policy_default.hpp:97-131`. -/
def result (w : Bool) : Prog (LMem K m p n) ((p → K) × Option (Matrix p n K)) := fun s => .ok (s.R, if w then some s.J else none) s

/-! ### Default policy -/

/-- the residual: `rhs` and `discrete_residual` (`include/pressio/rom/impl/lspg_unsteady_rj_policy_default.hpp:167-172`) -/
def defaultResidual (bdf2 : Bool) (F : Fom K m m n) (y : m → K) (t dt : K) : Prog (LMem K m m n) Unit := do
  callR F y t
  if bdf2 then do
    let yn ← fomAt .n
    let ynm1 ← fomAt .nMinusOne
    Prog.modify (fun s => { s with R := discreteResidualBDF2 y s.R yn ynm1 dt })
  else do
    let yn ← fomAt .n
    Prog.modify (fun s => { s with R := discreteResidualBDF1 y s.R yn dt })

/-- the Jacobian: `applyJacobian` and `update(J, factor, phi, 1)` (`include/pressio/rom/impl/lspg_unsteady_rj_policy_default.hpp:172-197`) -/
def defaultJacobian (bdf2 : Bool) (S : Trial K m n) (F : Fom K m m n) (y : m → K) (t dt : K) (w : Bool) : Prog (LMem K m m n) Unit :=
  if w then do
    callJ S F y t
    Prog.modify (fun s => { s with J := (if bdf2 then dt * ((-2:K) / 3) else dt * (-1)) • s.J + (1:K) • S.basis })
  else pure ()

/-- `compute_impl_bdf<BDF1>` / `<BDF2>` after `track` (`include/pressio/rom/impl/lspg_unsteady_rj_policy_default.hpp:167-197`) -/
def assembleDefault (bdf2 : Bool) (S : Trial K m n) (F : Fom K m m n) (t dt : K) (w : Bool) : Prog (LMem K m m n) ((m → K) × Option (Matrix m n K)) := do
  let y ← fomAt .nPlusOne
  defaultResidual bdf2 F y t dt
  defaultJacobian bdf2 S F y t dt w
  result w

/-! ### Hyper-reduced policy -/

/-- A hyper-reduction updater: `updateSampleMeshOperandWithStencilMeshOne(R, a, y, b)` for vectors and for matrices: new content of the first argument. Called at `include/pressio/rom/impl/lspg_unsteady_rj_policy_hypred.hpp:194-195,223-224,247`. -/
structure Updater (K m p n : Type) where
  vec : (p → K) → K → (m → K) → K → (p → K)
  mat : Matrix p n K → K → Matrix m n K → K → Matrix p n K

/-- the residual (`include/pressio/rom/impl/lspg_unsteady_rj_policy_hypred.hpp:170-222`) -/
def hypredResidual (U : Updater K m p n) (bdf2 : Bool) (F : Fom K m p n) (y : m → K) (t dt : K) : Prog (LMem K m p n) Unit := do
  callR F y t
  if bdf2 then do
    let yn ← fomAt .n
    let ynm1 ← fomAt .nMinusOne
    Prog.modify (fun s => { s with helper := (0:K) • s.helper + (1:K) • y + ((-4:K) / 3) • yn + ((1:K) / 3) • ynm1 })
    Prog.modify (fun s => { s with R := U.vec s.R (((-2:K) / 3) * dt) s.helper 1 })
  else do
    let yn ← fomAt .n
    Prog.modify (fun s => { s with helper := (0:K) • s.helper + (1:K) • y + (-1:K) • yn })
    Prog.modify (fun s => { s with R := U.vec s.R ((-1:K) * dt) s.helper 1 })

/-- the Jacobian (`include/pressio/rom/impl/lspg_unsteady_rj_policy_hypred.hpp:224-246`) -/
def hypredJacobian (U : Updater K m p n) (bdf2 : Bool) (S : Trial K m n) (F : Fom K m p n) (y : m → K) (t dt : K) (w : Bool) : Prog (LMem K m p n) Unit :=
  if w then do
    callJ S F y t
    Prog.modify (fun s => { s with J := U.mat s.J (if bdf2 then dt * ((-2:K) / 3) else dt * (-1)) S.basis 1 })
  else pure ()

/-- `compute_impl_bdf` after `track` (`include/pressio/rom/impl/lspg_unsteady_rj_policy_hypred.hpp:170-246`) -/
def assembleHypred (U : Updater K m p n) (bdf2 : Bool) (S : Trial K m n) (F : Fom K m p n) (t dt : K) (w : Bool) : Prog (LMem K m p n) ((p → K) × Option (Matrix p n K)) := do
  let y ← fomAt .nPlusOne
  hypredResidual U bdf2 F y t dt
  hypredJacobian U bdf2 S F y t dt w
  result w

/-! ### As policies of the implicit stepper -/

/-- run on the policy's members, leaving the stepper's `stencil_rhs_` alone. The argument `stencilVelocities` is unused: `include/pressio/rom/impl/lspg_unsteady_rj_policy_default.hpp:97-131`. -/
def onPol {P R A : Type} (f : Prog P A) : Prog (List R × P) A := fun s =>
  match f s.2 with
  | .ok a p => .ok a (s.1, p)
  | .stop h p => .stop h (s.1, p)

/-- `operator()` of the two policies (`include/pressio/rom/impl/lspg_unsteady_rj_policy_default.hpp:97-131`, `lspg_unsteady_rj_policy_hypred.hpp:104-140`) -/
def lspgPolicy (assemble : Bool → K → K → Bool → Prog (LMem K m p n) ((p → K) × Option (Matrix p n K))) (S : Trial K m n) :
    Policy K (n → K) (n → K) (LMem K m p n) ((p → K) × Option (Matrix p n K)) := fun name x states tnp1 step dt w =>
  match name with
  | .BDF1 => onPol (do track S x states step; assemble false tnp1 dt w)
  | .BDF2 =>
    if step = 1 then onPol (do track S x states step; assemble false tnp1 dt w)
    else onPol (do track S x states step; assemble true tnp1 dt w)
  | _ => Prog.throwE (.runtimeError "Invalid choice of StepScheme for unsteady LSPG")

/-- default LSPG (`include/pressio/rom/impl/lspg_unsteady_rj_policy_default.hpp:97-131`) -/
def defaultPolicy (S : Trial K m n) (F : Fom K m m n) : Policy K (n → K) (n → K) (LMem K m m n) ((m → K) × Option (Matrix m n K)) :=
  lspgPolicy (fun bdf2 t dt w => assembleDefault bdf2 S F t dt w) S

/-- hyper-reduced LSPG (`include/pressio/rom/impl/lspg_unsteady_rj_policy_hypred.hpp:102-137`) -/
def hypredPolicy (U : Updater K m p n) (S : Trial K m n) (F : Fom K m p n) : Policy K (n → K) (n → K) (LMem K m p n) ((p → K) × Option (Matrix p n K)) :=
  lspgPolicy (fun bdf2 t dt w => assembleHypred U bdf2 S F t dt w) S

/-- `LspgMaskDecorator::operator()` (`include/pressio/rom/impl/lspg_unsteady_mask_decorator.hpp:105-127`): the unmasked Jacobian is always computed.
    The base policy writes `unMaskedResidual_`, `unMaskedJacobian_` (its answer); the second component of the memory: the objects `R`, `J` passed by the solver. -/
def maskDecorator (Mk : Masker K p q n) (base : Policy K (n → K) (n → K) (LMem K m p n) ((p → K) × Option (Matrix p n K))) :
    Policy K (n → K) (n → K) (LMem K m p n × (q → K) × Matrix q n K) ((q → K) × Option (Matrix q n K)) := fun name x states tnp1 step dt w s =>
  match base name x states tnp1 step dt true (s.1, s.2.1) with
  | .stop h r => .stop h (r.1, r.2, s.2.2)
  | .ok (_, none) r => .stop (.ub "Jacobian asked for but not computed") (r.1, r.2, s.2.2)
  | .ok (uR, some uJ) r =>
    match Mk.vec uR s.2.2.1 with
    | .error (e, v) => .stop (.exc e) (r.1, r.2, v, s.2.2.2)
    | .ok v =>
      if w then
        match Mk.mat uJ s.2.2.2 with
        | .error (e, j) => .stop (.exc e) (r.1, r.2, v, j)
        | .ok j => .ok (v, some j) (r.1, r.2, v, j)
      else .ok (v, none) (r.1, r.2, v, s.2.2.2)

/-- A user scaler `scaler(y, t, R, optional J)`: new `R` and `J`, or an exception (the content it leaves is not modelled: `R` and `J` are overwritten by the next evaluation). Called at `include/pressio/rom/impl/lspg_unsteady_scaling_decorator.hpp:103`. -/
abbrev Scaler (K m p n : Type) := (m → K) → K → (p → K) × Option (Matrix p n K) → Except Exc ((p → K) × Option (Matrix p n K))

/-- `LspgScalingDecorator::operator()` (`include/pressio/rom/impl/lspg_unsteady_scaling_decorator.hpp:84-104`) -/
def scalingDecorator (sc : Scaler K m p n) (base : Policy K (n → K) (n → K) (LMem K m p n) ((p → K) × Option (Matrix p n K))) :
    Policy K (n → K) (n → K) (LMem K m p n) ((p → K) × Option (Matrix p n K)) := fun name x states tnp1 step dt w s =>
  match base name x states tnp1 step dt w s with
  | .stop h r => .stop h r
  | .ok a r =>
    match mgrRead .nPlusOne r.2.data with
    | none => .stop (.ub "FOM state slot out of range") r
    | some y =>
      match sc y tnp1 a with
      | .error e => .stop (.exc e) r
      | .ok b => .ok b r

/-- `valid_scheme_for_lspg_else_throw` (`include/pressio/rom/impl/lspg_helpers.hpp:7-15`) and the construction of the problem
    (`include/pressio/rom/impl/lspg_unsteady_problem.hpp:52-68`), as done by the five public functions for semi-discrete systems (`include/pressio/rom/lspg_unsteady.hpp:19-214`, which name the policy and its
    decorators and forward their arguments): the stepper object with its policy and manager. `helper`, `R`, `J` are what `createFullState`, `createResidual`, ... returned. -/
def createProblem (name : Scheme) (helper : m → K) (R : p → K) (J : Matrix p n K) (rec : n → K) : Except Exc (SMem K (n → K) (n → K) (LMem K m p n)) :=
  if name ≠ .BDF1 ∧ name ≠ .BDF2 then .error (.runtimeError "LSPG currently accepting BDF1 or BDF2")
  else
    match (createMgrFor name : Except Exc (Mgr K m)) with
    | .error e => .error e
    | .ok d => createImplicit name rec ⟨d, -1, helper, R, J⟩

/-! ### Fully discrete problems -/

/-- A fully discrete FOM: `discreteTimeResidualAndJacobianAction(step, t, dt, R, phi, optional J, y_{n+1}, y_n, ...)`; the last argument is the list of previous states. Called at `include/pressio/rom/impl/lspg_unsteady_fully_discrete_system.hpp:120-122,147-149`. -/
structure DFom (K m p n : Type) where
  eval : Int → K → K → Matrix m n K → Bool → (m → K) → List (m → K) → Call ((p → K) × Matrix p n K)

/-- the FOM call, on the buffers `R`, `J` (`J` only if wanted) (`include/pressio/rom/impl/lspg_unsteady_fully_discrete_system.hpp:120-122,147-149`) -/
def callDFom (S : Trial K m n) (F : DFom K m p n) (step : Int) (t dt : K) (w : Bool) (y : m → K) (prev : List (m → K)) : Prog (LMem K m p n) Unit :=
  call (fun s => (s.R, s.J)) (fun s v => { s with R := v.1, J := if w then v.2 else s.J }) (F.eval step t dt S.basis w y prev)

/-- `try {...} catch (DiscreteTimeResidualFailureUnrecoverable){ throw ResidualEvaluationFailureUnrecoverable(); }` (`include/pressio/rom/impl/lspg_unsteady_fully_discrete_system.hpp:123-125,150-152`) -/
def catchDiscrete {σ α : Type} (f : Prog σ α) : Prog σ α :=
  Prog.catchE f (fun e => if e = .discreteTimeResidualFailureUnrecoverable then some (Prog.throwE .residualEvaluationFailureUnrecoverable) else none)

/-- the previous FOM states: `yn` for two states, `yn`, `ynm1` for three (`include/pressio/rom/impl/lspg_unsteady_fully_discrete_system.hpp:115,142-143`) -/
def previous (N : Nat) : Prog (LMem K m p n) (List (m → K)) :=
  if N = 2 then do
    let yn ← fomAt .n
    pure [yn]
  else do
    let yn ← fomAt .n
    let ynm1 ← fomAt .nMinusOne
    pure [yn, ynm1]

/-- A fully discrete system with memory, called by the stepper for user-defined schemes: `discreteResidualAndJacobian(step, t, dt, R, J, y_{n+1}, y_n, ...)`. Called at `include/pressio/ode/impl/ode_implicit_stepper_arbitrary.hpp:146-147,165-167,186-188`. -/
abbrev SSystem (K Y P A : Type) := Int → K → K → Bool → Y → List Y → Prog P A

/-- Reconstruction of the FOM states and the guarded FOM call, the same code in the three systems below (`include/pressio/rom/impl/lspg_unsteady_fully_discrete_system.hpp:112-124, 137-151, 162-198`;
    `include/pressio/rom/impl/galerkin_unsteady_system_fully_discrete_fom.hpp:80-91, 107-121, 127-149, 181-210`; `..._hypred_fully_discrete_fom.hpp`: likewise). -/
def queryFom (N : Nat) (S : Trial K m n) (F : DFom K m p n) (step : Int) (t dt : K) (w : Bool) (x : n → K) (states : List (n → K)) : Prog (LMem K m p n) Unit := do
  track S x states step
  let y ← fomAt .nPlusOne
  let prev ← previous N
  catchDiscrete (callDFom S F step t dt w y prev)

/-- `LspgFullyDiscreteSystem::discreteResidualAndJacobian` for `N = 2, 3` (`include/pressio/rom/impl/lspg_unsteady_fully_discrete_system.hpp:102-153`) -/
def lspgDiscrete (N : Nat) (S : Trial K m n) (F : DFom K m p n) : SSystem K (n → K) (LMem K m p n) ((p → K) × Option (Matrix p n K)) :=
  fun step t dt w x states => do
    queryFom N S F step t dt w x states
    result w

/-- members of the fully discrete Galerkin systems (the FOM buffers in the first component) and the reduced output arguments (`include/pressio/rom/impl/galerkin_unsteady_system_fully_discrete_fom.hpp:216-222`) -/
abbrev DGMem (K m p n : Type) := LMem K m p n × (n → K) × Matrix n n K

/-- `GalerkinDefaultFullyDiscreteSystem::discreteResidualAndJacobian` for `N = 2, 3`
    (`include/pressio/rom/impl/galerkin_unsteady_system_fully_discrete_fom.hpp:69-171`) -/
def galerkinDiscrete (N : Nat) (S : Trial K m n) (F : DFom K m m n) : SSystem K (n → K) (DGMem K m m n) ((n → K) × Option (Matrix n n K)) :=
  fun step t dt w x states s =>
    match queryFom N S F step t dt w x states s.1 with
    | .stop h l => .stop h (l, s.2)
    | .ok _ l =>
      let r := (0:K) • s.2.1 + (1:K) • S.basisᵀ.mulVec l.R
      if w then
        let j := (0:K) • s.2.2 + (1:K) • (S.basisᵀ * l.J)
        .ok (r, some j) (l, r, j)
      else .ok (r, none) (l, r, s.2.2)

/-- `GalerkinHypRedFullyDiscreteSystem::discreteResidualAndJacobian` for `N = 2, 3`
    (`include/pressio/rom/impl/galerkin_unsteady_system_hypred_fully_discrete_fom.hpp:78-171`) -/
def galerkinHypredDiscrete (N : Nat) (S : Trial K m n) (F : DFom K m p n) (H : HypRed K p n) : SSystem K (n → K) (DGMem K m p n) ((n → K) × Option (Matrix n n K)) :=
  fun step t dt w x states s =>
    match queryFom N S F step t dt w x states s.1 with
    | .stop h l => .stop h (l, s.2)
    | .ok _ l =>
      match H.vec l.R t s.2.1 with
      | .error (e, v) => .stop (.exc e) (l, v, s.2.2)
      | .ok v =>
        if w then
          match H.mat l.J t s.2.2 with
          | .error (e, j) => .stop (.exc e) (l, v, j)
          | .ok j => .ok (v, some j) (l, v, j)
        else .ok (v, none) (l, v, s.2.2)

/-! The stepper for user-defined schemes with a system that has memory: the same functions as in `Verif/Model/Implicit.lean` -/

section
variable {Y P A : Type}

/-- `residualAndJacobian` for 1, 2, 3 auxiliary states (`include/pressio/ode/impl/ode_implicit_stepper_arbitrary.hpp:136-193`), system with memory -/
def arbResidualS (sys : SSystem K Y P A) (numAux : Nat) (y : Y) (w : Bool) : Prog (AMem K Y × P) A := fun m =>
  if m.1.states.length = numAux ∧ (numAux = 1 ∨ numAux = 2 ∨ numAux = 3) then
    match sys m.1.step m.1.t m.1.dt w y m.1.states m.2 with
    | .ok a s => .ok a (m.1, s)
    | .stop (.exc e) s => .stop (.exc (if e = .discreteTimeResidualFailureUnrecoverable then .residualEvaluationFailureUnrecoverable else e)) (m.1, s)
    | .stop h s => .stop h (m.1, s)
  else .stop (.ub "no overload") m

/-- `operator()` (`include/pressio/ode/impl/ode_implicit_stepper_arbitrary.hpp:111-134`), system with memory -/
def arbStepS [Add K] (sys : SSystem K Y P A) (numAux : Nat) (solver : Y → SolveTree Y A) (t dt : K) (k : Int) :
    Prog (SolveSt Y (AMem K Y × P) A) Unit := fun s =>
  match updateAux numAux s.y { s.mem.1 with dt := dt, t := t + dt, step := k } with
  | none => .stop (.ub "no overload") s
  | some m =>
    match (solver s.y).run (arbResidualS sys numAux) { s with mem := (m, s.mem.2) } with
    | .ok _ s' => .ok () s'
    | .stop h s' =>
      if h = .exc .nonlinearSolveFailure then
        match rollBack numAux s'.mem.1 with
        | none => .stop (.ub "no overload") s'
        | some (y, m') => .stop (.exc .timeStepFailure) { s' with y := y, mem := (m', s'.mem.2) }
      else .stop h s'
end

/-! ### Steady LSPG -/

/-- A scaler for steady problems. Called at `include/pressio/rom/impl/lspg_steady_system_default.hpp:73`, `include/pressio/rom/impl/lspg_steady_system_masked.hpp:98`. -/
abbrev SteadyScaler (K m p n : Type) := (m → K) → (p → K) × Option (Matrix p n K) → Except Exc ((p → K) × Option (Matrix p n K))

/-- `LspgSteadyDefaultSystem::residualAndJacobian` (`include/pressio/rom/impl/lspg_steady_system_default.hpp:63-75`): the memory is `fomState_` and the output arguments -/
def steadyLspg (S : Trial K m n) (F : SteadyFom K m p n) (sc : SteadyScaler K m p n) (x : n → K) (w : Bool) :
    Prog ((m → K) × (p → K) × Matrix p n K) ((p → K) × Option (Matrix p n K)) := fun s =>
  let y := S.map x s.1
  match F.residualAndJac y S.basis w (s.2.1, s.2.2) with
  | .error (e, v) => .stop (.exc e) (y, v.1, if w then v.2 else s.2.2)
  | .ok v =>
    let J := if w then v.2 else s.2.2
    match sc y (v.1, if w then some J else none) with
    | .error e => .stop (.exc e) (y, v.1, J)
    | .ok a => .ok a (y, a.1, a.2.getD J)

/-- `LspgSteadyMaskedSystem::residualAndJacobian` (`include/pressio/rom/impl/lspg_steady_system_masked.hpp:77-101`): the memory is `fomState_`, the unmasked buffers and the output arguments -/
def steadyMaskedLspg (S : Trial K m n) (F : SteadyFom K m p n) (Mk : Masker K p q n) (sc : SteadyScaler K m q n) (x : n → K) (w : Bool) :
    Prog ((m → K) × ((p → K) × Matrix p n K) × (q → K) × Matrix q n K) ((q → K) × Option (Matrix q n K)) := fun s =>
  let y := S.map x s.1
  match F.residualAndJac y S.basis w s.2.1 with
  | .error (e, v) => .stop (.exc e) (y, (v.1, if w then v.2 else s.2.1.2), s.2.2)
  | .ok v =>
    let uJ := if w then v.2 else s.2.1.2
    match Mk.vec v.1 s.2.2.1 with
    | .error (e, r) => .stop (.exc e) (y, (v.1, uJ), r, s.2.2.2)
    | .ok r =>
      if w then
        match Mk.mat uJ s.2.2.2 with
        | .error (e, j) => .stop (.exc e) (y, (v.1, uJ), r, j)
        | .ok j =>
          match sc y (r, some j) with
          | .error e => .stop (.exc e) (y, (v.1, uJ), r, j)
          | .ok a => .ok a (y, (v.1, uJ), a.1, a.2.getD j)
      else
        match sc y (r, none) with
        | .error e => .stop (.exc e) (y, (v.1, uJ), r, s.2.2.2)
        | .ok a => .ok a (y, (v.1, uJ), a.1, s.2.2.2)

end Pressio.Model.Lspg
