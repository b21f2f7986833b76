import Verif.Model.Diagnostics
import Mathlib.LinearAlgebra.Matrix.Notation
import Mathlib.Data.Matrix.Mul

/-
  Model of the nonlinear solvers: Newton (with Jacobian and matrix-free), Gauss-Newton (normal equations, QR, weighted, compact weighted) and
  Levenberg-Marquardt, with their update strategies:
  `include/pressio/solvers_nonlinear/impl/{functions.hpp, updaters.hpp, root_finder.cpp, nonlinear_least_squares.hpp, registries.hpp}`.

  Simplifications: vectors are functions from a finite index type to an ordered field `K` (exact arithmetic, with division by zero as in `Quot'` where the code
  divides); `ops` kernels by their meaning; logging is omitted (it reads the container only at names that it has).
-/
namespace Pressio.Model.Nonlinear
set_option autoImplicit false
open Pressio Matrix

variable {K m n p L : Type}

/-- what one evaluation of the system returns: residual and, if asked for, Jacobian. Output arguments of `include/pressio/solvers_nonlinear/impl/functions.hpp:23,40,57,68`. -/
abbrev Ans (K m n : Type) := (m → K) × Option (Matrix m n K)

/-- Everything the solver objects hold (the registries in `include/pressio/solvers_nonlinear/impl/registries.hpp`: each solver has a subset of these
    fields, looked up by tag: `include/pressio/solvers_nonlinear/impl/solvers_tagbased_registry.hpp:57-150`), the caller's state, the trial state and the updater's own members during a solve, the diagnostics, and two records of side effects: the texts
    written to `nonlinear_solver_failed.txt` and the evaluations of the system (ghost). -/
structure Reg (K m n p L : Type) where
  /-- `StateTag`: reference to the caller's state -/
  x : n → K
  /-- `LineSearchTrialStateTag` -/
  trial : n → K
  /-- `CorrectionTag` -/
  c : n → K
  /-- `ResidualTag` -/
  r : m → K
  /-- `JacobianTag` -/
  J : Matrix m n K
  /-- `GradientTag` -/
  g : n → K
  /-- `HessianTag` -/
  H : Matrix n n K
  /-- `LevenbergMarquardtUndampedHessianTag` -/
  H0 : Matrix n n K
  /-- `LevenbergMarquardtDampingTag` (`include/pressio/solvers_nonlinear/impl/levmar_damping.hpp:9-19`) -/
  damp : K
  /-- `WeightedResidualTag`, `WeightedJacobianTag` (weighted) -/
  Wr : m → K
  WJ : Matrix m n K
  /-- the same (compact weighted) -/
  cWr : p → K
  cWJ : Matrix p n K
  /-- `QTransposeResidualTag` -/
  QTr : n → K
  /-- `nu_` of `LMSchedule1Updater` -/
  nu : K
  /-- `cDiagH_` of the LM updaters -/
  cDiagH : n → K
  /-- the inner (linear or QR) solver object -/
  lin : L
  diag : DContainer K
  files : List String
  log : List (Query (n → K) (Ans K m n))

/-- User objects and kernels. What the solvers call: `include/pressio/solvers_nonlinear/impl/functions.hpp:79,86,136,153,352,366,450-456`. -/
structure Env (K m n p L : Type) where
  /-- `ops::norm2` on residuals and on states -/
  normM : (m → K) → K
  normN : (n → K) → K
  /-- inner solver for normal equations: `solve(H, g, c)` acts on `c` and on itself -/
  lin : Matrix n n K → (n → K) → Prog ((n → K) × L) Unit
  /-- inner solver of Newton: `solve(J, r, c)` -/
  linJ : Matrix m n K → (m → K) → Prog ((n → K) × L) Unit
  /-- matrix-free: the user's `applyJacobian(state, operand, result)` -/
  applyJac : (n → K) → (n → K) → (m → K) → (m → K)
  /-- Krylov solver created by the matrix-free loop: gets `applyAndAddTo`, the right-hand side, and acts on `c` -/
  krylov : ((n → K) → (m → K) → (m → K)) → (m → K) → Prog (n → K) Unit
  /-- QR solver: `computeThin(J)`, `applyQTranspose(r, QTr)`, `solve(QTr, c)` -/
  qrThin : Matrix m n K → Prog L Unit
  qrApplyQT : (m → K) → Prog ((n → K) × L) Unit
  qrSolve : (n → K) → Prog ((n → K) × L) Unit
  /-- weighting operator (weighted): on residuals, on Jacobians -/
  wR : (m → K) → (m → K)
  wJ : Matrix m n K → Matrix m n K
  /-- weighting operator (compact weighted) -/
  cwR : (m → K) → (p → K)
  cwJ : Matrix m n K → Matrix p n K
  /-- `system.createState()`, used for the trial state -/
  createState : n → K

/-- options of a solver object (`include/pressio/solvers_nonlinear/impl/root_finder.cpp:291-301`, `nonlinear_least_squares.hpp:113-122`) -/
structure Cfg (K : Type) where
  maxIters : Int
  stop : StopCrit
  tol : K
  update : Update
  params : Option (List K)

/-- problem tags (`include/pressio/solvers_nonlinear/impl/internal_tags.hpp:17-23`) -/
inductive Tag where
  | gn | gnQr | wgn | cwgn | lm
deriving DecidableEq, Repr

/-- solver programs. Functions on the registry, as in `include/pressio/solvers_nonlinear/impl/functions.hpp:18-507`. -/
abbrev SP (K m n p L α : Type) := SM (n → K) (Ans K m n) (Reg K m n p L) α

/-- `system.residualAndJacobian(x, r, J)` with the registry's `r` and `J` (`include/pressio/solvers_nonlinear/impl/functions.hpp:18-69`).  Simplification: a throwing call
    leaves the buffers as they were (they are not read afterwards). -/
def evalSys (x : n → K) (w : Bool) : SP K m n p L Unit := do
  let a ← SM.call x w
  SM.lift (Prog.modify (fun s => { s with log := s.log ++ [⟨x, w, a⟩] }))
  match a with
  | .ok (r, j) => SM.lift (Prog.modify (fun s => { s with r := r, J := if w then j.getD s.J else s.J }))
  | .error e => SM.lift (Prog.throwE e)

/-- `writeNonlinearSolverTerminationFile` (`include/pressio/solvers_nonlinear/impl/functions.hpp:527-539`) -/
def writeFile (what : String) : SP K m n p L Unit := SM.lift (Prog.modify (fun s => { s with files := s.files ++ [what] }))

/-- run an inner solver on `c` (`include/pressio/solvers_nonlinear/impl/functions.hpp:352,366`) -/
def onC (f : Prog ((n → K) × L) Unit) : Prog (Reg K m n p L) Unit := fun s =>
  match f (s.c, s.lin) with
  | .ok _ (c, l) => .ok () { s with c := c, lin := l }
  | .stop h (c, l) => .stop h { s with c := c, lin := l }

/-- run the QR solver on itself (`include/pressio/solvers_nonlinear/impl/functions.hpp:450`) -/
def onLin (f : Prog L Unit) : Prog (Reg K m n p L) Unit := fun s =>
  match f s.lin with
  | .ok _ l => .ok () { s with lin := l }
  | .stop h l => .stop h { s with lin := l }

/-- run the QR solver on `QTr` (`include/pressio/solvers_nonlinear/impl/functions.hpp:453`) -/
def onQTr (f : Prog ((n → K) × L) Unit) : Prog (Reg K m n p L) Unit := fun s =>
  match f (s.QTr, s.lin) with
  | .ok _ (q, l) => .ok () { s with QTr := q, lin := l }
  | .stop h (q, l) => .stop h { s with QTr := q, lin := l }

/-- run a newly created linear solver on `c` (`include/pressio/solvers_nonlinear/impl/root_finder.cpp:245`) -/
def onlyC (f : Prog (n → K) Unit) : Prog (Reg K m n p L) Unit := fun s =>
  match f s.c with
  | .ok _ c => .ok () { s with c := c }
  | .stop h c => .stop h { s with c := c }

section
variable [Field K] [LinearOrder K] [Fintype m] [Fintype n] [Fintype p]

/-- `ops::scale(c, -1)` (`include/pressio/solvers_nonlinear/impl/functions.hpp:356,386,396,406,426,459`) -/
def negateC : Prog (Reg K m n p L) Unit := Prog.modify (fun s => { s with c := (-1 : K) • s.c })

/-- `compute_half_sum_of_squares` (`include/pressio/solvers_nonlinear/impl/functions.hpp:82-91`) -/
def halfSumOfSquares (env : Env K m n p L) (r : m → K) : K := (env.normM r) ^ 2 * (1 / 2)

/-! ### Objectives, operators, corrections of the least-squares solvers -/

/-- value returned by `compute_nonlinearls_objective` after the residual has been evaluated
    (`include/pressio/solvers_nonlinear/impl/functions.hpp:93-158`) -/
def objectiveOfR (env : Env K m n p L) (tag : Tag) : Prog (Reg K m n p L) K :=
  match tag with
  | .gn | .gnQr | .lm => do
    let s ← Prog.get
    pure (halfSumOfSquares env s.r)
  | .wgn => do
    Prog.modify (fun s => { s with Wr := env.wR s.r })
    let s ← Prog.get
    pure ((s.r ⬝ᵥ s.Wr) * (1 / 2))
  | .cwgn => do
    Prog.modify (fun s => { s with cWr := env.cwR s.r })
    let s ← Prog.get
    pure ((s.cWr ⬝ᵥ s.cWr) * (1 / 2))

/-- `compute_nonlinearls_objective(tag, reg, state, system)` (`include/pressio/solvers_nonlinear/impl/functions.hpp:93-158`) -/
def lsObjective (env : Env K m n p L) (tag : Tag) (x : n → K) : SP K m n p L K := do
  evalSys x false
  SM.lift (objectiveOfR env tag)

/-- what `compute_nonlinearls_operators_and_objective` does after residual and Jacobian have been evaluated
    (`include/pressio/solvers_nonlinear/impl/functions.hpp:160-338`) -/
def operators [DecidableEq n] (env : Env K m n p L) (tag : Tag) : Prog (Reg K m n p L) K :=
  match tag with
  | .gn => do
    Prog.modify (fun s => { s with H := s.Jᵀ * s.J })
    Prog.modify (fun s => { s with g := s.Jᵀ *ᵥ s.r })
    let s ← Prog.get
    pure (halfSumOfSquares env s.r)
  | .gnQr => do
    Prog.modify (fun s => { s with g := s.Jᵀ *ᵥ s.r })
    let s ← Prog.get
    pure (halfSumOfSquares env s.r)
  | .wgn => do
    Prog.modify (fun s => { s with Wr := env.wR s.r })
    Prog.modify (fun s => { s with WJ := env.wJ s.J })
    Prog.modify (fun s => { s with H := s.Jᵀ * s.WJ })
    Prog.modify (fun s => { s with g := s.Jᵀ *ᵥ s.Wr })
    let s ← Prog.get
    pure ((s.r ⬝ᵥ s.Wr) * (1 / 2))
  | .cwgn => do
    Prog.modify (fun s => { s with cWr := env.cwR s.r })
    Prog.modify (fun s => { s with cWJ := env.cwJ s.J })
    Prog.modify (fun s => { s with H := s.cWJᵀ * s.cWJ })
    Prog.modify (fun s => { s with g := s.cWJᵀ *ᵥ s.cWr })
    let s ← Prog.get
    pure ((s.cWr ⬝ᵥ s.cWr) * (1 / 2))
  | .lm => do
    Prog.modify (fun s => { s with H0 := s.Jᵀ * s.J })
    Prog.modify (fun s => { s with g := s.Jᵀ *ᵥ s.r })
    -- `deep_copy(scaledH, H)`, then `update(diaglmH, 1, diagH, damp)`
    Prog.modify (fun s => { s with H := s.H0 })
    Prog.modify (fun s => { s with H := Matrix.of (fun i j => if i = j then 1 * s.H i j + s.damp * s.H0 i j else s.H i j) })
    let s ← Prog.get
    pure (halfSumOfSquares env s.r)

/-- `compute_correction` (`include/pressio/solvers_nonlinear/impl/functions.hpp:359-460`) -/
def correction (env : Env K m n p L) (tag : Tag) : Prog (Reg K m n p L) Unit :=
  match tag with
  | .gn | .wgn | .cwgn | .lm => do
    let s ← Prog.get
    onC (env.lin s.H s.g)
    negateC
  | .gnQr => do
    let s ← Prog.get
    onLin (env.qrThin s.J)
    onQTr (env.qrApplyQT s.r)
    let s ← Prog.get
    onC (env.qrSolve s.QTr)
    negateC

/-- `reset_for_new_solve_loop` (`include/pressio/solvers_nonlinear/impl/functions.hpp:462-475`) -/
def resetForNewSolve (tag : Tag) : Prog (Reg K m n p L) Unit :=
  match tag with
  | .lm => Prog.modify (fun s => { s with damp := 1 })
  | _ => pure ()

/-! ### Diagnostics -/

/-- `compute_norm_internal_diagnostics` (`include/pressio/solvers_nonlinear/impl/functions.hpp:477-521`); `hasG`: the registry contains `GradientTag` -/
def normDiagnostic (env : Env K m n p L) (hasG : Bool) (first : Bool) (s : Reg K m n p L) (v : DData K) : DData K :=
  match v.name with
  | .residual => v.update (env.normM s.r) first
  | .correction => v.update (env.normN s.c) first
  | .gradient => if hasG then v.update (env.normN s.g) first else v
  | _ => v

/-- `std::for_each(normDiagnostics.begin(), normDiagnostics.end(), ...)` (`include/pressio/solvers_nonlinear/impl/root_finder.cpp:82-86`, `include/pressio/solvers_nonlinear/impl/nonlinear_least_squares.hpp:69-72`) -/
def updateDiagnostics (env : Env K m n p L) (hasG : Bool) (first : Bool) : Prog (Reg K m n p L) Unit :=
  Prog.modify (fun s => { s with diag := { s.diag with data := s.diag.data.map (normDiagnostic env hasG first s) } })

/-- `normDiagnostics[InternalDiagnostic::objectiveAbsoluteRelative].update(objValue, isFirstIteration)` (`include/pressio/solvers_nonlinear/impl/nonlinear_least_squares.hpp:54`) -/
def updateObjective (v : K) (first : Bool) : Prog (Reg K m n p L) Unit := fun s =>
  match s.diag.data[s.diag.internalIndex .objective]? with
  | some d => .ok () { s with diag := { s.diag with data := s.diag.data.set (s.diag.internalIndex .objective) (d.update v first) } }
  | none => .stop (.ub "data_ out of range") s

/-- the test `is_absolute_diagnostic(stopDiag) ? abs < tol : rel < tol` (`include/pressio/solvers_nonlinear/impl/root_finder.cpp:43-46`, `include/pressio/solvers_nonlinear/impl/nonlinear_least_squares.hpp:39-43`) -/
def belowTol (cfg : Cfg K) : Prog (Reg K m n p L) Bool := fun s =>
  (do
    let d ← s.diag.atPublic (stopToDiagnostic cfg.stop)
    pure (if isAbsolute (stopToDiagnostic cfg.stop) then decide (d.absolute < cfg.tol) else d.relative.lt cfg.tol) : Prog (Reg K m n p L) Bool) s

/-! ### Updaters -/

/-- `DefaultUpdater` (`include/pressio/solvers_nonlinear/impl/updaters.hpp:8-19`) -/
def defaultUpdater : SP K m n p L Unit := SM.lift (Prog.modify (fun s => { s with x := (1:K) • s.x + (1:K) • s.c }))

/-- the loop of `BacktrackStrictlyDecreasingObjectiveUpdater::operator()`
    (`include/pressio/solvers_nonlinear/impl/updaters.hpp:124-152`), with fuel for `while(true)` -/
def backtrackLoop (zeta objCurrent : K) (obj : (n → K) → SP K m n p L K) : Nat → K → SP K m n p L Unit
  | 0, _ => SM.lift Prog.noFuel
  | fuel+1, alpha => do
    if |alpha| ≤ 1 / 1000 then SM.lift (Prog.throwE .lineSearchStepTooSmall)
    else do
      SM.lift (Prog.modify (fun s => { s with trial := (0:K) • s.trial + (1:K) • s.x + alpha • s.c }))
      let s ← SM.lift Prog.get
      let v ← obj s.trial
      if v ≤ zeta * objCurrent then
        SM.lift (Prog.modify (fun s => { s with x := (1:K) • s.x + alpha • s.c }))
      else backtrackLoop zeta objCurrent obj fuel (alpha * (1 / 2))

/-- `BacktrackStrictlyDecreasingObjectiveUpdater::operator()` (`include/pressio/solvers_nonlinear/impl/updaters.hpp:94-154`) -/
def backtrackUpdater (zeta : K) (obj : (n → K) → SP K m n p L K) (objCurrent : K) : SP K m n p L Unit :=
  backtrackLoop zeta objCurrent obj 11 1

/-- constructor of `BacktrackStrictlyDecreasingObjectiveUpdater` (`include/pressio/solvers_nonlinear/impl/updaters.hpp:101-107`): `front()` of an empty vector is
    undefined -/
def backtrackZeta (params : Option (List K)) : Prog (Reg K m n p L) K :=
  match params with
  | none => pure 1
  | some (z :: _) => pure z
  | some [] => Prog.undef "front() of an empty vector"

/-- the loop of `ArmijoUpdater::operator()` (`include/pressio/solvers_nonlinear/impl/updaters.hpp:55-90`) -/
def armijoLoop (gp objCurrent : K) (obj : (n → K) → SP K m n p L K) : Nat → K → SP K m n p L Unit
  | 0, _ => SM.lift Prog.noFuel
  | fuel+1, alpha => do
    if |alpha| ≤ 1 / 1000 then SM.lift (Prog.throwE .lineSearchStepTooSmall)
    else do
      SM.lift (Prog.modify (fun s => { s with trial := (0:K) • s.trial + (1:K) • s.x + alpha • s.c }))
      let s ← SM.lift Prog.get
      let v ← obj s.trial
      if v - objCurrent ≤ alpha * (1 / 10000) * gp then
        SM.lift (Prog.modify (fun s => { s with x := (1:K) • s.x + alpha • s.c }))
      else if |v - objCurrent| ≤ 1 / 10 ^ 14 then SM.lift (Prog.throwE .lineSearchObjFunctionChangeTooSmall)
      else armijoLoop gp objCurrent obj fuel (alpha * (1 / 2))

/-- `ArmijoUpdater::operator()` (`include/pressio/solvers_nonlinear/impl/updaters.hpp:21-92`); no solver uses it -/
def armijoUpdater (obj : (n → K) → SP K m n p L K) (objCurrent : K) : SP K m n p L Unit := do
  let s ← SM.lift Prog.get
  armijoLoop (s.g ⬝ᵥ s.c) objCurrent obj 11 1

/-- `lm_gain_factor` (`include/pressio/solvers_nonlinear/impl/updaters.hpp:156-186`) -/
def lmGainFactor (obj : (n → K) → SP K m n p L K) (objCurrent : K) : SP K m n p L (Quot' K) := do
  SM.lift (Prog.modify (fun s => { s with trial := (0:K) • s.trial + (1:K) • s.x + (1:K) • s.c }))
  let s ← SM.lift Prog.get
  let v ← obj s.trial
  let num := v - objCurrent
  SM.lift (Prog.modify (fun s => { s with cDiagH := fun i => (0:K) * s.cDiagH i + 1 * s.c i * s.H0 i i }))
  let s ← SM.lift Prog.get
  let den1 := s.c ⬝ᵥ s.cDiagH
  let den2 := s.c ⬝ᵥ s.g
  pure (fdiv num ((1 / 2) * (s.damp * den1 + den2)))

/-- `std::max(gammaInv_, one - (beta_ - one)*std::pow(two*rho - one, p_))` with `beta_ = 2`, `gammaInv_ = 1/3`, `p_ = 3`
    (`include/pressio/solvers_nonlinear/impl/updaters.hpp:194-200,222-223`) for `rho > 0`; `pow` of infinity is infinity -/
def lm1Factor : Quot' K → K
  | .fin rho => max (1 / 3) (1 - (2 - 1) * (2 * rho - 1) ^ 3)
  | _ => 1 / 3

/-- `LMSchedule1Updater::operator()` (`include/pressio/solvers_nonlinear/impl/updaters.hpp:205-235`) -/
def lm1Updater (obj : (n → K) → SP K m n p L K) (objCurrent : K) : SP K m n p L Unit := do
  let rho ← lmGainFactor obj objCurrent
  if rho.gt 0 then do
    SM.lift (Prog.modify (fun s => { s with x := (1:K) • s.x + (1:K) • s.c }))
    SM.lift (Prog.modify (fun s => { s with damp := s.damp * lm1Factor rho }))
    SM.lift (Prog.modify (fun s => { s with nu := 2 }))
  else do
    SM.lift (Prog.modify (fun s => { s with damp := s.damp * s.nu }))
    SM.lift (Prog.modify (fun s => { s with nu := s.nu * 2 }))

/-- `LMSchedule2Updater::operator()` (`include/pressio/solvers_nonlinear/impl/updaters.hpp:253-283`) -/
def lm2Updater (obj : (n → K) → SP K m n p L K) (objCurrent : K) : SP K m n p L Unit := do
  let rho ← lmGainFactor obj objCurrent
  if rho.lt (1 / 5) then SM.lift (Prog.modify (fun s => { s with damp := min (s.damp * 2) (10 ^ 7) }))
  else pure ()
  if rho.gt (4 / 5) then SM.lift (Prog.modify (fun s => { s with damp := max (1 / 10 ^ 7) (s.damp * (1 / 3)) }))
  else pure ()
  if rho.gt 0 then SM.lift (Prog.modify (fun s => { s with x := (1:K) • s.x + (1:K) • s.c }))
  else pure ()

/-! ### Least-squares solvers -/

/-- stage 1 of the loop (`include/pressio/solvers_nonlinear/impl/nonlinear_least_squares.hpp:50-62`) -/
def lsAssemble [DecidableEq n] (env : Env K m n p L) (tag : Tag) (first : Bool) : SP K m n p L Unit :=
  SM.catchE (do
      let s ← SM.lift Prog.get
      evalSys s.x true
      let v ← SM.lift (operators env tag)
      SM.lift (updateObjective v first))
    (fun e =>
      if e = .residualEvaluationFailureUnrecoverable then some (SM.lift (Prog.throwE .nonlinearSolveFailure))
      else if e = .residualHasNans then some (SM.lift (Prog.throwE .nonlinearSolveFailure))
      else none)

/-- `mustStop` (`include/pressio/solvers_nonlinear/impl/nonlinear_least_squares.hpp:29-44`) -/
def lsMustStop (cfg : Cfg K) (i : Int) : Prog (Reg K m n p L) Bool :=
  if cfg.stop = .AfterMaxIters then pure (decide (i = cfg.maxIters)) else belowTol cfg

/-- stage 5 (`include/pressio/solvers_nonlinear/impl/nonlinear_least_squares.hpp:81-101`); returns whether to leave the loop -/
def lsUpdate (env : Env K m n p L) (tag : Tag) (upd : ((n → K) → SP K m n p L K) → K → SP K m n p L Unit) : SP K m n p L Bool :=
  SM.catchE (do
      let s ← SM.lift Prog.get
      let d ← SM.lift (s.diag.atInternal .objective)
      upd (lsObjective env tag) d.absolute
      pure false)
    (fun e =>
      if e = .lineSearchStepTooSmall then some (pure true)
      else if e = .lineSearchObjFunctionChangeTooSmall then some (pure true)
      else none)

/-- `nonlin_ls_solving_loop_impl`: `while (++iStep <= maxIters)`
    (`include/pressio/solvers_nonlinear/impl/nonlinear_least_squares.hpp:19-103`); the first argument is the number of iterations still allowed, `i` the value of
    `iStep` in the next one.  `++iStep` beyond the largest `int` is undefined. -/
def lsLoop [DecidableEq n] (env : Env K m n p L) (cfg : Cfg K) (tag : Tag) (upd : ((n → K) → SP K m n p L K) → K → SP K m n p L Unit) :
    Nat → Int → SP K m n p L Unit
  | 0, i => if i = int32Max + 1 then SM.lift (Prog.undef "signed overflow of iteration counter") else pure ()
  | k+1, i => do
    lsAssemble env tag (decide (i = 1))
    SM.lift (correction env tag)
    SM.lift (updateDiagnostics env true (decide (i = 1)))
    let stop ← SM.lift (lsMustStop cfg i)
    if stop then pure ()
    else do
      let brk ← lsUpdate env tag upd
      if brk then pure () else lsLoop env cfg tag upd k (i + 1)

/-- `solve(system, state)` (`include/pressio/solvers_nonlinear/impl/nonlinear_least_squares.hpp:170-277`) -/
def lsSolve [DecidableEq n] (env : Env K m n p L) (cfg : Cfg K) (tag : Tag) : SP K m n p L Unit :=
  match cfg.update with
  | .Standard => do
    SM.lift (resetForNewSolve tag)
    lsLoop env cfg tag (fun _ _ => defaultUpdater) cfg.maxIters.toNat 1
  | .BacktrackStrictlyDecreasingObjective | .Armijo => do
    SM.lift (Prog.modify (fun s => { s with trial := env.createState }))
    SM.lift (resetForNewSolve tag)
    let z ← SM.lift (backtrackZeta cfg.params)
    lsLoop env cfg tag (backtrackUpdater z) cfg.maxIters.toNat 1
  | .LMSchedule1 =>
    if tag = .lm then do
      SM.lift (Prog.modify (fun s => { s with trial := env.createState }))
      SM.lift (resetForNewSolve tag)
      SM.lift (Prog.modify (fun s => { s with nu := 2, cDiagH := s.x }))
      lsLoop env cfg tag lm1Updater cfg.maxIters.toNat 1
    else SM.lift (Prog.throwE (.runtimeError "invalid Update value"))
  | .LMSchedule2 =>
    if tag = .lm then do
      SM.lift (Prog.modify (fun s => { s with trial := env.createState }))
      SM.lift (resetForNewSolve tag)
      SM.lift (Prog.modify (fun s => { s with cDiagH := s.x }))
      lsLoop env cfg tag lm2Updater cfg.maxIters.toNat 1
    else SM.lift (Prog.throwE (.runtimeError "invalid Update value"))
  | .Custom => SM.lift (Prog.throwE (.runtimeError "invalid Update value"))

/-! ### Newton -/

/-- stage 1 (`include/pressio/solvers_nonlinear/impl/root_finder.cpp:63-76,227-240`); `w`: with Jacobian (false for the matrix-free solver) -/
def newtonAssemble (w : Bool) : SP K m n p L Unit :=
  SM.catchE (do
      let s ← SM.lift Prog.get
      evalSys s.x w)
    (fun e =>
      if e = .residualEvaluationFailureUnrecoverable then
        some (do writeFile "residual evaluation failed"; SM.lift (Prog.throwE .nonlinearSolveFailure))
      else if e = .residualHasNans then
        some (do writeFile "NaNs found in residual"; SM.lift (Prog.throwE .nonlinearSolveFailure))
      else none)

/-- `solve_newton_step` (`include/pressio/solvers_nonlinear/impl/functions.hpp:340-357`) -/
def newtonStep (env : Env K m n p L) : Prog (Reg K m n p L) Unit := do
  let s ← Prog.get
  onC (env.linJ s.J s.r)
  negateC

/-- stage 2 of the matrix-free solver (`include/pressio/solvers_nonlinear/impl/root_finder.cpp:242-250`); the operator is that of `Wrapper`
    (`:148-159`), at the current state: `out + J(x) operand`, with a zeroed buffer given to the user -/
def krylovStep (env : Env K m n p L) : Prog (Reg K m n p L) Unit := do
  let s ← Prog.get
  onlyC (env.krylov (fun operand out => (1:K) • out + (1:K) • env.applyJac s.x operand 0) s.r)
  negateC

/-- `mustStop` (`include/pressio/solvers_nonlinear/impl/root_finder.cpp:37-59,188-210`) -/
def newtonMustStop (cfg : Cfg K) (i : Int) : SP K m n p L Bool := do
  let converged ← SM.lift (belowTol cfg)
  if i ≥ cfg.maxIters ∧ converged = false then writeFile "reached maximum number of iterations before convergence" else pure ()
  if cfg.stop = .AfterMaxIters then pure (decide (i ≥ cfg.maxIters)) else pure converged

/-- the lambda `objective` (`include/pressio/solvers_nonlinear/impl/root_finder.cpp:31-35,182-186`) -/
def newtonObjective (env : Env K m n p L) (x : n → K) : SP K m n p L K := do
  evalSys x false
  let s ← SM.lift Prog.get
  pure (env.normM s.r)

/-- stage 5 (`include/pressio/solvers_nonlinear/impl/root_finder.cpp:95-112,266-283`) -/
def newtonUpdate (env : Env K m n p L) (upd : ((n → K) → SP K m n p L K) → K → SP K m n p L Unit) : SP K m n p L Bool :=
  SM.catchE (do
      let s ← SM.lift Prog.get
      let d ← SM.lift (s.diag.atInternal .residual)
      upd (newtonObjective env) d.absolute
      pure false)
    (fun e =>
      if e = .lineSearchStepTooSmall then some (do writeFile "line search step size too small"; pure true)
      else if e = .lineSearchObjFunctionChangeTooSmall then some (do writeFile "line search objective function change too small"; pure true)
      else none)

/-- `root_solving_loop_impl` (`include/pressio/solvers_nonlinear/impl/root_finder.cpp:18-114` for Newton, `:169-285` matrix-free) -/
def newtonLoop (env : Env K m n p L) (cfg : Cfg K) (matrixFree : Bool) (upd : ((n → K) → SP K m n p L K) → K → SP K m n p L Unit) :
    Nat → Int → SP K m n p L Unit
  | 0, i => if i = int32Max + 1 then SM.lift (Prog.undef "signed overflow of iteration counter") else pure ()
  | k+1, i => do
    newtonAssemble (!matrixFree)
    SM.lift (if matrixFree then krylovStep env else newtonStep env)
    SM.lift (updateDiagnostics env false (decide (i = 1)))
    let stop ← newtonMustStop cfg i
    if stop then pure ()
    else do
      let brk ← newtonUpdate env upd
      if brk then pure () else newtonLoop env cfg matrixFree upd k (i + 1)

/-- `RootFinder::solve(system, state)` for `NewtonTag` (`include/pressio/solvers_nonlinear/impl/root_finder.cpp:348-374`) -/
def newtonSolve (env : Env K m n p L) (cfg : Cfg K) : SP K m n p L Unit :=
  match cfg.update with
  | .Standard => newtonLoop env cfg false (fun _ _ => defaultUpdater) cfg.maxIters.toNat 1
  | .BacktrackStrictlyDecreasingObjective => do
    SM.lift (Prog.modify (fun s => { s with trial := env.createState }))
    let z ← SM.lift (backtrackZeta cfg.params)
    newtonLoop env cfg false (backtrackUpdater z) cfg.maxIters.toNat 1
  | _ => SM.lift (Prog.throwE (.runtimeError "Invalid criterion"))

/-- `RootFinder::solve(system, state)` for `MatrixFreeNewtonTag` (`include/pressio/solvers_nonlinear/impl/root_finder.cpp:376-387`): the update is always the standard one
    (an `assert` in debug builds) -/
def matrixFreeSolve (env : Env K m n p L) (cfg : Cfg K) : SP K m n p L Unit :=
  newtonLoop env cfg true (fun _ _ => defaultUpdater) cfg.maxIters.toNat 1

end
end Pressio.Model.Nonlinear
