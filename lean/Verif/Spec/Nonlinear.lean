import Verif.Model.Nonlinear

/-
  Specification of the nonlinear solvers, without registries, buffers or containers: mathematical formulas for gradient, Hessian and objective of each
  method, a table for the stopping criteria, the update strategies as rules, and one loop.  `Env`, `Cfg`, `Tag`, `StopCrit`, `Update` are the interface types
  (user objects and options) of the model; nothing else of the model is used.
-/
namespace Pressio.Spec.Nonlinear
set_option autoImplicit false
open Pressio Matrix
open Pressio.Model.Nonlinear (Env Cfg Tag StopCrit Ans fdiv Quot'.lt Quot' Quot'.gt)

variable {K m n p L : Type}

/-- The user's system: residual with Jacobian, and residual only; both may throw. -/
structure Sys (K m n : Type) where
  resJac : (n → K) → Except Exc ((m → K) × Matrix m n K)
  res : (n → K) → Except Exc (m → K)

/-- as seen by the solver: `w` says whether the Jacobian is asked for -/
def Sys.toF (sys : Sys K m n) (x : n → K) (w : Bool) : Except Exc (Ans K m n) :=
  if w then (sys.resJac x).map (fun a => (a.1, some a.2)) else (sys.res x).map (fun r => (r, none))

/-- the two evaluations agree -/
def Sys.Consistent (sys : Sys K m n) : Prop := ∀ x, sys.res x = (sys.resJac x).map Prod.fst

/-- the system given by a residual function and a Jacobian function, never failing -/
def Sys.ofFun (r : (n → K) → (m → K)) (J : (n → K) → Matrix m n K) : Sys K m n := ⟨fun x => .ok (r x, J x), fun x => .ok (r x)⟩

/-- evaluation of the system at `x`, with Jacobian (`w`) or without, as it appears in the record of evaluations -/
def Sys.query (sys : Sys K m n) (x : n → K) (w : Bool) : Query (n → K) (Ans K m n) := ⟨x, w, sys.toF x w⟩

/-- what survives from one iteration to the next: iterate, memory of the inner solver (its output vectors and its own state), damping -/
structure St (K n L : Type) where
  x : n → K
  c : n → K
  QTr : n → K
  lin : L
  damp : K
  nu : K

/-- the numbers that the criteria look at -/
structure Norms (K : Type) where
  resid : K
  corr : K
  grad : K
  obj : K

/-- result of an update: the state moves (with new damping parameters), the line search breaks down, or user code throws -/
inductive UpdVal (K n : Type) where
  | moved (x : n → K) (damp nu : K)
  | breakdown
  | threw (e : Exc)

/-- an update with the points at which it evaluated the residual -/
structure UpdOut (K n : Type) where
  trials : List (n → K)
  val : UpdVal K n

/-- how a solve ended -/
inductive End where
  /-- the stopping test succeeded -/
  | stopped
  /-- all allowed iterations were made -/
  | limit
  /-- line-search breakdown -/
  | breakdown
  /-- exception (or undefined behaviour of a user object) -/
  | threw (h : Stop)
deriving DecidableEq

/-- the outcome as seen by the caller -/
def End.stop? : End → Option Stop
  | .threw h => some h
  | _ => none

structure Out (K m n L : Type) where
  how : End
  st : St K n L
  /-- texts written to the termination file -/
  files : List String
  /-- evaluations of the system -/
  log : List (Query (n → K) (Ans K m n))
  /-- norms of the first and of the last iteration, if the last one went as far as computing them -/
  last : Option (Norms K × Norms K)

/-- the iteration of which the solvers are instances -/
structure Problem (K m n L : Type) where
  /-- with Jacobian? -/
  withJ : Bool
  /-- the correction: the inner solver acts on (correction, auxiliary vector, its own state) -/
  corr : (n → K) → (m → K) → Matrix m n K → K → Prog ((n → K) × (n → K) × L) Unit
  norms : (m → K) → Matrix m n K → (n → K) → Norms K
  /-- stopping test: iteration number, norms at the first iteration of this solve, norms now -/
  test : Int → Norms K → Norms K → Except Exc Bool
  /-- texts written after the test: iteration number, norms at first iteration, norms now -/
  note : Int → Norms K → Norms K → List String
  upd : St K n L → (m → K) → Matrix m n K → Norms K → UpdOut K n
  /-- does this solver write the termination file -/
  files : Bool

/-- exceptions of the assembly that the solvers translate, with the text written -/
def assemblyText : Exc → Option String
  | .residualEvaluationFailureUnrecoverable => some "residual evaluation failed"
  | .residualHasNans => some "NaNs found in residual"
  | _ => none

/-- exceptions of an update that end the solve normally, with the text written -/
def breakdownText : Exc → Option String
  | .lineSearchStepTooSmall => some "line search step size too small"
  | .lineSearchObjFunctionChangeTooSmall => some "line search objective function change too small"
  | _ => none

/-- evaluation at the start of an iteration -/
def assembly [Zero K] (sys : Sys K m n) (P : Problem K m n L) (x : n → K) : Except Exc ((m → K) × Matrix m n K) :=
  if P.withJ then sys.resJac x else (sys.res x).map (fun r => (r, 0))

/-- The iteration: `k` iterations are still allowed, the next one has number `i`, `ref` are the norms of the first iteration. -/
def iterate [Zero K] (sys : Sys K m n) (P : Problem K m n L) : Nat → Int → Option (Norms K) → St K n L → Out K m n L
  | 0, i, _, s => if i = int32Max + 1 then ⟨.threw (.ub "signed overflow of iteration counter"), s, [], [], none⟩ else ⟨.limit, s, [], [], none⟩
  | k+1, i, ref, s =>
    let q := sys.query s.x P.withJ
    match assembly sys P s.x with
    | .error e =>
      match assemblyText e with
      | some t => ⟨.threw (.exc .nonlinearSolveFailure), s, if P.files then [t] else [], [q], none⟩
      | none => ⟨.threw (.exc e), s, [], [q], none⟩
    | .ok (r, J) =>
      match P.corr s.x r J s.damp (s.c, s.QTr, s.lin) with
      | .stop h (c, b, l) => ⟨.threw h, { s with c := c, QTr := b, lin := l }, [], [q], none⟩
      | .ok _ (c, b, l) =>
        let s' : St K n L := { s with c := c, QTr := b, lin := l }
        let now := P.norms r J c
        let ref := ref.getD now
        match P.test i ref now with
        | .error e => ⟨.threw (.exc e), s', [], [q], some (ref, now)⟩
        | .ok true => ⟨.stopped, s', P.note i ref now, [q], some (ref, now)⟩
        | .ok false =>
          let u := P.upd s' r J now
          let log := q :: u.trials.map (fun t => sys.query t false)
          match u.val with
          | .threw e =>
            match breakdownText e with
            | some t => ⟨.breakdown, s', P.note i ref now ++ (if P.files then [t] else []), log, some (ref, now)⟩
            | none => ⟨.threw (.exc e), s', P.note i ref now, log, some (ref, now)⟩
          | .breakdown => ⟨.breakdown, s', P.note i ref now ++ (if P.files then ["line search step size too small"] else []), log, some (ref, now)⟩
          | .moved x' damp nu =>
            let o := iterate sys P k (i + 1) (some ref) { s' with x := x', damp := damp, nu := nu }
            ⟨o.how, o.st, P.note i ref now ++ o.files, log ++ o.log, if k = 0 then some (ref, now) else o.last⟩

section
variable [Field K] [LinearOrder K] [Fintype m] [Fintype n] [Fintype p]

/-! ### Formulas -/

/-- objective of each method -/
def objOf (env : Env K m n p L) : Tag → (m → K) → K
  | .wgn, r => (r ⬝ᵥ env.wR r) / 2
  | .cwgn, r => (env.cwR r ⬝ᵥ env.cwR r) / 2
  | _, r => env.normM r ^ 2 / 2

/-- gradient of each method -/
def gradOf (env : Env K m n p L) : Tag → (m → K) → Matrix m n K → (n → K)
  | .wgn, r, J => Jᵀ *ᵥ env.wR r
  | .cwgn, r, J => (env.cwJ J)ᵀ *ᵥ env.cwR r
  | _, r, J => Jᵀ *ᵥ r

/-- matrix of the linear system of each method (QR has none) -/
def hessOf [DecidableEq n] (env : Env K m n p L) : Tag → Matrix m n K → K → Matrix n n K
  | .wgn, J, _ => Jᵀ * env.wJ J
  | .cwgn, J, _ => (env.cwJ J)ᵀ * env.cwJ J
  | .lm, J, damp => Jᵀ * J + damp • Matrix.diagonal (Jᵀ * J).diag
  | _, J, _ => Jᵀ * J

/-! ### Stopping criteria -/

/-- the criterion `stop` with tolerance `tol`: absolute, or relative to the first iteration -/
def below (stop : StopCrit) (tol : K) (ref now : Norms K) : Bool :=
  match stop with
  | .WhenAbsolutel2NormOfCorrectionBelowTolerance => decide (now.corr < tol)
  | .WhenRelativel2NormOfCorrectionBelowTolerance => (fdiv now.corr ref.corr).lt tol
  | .WhenAbsolutel2NormOfResidualBelowTolerance => decide (now.resid < tol)
  | .WhenRelativel2NormOfResidualBelowTolerance => (fdiv now.resid ref.resid).lt tol
  | .WhenAbsolutel2NormOfGradientBelowTolerance => decide (now.grad < tol)
  | .WhenRelativel2NormOfGradientBelowTolerance => (fdiv now.grad ref.grad).lt tol
  | .WhenAbsoluteObjectiveBelowTolerance => decide (now.obj < tol)
  | .WhenRelativeObjectiveBelowTolerance => (fdiv now.obj ref.obj).lt tol
  | .AfterMaxIters => false

/-- the criteria about residual and correction, which Newton's solver knows -/
def rootCriterion : StopCrit → Bool
  | .WhenAbsolutel2NormOfCorrectionBelowTolerance | .WhenRelativel2NormOfCorrectionBelowTolerance
  | .WhenAbsolutel2NormOfResidualBelowTolerance | .WhenRelativel2NormOfResidualBelowTolerance => true
  | _ => false

/-! ### Update rules -/

/-- first point `x + a c` along the list of step lengths at which `f ≤ bound` -/
def search (f : (n → K) → Except Exc K) (x c : n → K) (bound damp nu : K) : List K → UpdOut K n
  | [] => ⟨[], .breakdown⟩
  | a :: l =>
    match f (x + a • c) with
    | .error e => ⟨[x + a • c], .threw e⟩
    | .ok v =>
      if v ≤ bound then ⟨[x + a • c], .moved (x + a • c) damp nu⟩
      else
        let o := search f x c bound damp nu l
        ⟨(x + a • c) :: o.trials, o.val⟩

/-- step lengths 1, 1/2, …, 1/512 -/
def steps : List K := (List.range 10).map (fun j => (1 / 2 : K) ^ j)

/-- Armijo's rule along the list of step lengths: accept the first point where the objective has changed by at most `a β (g·c)`; give up where it has hardly changed, and when the list ends.  Result: the points
    tried, and the accepted point or the exception. -/
def armijo (f : (n → K) → Except Exc K) (x c : n → K) (f0 slope : K) : List K → List (n → K) × Except Exc (n → K)
  | [] => ([], .error .lineSearchStepTooSmall)
  | a :: l =>
    match f (x + a • c) with
    | .error e => ([x + a • c], .error e)
    | .ok v =>
      if v - f0 ≤ a * (1 / 10000) * slope then ([x + a • c], .ok (x + a • c))
      else if -(1 / 10 ^ 14) ≤ v - f0 ∧ v - f0 ≤ 1 / 10 ^ 14 then ([x + a • c], .error .lineSearchObjFunctionChangeTooSmall)
      else ((x + a • c) :: (armijo f x c f0 slope l).1, (armijo f x c f0 slope l).2)

/-- gain ratio as coded: actual decrease over `½ (damp cᵀD c + cᵀg)`, with `D` the diagonal of the undamped Hessian -/
def gain (f1 f0 damp : K) (H0 : Matrix n n K) (g c : n → K) : Quot' K :=
  fdiv (f1 - f0) ((damp * (c ⬝ᵥ fun i => c i * H0 i i) + c ⬝ᵥ g) / 2)

/-- schedule 1 -/
def lm1 (rho : Quot' K) (x c : n → K) (damp nu : K) : UpdVal K n :=
  match rho with
  | .fin q => if 0 < q then .moved (x + c) (damp * max (1 / 3) (1 - (2 * q - 1) ^ 3)) 2 else .moved x (damp * nu) (nu * 2)
  | .posInf => .moved (x + c) (damp * (1 / 3)) 2
  | .negInf | .nan => .moved x (damp * nu) (nu * 2)

/-- schedule 2 -/
def lm2 (rho : Quot' K) (x c : n → K) (damp nu : K) : UpdVal K n :=
  .moved (if rho.gt 0 then x + c else x)
    (if rho.lt (1 / 5) then min (damp * 2) (10 ^ 7) else if rho.gt (4 / 5) then max (1 / 10 ^ 7) (damp * (1 / 3)) else damp) nu

/-! ### The solvers -/

/-- run an inner solver for the correction and change the sign -/
def negated (f : Prog ((n → K) × L) Unit) : Prog ((n → K) × (n → K) × L) Unit := fun (c, b, l) =>
  match f (c, l) with
  | .ok _ (c', l') => .ok () (-c', b, l')
  | .stop h (c', l') => .stop h (c', b, l')

/-- QR: factorise `J`, form `Qᵀ r`, back-substitute, change the sign -/
def qrNegated (env : Env K m n p L) (r : m → K) (J : Matrix m n K) : Prog ((n → K) × (n → K) × L) Unit := fun (c, b, l) =>
  match env.qrThin J l with
  | .stop h l1 => .stop h (c, b, l1)
  | .ok _ l1 =>
    match env.qrApplyQT r (b, l1) with
    | .stop h (b2, l2) => .stop h (c, b2, l2)
    | .ok _ (b2, l2) => negated (env.qrSolve b2) (c, b2, l2)

/-- matrix-free: a Krylov solver that is given the action `v, out ↦ out + J(x) v` -/
def krylovNegated (env : Env K m n p L) (x : n → K) (r : m → K) : Prog ((n → K) × (n → K) × L) Unit := fun (c, b, l) =>
  match env.krylov (fun v out => out + env.applyJac x v 0) r c with
  | .ok _ c' => .ok () (-c', b, l)
  | .stop h c' => .stop h (c', b, l)

/-- objective at a state from the residual evaluation -/
def objAt (env : Env K m n p L) (sys : Sys K m n) (tag : Tag) (x : n → K) : Except Exc K := (sys.res x).map (objOf env tag)

/-- update rules of the least-squares solvers -/
inductive Rule (K : Type) where
  | standard
  | backtrack (zeta : K)
  | lm1
  | lm2

def lsUpd [DecidableEq n] (env : Env K m n p L) (sys : Sys K m n) (tag : Tag) (rule : Rule K) (s : St K n L) (r : m → K) (J : Matrix m n K) (now : Norms K) :
    UpdOut K n :=
  let lm := fun (next : Quot' K → UpdVal K n) =>
    match objAt env sys tag (s.x + s.c) with
    | .error e => (⟨[s.x + s.c], .threw e⟩ : UpdOut K n)
    | .ok v => ⟨[s.x + s.c], next (gain v now.obj s.damp (Jᵀ * J) (gradOf env tag r J) s.c)⟩
  match rule with
  | .standard => ⟨[], .moved (s.x + s.c) s.damp s.nu⟩
  | .backtrack z => search (objAt env sys tag) s.x s.c (z * now.obj) s.damp s.nu steps
  | .lm1 => lm (fun rho => Spec.Nonlinear.lm1 rho s.x s.c s.damp s.nu)
  | .lm2 => lm (fun rho => Spec.Nonlinear.lm2 rho s.x s.c s.damp s.nu)

/-- least-squares solvers -/
def lsProblem [DecidableEq n] (env : Env K m n p L) (cfg : Cfg K) (sys : Sys K m n) (tag : Tag) (rule : Rule K) : Problem K m n L where
  withJ := true
  corr := fun _ r J damp =>
    match tag with
    | .gnQr => qrNegated env r J
    | _ => negated (env.lin (hessOf env tag J damp) (gradOf env tag r J))
  norms := fun r J c => ⟨env.normM r, env.normN c, env.normN (gradOf env tag r J), objOf env tag r⟩
  test := fun i ref now => .ok (if cfg.stop = .AfterMaxIters then decide (i = cfg.maxIters) else below cfg.stop cfg.tol ref now)
  note := fun _ _ _ => []
  upd := lsUpd env sys tag rule
  files := false

/-- update rules of Newton's method -/
inductive RootRule (K : Type) where
  | standard
  | backtrack (zeta : K)

/-- Newton's method (with Jacobian, or matrix-free) -/
def newtonProblem (env : Env K m n p L) (cfg : Cfg K) (sys : Sys K m n) (matrixFree : Bool) (rule : RootRule K) : Problem K m n L where
  withJ := !matrixFree
  corr := fun x r J _ =>
    if matrixFree then krylovNegated env x r else negated (env.linJ J r)
  norms := fun r _ c => ⟨env.normM r, env.normN c, 0, 0⟩
  test := fun _ ref now => if rootCriterion cfg.stop then .ok (below cfg.stop cfg.tol ref now) else .error .outOfRange
  note := fun i ref now =>
    if cfg.maxIters ≤ i ∧ below cfg.stop cfg.tol ref now = false then ["reached maximum number of iterations before convergence"] else []
  upd := fun s _ _ now =>
    match rule with
    | .standard => ⟨[], .moved (s.x + s.c) s.damp s.nu⟩
    | .backtrack z => search (fun x => (sys.res x).map env.normM) s.x s.c (z * now.resid) s.damp s.nu steps
  files := true

/-! ### The calls `solve(system, state)` -/

/-- the rule selected by the options of a least-squares solver; other options make `solve` throw.  (`Armijo` selects backtracking, see C39.) -/
def lsRule (cfg : Cfg K) (tag : Tag) : Except Stop (Rule K) :=
  match cfg.update with
  | .Standard => .ok .standard
  | .BacktrackStrictlyDecreasingObjective | .Armijo =>
    match cfg.params with
    | none => .ok (.backtrack 1)
    | some (z :: _) => .ok (.backtrack z)
    | some [] => .error (.ub "front() of an empty vector")
  | .LMSchedule1 => if tag = .lm then .ok .lm1 else .error (.exc (.runtimeError "invalid Update value"))
  | .LMSchedule2 => if tag = .lm then .ok .lm2 else .error (.exc (.runtimeError "invalid Update value"))
  | .Custom => .error (.exc (.runtimeError "invalid Update value"))

/-- every Levenberg-Marquardt solve starts with damping 1, and schedule 1 with `nu = 2` -/
def lsStart (tag : Tag) (rule : Rule K) (s : St K n L) : St K n L :=
  { s with damp := if tag = .lm then 1 else s.damp, nu := match rule with | .lm1 => 2 | _ => s.nu }

/-- `solve` of a least-squares solver -/
def lsSolve [DecidableEq n] (env : Env K m n p L) (cfg : Cfg K) (sys : Sys K m n) (tag : Tag) (s : St K n L) : Out K m n L :=
  match lsRule cfg tag with
  | .error (.exc e) => ⟨.threw (.exc e), s, [], [], none⟩
  | .error h => ⟨.threw h, lsStart tag .standard s, [], [], none⟩
  | .ok rule => iterate sys (lsProblem env cfg sys tag rule) cfg.maxIters.toNat 1 none (lsStart tag rule s)

/-- the rule selected by the options of a Newton solver -/
def newtonRule (cfg : Cfg K) : Except Stop (RootRule K) :=
  match cfg.update with
  | .Standard => .ok .standard
  | .BacktrackStrictlyDecreasingObjective =>
    match cfg.params with
    | none => .ok (.backtrack 1)
    | some (z :: _) => .ok (.backtrack z)
    | some [] => .error (.ub "front() of an empty vector")
  | _ => .error (.exc (.runtimeError "Invalid criterion"))

/-- `solve` of a Newton solver -/
def newtonSolve (env : Env K m n p L) (cfg : Cfg K) (sys : Sys K m n) (s : St K n L) : Out K m n L :=
  match newtonRule cfg with
  | .error h => ⟨.threw h, s, [], [], none⟩
  | .ok rule => iterate sys (newtonProblem env cfg sys false rule) cfg.maxIters.toNat 1 none s

/-- `solve` of a matrix-free Newton solver -/
def matrixFreeSolve (env : Env K m n p L) (cfg : Cfg K) (sys : Sys K m n) (s : St K n L) : Out K m n L :=
  iterate sys (newtonProblem env cfg sys true .standard) cfg.maxIters.toNat 1 none s

end
end Pressio.Spec.Nonlinear
