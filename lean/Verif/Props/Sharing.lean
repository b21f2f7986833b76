import Verif.Lemmas.Sharing
import Verif.Props.UnitsClock
import Verif.Props.SolverMemory

/-
  C101: solver objects can be shared between problems, and linear solvers between solver objects.
-/
namespace Pressio.Props
set_option autoImplicit false
set_option linter.unusedSectionVars false
open Pressio Matrix
open Pressio.Model.Nonlinear (Env Cfg Reg StopCrit Update Tag Ans SP)
open Pressio.Spec.Nonlinear Pressio.Spec.Sharing Pressio.Lemmas.Sharing
open Pressio.Lemmas.Nonlinear
open Pressio.Model.Implicit Pressio.Spec.Implicit Pressio.Lemmas.Implicit Pressio.Spec.SolverRun Pressio.Lemmas.SolverTree Pressio.Lemmas.SolverRun
open Pressio.Model.Explicit (Scheme)
open Pressio.Model.Galerkin Pressio.Model.Lspg Pressio.Spec.Galerkin Pressio.Spec.Lspg Pressio.Lemmas.Lspg

/-! ### Solver objects of any kind -/

/-- the kinds of nonlinear solver objects: Newton-Raphson, or a least-squares method (Gauss-Newton by normal equations, by QR, with weights, Levenberg-Marquardt) -/
inductive SolverKind where
  | newton
  | leastSquares (tag : Tag)

section
variable {K m n p L : Type} [Field K] [LinearOrder K] [IsStrictOrderedRing K] [Fintype m] [Fintype n] [DecidableEq n] [Fintype p]

/-- `solver.solve(system, state)` of the solver objects of this kind -/
def SolverKind.solve (env : Env K m n p L) (cfg : Cfg K) : SolverKind → SP K m n p L Unit
  | .newton => Model.Nonlinear.newtonSolve env cfg
  | .leastSquares tag => Model.Nonlinear.lsSolve env cfg tag

/-- a solver object of this kind, new or used, between two calls -/
def SolverKind.Idle (reg : Reg K m n p L) : SolverKind → Prop
  | .newton => NewtonIdle reg
  | .leastSquares _ => LsIdle reg

/-- the linear (or QR) solver gives the same answer to the same question, whatever it did before: no warm start -/
def SolverKind.NoWarm (env : Env K m n p L) : SolverKind → Prop
  | .newton => ∀ A b st st', SameAnswer Prod.fst (env.linJ A b st) (env.linJ A b st')
  | .leastSquares tag => NoWarmStart env tag

/-- the linear (or QR) solver does not throw `TimeStepFailure`, which is for steppers to throw -/
def SolverKind.Honest (env : Env K m n p L) : SolverKind → Prop
  | .newton => ∀ A b s, (env.linJ A b s).stop? ≠ some (.exc .timeStepFailure)
  | .leastSquares tag => InnerHonest env tag

/-- the diagnostics of the solver object are in order -/
def SolverKind.Good (reg : Reg K m n p L) : SolverKind → Prop
  | .newton => NewtonDiag none reg.diag
  | .leastSquares _ => LsDiag none reg.diag

theorem SolverKind.good_of_idle (kind : SolverKind) (reg : Reg K m n p L) (h : kind.Idle reg) : kind.Good reg := by
  cases kind with
  | newton => exact newtonObj_diag (h reg.x)
  | leastSquares tag => exact lsObj_diag (h reg.x)

theorem SolverKind.fine (env : Env K m n p L) (cfg : Cfg K) (kind : SolverKind) (he : kind.Honest env) : Fine (kind.solve env cfg) := by
  cases kind with
  | newton => exact fine_newtonSolve env he cfg
  | leastSquares tag => exact fine_lsSolve env cfg tag he

/-- two solves of the same system from the same state -/
theorem SolverKind.alike (env : Env K m n p L) (cfg : Cfg K) (kind : SolverKind) (hw : kind.NoWarm env) (F : (n → K) → Bool → Except Exc (Ans K m n)) (hF : WellTyped F) (reg reg' : Reg K m n p L) (y : n → K) (h : kind.Good reg) (h' : kind.Good reg') :
    Alike (fun r => kind.Good r) { reg with x := y } { reg' with x := y } (SM.run F (kind.solve env cfg) { reg with x := y }) (SM.run F (kind.solve env cfg) { reg' with x := y }) := by
  cases kind with
  | newton =>
    have hs := newton_memory env cfg (sysOf F) hw { reg with x := y } { reg' with x := y } h h' rfl
    have d : ∀ r : Reg K m n p L, NewtonDiag none r.diag → _ := fun r hr => (newtonSolve_refines env cfg (sysOf F) { r with x := y } hr).2.2.2.2.1
    unfold runNewton at hs
    rw [toF_sysOf F hF] at hs d
    exact ⟨hs.1, hs.2.1, hs.2.2.2.1, d reg h, d reg' h'⟩
  | leastSquares tag =>
    have hs := ls_memory env cfg (sysOf F) tag hw { reg with x := y } { reg' with x := y } h h' rfl
    have d : ∀ r : Reg K m n p L, LsDiag none r.diag → _ := fun r hr => (lsSolve_refines env cfg (sysOf F) tag { r with x := y } hr).2.2.2.2.1
    unfold runLs at hs
    rw [toF_sysOf F hF] at hs d
    exact ⟨hs.1, hs.2.1, hs.2.2.2.1, d reg h, d reg' h'⟩

/-! ### Problems -/

/-- the attempts of a stepper object are solves of equations `F`, and this stepper object is ready for them -/
def Lawful {S : Type} (Q : SolveTree (n → K) (Ans K m n) → Prop) (step : ((n → K) → SolveTree (n → K) (Ans K m n)) → K → K → Int → Prog (SolveSt (n → K) S (Ans K m n)) Unit)
    (F : List (n → K) → K → K → (n → K) → Bool → Except Exc (Ans K m n)) (mem : S) (t : K) (y : n → K) : Prop :=
  ∃ Inv, RefinesOn Q step F Inv ∧ Inv t [y] mem

theorem shared_problems {ι σ ℓ : Type} [DecidableEq ι] [DecidableEq σ] [DecidableEq ℓ] {S : ι → Type} (Q : SolveTree (n → K) (Ans K m n) → Prop)
    (step : ∀ k, ((n → K) → SolveTree (n → K) (Ans K m n)) → K → K → Int → Prog (SolveSt (n → K) (S k) (Ans K m n)) Unit) (F : ι → List (n → K) → K → K → (n → K) → Bool → Except Exc (Ans K m n))
    (hF : ∀ k hist t dt x w, F k hist t dt x w ≠ .error .timeStepFailure) (hw : ∀ k hist t dt, WellTyped (F k hist t dt)) (t0 : ι → K) (y0 : ι → n → K) (mem : ∀ k, S k) (hmem : ∀ k, Lawful Q (step k) (F k) (mem k) (t0 k) (y0 k))
    (kind : σ → SolverKind) (env : σ → Env K m n p L) (cfg : σ → Cfg K) (he : ∀ s, (kind s).Honest (env s)) (hc : ∀ s, (kind s).NoWarm (env s)) (hQ : ∀ s reg y, Q (solverOf ((kind s).solve (env s) (cfg s)) reg y))
    (solverFor : ι → σ) (linearFor : σ → ℓ) (regs : σ → Reg K m n p L) (hregs : ∀ s, (kind s).Idle (regs s)) (lins : ℓ → L) (sched : List (ι × K))
    (k : ι) (mem' : S k) (hmem' : Lawful Q (step k) (F k) mem' (t0 k) (y0 k)) (own : Reg K m n p L) (hown : (kind (solverFor k)).Idle own) :
    part k (driveShared step (fun s => (kind s).solve (env s) (cfg s)) solverFor linearFor sched (fun k => some ⟨t0 k, [y0 k], y0 k, mem k⟩) regs lins) =
      driveObj (step k) ((kind (solverFor k)).solve (env (solverFor k)) (cfg (solverFor k))) (part k sched) (t0 k) [y0 k] (y0 k) mem' own := by
  choose Inv h hI using hmem
  obtain ⟨Inv', h', hI'⟩ := hmem'
  refine shared_alone step _ solverFor linearFor Q F Inv h hF (fun s => (kind s).fine (env s) (cfg s) (he s)) hQ (fun s r => (kind s).Good r) ?_ ?_ k Inv' h' sched _ regs lins ?_ (fun s => (kind s).good_of_idle _ (hregs s))
    ⟨t0 k, [y0 k], y0 k, mem k⟩ rfl mem' hI' own ((kind _).good_of_idle _ hown)
  · intro s reg l hg
    revert hg
    cases kind s <;> exact id
  · intro k reg reg' y hist t dt hg hg'
    exact (kind _).alike (env _) (cfg _) (hc _) _ (hw k hist t dt) reg reg' y hg hg'
  · rintro j a ⟨⟩
    exact ⟨[], rfl, hI j⟩
end

/-- a time-dependent problem with as many equations as unknowns, and its stepper: an ODE (also: a Galerkin problem) `dy/dt = f(y, t)`, or one with mass matrix -/
inductive Evolution (K n : Type) : Type 1
  | ode (name : Scheme) (sys : ISystem K (n → K) (Matrix n n K))
  | withMass {Mt : Type} (act : Mt → (n → K) → n → K) (asJac : Mt → Matrix n n K) (name : Scheme) (sys : IMMSystem K (n → K) (Matrix n n K) Mt)

section
variable {K n p L : Type} [Field K] [LinearOrder K] [IsStrictOrderedRing K] [Fintype n] [DecidableEq n] [Fintype p]

/-- memory of its stepper object -/
def Evolution.Mem : Evolution K n → Type
  | .ode _ _ => SMem K (n → K) (n → K) PMem
  | .withMass (Mt := Mt) _ _ _ _ => SMem K (n → K) (n → K) (MMMem (n → K) Mt)
/-- an attempt of its stepper object -/
def Evolution.step : (P : Evolution K n) → ((n → K) → SolveTree (n → K) (Ans K n n)) → K → K → Int → Prog (SolveSt (n → K) P.Mem (Ans K n n)) Unit
  | .ode name sys => stdStep name sys
  | .withMass act asJac name sys => mmStep act asJac name sys
/-- the stepper object has just been created -/
def Evolution.New : (P : Evolution K n) → P.Mem → Prop
  | .ode name _, mem => Ready name mem
  | .withMass _ _ name _, mem => ReadyMM name mem
/-- the user's functions answer what they are asked, and do not throw `TimeStepFailure` -/
def Evolution.Fits : Evolution K n → Prop
  | .ode _ sys => NoTSF sys ∧ WellTypedRhs sys
  | .withMass _ _ _ sys => NoTSFMM sys ∧ WellTypedMM sys

/-- the equations of a step, see `Spec.Implicit` -/
def Evolution.equations : Evolution K n → List (n → K) → K → K → (n → K) → Bool → Except Exc (Ans K n n)
  | .ode name sys => textbook name sys
  | .withMass act asJac name sys => textbookMM act asJac name sys

theorem Evolution.ne (P : Evolution K n) (h : P.Fits) (hist : List (n → K)) (t dt : K) (x : n → K) (w : Bool) : P.equations hist t dt x w ≠ .error .timeStepFailure := by
  cases P with
  | ode name sys => exact textbook_ne name sys h.1 hist t dt x w
  | withMass act asJac name sys => exact textbookMM_ne act asJac name sys h.1 hist t dt x w
theorem Evolution.typed (P : Evolution K n) (h : P.Fits) (hist : List (n → K)) (t dt : K) : WellTyped (P.equations hist t dt) := by
  cases P with
  | ode name sys => exact textbook_wellTyped name sys h.2 hist t dt
  | withMass act asJac name sys => exact textbookMM_wellTyped act asJac name sys h.2 hist t dt
theorem Evolution.lawful (P : Evolution K n) (mem : P.Mem) (h : P.New mem) (t : K) (y : n → K) : Lawful (fun _ => True) P.step P.equations mem t y := by
  cases P with
  | ode name sys => exact ⟨_, refinesOn_true (std_refines name (ready_name name mem h) sys), ready_inv name sys mem h t y⟩
  | withMass act asJac name sys => exact ⟨_, refinesOn_true (mm_refines act asJac name (massReady_name name mem h) sys), readyMM_inv name mem h t y⟩

/-- **C101, implicit steppers.** A program with any number of time-dependent problems (ODEs, Galerkin problems, problems with mass matrix, each with its own stepper of any scheme), any number of nonlinear solver objects of any kinds and options, and any number of linear solvers, in which
    several problems may share a solver object, and several solver objects a linear solver; the attempts are made in any order.  If the linear solvers have no warm start, then every problem goes through exactly the run (accepted states, times, failures, evaluations and their answers)
    that it goes through in a program of its own, with a solver object and a linear solver of its own; failures and exceptions of the others, and whatever the objects did before, do not matter. -/
theorem C101_implicit {ι σ ℓ : Type} [DecidableEq ι] [DecidableEq σ] [DecidableEq ℓ] (problem : ι → Evolution K n) (hP : ∀ k, (problem k).Fits) (stepper : ∀ k, (problem k).Mem) (hnew : ∀ k, (problem k).New (stepper k)) (t0 : ι → K) (y0 : ι → n → K)
    (kind : σ → SolverKind) (env : σ → Env K n n p L) (cfg : σ → Cfg K) (he : ∀ s, (kind s).Honest (env s)) (hc : ∀ s, (kind s).NoWarm (env s)) (solverFor : ι → σ) (linearFor : σ → ℓ) (regs : σ → Reg K n n p L) (hregs : ∀ s, (kind s).Idle (regs s)) (lins : ℓ → L)
    (schedule : List (ι × K)) (k : ι) (stepper' : (problem k).Mem) (hnew' : (problem k).New stepper') (own : Reg K n n p L) (hown : (kind (solverFor k)).Idle own) :
    part k (driveShared (fun k => (problem k).step) (fun s => (kind s).solve (env s) (cfg s)) solverFor linearFor schedule (fun k => some ⟨t0 k, [y0 k], y0 k, stepper k⟩) regs lins) =
      driveObj (problem k).step ((kind (solverFor k)).solve (env (solverFor k)) (cfg (solverFor k))) (part k schedule) (t0 k) [y0 k] (y0 k) stepper' own :=
  shared_problems (fun _ => True) (fun k => (problem k).step) (fun k => (problem k).equations) (fun k => (problem k).ne (hP k)) (fun k => (problem k).typed (hP k)) t0 y0 stepper (fun k => (problem k).lawful _ (hnew k) _ _) kind env cfg he hc (fun _ _ _ => trivial)
    solverFor linearFor regs hregs lins schedule k stepper' ((problem k).lawful _ hnew' _ _) own hown
end

/-- an LSPG problem with `q` equations in each step: of a FOM with `q` equations, or of a FOM with `m` equations, hyper-reduced to a sample mesh of size `q` or masked to size `q` -/
inductive LspgProblem (K m q n : Type) : Type
  | default (S : Trial K q n) (F : Fom K q q n) (f : (q → K) → K → Except Exc (q → K)) (Df : (q → K) → K → Except Exc (Matrix q q K)) (name : Scheme)
  | hyperReduced (S : Trial K m n) (F : Fom K m q n) (f : (m → K) → K → Except Exc (q → K)) (Df : (m → K) → K → Except Exc (Matrix q m K)) (U : Updater K m q n) (E : Matrix q m K) (name : Scheme)
  | masked (S : Trial K m n) (F : Fom K m m n) (f : (m → K) → K → Except Exc (m → K)) (Df : (m → K) → K → Except Exc (Matrix m m K)) (Mk : Masker K m q n) (mv : (m → K) → q → K) (mm : Matrix m n K → Matrix q n K) (name : Scheme)

section
variable {K m q n p L : Type} [Field K] [LinearOrder K] [IsStrictOrderedRing K] [Fintype m] [DecidableEq m] [Fintype q] [DecidableEq q] [Fintype n] [DecidableEq n] [Fintype p]

/-- memory of its stepper object (with the residual/Jacobian policy in it) -/
def LspgProblem.Mem : LspgProblem K m q n → Type
  | .default _ _ _ _ _ => SMem K (n → K) (n → K) (LMem K q q n)
  | .hyperReduced _ _ _ _ _ _ _ => SMem K (n → K) (n → K) (LMem K m q n)
  | .masked _ _ _ _ _ _ _ _ => SMem K (n → K) (n → K) (LMem K m m n × (q → K) × Matrix q n K)
/-- an attempt of its stepper object -/
def LspgProblem.step : (P : LspgProblem K m q n) → ((n → K) → SolveTree (n → K) (Ans K q n)) → K → K → Int → Prog (SolveSt (n → K) P.Mem (Ans K q n)) Unit
  | .default S F _ _ name => stepWith name (defaultPolicy S F)
  | .hyperReduced S F _ _ U _ name => stepWith name (hypredPolicy U S F)
  | .masked S F _ _ Mk _ _ name => stepWith name (maskDecorator Mk (defaultPolicy S F))
/-- the stepper object has just been created -/
def LspgProblem.New : (P : LspgProblem K m q n) → P.Mem → Prop
  | .default _ _ _ _ name, mem => LspgReady name mem
  | .hyperReduced _ _ _ _ _ _ name, mem => LspgReady name mem
  | .masked _ _ _ _ _ _ _ name, mem => Sized name mem ∧ mem.pol.1.data.length = numStates name ∧ mem.pol.1.tracker ≠ 1
/-- the user's objects (FOM, updater, masker) compute these functions and do not throw `TimeStepFailure`; the scheme is one of those that LSPG has -/
def LspgProblem.Fits : LspgProblem K m q n → Prop
  | .default _ F f Df name => (name = .BDF1 ∨ name = .BDF2) ∧ (∃ Mm, FomIs F f Df Mm) ∧ FomNoTSF f Df
  | .hyperReduced _ F f Df U E name => (name = .BDF1 ∨ name = .BDF2) ∧ (∃ Mm, FomIs F f Df Mm) ∧ (∀ y t, f y t ≠ .error .timeStepFailure) ∧ (∀ y t, Df y t ≠ .error .timeStepFailure) ∧ UpdaterIs U E
  | .masked _ F f Df Mk mv mm name => (name = .BDF1 ∨ name = .BDF2) ∧ (∃ Mm, FomIs F f Df Mm) ∧ FomNoTSF f Df ∧ MaskIs Mk mv mm

/-- the equations of a step, see `Spec.Lspg` -/
def LspgProblem.equations : LspgProblem K m q n → List (n → K) → K → K → (n → K) → Bool → Except Exc (Ans K q n)
  | .default S _ f Df name => lspg name S f Df
  | .hyperReduced S _ f Df _ E name => hypredLspg E name S f Df
  | .masked S _ f Df _ mv mm name => maskedLspg mv mm name S f Df

theorem LspgProblem.ne (P : LspgProblem K m q n) (h : P.Fits) (hist : List (n → K)) (t dt : K) (x : n → K) (w : Bool) : P.equations hist t dt x w ≠ .error .timeStepFailure := by
  cases P with
  | default S F f Df name => exact lspg_ne h.2.2 name S hist t dt x w
  | hyperReduced S F f Df U E name => exact hypredLspg_ne h.2.2.1 h.2.2.2.1 E name S hist t dt x w
  | masked S F f Df Mk mv mm name => exact maskedLspg_ne h.2.2.1 mv mm name S hist t dt x w
theorem LspgProblem.typed (P : LspgProblem K m q n) (hist : List (n → K)) (t dt : K) : WellTyped (P.equations hist t dt) := by
  cases P with
  | default S F f Df name => exact lspg_wellTyped name S f Df hist t dt
  | hyperReduced S F f Df U E name => exact hypred_wellTyped E name S f Df hist t dt
  | masked S F f Df Mk mv mm name => exact masked_wellTyped mv mm name S f Df hist t dt

theorem policy_lawful {Pm : Type} (name : Scheme) (hname : name = .BDF1 ∨ name = .BDF2) (policy : Policy K (n → K) (n → K) Pm (Ans K m n)) (F : List (n → K) → K → K → (n → K) → Bool → Except Exc (Ans K m n)) (PI PD : List (n → K) → List (n → K) → Pm → Prop)
    (h : PolicyRefinesA name policy F (StOf name) PI PD) (mem : SMem K (n → K) (n → K) Pm) (hmem : Sized name mem) (t : K) (x : n → K) (hp : PI [x] mem.rhs mem.pol) : Lawful Asks (stepWith name policy) F mem t x := by
  rcases hname with rfl | rfl
  · exact ⟨_, refinesOn_asks (refines_bdf1_asked policy F PI PD h), hmem, hp⟩
  · obtain ⟨a, b, hab⟩ := List.length_eq_two.1 hmem
    exact ⟨_, refinesOn_asks (refines_bdf2_asked policy F PI PD h), ⟨a, b, hab, by simp⟩, hp⟩

theorem LspgProblem.lawful (P : LspgProblem K m q n) (hP : P.Fits) (mem : P.Mem) (h : P.New mem) (t : K) (x : n → K) : Lawful Asks P.step P.equations mem t x := by
  cases P with
  | default S F f Df name =>
    obtain ⟨hname, ⟨Mm, hF⟩, -⟩ := hP
    exact policy_lawful name hname _ _ _ _ ((lspgPolicy_refines name hname S _ _ (assembleDefault_ok hF S) (mem.pol.data.getD 1 0)).congrF (fun y prev t dt x w => equations_lspg name hname S f Df y prev t dt x w)) mem h.1 t x
      (good_start _ S _ mem.pol h.2.1 (by rcases hname with rfl | rfl <;> simp [numStates]) h.2.2)
  | hyperReduced S F f Df U E name =>
    obtain ⟨hname, ⟨Mm, hF⟩, -, -, hU⟩ := hP
    exact policy_lawful name hname _ _ _ _ ((lspgPolicy_refines name hname S _ _ (assembleHypred_ok hF S U E hU) (mem.pol.data.getD 1 0)).congrF (fun y prev t dt x w => equations_hypred E name hname S f Df y prev t dt x w)) mem h.1 t x
      (good_start _ S _ mem.pol h.2.1 (by rcases hname with rfl | rfl <;> simp [numStates]) h.2.2)
  | masked S F f Df Mk mv mm name =>
    obtain ⟨hname, ⟨Mm, hF⟩, -, hM⟩ := hP
    exact policy_lawful name hname _ _ _ _ (masked_refines hF hM S name hname (mem.pol.1.data.getD 1 0)) mem h.1 t x (good_start _ S x mem.pol.1 h.2.1 (by rcases hname with rfl | rfl <;> simp [numStates]) h.2.2)

/-- **C101, LSPG.** The same for programs with any number of LSPG problems (default, hyper-reduced, masked) and least-squares solver objects of any kinds. -/
theorem C101_lspg {ι σ ℓ : Type} [DecidableEq ι] [DecidableEq σ] [DecidableEq ℓ] (problem : ι → LspgProblem K m q n) (hP : ∀ k, (problem k).Fits) (stepper : ∀ k, (problem k).Mem) (hnew : ∀ k, (problem k).New (stepper k)) (t0 : ι → K) (y0 : ι → n → K)
    (tag : σ → Tag) (env : σ → Env K q n p L) (cfg : σ → Cfg K) (h1 : ∀ s, 1 ≤ (cfg s).maxIters) (he : ∀ s, InnerHonest (env s) (tag s)) (hc : ∀ s, NoWarmStart (env s) (tag s)) (solverFor : ι → σ) (linearFor : σ → ℓ) (regs : σ → Reg K q n p L) (hregs : ∀ s, LsIdle (regs s)) (lins : ℓ → L)
    (schedule : List (ι × K)) (k : ι) (stepper' : (problem k).Mem) (hnew' : (problem k).New stepper') (own : Reg K q n p L) (hown : LsIdle own) :
    part k (driveShared (fun k => (problem k).step) (fun s => Model.Nonlinear.lsSolve (env s) (cfg s) (tag s)) solverFor linearFor schedule (fun k => some ⟨t0 k, [y0 k], y0 k, stepper k⟩) regs lins) =
      driveObj (problem k).step (Model.Nonlinear.lsSolve (env (solverFor k)) (cfg (solverFor k)) (tag (solverFor k))) (part k schedule) (t0 k) [y0 k] (y0 k) stepper' own :=
  shared_problems Asks (fun k => (problem k).step) (fun k => (problem k).equations) (fun k => (problem k).ne (hP k)) (fun k => (problem k).typed) t0 y0 stepper (fun k => (problem k).lawful (hP k) _ (hnew k) _ _) (fun s => .leastSquares (tag s)) env cfg he hc
    (fun s => asks_solverOf _ (busy_lsSolve (env s) (cfg s) (tag s) (h1 s))) solverFor linearFor regs hregs lins schedule k stepper' ((problem k).lawful (hP k) _ hnew' _ _) own hown
end
end Pressio.Props
