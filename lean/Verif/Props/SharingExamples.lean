import Verif.Props.Sharing
import Verif.Props.UnitsExamples

/-
  C101: concrete cases, and the need for linear solvers without warm start.
-/
namespace Pressio.Props
set_option autoImplicit false
set_option linter.unusedSectionVars false
open Pressio Matrix
open Pressio.Model.Nonlinear (Env Cfg Reg StopCrit Update Tag Ans SP)
open Pressio.Spec.Nonlinear Pressio.Spec.Sharing
open Pressio.Model.Implicit Pressio.Spec.Implicit Pressio.Spec.SolverRun Pressio.Lemmas.SolverTree Pressio.Lemmas.SolverRun
open Pressio.Model.Explicit (Scheme)
open Pressio.Model.Galerkin Pressio.Model.Lspg Pressio.Spec.Galerkin Pressio.Spec.Lspg Pressio.Lemmas.Lspg

/-- `dy/dt = t - y²`, not defined for `t > 1` -/
def riccati : ISystem ℚ (Fin 1 → ℚ) (Matrix (Fin 1) (Fin 1) ℚ) :=
  ⟨fun y t w => if 1 < t then .error (.other 3, y) else .ok (fun _ => t - y 0 * y 0, if w then some !![-(2 * y 0)] else none)⟩

/-- three problems: a Riccati equation by BDF2, the same by Crank-Nicolson, and a problem with mass matrix by BDF2 -/
def three : Fin 3 → Evolution ℚ (Fin 1)
  | 0 => .ode .BDF2 riccati
  | 1 => .ode .CrankNicolson riccati
  | 2 => .withMass Matrix.mulVec id .BDF2 (massQ ⟨1, 0⟩)

def threeMem : ∀ k, (three k).Mem
  | 0 => memBDF2
  | 1 => (⟨0, 0, 0, ![0], [![0]], [![0], ![0]], freshPMem⟩ : SMem ℚ (Fin 1 → ℚ) (Fin 1 → ℚ) PMem)
  | 2 => memMM2

theorem three_fits : ∀ k, (three k).Fits
  | 0 => ⟨by intro y t w e junk h; simp only [riccati] at h; split at h <;> simp_all [Prod.ext_iff]; rw [← h.1]; simp, by intro y t w; unfold riccati; simp only; split <;> cases w <;> simp⟩
  | 1 => ⟨by intro y t w e junk h; simp only [riccati] at h; split at h <;> simp_all [Prod.ext_iff]; rw [← h.1]; simp, by intro y t w; unfold riccati; simp only; split <;> cases w <;> simp⟩
  | 2 => ⟨by intro y t w e junk h; simp [massQ] at h, by intro y t w; cases w <;> simp [massQ]⟩

theorem three_new : ∀ k, (three k).New (threeMem k)
  | 0 => by simp [Evolution.New, three, threeMem, Ready, memBDF2]
  | 1 => by simp [Evolution.New, three, threeMem, Ready, freshPMem]
  | 2 => by simp [Evolution.New, three, threeMem, ReadyMM, memMM2]

/-- two solver objects: Newton and Gauss-Newton -/
def kinds : Bool → SolverKind
  | true => .newton
  | false => .leastSquares .gn

/-- problems 0 and 2 share the Newton object, which shares its linear solver (it counts its calls) with the Gauss-Newton object of problem 1; the attempts are interleaved -/
def both : List (Fin 3 × ℚ) := [(0, 1/2), (2, 1/4), (1, 1/2), (0, 1/4), (0, 1/2), (1, 1/4), (2, 1/4), (0, 1/8), (1, 1/8)]

def newtonReg : Reg ℚ (Fin 1) (Fin 1) (Fin 1) Nat := { reg11 with diag := Model.Nonlinear.newContainer Model.Nonlinear.newtonDiagnostics }
def regs2 : Bool → Reg ℚ (Fin 1) (Fin 1) (Fin 1) Nat
  | true => newtonReg
  | false => reg11
theorem regs2_idle : ∀ s, (kinds s).Idle (regs2 s)
  | true => fun _ => .created _ rfl
  | false => reg11_idle

example (k : Fin 3) := C101_implicit three three_fits threeMem three_new (fun _ => 0) (fun _ => ![1]) kinds (fun _ => env11N) (fun _ => cfg11N)
  (fun s => by cases s <;> intro A b st <;> simp [env11N, env11]) (fun s => by cases s <;> exact fun A b st st' => ⟨rfl, fun _ => rfl⟩) (fun k => decide (k ≠ 1)) (fun _ => ()) regs2 regs2_idle (fun _ => 5) both k (threeMem k) (three_new k)
  (regs2 (decide (k ≠ 1))) (regs2_idle _)

/-- the run: problem 0 makes three attempts and then is given up, since its right-hand side threw -/
example : (driveShared (fun k => (three k).step) (fun s => (kinds s).solve env11N cfg11N) (fun k => decide (k ≠ 1)) (fun _ => ()) both (fun k => some ⟨0, [![1]], ![1], threeMem k⟩) regs2 (fun _ => 5)).map (fun r => (r.1, r.2.hist.length, r.2.queries.length, r.2.stop)) =
    [(0, 1, 2, none), (2, 1, 2, none), (1, 1, 3, none), (0, 2, 2, none), (0, 3, 1, some (.exc (.other 3))), (1, 2, 2, none), (2, 2, 2, none), (1, 3, 2, none)] := by
  decide +kernel

/-! ### With warm start -/

/-- a linear solver with warm start: one damped correction of its last answer -/
def envWarm : Env ℚ (Fin 1) (Fin 1) (Fin 1) ℚ where
  normM := fun v => |v 0|
  normN := fun v => |v 0|
  lin := fun _ _ s => .ok () s
  linJ := fun A b (_, l) => .ok () (fun _ => l + (b 0 / A 0 0 - l) / 2, l + (b 0 / A 0 0 - l) / 2)
  applyJac := fun _ _ y => y
  krylov := fun _ _ c => .ok () c
  qrThin := fun _ l => .ok () l
  qrApplyQT := fun _ s => .ok () s
  qrSolve := fun _ s => .ok () s
  wR := fun r => r
  wJ := fun J => J
  cwR := fun r => r
  cwJ := fun J => J
  createState := fun _ => 0

def regWarm : Reg ℚ (Fin 1) (Fin 1) (Fin 1) ℚ where
  x := fun _ => 7
  trial := fun _ => 7
  c := fun _ => 7
  r := fun _ => 7
  J := fun _ _ => 7
  g := fun _ => 7
  H := fun _ _ => 7
  H0 := fun _ _ => 7
  damp := 7
  Wr := fun _ => 7
  WJ := fun _ _ => 7
  cWr := fun _ => 7
  cWJ := fun _ _ => 7
  QTr := fun _ => 7
  nu := 7
  cDiagH := fun _ => 7
  lin := 0
  diag := Model.Nonlinear.newContainer Model.Nonlinear.newtonDiagnostics
  files := []
  log := []
def cfgWarm : Cfg ℚ := ⟨20, .WhenAbsolutel2NormOfResidualBelowTolerance, 1 / 10, .Standard, none⟩

/-- **C101 needs linear solvers without warm start.** Two problems share a Newton object and its linear solver, which starts from its last answer: the first step of the second problem ends at another state than in a program of its own (with the same solver, also new). -/
theorem C101_warm_start_refuted :
    ((part 0 (driveShared (fun k => (three k).step) (fun _ : Unit => Model.Nonlinear.newtonSolve envWarm cfgWarm) (fun _ => ()) (fun _ => ()) [(1, 1/2), (0, 1/2)] (fun k => some ⟨0, [![1]], ![1], threeMem k⟩) (fun _ => regWarm) (fun _ => 0))).map (fun r => (r.stop, r.queries.length, r.y 0))) = [(none, 2, 10750209/11899648)] ∧
    ((driveObj (three 0).step (Model.Nonlinear.newtonSolve envWarm cfgWarm) [1/2] 0 [![1]] ![1] (threeMem 0) regWarm).map (fun r => (r.stop, r.queries.length, r.y 0))) = [(none, 3, 1733/1984)] := by
  decide +kernel

/-- LSPG: a default problem with one FOM equation, a hyper-reduced and a masked one, by Gauss-Newton and Levenberg-Marquardt objects that share a linear solver -/
def threeLspg : Fin 3 → LspgProblem ℚ (Fin 2) (Fin 1) (Fin 1)
  | 0 => .default ⟨!![2], ![1], true⟩ ⟨fun y t _ => .ok ![t - y 0], fun _ B _ _ => .ok ((!![-1] : Matrix (Fin 1) (Fin 1) ℚ) * B), fun _ B _ _ => .ok B⟩ (fun y t => .ok ![t - y 0]) (fun _ _ => .ok !![-1]) .BDF1
  | 1 => .hyperReduced trial2 hypFom2 (fun y t => .ok ![t + y 0 * y 1]) (fun y _ => .ok !![y 1, y 0]) upd2 !![0, 1] .BDF2
  | 2 => .masked trial2 rotFom (fun y _ => .ok ((!![0, 1; -1, 0] : Matrix (Fin 2) (Fin 2) ℚ) *ᵥ y + ![0, 1])) (fun _ _ => .ok !![0, 1; -1, 0]) mask2 (fun v => ![v 1]) (fun B => !![B 1 0]) .BDF2
def threeLspgMem : ∀ k, (threeLspg k).Mem
  | 0 => (⟨0, 0, 0, ![0], [![0]], [], ⟨[0, 0], -1, ![9], ![8], !![7]⟩⟩ : SMem ℚ (Fin 1 → ℚ) (Fin 1 → ℚ) (LMem ℚ (Fin 1) (Fin 1) (Fin 1)))
  | 1 => hypMem2
  | 2 => maskMem2
theorem threeLspg_fits : ∀ k, (threeLspg k).Fits
  | 0 => ⟨.inl rfl, ⟨fun _ _ => .ok 1, ⟨fun _ _ _ => rfl, fun _ _ _ _ => rfl, fun _ B _ _ => by simp [Except.map, Except.mapError]⟩⟩, fun _ _ => by simp, fun _ _ => by simp⟩
  | 1 => ⟨.inr rfl, ⟨_, hypFom2_is⟩, by simp, by simp, upd2_is⟩
  | 2 => ⟨.inr rfl, ⟨_, rotFom_is⟩, rotFom_noTSF, mask2_is⟩
theorem threeLspg_new : ∀ k, (threeLspg k).New (threeLspgMem k)
  | 0 => by simp [threeLspg, threeLspgMem, LspgProblem.New, LspgReady, Sized, numStates]
  | 1 => hypMem2_ready
  | 2 => by simp [threeLspg, threeLspgMem, LspgProblem.New, maskMem2, Sized, numStates]
example (k : Fin 3) := C101_lspg threeLspg threeLspg_fits threeLspgMem threeLspg_new (fun _ => 0) (fun _ => ![1]) (fun s : Bool => if s then .gn else .lm) (fun _ => env11) (fun s => if s then cfgGN11 else cfgN .WhenAbsolutel2NormOfGradientBelowTolerance (1/100) 9 .LMSchedule1)
  (fun s => by cases s <;> decide) (fun s => by cases s <;> intro A b st <;> simp [env11]) (fun s => by cases s <;> exact fun A b st st' => ⟨rfl, fun _ => rfl⟩) (fun k => decide (k ≠ 1)) (fun _ => ()) (fun _ => reg11) (fun _ => reg11_idle) (fun _ => 3)
  both k (threeLspgMem k) (threeLspg_new k) reg11 reg11_idle
end Pressio.Props
