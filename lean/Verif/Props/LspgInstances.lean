import Verif.Props.LspgReuse
import Verif.Props.ImplicitJacobian

/-
  C52: the LSPG Jacobian is the derivative of the LSPG residual; concrete instances for C52-C55 and C65, and end-to-end witnesses for C53.
-/
namespace Pressio.Props
set_option autoImplicit false
set_option linter.unusedSectionVars false
open Pressio Pressio.Model.Galerkin Pressio.Model.Lspg Pressio.Spec.Galerkin Pressio.Spec.Lspg Pressio.Model.Implicit Pressio.Lemmas.Implicit Pressio.Spec.Implicit
open Pressio.Lemmas.Lspg (stepWith)
open Pressio.Model.Explicit (Scheme)
open scoped Matrix

section
variable {m n : Type} [Fintype m] [Fintype n]

theorem asCLM_sub {p : Type} [Fintype p] (A B : Matrix p n ℝ) : asCLM (A - B) = asCLM A - asCLM B := by
  ext1 w; exact Matrix.sub_mulVec A B w

theorem asCLM_smul {p : Type} [Fintype p] (c : ℝ) (A : Matrix p n ℝ) : asCLM (c • A) = c • asCLM A := by
  ext1 w; exact Matrix.smul_mulVec c A w

/-- **C52.** If the FOM's Jacobian is the derivative of its right-hand side, the LSPG Jacobian is the derivative of the LSPG residual with respect to the reduced state. -/
theorem C52_jacobian_is_derivative (name : Scheme) (S : Trial ℝ m n) (f : (m → ℝ) → ℝ → m → ℝ) (D : (m → ℝ) → ℝ → Matrix m m ℝ) (hist : List (n → ℝ)) (t dt : ℝ) (x : n → ℝ)
    (hD : HasFDerivAt (fun y => f y (t + dt)) (asCLM (D (lift S x) (t + dt))) (lift S x)) :
    ∃ (R : (n → ℝ) → m → ℝ) (J : Matrix m n ℝ), (∀ x' w, (lspg name S (fun y t => .ok (f y t)) (fun y t => .ok (D y t)) hist t dt x' w).map Prod.fst = .ok (R x')) ∧
      (lspg name S (fun y t => .ok (f y t)) (fun y t => .ok (D y t)) hist t dt x true).map Prod.snd = .ok (some J) ∧ HasFDerivAt R (asCLM J) x := by
  refine ⟨fun x' => combination name (lift S x') (hist.map (lift S)) - coef name hist dt • f (lift S x') (t + dt), S.basis - coef name hist dt • (D (lift S x) (t + dt) * S.basis),
    fun x' w => by cases w <;> rfl, rfl, ?_⟩
  rw [asCLM_sub, asCLM_smul]
  have h1 : HasFDerivAt (fun x' => combination name (lift S x') (hist.map (lift S))) (asCLM S.basis) x := by
    have hl := lift_hasFDerivAt S x
    unfold combination
    cases name <;> rcases hist with _ | ⟨a, _ | ⟨b, c⟩⟩ <;> simp only [List.map_nil, List.map_cons] <;>
      first
        | exact hl
        | exact hl.sub_const _
        | exact (hl.sub_const _).add_const _
  have h2 : HasFDerivAt (fun x' => f (lift S x') (t + dt)) (asCLM (D (lift S x) (t + dt) * S.basis)) x := by
    refine (hD.comp x (lift_hasFDerivAt S x)).congr_fderiv ?_
    ext1 w
    exact Matrix.mulVec_mulVec w _ _
  have h3 : HasFDerivAt (fun x' => coef name hist dt • f (lift S x') (t + dt)) (coef name hist dt • asCLM (D (lift S x) (t + dt) * S.basis)) x := h2.fun_const_smul _
  exact h1.sub h3

end

/-! ### instances -/

/-- one Gauss-Newton iteration for one unknown and two equations -/
def gn1 : (Fin 1 → ℚ) → SolveTree (Fin 1 → ℚ) ((Fin 2 → ℚ) × Option (Matrix (Fin 2) (Fin 1) ℚ)) := fun y =>
  .ask y true (fun a => match a with
    | .ok (r, some j) => .ret (fun i => y i - (j 0 0 * r 0 + j 1 0 * r 1) / (j 0 0 * j 0 0 + j 1 0 * j 1 0))
    | .ok (_, none) => .stop (.exc .outOfRange) y
    | .error .velocityFailureUnrecoverable => .stop (.exc .velocityFailureUnrecoverable) y
    | .error _ => .stop (.exc .nonlinearSolveFailure) y)

/-- a solver that evaluates once and gives up -/
def gnFails : (Fin 1 → ℚ) → SolveTree (Fin 1 → ℚ) ((Fin 2 → ℚ) × Option (Matrix (Fin 2) (Fin 1) ℚ)) := fun y =>
  .ask (fun i => y i + 1) false (fun _ => .stop (.exc .nonlinearSolveFailure) (fun i => y i + 1))

theorem gn1_honest (y : Fin 1 → ℚ) : Honest (gn1 y) := by
  intro a ha
  rcases a with e | ⟨r, _ | j⟩
  · have := ha e rfl
    cases e <;> simp [Honest]
  · simp [Honest]
  · simp [Honest]

theorem gnFails_honest (y : Fin 1 → ℚ) : Honest (gnFails y) := by
  intro a _
  simp [Honest]

def lspgMem (_name : Scheme) (N L : Nat) : SMem ℚ (Fin 1 → ℚ) (Fin 1 → ℚ) (LMem ℚ (Fin 2) (Fin 2) (Fin 1)) :=
  ⟨0, 0, 0, ![0], List.replicate L ![0], [], ⟨List.replicate N 0, -1, ![9, 9], ![8, 8], !![7; 7]⟩⟩

/-- such a memory comes from the constructor -/
example : createProblem .BDF2 ![9, 9] ![8, 8] (!![7; 7] : Matrix (Fin 2) (Fin 1) ℚ) (![0] : Fin 1 → ℚ) = .ok (lspgMem .BDF2 3 2) := by
  simp [createProblem, createMgrFor, createMgr, createImplicit, lspgMem, List.replicate]
  decide

def lspgAtts : List (Attempt ℚ (Fin 1 → ℚ) ((Fin 2 → ℚ) × Option (Matrix (Fin 2) (Fin 1) ℚ))) := [⟨1/2, gn1⟩, ⟨1, gnFails⟩, ⟨1/4, gn1⟩, ⟨1/4, gn1⟩]

theorem lspgAtts_ok : (∀ a ∈ lspgAtts, ∀ y, Honest (a.solver y)) ∧ (∀ a ∈ lspgAtts, ∀ y, Asks (a.solver y)) := by
  constructor
  · simp only [lspgAtts, List.mem_cons, List.not_mem_nil, or_false]
    rintro a (rfl | rfl | rfl | rfl) y <;> first | exact gn1_honest y | exact gnFails_honest y
  · simp only [lspgAtts, List.mem_cons, List.not_mem_nil, or_false]
    rintro a (rfl | rfl | rfl | rfl) y <;> trivial

theorem lspgMem_ready : LspgReady .BDF2 (lspgMem .BDF2 3 2) := by
  refine ⟨?_, ?_, ?_⟩ <;> simp [lspgMem, Lemmas.Lspg.Sized, Lemmas.Lspg.numStates]

/-- the hypotheses of C52 on a run with four attempts, the second of which fails -/
example := C52_run_is_ideal fom2_is fom2_noTSF trial2 .BDF2 (Or.inr rfl) (lspgMem .BDF2 3 2) lspgMem_ready lspgAtts lspgAtts_ok.1 lspgAtts_ok.2 0 ![0]
example : ((drive (stepWith .BDF2 (defaultPolicy trial2 fom2)) lspgAtts 0 [![0]] ![0] (lspgMem .BDF2 3 2)).map (fun r => (r.hist.length, r.queries.length, r.stop))) =
    [(1, 1, none), (2, 1, some (.exc .timeStepFailure)), (2, 1, none), (3, 1, none)] := by decide +kernel
/-- the hypothesis of the derivative theorem, for `f y t = t y` -/
example (x : Fin 1 → ℝ) (S : Trial ℝ (Fin 2) (Fin 1)) : HasFDerivAt (fun y : Fin 2 → ℝ => (3 : ℝ) • y) (asCLM ((3 : ℝ) • (1 : Matrix (Fin 2) (Fin 2) ℝ))) (lift S x) := by
  rw [asCLM_smul]
  refine ((hasFDerivAt_id _).const_smul (3 : ℝ)).congr_fderiv ?_
  ext1 w
  simp [asCLM]

/-- a solver that accepts its initial guess without evaluating anything -/
def lazySolver : (Fin 1 → ℚ) → SolveTree (Fin 1 → ℚ) ((Fin 2 → ℚ) × Option (Matrix (Fin 2) (Fin 1) ℚ)) := fun y => .ret y

/-- The requirement of C52 that the solver evaluates the equations in a step that it accepts is needed: after an accepted step without evaluation, the residual of the next BDF2 step is wrong. -/
theorem C52_needs_evaluation :
    drive (stepWith .BDF2 (defaultPolicy trial2 fom2)) [⟨1/2, gn1⟩, ⟨1/2, lazySolver⟩, ⟨1/2, gn1⟩] 0 [![0]] ![0] (lspgMem .BDF2 3 2) ≠
      ideal (lspg .BDF2 trial2 (fun y t => if y 1 = 100 then .error .velocityFailureUnrecoverable else .ok ![y 0 * y 1, t + y 1]) (fun y _ => .ok !![y 1, y 0; 0, 1]))
        [⟨1/2, gn1⟩, ⟨1/2, lazySolver⟩, ⟨1/2, gn1⟩] 0 ![0] [] := by
  intro h
  have h2 := congrArg (fun l => l.map (fun r => r.queries.map (fun q => (q.ans.toOption.map (fun a => a.1 0)).getD 0))) h
  revert h2
  decide +kernel

/-- residual values seen by the solver in a run -/
def seen (l : List (Record ℚ (Fin 1 → ℚ) ((Fin 2 → ℚ) × Option (Matrix (Fin 2) (Fin 1) ℚ)))) : List (List ℚ) := l.map (fun r => r.queries.map (fun q => (q.ans.toOption.map (fun a => a.1 0)).getD 0))

/-- **C53 is false, end to end.** A problem used for a run of one step from `x = 0`, then for a run from `x = 1`: the first residual of the second run differs from that of a new problem, although the second run is
    the same.  (BDF1; the memory after the first run is that of a reachable problem.) -/
theorem C53_refuted :
    seen (drive (stepWith .BDF1 (defaultPolicy trial2 fom2)) [⟨1/2, gn1⟩] 0 [![1]] ![1] (driveEnd (stepWith .BDF1 (defaultPolicy trial2 fom2)) [⟨1/2, gn1⟩] 0 [![0]] ![0] (lspgMem .BDF1 2 1))) ≠
      seen (drive (stepWith .BDF1 (defaultPolicy trial2 fom2)) [⟨1/2, gn1⟩] 0 [![1]] ![1] (lspgMem .BDF1 2 1)) := by
  decide +kernel

/-- the same after a first run that failed in its first step -/
theorem C53_refuted_after_failure :
    seen (drive (stepWith .BDF1 (defaultPolicy trial2 fom2)) [⟨1/2, gn1⟩] 0 [![1]] ![1] (driveEnd (stepWith .BDF1 (defaultPolicy trial2 fom2)) [⟨1/2, gnFails⟩] 0 [![0]] ![0] (lspgMem .BDF1 2 1))) ≠
      seen (drive (stepWith .BDF1 (defaultPolicy trial2 fom2)) [⟨1/2, gn1⟩] 0 [![1]] ![1] (lspgMem .BDF1 2 1)) := by
  decide +kernel

/-- hypotheses of `C53_reuse_after_run_partial`: a first run of two steps -/
example : ((drive (stepWith .BDF2 (defaultPolicy trial2 fom2)) lspgAtts 0 [![0]] ![0] (lspgMem .BDF2 3 2)).getLast?.map (fun r => r.hist.length)) = some 3 := by decide +kernel
example : ∀ a ∈ lspgAtts, ∀ y, AsksFirst (a.solver y) := by
  simp only [lspgAtts, List.mem_cons, List.not_mem_nil, or_false]
  rintro a (rfl | rfl | rfl | rfl) y <;> trivial

/-- C65: a run in which the FOM fails: `x = 49/2` gives `y_1 = 100` -/
example : (drive (stepWith .BDF1 (defaultPolicy trial2 fom2)) [⟨1/2, gn1⟩] 0 [![49/2]] ![49/2] (lspgMem .BDF1 2 1)).map (fun r => r.stop) = [some (.exc .velocityFailureUnrecoverable)] := by decide +kernel
theorem gn1_passes (y : Fin 1 → ℚ) : PassesOnVelocityFailure (gn1 y) := by
  refine ⟨⟨y, rfl⟩, ?_⟩
  rintro (e | ⟨r, _ | j⟩)
  · cases e <;> trivial
  · trivial
  · trivial
example := C65_refuted_fom_failure_escapes fom2_is fom2_noTSF trial2 .BDF2 (Or.inr rfl) (lspgMem .BDF2 3 2) lspgMem_ready [⟨1/2, gn1⟩] (by simpa using gn1_honest) (by intro a ha y; rw [List.mem_singleton.1 ha]; trivial)
  (by simpa using gn1_passes) 0 ![49/2]

/-- C54: sample mesh with one of two points, updater `R := a R + b E y` -/
def upd2 : Updater ℚ (Fin 2) (Fin 1) (Fin 1) := ⟨fun R a y b => a • R + b • (!![0, 1] : Matrix (Fin 1) (Fin 2) ℚ).mulVec y, fun J a B b => a • J + b • ((!![0, 1] : Matrix (Fin 1) (Fin 2) ℚ) * B)⟩
example : UpdaterIs upd2 !![0, 1] := ⟨fun _ _ _ _ => rfl, fun _ _ _ _ => rfl⟩

/-! ### the theorems on concrete runs -/

example (mem) (h : createProblem .BDF2 ![9, 9] ![8, 8] (!![7; 7] : Matrix (Fin 2) (Fin 1) ℚ) (![0] : Fin 1 → ℚ) = .ok mem) := C52_new_problem_ready (m := Fin 2) .BDF2 ![9, 9] ![8, 8] !![7; 7] ![0] mem h
example (helper : Fin 2 → ℚ) (R : Fin 2 → ℚ) (J : Matrix (Fin 2) (Fin 1) ℚ) (rec : Fin 1 → ℚ) := C52_other_schemes_refused .CrankNicolson (by decide) (by decide) helper R J rec
def lspgRun2 := drive (stepWith .BDF2 (defaultPolicy trial2 fom2)) lspgAtts 0 [![0]] ![0] (lspgMem .BDF2 3 2)
theorem lspgRun2_length : lspgRun2.length = 4 := by decide +kernel
def lspgLast2 := lspgRun2[3]'(by rw [lspgRun2_length]; decide)
theorem lspgRun2_split : lspgRun2 = lspgRun2.take 3 ++ lspgLast2 :: lspgRun2.drop 4 := list_split _ 3 _
example := C52_every_evaluation fom2_is fom2_noTSF trial2 .BDF2 (Or.inr rfl) (lspgMem .BDF2 3 2) lspgMem_ready lspgAtts lspgAtts_ok.1 lspgAtts_ok.2 0 ![0] _ _ _ lspgRun2_split
example := C52_is_the_full_order_scheme trial2 .BDF2 (Or.inr rfl) (fun y (t : ℚ) => .ok ![y 0 * y 1, t + y 1]) (fun y _ => .ok !![y 1, y 0; 0, 1]) ![1] [![2]] 0 (1/2) ![3] true (by simp) (by simp)
/-- a problem with other contents in its buffers -/
def lspgMemUsed : SMem ℚ (Fin 1 → ℚ) (Fin 1 → ℚ) (LMem ℚ (Fin 2) (Fin 2) (Fin 1)) := ⟨5, 6, 9, ![4], [![3], ![2]], [], ⟨[![1, 1], ![2, 2], ![3, 3]], 8, ![1, 9], ![8, 1], !![1; 7]⟩⟩
example := C53_reuse_partial fom2_is fom2_noTSF trial2 .BDF2 (Or.inr rfl) lspgMemUsed (lspgMem .BDF2 3 2) (by simp [LspgReady, lspgMemUsed, Lemmas.Lspg.Sized, Lemmas.Lspg.numStates]) lspgMem_ready lspgAtts lspgAtts_ok.1 lspgAtts_ok.2 0 ![0]
/-- the second run after a run with one step: the FOM state of its start, `(1, 2)`, is not what the residual uses -/
example := C53_stale_state fom2_is trial2 ![5, 5] ![6, 6] ![7, 7] ![8, 8] !![9; 9] ![0] ![1] 0 (1/2) true ![24, 13/2] (by decide +kernel) !![6, 4; 0, 1] (by simp [lift, trial2]; decide +kernel)

/-- a hyper-reduced FOM: the second component only -/
def hypFom2 : Fom ℚ (Fin 2) (Fin 1) (Fin 1) where
  rhs := fun y t _ => .ok ![t + y 0 * y 1]
  applyJac := fun y B _ _ => .ok (!![y 1, y 0] * B)
  applyMM := fun _ B _ _ => .ok ((!![0, 3] : Matrix (Fin 1) (Fin 2) ℚ) * B)
theorem hypFom2_is : FomIs hypFom2 (fun y t => .ok ![t + y 0 * y 1]) (fun y _ => .ok !![y 1, y 0]) (fun _ _ => .ok !![0, 3]) := ⟨fun _ _ _ => rfl, fun _ _ _ _ => rfl, fun _ _ _ _ => rfl⟩
theorem upd2_is : UpdaterIs upd2 !![0, 1] := ⟨fun _ _ _ _ => rfl, fun _ _ _ _ => rfl⟩
/-- one Newton iteration with one equation -/
def one1 : (Fin 1 → ℚ) → SolveTree (Fin 1 → ℚ) ((Fin 1 → ℚ) × Option (Matrix (Fin 1) (Fin 1) ℚ)) := fun y =>
  .ask y true (fun a => match a with
    | .ok (r, some j) => .ret (fun i => y i - r 0 / j 0 0)
    | .ok (_, none) => .stop (.exc .outOfRange) y
    | .error _ => .stop (.exc .nonlinearSolveFailure) y)
theorem one1_honest (y : Fin 1 → ℚ) : Honest (one1 y) := by
  intro a ha
  rcases a with e | ⟨r, _ | j⟩ <;> simp [Honest]
def oneAtts : List (Attempt ℚ (Fin 1 → ℚ) ((Fin 1 → ℚ) × Option (Matrix (Fin 1) (Fin 1) ℚ))) := [⟨1/2, one1⟩, ⟨1/4, one1⟩, ⟨1/4, one1⟩]
theorem oneAtts_ok : (∀ a ∈ oneAtts, ∀ y, Honest (a.solver y)) ∧ (∀ a ∈ oneAtts, ∀ y, Asks (a.solver y)) := by
  constructor
  · simp only [oneAtts, List.mem_cons, List.not_mem_nil, or_false]
    rintro a (rfl | rfl | rfl) y <;> exact one1_honest y
  · simp only [oneAtts, List.mem_cons, List.not_mem_nil, or_false]
    rintro a (rfl | rfl | rfl) y <;> trivial
def hypMem2 : SMem ℚ (Fin 1 → ℚ) (Fin 1 → ℚ) (LMem ℚ (Fin 2) (Fin 1) (Fin 1)) := ⟨0, 0, 0, ![0], [![0], ![0]], [], ⟨[0, 0, 0], -1, ![9, 9], ![8], !![7]⟩⟩
theorem hypMem2_ready : LspgReady .BDF2 hypMem2 := by simp [LspgReady, hypMem2, Lemmas.Lspg.Sized, Lemmas.Lspg.numStates]
example := C54_run_is_ideal hypFom2_is (by simp) (by simp) upd2 !![0, 1] upd2_is trial2 .BDF2 (.inr rfl) hypMem2 hypMem2_ready oneAtts oneAtts_ok.1 oneAtts_ok.2 0 ![1]
example : ((drive (stepWith .BDF2 (hypredPolicy upd2 trial2 hypFom2)) oneAtts 0 [![1]] ![1] hypMem2).map (fun r => (r.hist.length, r.queries.length, r.stop))) = [(1, 1, none), (2, 1, none), (3, 1, none)] := by decide +kernel
example := C54_is_restriction (!![0, 1] : Matrix (Fin 1) (Fin 2) ℚ) .BDF2 trial2 (fun y (t : ℚ) => .ok ![y 0 * y 1, t + y 1]) (fun y _ => .ok !![y 1, y 0; 0, 1]) [![1], ![2]] 0 (1/2) ![3] true
def maskMem2 : SMem ℚ (Fin 1 → ℚ) (Fin 1 → ℚ) (LMem ℚ (Fin 2) (Fin 2) (Fin 1) × (Fin 1 → ℚ) × Matrix (Fin 1) (Fin 1) ℚ) := ⟨0, 0, 0, ![0], [![0], ![0]], [], ⟨[0, 0, 0], -1, ![9, 9], ![8, 8], !![7; 7]⟩, ![4], !![4]⟩
example := C55_masked_run_is_ideal fom2_is fom2_noTSF mask2_is trial2 .BDF2 (.inr rfl) maskMem2 (by simp [maskMem2, Lemmas.Lspg.Sized]) (by simp [maskMem2, Lemmas.Lspg.numStates]) (by simp [maskMem2]) oneAtts oneAtts_ok.1 oneAtts_ok.2 0 ![1]
example : ((drive (stepWith .BDF2 (maskDecorator mask2 (defaultPolicy trial2 fom2))) oneAtts 0 [![1]] ![1] maskMem2).map (fun r => (r.hist.length, r.queries.length, r.stop))) = [(1, 1, none), (2, 1, none), (3, 1, none)] := by decide +kernel
/-- scaling with the FOM state and the time -/
def timeScale2 {p : Type} : Scaler ℚ (Fin 2) p (Fin 1) := fun y t a => .ok ((y 0 + t) • a.1, a.2.map (fun J => (y 0 + t) • J))
example := C55_scaled_run_is_ideal fom2_is fom2_noTSF timeScale2 (by simp [timeScale2]) trial2 .BDF2 (.inr rfl) (lspgMem .BDF2 3 2) lspgMem_ready lspgAtts lspgAtts_ok.1 lspgAtts_ok.2 0 ![0]
example := C55_scaled_hypred_run_is_ideal hypFom2_is (by simp) (by simp) upd2 !![0, 1] upd2_is timeScale2 (by simp [timeScale2]) trial2 .BDF2 (.inr rfl) hypMem2 hypMem2_ready oneAtts oneAtts_ok.1 oneAtts_ok.2 0 ![1]

theorem lspgAtts_first : ∀ a ∈ lspgAtts, ∀ y, AsksFirst (a.solver y) := by
  simp only [lspgAtts, List.mem_cons, List.not_mem_nil, or_false]
  rintro a (rfl | rfl | rfl | rfl) y <;> trivial
theorem lspgMem_sizes : LspgSizes .BDF2 (lspgMem .BDF2 3 2) := by simp [LspgSizes, lspgMem, Lemmas.Lspg.Sized, Lemmas.Lspg.numStates]
theorem lspgRun2_end : lspgRun2 = lspgRun2.take 3 ++ [lspgLast2] := by
  have h := lspgRun2_split
  rwa [show lspgRun2.drop 4 = [] from List.drop_eq_nil_of_le (by rw [lspgRun2_length])] at h
example := C53_reuse_after_run_partial fom2_is fom2_noTSF trial2 .BDF2 (.inr rfl) (lspgMem .BDF2 3 2) (lspgMem .BDF2 3 2) lspgMem_ready lspgMem_sizes lspgAtts lspgAtts_first 0 ![0] _ _ lspgRun2_end (by decide +kernel)
  lspgAtts lspgAtts_ok.1 lspgAtts_ok.2 7 ![3]
def lspgRun1 := drive (stepWith .BDF2 (defaultPolicy trial2 fom2)) [⟨1/2, gn1⟩] 0 [![0]] ![0] (lspgMem .BDF2 3 2)
theorem lspgRun1_length : lspgRun1.length = 1 := by decide +kernel
def lspgLast1 := lspgRun1[0]'(by rw [lspgRun1_length]; decide)
theorem lspgRun1_end : lspgRun1 = [] ++ [lspgLast1] := by
  have h := list_split lspgRun1 0 (by rw [lspgRun1_length]; decide)
  rwa [show lspgRun1.drop (0 + 1) = [] from List.drop_eq_nil_of_le (by rw [lspgRun1_length])] at h
example := C53_step_one_end fom2_is trial2 .BDF2 (.inr rfl) (lspgMem .BDF2 3 2) lspgMem_sizes [⟨1/2, gn1⟩] (by simp only [List.mem_singleton]; rintro a rfl y; trivial) 0 ![0] _ _ lspgRun1_end (by decide +kernel)


/-- a FOM that reports the failure of a residual at `y_1 = 100` -/
def fomRes2 : Fom ℚ (Fin 2) (Fin 2) (Fin 1) := { fom2 with rhs := fun y t _ => if y 1 = 100 then .error (.residualEvaluationFailureUnrecoverable, 0) else .ok ![y 0 * y 1, t + y 1] }
theorem fomRes2_is : FomIs fomRes2 (fun y t => if y 1 = 100 then .error .residualEvaluationFailureUnrecoverable else .ok ![y 0 * y 1, t + y 1]) (fun y _ => .ok !![y 1, y 0; 0, 1]) (fun _ _ => .ok !![2, 0; 0, 3]) where
  rhs := fun y t b => by
    simp only [fomRes2]
    split <;> rfl
  jac := fun _ _ _ _ => rfl
  mm := fun _ _ _ _ => rfl
theorem fomRes2_noTSF : FomNoTSF (fun y (t : ℚ) => if y 1 = 100 then Except.error Exc.residualEvaluationFailureUnrecoverable else .ok ![y 0 * y 1, t + y 1]) (fun (y : Fin 2 → ℚ) (_ : ℚ) => .ok !![y 1, y 0; 0, 1]) := by
  constructor
  · intro y t; dsimp only; split <;> simp
  · intro y t; simp
theorem gn1_gives (y : Fin 1 → ℚ) : GivesUpOnResidualFailure (gn1 y) := by
  refine ⟨⟨y, rfl⟩, ?_⟩
  rintro (e | ⟨r, _ | j⟩)
  · cases e <;> trivial
  · trivial
  · trivial
/-- the second attempt starts where the FOM fails, the third goes on from there -/
def resRun := drive (stepWith .BDF2 (defaultPolicy trial2 fomRes2)) [⟨1/2, gn1⟩, ⟨1/4, gn1⟩] 0 [![49/2]] ![49/2] (lspgMem .BDF2 3 2)
theorem resRun_length : resRun.length = 2 := by decide +kernel
def resFirst := resRun[0]'(by rw [resRun_length]; decide)
def resQuery := resFirst.queries[0]'(by decide +kernel)
example := C65_solver_failure_partial fomRes2_is fomRes2_noTSF trial2 .BDF2 (.inr rfl) (lspgMem .BDF2 3 2) lspgMem_ready [⟨1/2, gn1⟩, ⟨1/4, gn1⟩] (by simpa using gn1_honest)
  (by simp only [List.mem_cons, List.not_mem_nil, or_false]; rintro a (rfl | rfl) y <;> trivial) (by simpa using gn1_gives) 0 ![49/2] resFirst (List.getElem_mem _) resQuery (List.getElem_mem _) (by decide +kernel)


end Pressio.Props
