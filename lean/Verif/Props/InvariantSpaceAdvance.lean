import Verif.Props.InvariantSpaceExamples
import Verif.Props.FullBasisAdvance

/-
  C104 for the advancers.
-/
namespace Pressio.Props
set_option autoImplicit false
set_option linter.unusedSectionVars false
open Pressio Matrix
open Pressio.Model.Nonlinear (Env Cfg Reg StopCrit Update Tag newContainer leastSquaresDiagnostics Ans SP)
open Pressio.Model.Advance Pressio.Spec.Nonlinear Pressio.Spec.SolverAlike Pressio.Spec.Coordinates Pressio.Spec.Units Pressio.Lemmas.Units
open Pressio.Lemmas.Nonlinear Pressio.Lemmas.SolverAlike Pressio.Lemmas.Coordinates
open Pressio.Model.Implicit Pressio.Spec.Implicit Pressio.Spec.SolverRun
open Pressio.Spec.AdvanceTarget Pressio.Spec.AdvanceDrive Pressio.Spec.CustomSchemes
open Pressio.Model.Explicit (Scheme)
open Pressio.Model.Galerkin Pressio.Spec.Galerkin Pressio.Model.Lspg Pressio.Spec.Lspg Pressio.Spec.Run Pressio.Lemmas.Lspg Pressio.Lemmas.Implicit Pressio.Lemmas.SolverTree Pressio.Lemmas.SolverRun

section
variable {K m n P P' p p' L L' M M' U : Type} [Field K] [Fintype m] [DecidableEq m] [Fintype n] [DecidableEq n]

theorem shown_reduced {A : Type} (φ : (n → K) → m → K) : shownIn (A := A) sameClock φ = shown φ := by
  funext r
  simp [shown, shownIn, sameClock_time, sameClock_size]

/-- **C104, advancers.** A reduced problem and the full-order model with their solvers, whose runs show the same full-order states (`C104_galerkin_implicit`, `C104_lspg`) for all step sizes in a set `D` in which the policy stays; and an observer that is shown full-order states (by the reduced problem through the trial space):
    a call of `advance_n_steps` ends in the same way with both, in the same full-order state, with the same calls of policy, stepper and observer in the same order, at the same full-order states. -/
theorem C104_n_steps (S : Trial K m n) (D : K → Prop) (step : ((m → K) → SolveTree (m → K) (Ans K P m)) → K → K → Int → Prog (SolveSt (m → K) M (Ans K P m)) Unit)
    (step' : ((n → K) → SolveTree (n → K) (Ans K P' n)) → K → K → Int → Prog (SolveSt (n → K) M' (Ans K P' n)) Unit) (solve : SP K P m p L Unit) (solve' : SP K P' n p' L' Unit) (start : K) (x0 : n → K) (mem : M) (mem' : M') (reg : Reg K P m p L) (reg' : Reg K P' n p' L')
    (h : ∀ dts, (∀ d ∈ dts, D d) → (driveObj step' solve' dts start [x0] x0 mem' reg').map (shown (lift S)) = (driveObj step solve dts start [lift S x0] (lift S x0) mem reg).map (shown id))
    (pol : Int → K → K → Prog U K) (pol5 : Int → K → DtVars K → Prog U (DtVars K)) (obs : Int → K → (m → K) → Prog U Unit) (hD : ∀ i t d u d' u', pol i t d u = .ok d' u' → D d') (N : Int) (u : U) :
    seenFom S (visible (advanceN 0 (userObjects (objStepper step' solve') pol pol5 (fun i t x => obs i t (lift S x))) N start ⟨((mem', reg'), u), x0, []⟩)) =
      visible (advanceN 0 (userObjects (objStepper step solve) pol pol5 obs) N start ⟨((mem, reg), u), lift S x0, []⟩) := by
  have hrun := C100_n_steps sameClock (lift S) D step step' solve solve' start x0 mem mem' reg reg'
    (fun dts hd => by
      rw [sameClock_time, show dts.map sameClock.size = dts by simp [funext sameClock_size], shown_reduced]
      exact (h dts hd).symm) pol pol pol5 pol5 obs (fun i t x => obs i t (lift S x)) (fun i t d u => by rw [sameClock_time, sameClock_size]; rcases pol i t d u with ⟨d', u'⟩ | ⟨e, u'⟩ <;> simp [sameClock_size])
    (fun i t y u => by rw [sameClock_time]) hD N u
  rw [sameClock_time] at hrun
  exact hrun.symm

/-- the same for the advancers to a target time, without and with recovery -/
theorem C104_target [LinearOrder K] [IsStrictOrderedRing K] (S : Trial K m n) (D : K → Prop) (step : ((m → K) → SolveTree (m → K) (Ans K P m)) → K → K → Int → Prog (SolveSt (m → K) M (Ans K P m)) Unit)
    (step' : ((n → K) → SolveTree (n → K) (Ans K P' n)) → K → K → Int → Prog (SolveSt (n → K) M' (Ans K P' n)) Unit) (solve : SP K P m p L Unit) (solve' : SP K P' n p' L' Unit) (start : K) (x0 : n → K) (mem : M) (mem' : M') (reg : Reg K P m p L) (reg' : Reg K P' n p' L')
    (h : ∀ dts, (∀ d ∈ dts, D d) → (driveObj step' solve' dts start [x0] x0 mem' reg').map (shown (lift S)) = (driveObj step solve dts start [lift S x0] (lift S x0) mem reg).map (shown id))
    (pol : Int → K → K → Prog U K) (pol5 : Int → K → DtVars K → Prog U (DtVars K)) (obs : Int → K → (m → K) → Prog U Unit)
    (hD : ∀ i t d u d' u', pol i t d u = .ok d' u' → D d') (hD5 : ∀ i t v u v' u', pol5 i t v u = .ok v' u' → D v'.dt) (hq : ∀ d q, D d → 1 < q → D (d / q)) (rec : Bool) (eps final : K) (fuel : Nat) (u : U) :
    seenFom S (visible (advanceT rec eps (userObjects (objStepper step' solve') pol pol5 (fun i t x => obs i t (lift S x))) fuel start final ⟨((mem', reg'), u), x0, []⟩)) =
      visible (advanceT rec eps (userObjects (objStepper step solve) pol pol5 obs) fuel start final ⟨((mem, reg), u), lift S x0, []⟩) := by
  have hrun := C100_target_partial sameClock (by simp [sameClock]) (lift S) D step step' solve solve' start x0 mem mem' reg reg'
    (fun dts hd => by
      rw [sameClock_time, show dts.map sameClock.size = dts by simp [funext sameClock_size], shown_reduced]
      exact (h dts hd).symm) pol pol pol5 pol5 obs (fun i t x => obs i t (lift S x)) (fun i t d u => by rw [sameClock_time, sameClock_size]; rcases pol i t d u with ⟨d', u'⟩ | ⟨e, u'⟩ <;> simp [sameClock_size])
    (fun i t v u => by rw [sameClock_time, sameClock_vars]; rcases pol5 i t v u with ⟨d', u'⟩ | ⟨e, u'⟩ <;> simp [sameClock_vars])
    (fun i t y u => by rw [sameClock_time]) hD hD5 hq rec eps eps (sameClock_size eps).symm final fuel u
  rw [sameClock_time, sameClock_time, show (sameClock : Clock K).time = id from funext sameClock_time] at hrun
  exact hrun.symm
end


noncomputable def regLs1 : Reg ℝ (Fin 2) (Fin 1) Unit Unit := regOf (Fin 2) leastSquaresDiagnostics

theorem cells_lspg (dts : List ℝ) (h : ∀ d ∈ dts, 0 < d) :
    (driveObj (stepWith .BDF2 (defaultPolicy (inStep 3) cellsFom)) (Model.Nonlinear.lsSolve env21 cfgStates .gn) dts 0 [![1]] ![1] memLspg1 regLs1).map (shown (lift (inStep 3))) =
      (driveObj (stdStep .BDF2 (fomSystem cells cellsJac)) (Model.Nonlinear.newtonSolve envInv cfgStates) dts 0 [lift (inStep 3) ![1]] (lift (inStep 3) ![1]) memBdf regInv).map (shown id) :=
  C104_lspg cells_is cells_noTSF (by simp [cells]) (by simp [cellsJac]) _ (fomSystem_is _ _) (inStep 3) (inStep_injective 3 (by norm_num)) (cells_invariant 3 (by norm_num)) .BDF2 (.inr rfl) memBdf (by simp [Ready, memBdf, freshPMem])
    memLspg1 (by refine ⟨?_, ?_, ?_⟩ <;> simp [memLspg1, Lemmas.Lspg.Sized, Lemmas.Lspg.numStates]) envInv env21 (by simp [envInv]) (by intro A b s; simp [env21]) envInv_solves inverts rfl (fun _ => Real.sqrt_nonneg _)
    cfgStates cfgStates ⟨rfl, rfl, rfl, .inr ⟨rfl, rfl, .inl ⟨rfl, rfl⟩⟩⟩ (by simp [cfgStates]) rfl (fun _ _ => rfl) regInv regLs1 (fun _ => .created _ rfl) (fun _ => .created _ rfl)
    dts (fun dt hd => cells_regular .BDF2 (.inr (.inl rfl)) dt (h dt hd)) 0 ![1]

example := C104_n_steps (inStep 3) (fun d => 0 < d) _ _ _ _ 0 ![1] memBdf memLspg1 _ _ cells_lspg (fun i _ _ u => .ok (1 / (i ^ 2 + 1)) u) (fun _ _ v => pure v) (fun _ t y (u : ℝ) => .ok () (u + t + y 0)) (by intro i t d u d' u' h; cases h; positivity) 6 0
example (rec : Bool) := C104_target (inStep 3) (fun d => 0 < d) _ _ _ _ 0 ![1] memBdf memLspg1 _ _ cells_lspg (fun i _ _ u => .ok (1 / (i ^ 2 + 1)) u) (fun _ _ _ u => .ok ⟨1/4, 1/8, 2⟩ u) (fun _ t y (u : ℝ) => .ok () (u + t + y 0)) (by intro i t d u d' u' h; cases h; positivity)
  (by intro i t d u d' u' h; cases h; norm_num) (fun d q hd hq => by positivity) rec (1/1000) 3 10 0
end Pressio.Props
