import Verif.Props.ImplicitNewtonRuns
import Verif.Props.MassMatrixRuns
import Verif.Spec.MassMatrixNewton
import Verif.Props.GaussNewtonConvergence
import Verif.Props.AdvanceImplicit
import Mathlib.Analysis.SpecialFunctions.Trigonometric.Deriv
import Mathlib.Analysis.SpecialFunctions.Trigonometric.Bounds

/-
  C94: implicit runs with mass matrix and a Newton object.
-/
namespace Pressio.Props
set_option autoImplicit false
set_option linter.unusedSectionVars false
open Pressio Matrix Pressio.Model.Implicit Pressio.Spec.Implicit Pressio.Lemmas.Implicit Pressio.Spec.SolverRun Pressio.Lemmas.SolverRun Pressio.Lemmas.SolverTree Pressio.Spec.MassMatrix Pressio.Spec.MassMatrixNewton Pressio.Spec.Reduced
open Pressio.Model.Explicit (Scheme)
open Pressio.Model.Nonlinear (Env Cfg Reg Ans SP StopCrit Update newtonSolve)
open Pressio.Spec.Nonlinear Pressio.Spec.NewtonConvergence Pressio.Spec.ImplicitNewtonRuns
open Pressio.Model.Advance (DtVars advanceT advanceN)
open Pressio.Spec.AdvanceTarget (observations)
open Pressio.Spec.AdvanceDrive (userObjects objStepper Obliging Patient)

local notation "⟪" x ", " y "⟫" => @inner ℝ _ _ x y

section
variable {K n p L Mt : Type} [Field K] [LinearOrder K] [IsStrictOrderedRing K] [Fintype n] [DecidableEq n] [Fintype p]

/-- the user's system answers with the Jacobian exactly when it is asked for it -/
def WellTypedMM (sys : IMMSystem K (n → K) (Matrix n n K) Mt) : Prop := ∀ y t w M f j, sys.eval y t w = .ok (M, f, j) → j.isSome = w

theorem textbookMM_wellTyped (act : Mt → (n → K) → n → K) (asJac : Mt → Matrix n n K) (name : Scheme) (sys : IMMSystem K (n → K) (Matrix n n K) Mt) (hw : WellTypedMM sys) (hist : List (n → K)) (t dt : K) :
    WellTyped (textbookMM act asJac name sys hist t dt) := by
  intro x w r j h
  rcases he : sys.eval x (t + dt) w with ⟨e, junk⟩ | ⟨M, f, j'⟩
  · unfold textbookMM at h
    split at h <;> first | (rw [he] at h; cases h) | skip
    · cases h
  · have hj := hw _ _ _ _ _ _ he
    unfold textbookMM at h
    split at h <;> first | (rw [he] at h; simp only [Except.ok.injEq, Prod.mk.injEq] at h; rw [← h.2, Option.isSome_map]; exact hj) | skip
    · cases h

/-- what the storage of the stepper contains between two steps -/
def MassInv (name : Scheme) : K → List (n → K) → SMem K (n → K) (n → K) (MMMem (n → K) Mt) → Prop := fun _ hist m =>
  match name with
  | .BDF1 => m.states.length = 1 ∧ True
  | .BDF2 => Pre2 hist m.states ∧ True
  | _ => False

theorem mm_refines (act : Mt → (n → K) → n → K) (asJac : Mt → Matrix n n K) (name : Scheme) (hname : name = .BDF1 ∨ name = .BDF2) (sys : IMMSystem K (n → K) (Matrix n n K) Mt) :
    Refines (mmStep act asJac name sys) (textbookMM act asJac name sys) (MassInv name) := by
  rcases hname with rfl | rfl
  · exact refines_bdf1 _ _ _ (policy_mm_bdf1 act asJac sys)
  · exact refines_bdf2 _ _ _ (policy_mm_bdf2 act asJac sys)

theorem readyMM_inv (name : Scheme) (m : SMem K (n → K) (n → K) (MMMem (n → K) Mt)) (h : ReadyMM name m) (t : K) (y0 : n → K) : MassInv name t [y0] m := by
  cases name <;> simp only [ReadyMM] at h
  case BDF1 => exact ⟨h, trivial⟩
  case BDF2 =>
    obtain ⟨a, b, hab⟩ := List.length_eq_two.1 h
    exact ⟨⟨a, b, hab, by simp⟩, trivial⟩

theorem massReady_name (name : Scheme) (m : SMem K (n → K) (n → K) (MMMem (n → K) Mt)) (h : ReadyMM name m) : name = .BDF1 ∨ name = .BDF2 := by
  cases name <;> simp_all [ReadyMM]

/-- **C94.** In a run of a stepper with mass matrix (possibly dependent on state and time) with a Newton solver object (any options, any past of the object), every attempt is a call of that object on the textbook equations with mass
    matrix of the accepted states, starting from the last accepted state. -/
theorem C94_run_is_newton_solves (act : Mt → (n → K) → n → K) (asJac : Mt → Matrix n n K) (name : Scheme) (sys : IMMSystem K (n → K) (Matrix n n K) Mt) (hsys : NoTSFMM sys) (hw : WellTypedMM sys)
    (mem : SMem K (n → K) (n → K) (MMMem (n → K) Mt)) (hmem : ReadyMM name mem)
    (env : Env K n n p L) (he : ∀ A b s, (env.linJ A b s).stop? ≠ some (.exc .timeStepFailure)) (cfg : Cfg K) (reg : Reg K n n p L) (hreg : NewtonIdle reg)
    (dts : List K) (t0 : K) (y0 : n → K) (pre post : List (Record K (n → K) (Ans K n n))) (r : Record K (n → K) (Ans K n n))
    (hr : driveObj (mmStep act asJac name sys) (Model.Nonlinear.newtonSolve env cfg) dts t0 [y0] y0 mem reg = pre ++ r :: post) :
    ∃ yn older s, accepted y0 pre = yn :: older ∧ r.hist = yn :: older ∧ r.t = timeAfter t0 pre ∧ r.dt ∈ dts ∧ NewtonObj s ∧ s.x = yn ∧
      (let res := runNewton env cfg (sysOf (textbookMM act asJac name sys (yn :: older) r.t r.dt)) s
       res.state.log = s.log ++ r.queries ∧ r.stop = stepStop res.stop? ∧ r.y = if res.stop? = some (.exc .nonlinearSolveFailure) then yn else res.state.x) := by
  have hname := massReady_name name mem hmem
  obtain ⟨yn, older, reg', h1, h2, h3, h4, h5, h6⟩ := driveObj_record (fun _ => True) (mmStep act asJac name sys) (textbookMM act asJac name sys) (MassInv name)
    (refinesOn_true (mm_refines act asJac name hname sys)) (textbookMM_ne act asJac name sys hsys) (Model.Nonlinear.newtonSolve env cfg) (fine_newtonSolve env he cfg) (fun _ _ => trivial)
    NewtonIdle (fun reg y hist t dt h => newtonIdle_run env cfg _ (textbookMM_wellTyped act asJac name sys hw hist t dt) reg y h)
    (fun atts ha t y mem hI => drive_eq_ideal _ _ _ (mm_refines act asJac name hname sys) (textbookMM_ne act asJac name sys hsys) atts
      (fun a haa y => by obtain ⟨rg, -, hs⟩ := ha a haa; rw [hs]; exact honest_solverOf _ (fine_newtonSolve env he cfg) rg y) t y [] mem hI)
    dts t0 y0 mem reg (readyMM_inv name mem hmem t0 y0) hreg pre post r hr
  refine ⟨yn, older, { reg' with x := yn }, h2, h3, h4, h5, h1 yn, rfl, ?_⟩
  unfold runNewton
  rw [toF_sysOf _ (textbookMM_wellTyped act asJac name sys hw _ _ _)]
  exact h6

/-! ### Constant mass matrix -/

theorem sysOf_textbookMM (name : Scheme) (hname : name = .BDF1 ∨ name = .BDF2) (M : Matrix n n K) (f : (n → K) → K → (n → K)) (Df : (n → K) → K → Matrix n n K) (yn : n → K) (older : List (n → K))
    (t dt : K) : sysOf (textbookMM Matrix.mulVec id name (massSystem M f Df) (yn :: older) t dt) = Sys.ofFun (massRes name M f (yn :: older) t dt) (massJac name M Df (yn :: older) t dt) := by
  rcases hname with rfl | rfl
  · rfl
  · cases older <;> rfl

/-- **C94**, for a problem `M y' = f(y, t)` given by a matrix and functions and a linear solver whose answer is a function of matrix and right-hand side: every attempt is accepted and the new state is the Newton iterate `N^k y_n` for the
    equation of the scheme with mass matrix, `k` the first one at which the criterion is met. -/
theorem C94_newton_iterates (name : Scheme) (M : Matrix n n K) (f : (n → K) → K → (n → K)) (Df : (n → K) → K → Matrix n n K) (mem : SMem K (n → K) (n → K) (MMMem (n → K) (Matrix n n K))) (hmem : ReadyMM name mem)
    (env : Env K n n p L) (cfg : Cfg K) (sol : Matrix n n K → (n → K) → n → K) (tick : L → L) (hlin : ∀ A b c l, env.linJ A b (c, l) = .ok () (sol A b, tick l))
    (hcrit : rootCriterion cfg.stop = true) (hupd : cfg.update = .Standard) (hmax : cfg.maxIters < int32Max) (reg : Reg K n n p L) (hreg : NewtonIdle reg)
    (dts : List K) (t0 : K) (y0 : n → K) (pre post : List (Record K (n → K) (Ans K n n))) (r : Record K (n → K) (Ans K n n))
    (hr : driveObj (mmStep Matrix.mulVec id name (massSystem M f Df)) (Model.Nonlinear.newtonSolve env cfg) dts t0 [y0] y0 mem reg = pre ++ r :: post) :
    ∃ yn older, accepted y0 pre = yn :: older ∧ r.hist = yn :: older ∧ r.t = timeAfter t0 pre ∧
      (let R := massRes name M f (yn :: older) r.t r.dt
       let J := massJac name M Df (yn :: older) r.t r.dt
       let N : (n → K) → n → K := fun x => x + -sol (J x) (R x)
       let nrm : (n → K) → Norms K := fun x => ⟨env.normM (R x), env.normN (-sol (J x) (R x)), 0, 0⟩
       let met := fun k : Nat => below cfg.stop cfg.tol (nrm yn) (nrm (N^[k] yn)) = true
       let evaluated := fun k : Nat => (List.range k).map (fun a => (⟨N^[a] yn, true, .ok (R (N^[a] yn), some (J (N^[a] yn)))⟩ : Query (n → K) (Ans K n n)))
       r.stop = none ∧
       ((∃ k : Nat, (k : Int) < cfg.maxIters ∧ met k ∧ (∀ j < k, ¬ met j) ∧ r.y = N^[k] yn ∧ r.queries = evaluated (k + 1)) ∨
        ((∀ k : Nat, (k : Int) < cfg.maxIters → ¬ met k) ∧ r.y = N^[cfg.maxIters.toNat] yn ∧ r.queries = evaluated cfg.maxIters.toNat))) := by
  have hsys : NoTSFMM (massSystem M f Df) := by intro y t w e junk h; cases h
  have hw : WellTypedMM (massSystem M f Df) := by
    intro y t w M' g j h
    simp only [massSystem, Except.ok.injEq, Prod.mk.injEq] at h
    rw [← h.2.2]; cases w <;> rfl
  obtain ⟨yn, older, s, h2, h3, h4, h5, h6, h7, h8, h9, h10⟩ := C94_run_is_newton_solves Matrix.mulVec id name (massSystem M f Df) hsys hw mem hmem env
    (fun A b s => by obtain ⟨c, l⟩ := s; rw [hlin]; simp) cfg reg hreg dts t0 y0 pre post r hr
  rw [sysOf_textbookMM name (massReady_name name mem hmem)] at h8 h9 h10
  obtain ⟨g1, g2, g3⟩ := C30_newton_iterates env cfg (massRes name M f (yn :: older) r.t r.dt) (massJac name M Df (yn :: older) r.t r.dt) sol tick hlin hcrit hupd hmax s h6
  rw [h7] at g2 g3
  refine ⟨yn, older, h2, h3, h4, ?_⟩
  rw [g1] at h9 h10
  intro R J N nrm met evaluated
  refine ⟨h9, ?_⟩
  have h10 : r.y = (runNewton env cfg (Sys.ofFun R J) s).state.x := by simpa using h10
  classical
  by_cases hex : ∃ k : Nat, (k : Int) < cfg.maxIters ∧ met k
  · have hf := Nat.find_spec hex
    have hb : ∀ j < Nat.find hex, ¬ met j := fun j hj hmet => Nat.find_min hex hj ⟨by omega, hmet⟩
    obtain ⟨f1, f2, -⟩ := g2 (Nat.find hex) hf.1 hf.2 hb
    refine .inl ⟨Nat.find hex, hf.1, hf.2, hb, h10.trans f1, ?_⟩
    rw [h8] at f2
    exact List.append_cancel_left f2
  · have hb := fun k hk hmet => hex ⟨k, hk, hmet⟩
    obtain ⟨f1, f2, -⟩ := g3 hb
    refine .inr ⟨hb, h10.trans f1, ?_⟩
    rw [h8] at f2
    exact List.append_cancel_left f2

theorem massRes_eq (name : Scheme) (hname : name = .BDF1 ∨ name = .BDF2) (M : Matrix n n K) (f g : (n → K) → K → n → K) (hg : ∀ y t, M *ᵥ g y t = f y t) (hist : List (n → K)) (t dt : K) (y : n → K) :
    massRes name M f hist t dt y = M *ᵥ schemeRes name g hist t dt y := by
  rcases hname with rfl | rfl <;> rcases hist with _ | ⟨a, _ | ⟨b, l⟩⟩ <;> simp [massRes, schemeRes, ← hg, Matrix.mulVec_sub, Matrix.mulVec_smul, Matrix.mulVec_add]

theorem massJac_eq (name : Scheme) (hname : name = .BDF1 ∨ name = .BDF2) (M : Matrix n n K) (Df Dg : (n → K) → K → Matrix n n K) (hg : ∀ y t, M * Dg y t = Df y t) (hist : List (n → K)) (t dt : K) (y : n → K) :
    massJac name M Df hist t dt y = M * schemeJac name Dg hist t dt y := by
  rcases hname with rfl | rfl <;> rcases hist with _ | ⟨a, _ | ⟨b, l⟩⟩ <;> simp [massJac, schemeJac, schemeCoef, ← hg, Matrix.mul_sub]

theorem accepted_of_seen {Y A : Type} (y0 : Y) {l l' : List (Record K Y A)} (h : l.map seen = l'.map seen) : accepted y0 l = accepted y0 l' := by
  have key : ∀ l : List (Record K Y A), accepted y0 l = (((l.map seen).filter (fun s => s.stop.isNone)).map (·.y)).reverse ++ [y0] := by
    intro l
    simp [accepted, List.filter_map, List.map_map, Function.comp_def, seen]
  rw [key, key, h]

theorem timeAfter_of_seen {Y A : Type} (t0 : K) {l l' : List (Record K Y A)} (h : l.map seen = l'.map seen) : timeAfter t0 l = timeAfter t0 l' := by
  have key : ∀ l : List (Record K Y A), timeAfter t0 l = ((l.map seen).filter (fun s => s.stop.isNone)).foldl (fun t s => t + s.dt) t0 := by
    intro l
    simp [timeAfter, List.filter_map, List.foldl_map, Function.comp_def, seen]
  rw [key, key, h]
end

section Real
variable {n p L : Type} [Fintype n] [DecidableEq n] [Fintype p]

/-- **C94, the mass matrix as preconditioner.**  With a constant mass matrix, a Newton object and `M g = f`, `M Dg = Df`, the run is the run without mass matrix on `y' = g(y, t)`, `Dg`, with a solver that multiplies residual and
    Jacobian by `M` before it takes norms and solves linear systems: same times, same sizes, same points at which the equations are evaluated, same states. -/
theorem C94_same_run (name : Scheme) (M : Matrix n n ℝ) (f g : (n → ℝ) → ℝ → (n → ℝ)) (Df Dg : (n → ℝ) → ℝ → Matrix n n ℝ) (hg : ∀ y t, M *ᵥ g y t = f y t) (hDg : ∀ y t, M * Dg y t = Df y t)
    (mem : SMem ℝ (n → ℝ) (n → ℝ) (MMMem (n → ℝ) (Matrix n n ℝ))) (hmem : ReadyMM name mem) (mem' : SMem ℝ (n → ℝ) (n → ℝ) PMem) (hmem' : Ready name mem')
    (env : Env ℝ n n p L) (cfg : Cfg ℝ) (sol : Matrix n n ℝ → (n → ℝ) → n → ℝ) (tick : L → L) (hlin : ∀ A b c l, env.linJ A b (c, l) = .ok () (sol A b, tick l))
    (hcrit : rootCriterion cfg.stop = true) (hupd : cfg.update = .Standard) (hmax : cfg.maxIters < int32Max) (reg reg' : Reg ℝ n n p L) (hreg : NewtonIdle reg) (hreg' : NewtonIdle reg')
    (dts : List ℝ) (t0 : ℝ) (y0 : n → ℝ) :
    (driveObj (mmStep Matrix.mulVec id name (massSystem M f Df)) (Model.Nonlinear.newtonSolve env cfg) dts t0 [y0] y0 mem reg).map seen =
    (driveObj (stdStep name (odeSystem g Dg)) (Model.Nonlinear.newtonSolve (scaledEnv M env) cfg) dts t0 [y0] y0 mem' reg').map seen := by
  have hname := massReady_name name mem hmem
  have itA := C94_newton_iterates name M f Df mem hmem env cfg sol tick hlin hcrit hupd hmax reg hreg dts t0 y0
  have hlin' : ∀ A b c l, (scaledEnv M env).linJ A b (c, l) = .ok () (sol (M * A) (M *ᵥ b), tick l) := fun A b c l => hlin _ _ _ _
  have itB := C66_newton_iterates name g Dg mem' hmem' (scaledEnv M env) cfg (fun A b => sol (M * A) (M *ᵥ b)) tick hlin' hcrit hupd hmax reg' hreg' dts t0 y0
  have hsys : NoTSF (odeSystem g Dg) := by intro y t w e junk h; cases h
  have hw : WellTypedRhs (odeSystem g Dg) := by
    intro y t w g j h
    simp only [odeSystem, Except.ok.injEq, Prod.mk.injEq] at h
    rw [← h.2]; cases w <;> rfl
  have ruB := C66_run_is_newton_solves name (odeSystem g Dg) hsys hw mem' hmem' (scaledEnv M env) (fun A b s => by obtain ⟨c, l⟩ := s; rw [hlin']; simp) cfg reg' hreg' dts t0 y0
  have allA := driveObj_all (mmStep Matrix.mulVec id name (massSystem M f Df)) (Model.Nonlinear.newtonSolve env cfg) dts t0 [y0] y0 mem reg
  have allB := driveObj_all (stdStep name (odeSystem g Dg)) (Model.Nonlinear.newtonSolve (scaledEnv M env) cfg) dts t0 [y0] y0 mem' reg'
  generalize driveObj (mmStep Matrix.mulVec id name (massSystem M f Df)) (Model.Nonlinear.newtonSolve env cfg) dts t0 [y0] y0 mem reg = A at *
  generalize driveObj (stdStep name (odeSystem g Dg)) (Model.Nonlinear.newtonSolve (scaledEnv M env) cfg) dts t0 [y0] y0 mem' reg' = B at *
  have dA : A.map (·.dt) = dts := allA (fun r hr => by
    obtain ⟨q1, q2, hq⟩ := List.append_of_mem hr
    obtain ⟨_, _, -, -, -, h, -⟩ := itA q1 q2 r hq
    exact h)
  have dB : B.map (·.dt) = dts := allB (fun r hr => by
    obtain ⟨q1, q2, hq⟩ := List.append_of_mem hr
    obtain ⟨_, _, -, -, h, -⟩ := itB q1 q2 r hq
    exact h)
  have lA : A.length = dts.length := by rw [← dA, List.length_map]
  have lB : B.length = dts.length := by rw [← dB, List.length_map]
  have main : ∀ j, (A.take j).map seen = (B.take j).map seen := by
    intro j
    induction j with
    | zero => simp
    | succ j ih =>
      by_cases hj : j < dts.length
      · have hjA : j < A.length := by omega
        have hjB : j < B.length := by omega
        have eA : A = A.take j ++ A[j] :: A.drop (j + 1) := by rw [← List.drop_eq_getElem_cons hjA, List.take_append_drop]
        have eB : B = B.take j ++ B[j] :: B.drop (j + 1) := by rw [← List.drop_eq_getElem_cons hjB, List.take_append_drop]
        have hdt : A[j].dt = B[j].dt := by
          have h1 : (A.map (·.dt))[j]'(by simpa using hjA) = (B.map (·.dt))[j]'(by simpa using hjB) := by simp only [dA, dB]
          simpa using h1
        rw [List.take_succ_eq_append_getElem hjA, List.take_succ_eq_append_getElem hjB, List.map_append, List.map_append, ih]
        congr 1
        simp only [List.map_cons, List.map_nil, List.cons.injEq, and_true]
        generalize A[j] = a at *
        generalize B[j] = b at *
        obtain ⟨yn, older, a1, a2, a3, a4, a5⟩ := itA _ _ a eA
        obtain ⟨yn', older', b1, b3, b4, b5⟩ := itB _ _ b eB
        obtain ⟨yn2, older2, -, c0, c1, -⟩ := ruB _ _ b eB
        have hacc := accepted_of_seen y0 ih
        have htim := timeAfter_of_seen t0 ih
        obtain ⟨rfl, rfl⟩ : yn = yn' ∧ older = older' := List.cons.inj (by rw [← a1, hacc, b1])
        have c1 : b.hist = yn :: older := c1.trans (c0.symm.trans b1)
        have ht : a.t = b.t := by rw [a3, htim, b3]
        rw [ht, hdt] at a5
        have eR : massRes name M f (yn :: older) b.t b.dt = fun y => M *ᵥ schemeRes name g (yn :: older) b.t b.dt y := funext fun y => massRes_eq name hname M f g hg _ _ _ y
        have eJ : massJac name M Df (yn :: older) b.t b.dt = fun y => M * schemeJac name Dg (yn :: older) b.t b.dt y := funext fun y => massJac_eq name hname M Df Dg hDg _ _ _ y
        rw [eR, eJ] at a5
        have hend : a.y = b.y ∧ a.queries.map (fun q => (q.x, q.wantJ)) = b.queries.map (fun q => (q.x, q.wantJ)) := by
          rcases a5 with ⟨k, k1, k2, k3, k4, k5⟩ | ⟨k3, k4, k5⟩ <;> rcases b5 with ⟨k', k1', k2', k3', k4', k5'⟩ | ⟨k3', k4', k5'⟩
          · have : k = k' := by
              rcases lt_trichotomy k k' with h | h | h
              · exact absurd k2 (k3' k h)
              · exact h
              · exact absurd k2' (k3 k' h)
            subst this
            rw [k4, k4', k5, k5']
            refine ⟨rfl, ?_⟩
            rw [List.map_map, List.map_map]; rfl
          · exact absurd k2 (k3' k k1)
          · exact absurd k2' (k3 k' k1')
          · rw [k4, k4', k5, k5']
            refine ⟨rfl, ?_⟩
            rw [List.map_map, List.map_map]; rfl
        simp only [seen, a2, c1, ht, hdt, a4, b4, hend.1, hend.2]
      · rw [List.take_of_length_le (by omega), List.take_of_length_le (by omega)]
        rw [List.take_of_length_le (by omega), List.take_of_length_le (by omega)] at ih
        exact ih
  have := main dts.length
  rwa [List.take_of_length_le (by omega), List.take_of_length_le (by omega)] at this
/-! ### Convergence -/

section Bounds
variable {M : Matrix n n ℝ} {μ : ℝ}

theorem _root_.Pressio.Spec.MassMatrix.SPD.isUnit (h : SPD M μ) : IsUnit M :=
  Matrix.mulVec_injective_iff_isUnit.1 (fun x y hxy => by rw [← h.inv_mul x, ← h.inv_mul y]; exact congrArg _ hxy)

theorem _root_.Pressio.Spec.MassMatrix.SPD.mul_inv_mul (h : SPD M μ) (A : Matrix n n ℝ) : M * (M⁻¹ * A) = A := by
  rw [← Matrix.mul_assoc, Matrix.mul_nonsing_inv _ ((Matrix.isUnit_iff_isUnit_det _).1 h.isUnit), Matrix.one_mul]

/-- the norm of the residual with mass matrix, for residuals without -/
noncomputable def massNorm (M : Matrix n n ℝ) : (n → ℝ) →ₗ[ℝ] EuclideanSpace ℝ n := (eu n) ∘ₗ M.mulVecLin

theorem massNorm_apply (M : Matrix n n ℝ) (v : n → ℝ) : massNorm M v = eu n (M *ᵥ v) := rfl

theorem eu_dot (v w : n → ℝ) : ⟪eu n v, eu n w⟫ = v ⬝ᵥ w := by
  change (WithLp.ofLp (eu n w)) ⬝ᵥ star (WithLp.ofLp (eu n v)) = _
  rw [star_trivial, dotProduct_comm]; rfl

theorem _root_.Pressio.Spec.MassMatrix.SPD.le_massNorm (h : SPD M μ) (v : n → ℝ) : μ * ‖eu n v‖ ≤ ‖massNorm M v‖ := by
  have h1 : μ * (‖eu n v‖ * ‖eu n v‖) ≤ ‖eu n v‖ * ‖massNorm M v‖ := by
    rw [← real_inner_self_eq_norm_mul_norm, eu_dot]
    refine (h.coercive v).trans ?_
    rw [← eu_dot]; exact real_inner_le_norm _ _
  rcases (norm_nonneg (eu n v)).eq_or_lt with h0 | h0
  · rw [← h0, mul_zero]; exact norm_nonneg _
  · exact le_of_mul_le_mul_left (by linarith) h0

theorem scaled_exact (h : SPD M μ) {env : Env ℝ n n p L} {cfg : Cfg ℝ} {sol : Matrix n n ℝ → (n → ℝ) → n → ℝ} {tick : L → L} (hN : ExactNewton (eu n) env cfg sol tick) :
    ExactNewton (massNorm M) (scaledEnv M env) cfg (fun A b => sol (M * A) (M *ᵥ b)) tick := by
  refine ⟨?_, fun v => hN.norm _, fun A b c l => hN.lin _ _ _ _, ?_, hN.crit, hN.upd, hN.max⟩
  · intro x y hxy
    rw [massNorm_apply, massNorm_apply] at hxy
    rw [← h.inv_mul x, ← h.inv_mul y, hN.inj hxy]
  · intro A b hA
    have h1 : IsUnit (M * A).det := by
      rw [Matrix.det_mul]; exact ((Matrix.isUnit_iff_isUnit_det _).1 h.isUnit).mul hA
    have h2 := hN.exact (M * A) (M *ᵥ b) h1
    rw [← Matrix.mulVec_mulVec] at h2
    rw [← h.inv_mul (A *ᵥ _), h2, h.inv_mul]

theorem scaled_tame (h : SPD M μ) {f : (n → ℝ) → ℝ → n → ℝ} {Df : (n → ℝ) → ℝ → Matrix n n ℝ} {U : Set (n → ℝ)} {a b H β γ F : ℝ} (hf : TameMass M f Df U a b H β γ F) :
    Tame (massNorm M) (fun y t => Matrix.mulVecLin M⁻¹ (f y t)) (fun y t => M⁻¹ * Df y t) U a b H β (γ / μ ^ 2) F := by
  have hμ := h.pos
  refine ⟨?_, ?_, ?_, ?_, hf.β0, by have := hf.γ0; positivity, hf.F0⟩
  · intro t ht y hy
    have h1 := (LinearMap.toContinuousLinearMap (Matrix.mulVecLin M⁻¹)).hasFDerivAt.comp y (hf.jac t ht y hy)
    refine h1.congr_fderiv ?_
    ext v i
    simp [Matrix.mulVec_mulVec]
  · intro t ht x hx y hy v
    have h1 := hf.lip t ht x hx y hy v
    rw [massNorm_apply, ← Matrix.mulVec_mulVec, ← Matrix.mulVec_mulVec, Matrix.mulVec_sub, h.mul_inv, h.mul_inv]
    refine h1.trans ?_
    have h2 := h.le_massNorm (x - y)
    have h3 := h.le_massNorm v
    have hγ := hf.γ0
    have h4 : γ * ‖eu n (x - y)‖ * ‖eu n v‖ = γ / μ ^ 2 * (μ * ‖eu n (x - y)‖) * (μ * ‖eu n v‖) := by field_simp
    rw [h4]
    gcongr
  · intro t ht y hy
    rw [massNorm_apply, Matrix.mulVecLin_apply, h.mul_inv]
    exact hf.bound t ht y hy
  · intro t ht y hy c hc v
    have e : M * (1 - c • (M⁻¹ * Df y t)) = M - c • Df y t := by rw [Matrix.mul_sub, Matrix.mul_one, Matrix.mul_smul, h.mul_inv_mul]
    rw [massNorm_apply, massNorm_apply, Matrix.mulVec_mulVec, e]
    exact hf.inv t ht y hy c hc v

theorem split_of_seen {Y A : Type} {l l' pre post : List (Record ℝ Y A)} (h : l.map seen = l'.map seen) (e : l = pre ++ post) :
    ∃ pre' post', l' = pre' ++ post' ∧ pre.map seen = pre'.map seen := by
  refine ⟨l'.take pre.length, l'.drop pre.length, (List.take_append_drop _ _).symm, ?_⟩
  rw [List.map_take, ← h, ← List.map_take, e, List.take_left]

/-- **C94, core.** -/
theorem mass_run_core (name : Scheme) (h : SPD M μ) {ι : (n → ℝ) →ₗ[ℝ] EuclideanSpace ℝ n} (hι : ∀ x y, ⟪ι x, ι y⟫ = x ⬝ᵥ (M *ᵥ y)) (f : (n → ℝ) → ℝ → (n → ℝ)) (Df : (n → ℝ) → ℝ → Matrix n n ℝ)
    (mem : SMem ℝ (n → ℝ) (n → ℝ) (MMMem (n → ℝ) (Matrix n n ℝ))) (hmem : ReadyMM name mem)
    (env : Env ℝ n n p L) (cfg : Cfg ℝ) (sol : Matrix n n ℝ → (n → ℝ) → n → ℝ) (tick : L → L) (hN : ExactNewton (eu n) env cfg sol tick) (reg : Reg ℝ n n p L) (hreg : NewtonIdle reg) (dts : List ℝ) (t0 : ℝ) (y0 : n → ℝ)
    (H T : ℝ) (hdt : ∀ h ∈ dts, 0 ≤ h ∧ h ≤ H) (hT : t0 + dts.sum ≤ T) (U : Set (n → ℝ)) (β γ F : ℝ) (hf : TameMass M f Df U t0 T H β γ F) (k : Nat) (hA : Affords cfg H β (γ / μ ^ 2) F k)
    (P : List (n → ℝ) → ℝ → Prop)
    (hP : ∀ (mem' : SMem ℝ (n → ℝ) (n → ℝ) PMem) (atts : List (Attempt ℝ (n → ℝ) (Ans ℝ n n))), (∀ a ∈ atts, a.dt ∈ dts) →
      ConvergedRun ι (cfg.tol / Real.sqrt μ) name (odeSystem (fun y t => Matrix.mulVecLin M⁻¹ (f y t)) (fun y t => M⁻¹ * Df y t)) (fun y t => Matrix.mulVecLin M⁻¹ (f y t)) mem' atts t0 y0 →
      (∀ r ∈ drive (stdStep name (odeSystem (fun y t => Matrix.mulVecLin M⁻¹ (f y t)) (fun y t => M⁻¹ * Df y t))) atts t0 [y0] y0 mem', r.t + r.dt ≤ T) →
      ∀ pre post, drive (stdStep name (odeSystem (fun y t => Matrix.mulVecLin M⁻¹ (f y t)) (fun y t => M⁻¹ * Df y t))) atts t0 [y0] y0 mem' = pre ++ post → P (accepted y0 pre) (timeAfter t0 pre))
    (hU : ∀ y l t, P (y :: l) t → l.length ≤ dts.length → t ∈ Set.Icc t0 T → ∀ x, ‖ι x - ι y‖ ≤ 2 * β * (H * F + cfg.tol / 2) / Real.sqrt μ → x ∈ U) :
    let run := driveObj (mmStep Matrix.mulVec id name (massSystem M f Df)) (newtonSolve env cfg) dts t0 [y0] y0 mem reg
    run.map (·.dt) = dts ∧ (∀ r ∈ run, r.stop = none ∧ r.queries.length ≤ k + 1) ∧ ∀ pre post, run = pre ++ post → P (accepted y0 pre) (timeAfter t0 pre) := by
  intro run
  have hs := Real.sqrt_pos.2 h.pos
  have hbound : ∀ v, ‖ι v‖ ≤ 1 / Real.sqrt μ * ‖massNorm M v‖ := fun v => by
    have := (h.invertible hι).bound 0 0 (M *ᵥ v)
    rwa [Matrix.mulVecLin_apply, h.inv_mul] at this
  let mem' : SMem ℝ (n → ℝ) (n → ℝ) PMem := ⟨mem.tnp1, mem.dt, mem.step, mem.recovery, mem.states, mem.rhs, ⟨0⟩⟩
  have hmem' : Ready name mem' := by cases name <;> simp_all [ReadyMM, Ready, mem']
  have hsame : run.map seen = _ := C94_same_run name M f (fun y t => Matrix.mulVecLin M⁻¹ (f y t)) Df (fun y t => M⁻¹ * Df y t) (fun y t => h.mul_inv _) (fun y t => h.mul_inv_mul _) mem hmem mem' hmem' env cfg sol tick hN.lin (by rw [hN.crit]; rfl) hN.upd hN.max
    reg reg hreg hreg dts t0 y0
  have core := newton_run_core name (massNorm M) (fun y t => Matrix.mulVecLin M⁻¹ (f y t)) (fun y t => M⁻¹ * Df y t) mem' hmem' (scaledEnv M env) cfg _ tick (scaled_exact h hN) reg hreg dts t0 y0 H T hdt hT U β (γ / μ ^ 2) F (scaled_tame h hf) k hA P
    (fun atts ha R ht => hP mem' atts ha ⟨R.noTSF, R.evaluates, R.ready, R.honest, fun r hr hst => by
      obtain ⟨q, hq, Q, j, h1, h2, h3⟩ := R.converged r hr hst
      refine ⟨q, hq, Q, j, h1, h2, (hbound Q).trans ?_⟩
      rw [one_div_mul_eq_div]; gcongr⟩ ht)
    (fun y l t hPy hl ht x hx => hU y l t hPy hl ht x (by
      rw [← map_sub] at hx ⊢
      refine (hbound _).trans ?_
      rw [one_div_mul_eq_div]; gcongr))
  obtain ⟨c1, c2, c3⟩ := core
  generalize driveObj (stdStep name (odeSystem (fun y t => Matrix.mulVecLin M⁻¹ (f y t)) (fun y t => M⁻¹ * Df y t))) (newtonSolve (scaledEnv M env) cfg) dts t0 [y0] y0 mem' reg = run' at *
  refine ⟨?_, ?_, ?_⟩
  · have := congrArg (List.map (fun s : Seen ℝ (n → ℝ) => s.dt)) hsame
    rw [List.map_map, List.map_map] at this
    exact (this.trans c1 : _)
  · intro r hr
    have h1 : seen r ∈ run'.map seen := hsame ▸ List.mem_map.2 ⟨r, hr, rfl⟩
    obtain ⟨r', hr', e⟩ := List.mem_map.1 h1
    obtain ⟨d1, d2⟩ := c2 r' hr'
    have e1 : r'.stop = r.stop := congrArg Seen.stop e
    have e2 : (r'.queries.map (fun q => (q.x, q.wantJ))).length = (r.queries.map (fun q => (q.x, q.wantJ))).length := congrArg (fun s => (Seen.points s).length) e
    rw [List.length_map, List.length_map] at e2
    exact ⟨e1 ▸ d1, e2 ▸ d2⟩
  · intro pre post e
    obtain ⟨pre', post', e', hp⟩ := split_of_seen hsame e
    rw [accepted_of_seen y0 hp, timeAfter_of_seen t0 hp]
    exact c3 pre' post' e'

/-- **C94, core for convergence.** -/
theorem mass_run_convergence (name : Scheme) (h : SPD M μ) {ι : (n → ℝ) →ₗ[ℝ] EuclideanSpace ℝ n} (hι : ∀ x y, ⟪ι x, ι y⟫ = x ⬝ᵥ (M *ᵥ y)) (f : (n → ℝ) → ℝ → (n → ℝ)) (Df : (n → ℝ) → ℝ → Matrix n n ℝ)
    (mem : SMem ℝ (n → ℝ) (n → ℝ) (MMMem (n → ℝ) (Matrix n n ℝ))) (hmem : ReadyMM name mem)
    (env : Env ℝ n n p L) (cfg : Cfg ℝ) (sol : Matrix n n ℝ → (n → ℝ) → n → ℝ) (tick : L → L) (hN : ExactNewton (eu n) env cfg sol tick) (reg : Reg ℝ n n p L) (hreg : NewtonIdle reg) (dts : List ℝ) (t0 : ℝ) (y0 : n → ℝ)
    (H T : ℝ) (hdt : ∀ h ∈ dts, 0 ≤ h ∧ h ≤ H) (hT : t0 + dts.sum ≤ T) (U : Set (n → ℝ)) (β γ F : ℝ) (hf : TameMass M f Df U t0 T H β γ F) (k : Nat) (hA : Affords cfg H β (γ / μ ^ 2) F k) (ψ : ℝ → n → ℝ) (err : ℝ → ℝ → ℝ) (B : ℝ)
    (hB : ∀ t ∈ Set.Icc t0 T, ∀ l : Nat, l ≤ dts.length → err t l ≤ B) (hU : WithinEnergy M (ψ '' Set.Icc t0 T) (B + 2 * β * (H * F + cfg.tol / 2) / Real.sqrt μ) ⊆ U) (S : ℝ → Prop) (hS : ∀ h ∈ dts, S h)
    (hC : ∀ (mem' : SMem ℝ (n → ℝ) (n → ℝ) PMem) (atts : List (Attempt ℝ (n → ℝ) (Ans ℝ n n))),
      ConvergedRun ι (cfg.tol / Real.sqrt μ) name (odeSystem (fun y t => Matrix.mulVecLin M⁻¹ (f y t)) (fun y t => M⁻¹ * Df y t)) (fun y t => Matrix.mulVecLin M⁻¹ (f y t)) mem' atts t0 y0 →
      StepsIn S T (drive (stdStep name (odeSystem (fun y t => Matrix.mulVecLin M⁻¹ (f y t)) (fun y t => M⁻¹ * Df y t))) atts t0 [y0] y0 mem') →
      ∀ pre post, drive (stdStep name (odeSystem (fun y t => Matrix.mulVecLin M⁻¹ (f y t)) (fun y t => M⁻¹ * Df y t))) atts t0 [y0] y0 mem' = pre ++ post →
        ∃ y l, accepted y0 pre = y :: l ∧ ‖ι y - ι (ψ (timeAfter t0 pre))‖ ≤ err (timeAfter t0 pre) l.length) :
    let run := driveObj (mmStep Matrix.mulVec id name (massSystem M f Df)) (newtonSolve env cfg) dts t0 [y0] y0 mem reg
    run.map (·.dt) = dts ∧ (∀ r ∈ run, r.stop = none ∧ r.queries.length ≤ k + 1) ∧ ∀ pre post, run = pre ++ post →
      ∃ y l, accepted y0 pre = y :: l ∧ energy M (y - ψ (timeAfter t0 pre)) ≤ err (timeAfter t0 pre) l.length := by
  have hen : ∀ x y, energy M (x - y) = ‖ι x - ι y‖ := fun x y => by rw [← map_sub, energy_of_map hι]
  simp only [hen]
  refine mass_run_core name h hι f Df mem hmem env cfg sol tick hN reg hreg dts t0 y0 H T hdt hT U β γ F hf k hA (fun hist t => ∃ y l, hist = y :: l ∧ ‖ι y - ι (ψ t)‖ ≤ err t l.length) ?_ ?_
  · intro mem' atts ha R ht
    refine hC mem' atts R (fun r hr _ => ?_)
    obtain ⟨a, haa, hda⟩ := drive_dt name ι _ _ _ mem' atts t0 y0 R r hr
    exact ⟨hS _ (hda ▸ ha a haa), (hdt _ (hda ▸ ha a haa)).1, ht r hr⟩
  · rintro y l t ⟨y', l', e, h⟩ hl ht x hx
    obtain ⟨rfl, rfl⟩ := List.cons.inj e
    refine hU ⟨ψ t, ⟨t, ht, rfl⟩, ?_⟩
    rw [hen]
    have h1 := norm_sub_le_norm_sub_add_norm_sub (ι x) (ι y) (ι (ψ t))
    have h2 := hB t ht _ hl
    linarith

theorem _root_.Pressio.Spec.MassMatrix.SPD.lipschitz (h : SPD M μ) {ι : (n → ℝ) →ₗ[ℝ] EuclideanSpace ℝ n} (hι : ∀ x y, ⟪ι x, ι y⟫ = x ⬝ᵥ (M *ᵥ y)) {f : (n → ℝ) → ℝ → n → ℝ} {L' : ℝ} (hL : 0 ≤ L')
    (hlip : ∀ y z t, ‖eu n (f y t - f z t)‖ ≤ L' * ‖eu n (y - z)‖) (y z : n → ℝ) (t : ℝ) : ‖ι (Matrix.mulVecLin M⁻¹ (f y t)) - ι (Matrix.mulVecLin M⁻¹ (f z t))‖ ≤ L' / μ * ‖ι y - ι z‖ := by
  have hs := Real.sqrt_pos.2 h.pos
  rw [← map_sub, ← map_sub, ← map_sub]
  refine ((h.invertible hι).bound 0 0 _).trans ?_
  have h1 : Real.sqrt μ * ‖eu n (y - z)‖ ≤ ‖ι (y - z)‖ := by
    rw [energy_of_map hι, energy]
    refine Real.le_sqrt_of_sq_le ?_
    rw [mul_pow, Real.sq_sqrt h.pos.le, sq, ← real_inner_self_eq_norm_mul_norm, eu_dot]
    exact h.coercive _
  have h2 := hlip y z t
  calc 1 / Real.sqrt μ * ‖eu n (f y t - f z t)‖ ≤ 1 / Real.sqrt μ * (L' * ‖eu n (y - z)‖) := by gcongr
    _ = L' / (Real.sqrt μ * Real.sqrt μ) * (Real.sqrt μ * ‖eu n (y - z)‖) := by field_simp
    _ = L' / μ * (Real.sqrt μ * ‖eu n (y - z)‖) := by rw [Real.mul_self_sqrt h.pos.le]
    _ ≤ L' / μ * ‖ι (y - z)‖ := by have := h.pos; gcongr

variable (hM : SPD M μ) (f : (n → ℝ) → ℝ → (n → ℝ)) (Df : (n → ℝ) → ℝ → Matrix n n ℝ) (mem : SMem ℝ (n → ℝ) (n → ℝ) (MMMem (n → ℝ) (Matrix n n ℝ)))
  (env : Env ℝ n n p L) (cfg : Cfg ℝ) (sol : Matrix n n ℝ → (n → ℝ) → n → ℝ) (tick : L → L) (hN : ExactNewton (eu n) env cfg sol tick) (reg : Reg ℝ n n p L) (hreg : NewtonIdle reg)

include hM hN hreg

/-- **C94, BDF1 on monotone problems** `M y' = f(y, t)`, `M` symmetric positive definite, for any stiffness. The run of a Newton object through all step sizes completes: every step converges after `k + 1` evaluations at most, and
    the states converge to the solution in the energy norm with order one.  `f` has to be tame near the solution only. -/
theorem C94_bdf1_monotone (hmem : ReadyMM .BDF1 mem) (dts : List ℝ) (t0 : ℝ) (y0 : n → ℝ)
    (H T : ℝ) (hH : 0 ≤ H) (hdt : ∀ h ∈ dts, 0 ≤ h ∧ h ≤ H) (hT : t0 + dts.sum ≤ T) (U : Set (n → ℝ)) (β γ F : ℝ) (hf : TameMass M f Df U t0 T H β γ F) (k : Nat) (hA : Affords cfg H β (γ / μ ^ 2) F k)
    (hmono : ∀ y z t, (f y t - f z t) ⬝ᵥ (y - z) ≤ 0) (ψ ψ' : ℝ → n → ℝ) (C : ℝ) (hC : 0 ≤ C) (hψ : Solves M f ψ ψ' t0 T) (hs : Smooth1 M ψ' C t0 T)
    (hU : WithinEnergy M (ψ '' Set.Icc t0 T) (energy M (y0 - ψ t0) + (dts.length * (cfg.tol / Real.sqrt μ) + (T - t0) * (C * H / 2)) + 2 * β * (H * F + cfg.tol / 2) / Real.sqrt μ) ⊆ U) :
    let run := driveObj (mmStep Matrix.mulVec id .BDF1 (massSystem M f Df)) (newtonSolve env cfg) dts t0 [y0] y0 mem reg
    run.map (·.dt) = dts ∧ (∀ r ∈ run, r.stop = none ∧ r.queries.length ≤ k + 1) ∧ ∀ pre post, run = pre ++ post → ∃ y l, accepted y0 pre = y :: l ∧
      energy M (y - ψ (timeAfter t0 pre)) ≤ energy M (y0 - ψ t0) + (l.length * (cfg.tol / Real.sqrt μ) + (timeAfter t0 pre - t0) * (C * H / 2)) := by
  obtain ⟨ι, hι⟩ := hM.exists_map
  exact mass_run_convergence .BDF1 hM hι f Df mem hmem env cfg sol tick hN reg hreg dts t0 y0 H T hdt hT U β γ F hf k hA ψ
    (fun t l => energy M (y0 - ψ t0) + (l * (cfg.tol / Real.sqrt μ) + (t - t0) * (C * H / 2))) _
    (fun t ht l hl => by
      have h1 : (l:ℝ) ≤ dts.length := by exact_mod_cast hl
      have h2 := hA.tol0
      have h3 := ht.2
      have h4 : 0 ≤ t - t0 := sub_nonneg.2 ht.1
      gcongr) hU (fun h => h ≤ H) (fun h hh => (hdt h hh).2)
    (fun mem' atts R hS pre post e => by
      have := C76_bdf1_monotone ι _ _ _ mem' atts t0 y0 R H T hS (hM.monotone hmono hι) ψ C hC hH (hM.solvesIn hψ ι) (hM.smooth1In hψ hs hι) pre post e
      simpa only [← map_sub, energy_of_map hι] using this)

/-- **C94, BDF2 on monotone problems**, constant steps, order two. -/
theorem C94_bdf2_monotone (hmem : ReadyMM .BDF2 mem) (N : Nat) (t0 : ℝ) (y0 : n → ℝ)
    (η T : ℝ) (hη : 0 ≤ η) (hT : t0 + N * η ≤ T) (U : Set (n → ℝ)) (β γ F : ℝ) (hf : TameMass M f Df U t0 T η β γ F) (k : Nat) (hA : Affords cfg η β (γ / μ ^ 2) F k)
    (hmono : ∀ y z t, (f y t - f z t) ⬝ᵥ (y - z) ≤ 0) (ψ ψ' ψ'' : ℝ → n → ℝ) (C2 C3 : ℝ) (hC2 : 0 ≤ C2) (hC3 : 0 ≤ C3) (hψ : Solves M f ψ ψ' t0 T) (hs : Smooth2 M f ψ ψ'' C2 C3 t0 T)
    (hU : WithinEnergy M (ψ '' Set.Icc t0 T) (Real.sqrt 2 * energy M (y0 - ψ t0) + 3 * C2 * η ^ 2 + 6 * (N * (cfg.tol / Real.sqrt μ)) + (T - t0) * (4 * C3 * η ^ 2) + 2 * β * (η * F + cfg.tol / 2) / Real.sqrt μ) ⊆ U) :
    let run := driveObj (mmStep Matrix.mulVec id .BDF2 (massSystem M f Df)) (newtonSolve env cfg) (List.replicate N η) t0 [y0] y0 mem reg
    run.map (·.dt) = List.replicate N η ∧ (∀ r ∈ run, r.stop = none ∧ r.queries.length ≤ k + 1) ∧ ∀ pre post, run = pre ++ post → ∃ y l, accepted y0 pre = y :: l ∧
      energy M (y - ψ (timeAfter t0 pre)) ≤ Real.sqrt 2 * energy M (y0 - ψ t0) + 3 * C2 * η ^ 2 + 6 * (l.length * (cfg.tol / Real.sqrt μ)) + (timeAfter t0 pre - t0) * (4 * C3 * η ^ 2) := by
  obtain ⟨ι, hι⟩ := hM.exists_map
  exact mass_run_convergence .BDF2 hM hι f Df mem hmem env cfg sol tick hN reg hreg (List.replicate N η) t0 y0 η T (fun h hh => by rw [List.eq_of_mem_replicate hh]; exact ⟨hη, le_rfl⟩) (by simpa using hT) U β γ F hf k hA ψ
    (fun t l => Real.sqrt 2 * energy M (y0 - ψ t0) + 3 * C2 * η ^ 2 + 6 * (l * (cfg.tol / Real.sqrt μ)) + (t - t0) * (4 * C3 * η ^ 2)) _
    (fun t ht l hl => by
      have h1 : (l:ℝ) ≤ N := by rw [List.length_replicate] at hl; exact_mod_cast hl
      have h2 := hA.tol0
      have h3 := ht.2
      gcongr) hU (fun h => h = η) (fun h hh => List.eq_of_mem_replicate hh)
    (fun mem' atts R hS pre post e => by
      have := C76_bdf2_monotone ι _ _ _ mem' atts t0 y0 R η T hS (hM.monotone hmono hι) ψ _ C2 C3 hC2 hC3 (hM.solvesIn hψ ι) (smooth2In_of hs hι) pre post e
      simpa only [← map_sub, energy_of_map hι] using this)

/-- **C94, BDF1 on Lipschitz problems.** -/
theorem C94_bdf1 (hmem : ReadyMM .BDF1 mem) (dts : List ℝ) (t0 : ℝ) (y0 : n → ℝ)
    (H T : ℝ) (hH : 0 ≤ H) (hdt : ∀ h ∈ dts, 0 ≤ h ∧ h ≤ H) (hT : t0 + dts.sum ≤ T) (U : Set (n → ℝ)) (β γ F : ℝ) (hf : TameMass M f Df U t0 T H β γ F) (k : Nat) (hA : Affords cfg H β (γ / μ ^ 2) F k)
    (L' : ℝ) (hL : 0 ≤ L') (hHL : H * (L' / μ) ≤ 1 / 2) (hlip : ∀ y z t, ‖eu n (f y t - f z t)‖ ≤ L' * ‖eu n (y - z)‖) (ψ ψ' : ℝ → n → ℝ) (C : ℝ) (hC : 0 ≤ C) (hψ : Solves M f ψ ψ' t0 T) (hs : Smooth1 M ψ' C t0 T)
    (hU : WithinEnergy M (ψ '' Set.Icc t0 T) (Real.exp (2 * (L' / μ) * (T - t0)) * (energy M (y0 - ψ t0) + (dts.length * (cfg.tol / Real.sqrt μ) + (T - t0) * (C * H / 2))) + 2 * β * (H * F + cfg.tol / 2) / Real.sqrt μ) ⊆ U) :
    let run := driveObj (mmStep Matrix.mulVec id .BDF1 (massSystem M f Df)) (newtonSolve env cfg) dts t0 [y0] y0 mem reg
    run.map (·.dt) = dts ∧ (∀ r ∈ run, r.stop = none ∧ r.queries.length ≤ k + 1) ∧ ∀ pre post, run = pre ++ post → ∃ y l, accepted y0 pre = y :: l ∧
      energy M (y - ψ (timeAfter t0 pre)) ≤ Real.exp (2 * (L' / μ) * (timeAfter t0 pre - t0)) * (energy M (y0 - ψ t0) + (l.length * (cfg.tol / Real.sqrt μ) + (timeAfter t0 pre - t0) * (C * H / 2))) := by
  obtain ⟨ι, hι⟩ := hM.exists_map
  have hμ := hM.pos
  exact mass_run_convergence .BDF1 hM hι f Df mem hmem env cfg sol tick hN reg hreg dts t0 y0 H T hdt hT U β γ F hf k hA ψ
    (fun t l => Real.exp (2 * (L' / μ) * (t - t0)) * (energy M (y0 - ψ t0) + (l * (cfg.tol / Real.sqrt μ) + (t - t0) * (C * H / 2)))) _
    (fun t ht l hl => by
      have h1 : (l:ℝ) ≤ dts.length := by exact_mod_cast hl
      have h2 := hA.tol0
      have h3 := ht.2
      have h4 : 0 ≤ t - t0 := sub_nonneg.2 ht.1
      have h5 : 0 ≤ energy M (y0 - ψ t0) := Real.sqrt_nonneg _
      gcongr) hU (fun h => h ≤ H) (fun h hh => (hdt h hh).2)
    (fun mem' atts R hS pre post e => by
      have := C76_bdf1_lipschitz ι _ _ _ mem' atts t0 y0 R H T hS (L' / μ) (by positivity) hHL (hM.lipschitz hι hL hlip) ψ C hC hH (hM.solvesIn hψ ι) (hM.smooth1In hψ hs hι) pre post e
      simpa only [← map_sub, energy_of_map hι] using this)

/-- **C94, BDF2 on Lipschitz problems**, constant steps. -/
theorem C94_bdf2 (hmem : ReadyMM .BDF2 mem) (N : Nat) (t0 : ℝ) (y0 : n → ℝ)
    (η T : ℝ) (hη : 0 ≤ η) (hT : t0 + N * η ≤ T) (U : Set (n → ℝ)) (β γ F : ℝ) (hf : TameMass M f Df U t0 T η β γ F) (k : Nat) (hA : Affords cfg η β (γ / μ ^ 2) F k)
    (L' : ℝ) (hL : 0 ≤ L') (hHL : 6 * (η * (L' / μ)) ≤ 1 / 2) (hlip : ∀ y z t, ‖eu n (f y t - f z t)‖ ≤ L' * ‖eu n (y - z)‖)
    (ψ ψ' ψ'' : ℝ → n → ℝ) (C2 C3 : ℝ) (hC2 : 0 ≤ C2) (hC3 : 0 ≤ C3) (hψ : Solves M f ψ ψ' t0 T) (hs : Smooth2 M f ψ ψ'' C2 C3 t0 T)
    (hU : WithinEnergy M (ψ '' Set.Icc t0 T) (Real.exp (12 * (L' / μ) * (T - t0)) * (Real.sqrt 2 * energy M (y0 - ψ t0) + 3 * C2 * η ^ 2 + 6 * (N * (cfg.tol / Real.sqrt μ)) + (T - t0) * (4 * C3 * η ^ 2)) +
      2 * β * (η * F + cfg.tol / 2) / Real.sqrt μ) ⊆ U) :
    let run := driveObj (mmStep Matrix.mulVec id .BDF2 (massSystem M f Df)) (newtonSolve env cfg) (List.replicate N η) t0 [y0] y0 mem reg
    run.map (·.dt) = List.replicate N η ∧ (∀ r ∈ run, r.stop = none ∧ r.queries.length ≤ k + 1) ∧ ∀ pre post, run = pre ++ post → ∃ y l, accepted y0 pre = y :: l ∧
      energy M (y - ψ (timeAfter t0 pre)) ≤
        Real.exp (12 * (L' / μ) * (timeAfter t0 pre - t0)) * (Real.sqrt 2 * energy M (y0 - ψ t0) + 3 * C2 * η ^ 2 + 6 * (l.length * (cfg.tol / Real.sqrt μ)) + (timeAfter t0 pre - t0) * (4 * C3 * η ^ 2)) := by
  obtain ⟨ι, hι⟩ := hM.exists_map
  have hμ := hM.pos
  exact mass_run_convergence .BDF2 hM hι f Df mem hmem env cfg sol tick hN reg hreg (List.replicate N η) t0 y0 η T (fun h hh => by rw [List.eq_of_mem_replicate hh]; exact ⟨hη, le_rfl⟩) (by simpa using hT) U β γ F hf k hA ψ
    (fun t l => Real.exp (12 * (L' / μ) * (t - t0)) * (Real.sqrt 2 * energy M (y0 - ψ t0) + 3 * C2 * η ^ 2 + 6 * (l * (cfg.tol / Real.sqrt μ)) + (t - t0) * (4 * C3 * η ^ 2))) _
    (fun t ht l hl => by
      have h1 : (l:ℝ) ≤ N := by rw [List.length_replicate] at hl; exact_mod_cast hl
      have h2 := hA.tol0
      have h3 := ht.2
      have h4 : 0 ≤ t - t0 := sub_nonneg.2 ht.1
      have h5 : 0 ≤ energy M (y0 - ψ t0) := Real.sqrt_nonneg _
      gcongr) hU (fun h => h = η) (fun h hh => List.eq_of_mem_replicate hh)
    (fun mem' atts R hS pre post e => by
      have := C76_bdf2_lipschitz ι _ _ _ mem' atts t0 y0 R η T hS (L' / μ) (by positivity) hHL (hM.lipschitz hι hL hlip) ψ _ C2 C3 hC2 hC3 (hM.solvesIn hψ ι) (smooth2In_of hs hι) pre post e
      simpa only [← map_sub, energy_of_map hι] using this)

/-- **C94, stability.** BDF1 and BDF2 on dissipative problems (`f(y,t)·y ≤ 0`): the run completes and the energy of the states stays bounded. -/
theorem C94_dissipative (name : Scheme) (hmem : ReadyMM name mem) (dts : List ℝ) (t0 : ℝ) (y0 : n → ℝ)
    (H T : ℝ) (hdt : ∀ h ∈ dts, 0 ≤ h ∧ h ≤ H) (hT : t0 + dts.sum ≤ T) (U : Set (n → ℝ)) (β γ F : ℝ) (hf : TameMass M f Df U t0 T H β γ F) (k : Nat) (hA : Affords cfg H β (γ / μ ^ 2) F k)
    (hdiss : ∀ y t, f y t ⬝ᵥ y ≤ 0) (hU : ∀ x, energy M x ≤ Real.sqrt 2 * energy M y0 + 6 * (dts.length * (cfg.tol / Real.sqrt μ)) + 2 * β * (H * F + cfg.tol / 2) / Real.sqrt μ → x ∈ U) :
    let run := driveObj (mmStep Matrix.mulVec id name (massSystem M f Df)) (newtonSolve env cfg) dts t0 [y0] y0 mem reg
    run.map (·.dt) = dts ∧ (∀ r ∈ run, r.stop = none ∧ r.queries.length ≤ k + 1) ∧ ∀ pre post, run = pre ++ post → ∃ y l, accepted y0 pre = y :: l ∧ energy M y ≤ Real.sqrt 2 * energy M y0 + 6 * (l.length * (cfg.tol / Real.sqrt μ)) ∧
      (name = .BDF1 → energy M y ≤ energy M y0 + l.length * (cfg.tol / Real.sqrt μ)) := by
  obtain ⟨ι, hι⟩ := hM.exists_map
  have htol : 0 ≤ cfg.tol / Real.sqrt μ := div_nonneg hA.tol0 (Real.sqrt_nonneg _)
  have hd2 : ∀ y t, ⟪ι (Matrix.mulVecLin M⁻¹ (f y t)), ι y⟫ ≤ 0 := fun y t => by
    rw [Matrix.mulVecLin_apply, hM.inner_inv hι]; exact hdiss y t
  simp only [← energy_of_map hι] at hU ⊢
  refine mass_run_core name hM hι f Df mem hmem env cfg sol tick hN reg hreg dts t0 y0 H T hdt hT U β γ F hf k hA
    (fun hist _ => ∃ y l, hist = y :: l ∧ ‖ι y‖ ≤ Real.sqrt 2 * ‖ι y0‖ + 6 * (l.length * (cfg.tol / Real.sqrt μ)) ∧ (name = .BDF1 → ‖ι y‖ ≤ ‖ι y0‖ + l.length * (cfg.tol / Real.sqrt μ))) ?_ ?_
  · intro mem' atts ha R ht pre post e
    have hd : ∀ a ∈ atts, 0 ≤ a.dt := fun a haa => (hdt _ (ha a haa)).1
    rcases massReady_name name mem hmem with rfl | rfl
    · obtain ⟨y, l, g1, g2⟩ := C75_bdf1 ι _ _ _ mem' atts t0 y0 R hd hd2 pre post e
      refine ⟨y, l, g1, ?_, fun _ => g2⟩
      have h1 : (1:ℝ) ≤ Real.sqrt 2 := Real.one_le_sqrt.2 (by norm_num)
      have h3 := mul_le_mul_of_nonneg_right h1 (norm_nonneg (ι y0))
      have h4 : 0 ≤ (l.length : ℝ) * (cfg.tol / Real.sqrt μ) := by positivity
      linarith
    · obtain ⟨y, l, g1, g2⟩ := C75_bdf2 ι _ _ _ mem' atts t0 y0 R hd hd2 pre post e
      exact ⟨y, l, g1, g2, fun h => by cases h⟩
  · rintro y l t ⟨y', l', e, h, -⟩ hl ht x hx
    obtain ⟨rfl, rfl⟩ := List.cons.inj e
    refine hU x ?_
    have h1 : ‖ι x‖ ≤ ‖ι x - ι y‖ + ‖ι y‖ := by simpa using norm_add_le (ι x - ι y) (ι y)
    have h2 : (l.length : ℝ) * (cfg.tol / Real.sqrt μ) ≤ dts.length * (cfg.tol / Real.sqrt μ) := by
      have : (l.length : ℝ) ≤ dts.length := by exact_mod_cast hl
      gcongr
    linarith

/-- **C94, advance_to_target_point** (with and without recovery), BDF1 on monotone problems: for a policy that sets sizes in `[δ, H]` the call returns at a time in `[final - eps, final + H]` after at most `N` steps, and every observed state
    is near the solution in the energy norm. -/
theorem C94_target {V : Type} (hmem : ReadyMM .BDF1 mem) (rec : Bool) (eps δ H : ℝ) (heps : 0 ≤ eps) (hδ : 0 < δ) (hH : 0 ≤ H) (pol3 : Int → ℝ → ℝ → Prog V ℝ) (pol5 : Int → ℝ → DtVars ℝ → Prog V (DtVars ℝ))
    (obs : Int → ℝ → (n → ℝ) → Prog V Unit) (hpol : Obliging pol3 pol5 rec (fun d => δ ≤ d ∧ d ≤ H)) (hobs : Patient obs) (t0 final : ℝ) (hlt : t0 < final) (N fuel : Nat) (hNδ : final - t0 ≤ N * δ) (hNi : (N : Int) < int32Max)
    (hfuel : N ≤ fuel) (y0 : n → ℝ) (u : V) (U : Set (n → ℝ)) (β γ F : ℝ) (hf : TameMass M f Df U t0 (final + H) H β γ F) (k : Nat) (hA : Affords cfg H β (γ / μ ^ 2) F k)
    (hmono : ∀ y z t, (f y t - f z t) ⬝ᵥ (y - z) ≤ 0) (ψ ψ' : ℝ → n → ℝ) (C : ℝ) (hC : 0 ≤ C) (hψ : Solves M f ψ ψ' t0 (final + H)) (hs : Smooth1 M ψ' C t0 (final + H))
    (hU : WithinEnergy M (ψ '' Set.Icc t0 (final + H)) (energy M (y0 - ψ t0) + (N * (cfg.tol / Real.sqrt μ) + (final + H - t0) * (C * H / 2)) + 2 * β * (H * F + cfg.tol / 2) / Real.sqrt μ) ⊆ U) :
    let r := advanceT rec eps (userObjects (objStepper (mmStep Matrix.mulVec id .BDF1 (massSystem M f Df)) (newtonSolve env cfg)) pol3 pol5 obs) fuel t0 final ⟨((mem, reg), u), y0, []⟩
    (∃ t, r = .ok t r.state ∧ final - eps ≤ t ∧ t ≤ final + H) ∧ (observations r.state.log).length ≤ N + 1 ∧ (observations r.state.log).getLast?.map (·.2.2) = some r.state.y ∧
      ∀ i t y, (i, t, y) ∈ observations r.state.log → energy M (y - ψ t) ≤ energy M (y0 - ψ t0) + (i * (cfg.tol / Real.sqrt μ) + (t - t0) * (C * H / 2)) := by
  have g := C92_target_returns rec eps δ H heps hδ (mmStep Matrix.mulVec id .BDF1 (massSystem M f Df)) (newtonSolve env cfg) pol3 pol5 obs hpol hobs t0 final hlt N fuel hNδ hNi hfuel y0 mem reg u
    (fun l t => ∃ y l', l = y :: l' ∧ energy M (y - ψ t) ≤ energy M (y0 - ψ t0) + (l'.length * (cfg.tol / Real.sqrt μ) + (t - t0) * (C * H / 2))) (fun dts g0 g1 g2 => by
      have c := C94_bdf1_monotone hM f Df mem env cfg sol tick hN reg hreg hmem dts t0 y0 H (final + H) hH (fun d hd => ⟨hδ.le.trans (g1 d hd).1, (g1 d hd).2⟩) g2 U β γ F hf k hA hmono ψ ψ' C hC hψ hs
        (fun x ⟨y, hy, hd⟩ => hU ⟨y, hy, hd.trans (by
          have h1 : (dts.length : ℝ) ≤ N := by exact_mod_cast g0
          have h2 := hA.tol0
          gcongr)⟩)
      exact ⟨fun r hr => (c.2.1 r hr).1, c.2.2⟩)
  refine ⟨g.1, g.2.1, g.2.2.1, fun i t x he => ?_⟩
  obtain ⟨l, ⟨x', l', e, hb⟩, hl⟩ := g.2.2.2 i t x he
  cases e
  rw [← hl]
  exact_mod_cast hb

/-- **C94, advance_n_steps** with a constant size, BDF2 on monotone problems: the call returns after the requested number of steps, and every observed state is near the solution, to second order. -/
theorem C94_n_steps {V : Type} (hmem : ReadyMM .BDF2 mem) (zero η : ℝ) (hη : 0 ≤ η) (pol3 : Int → ℝ → ℝ → Prog V ℝ) (pol5 : Int → ℝ → DtVars ℝ → Prog V (DtVars ℝ))
    (obs : Int → ℝ → (n → ℝ) → Prog V Unit) (hpol : Obliging pol3 pol5 false (fun d => d = η)) (hobs : Patient obs) (N : Nat) (hNi : (N : Int) < int32Max) (t0 : ℝ) (y0 : n → ℝ) (u : V)
    (U : Set (n → ℝ)) (β γ F : ℝ) (hf : TameMass M f Df U t0 (t0 + N * η) η β γ F) (k : Nat) (hA : Affords cfg η β (γ / μ ^ 2) F k)
    (hmono : ∀ y z t, (f y t - f z t) ⬝ᵥ (y - z) ≤ 0) (ψ ψ' ψ'' : ℝ → n → ℝ) (C2 C3 : ℝ) (hC2 : 0 ≤ C2) (hC3 : 0 ≤ C3) (hψ : Solves M f ψ ψ' t0 (t0 + N * η)) (hs : Smooth2 M f ψ ψ'' C2 C3 t0 (t0 + N * η))
    (hU : WithinEnergy M (ψ '' Set.Icc t0 (t0 + N * η)) (Real.sqrt 2 * energy M (y0 - ψ t0) + 3 * C2 * η ^ 2 + 6 * (N * (cfg.tol / Real.sqrt μ)) + (N * η) * (4 * C3 * η ^ 2) + 2 * β * (η * F + cfg.tol / 2) / Real.sqrt μ) ⊆ U) :
    let r := advanceN zero (userObjects (objStepper (mmStep Matrix.mulVec id .BDF2 (massSystem M f Df)) (newtonSolve env cfg)) pol3 pol5 obs) N t0 ⟨((mem, reg), u), y0, []⟩
    r.stop? = none ∧ (observations r.state.log).length = (N : Int) + 1 ∧ (observations r.state.log).getLast?.map (·.2.2) = some r.state.y ∧
      ∀ i t y, (i, t, y) ∈ observations r.state.log →
        energy M (y - ψ t) ≤ Real.sqrt 2 * energy M (y0 - ψ t0) + 3 * C2 * η ^ 2 + 6 * (i * (cfg.tol / Real.sqrt μ)) + (t - t0) * (4 * C3 * η ^ 2) := by
  have g := C92_n_steps_returns zero (mmStep Matrix.mulVec id .BDF2 (massSystem M f Df)) (newtonSolve env cfg) pol3 pol5 obs _ hpol hobs N (by omega) hNi t0 y0 mem reg u
    (fun l t => ∃ y l', l = y :: l' ∧ energy M (y - ψ t) ≤ Real.sqrt 2 * energy M (y0 - ψ t0) + 3 * C2 * η ^ 2 + 6 * (l'.length * (cfg.tol / Real.sqrt μ)) + (t - t0) * (4 * C3 * η ^ 2)) (fun dts g0 g1 => by
      have h0 : (dts.length : ℝ) ≤ N := by exact_mod_cast (by simpa using g0 : dts.length ≤ N)
      have c := C94_bdf2_monotone hM f Df mem env cfg sol tick hN reg hreg hmem dts.length t0 y0 η (t0 + N * η) hη (by gcongr) U β γ F hf k hA hmono ψ ψ' ψ'' C2 C3 hC2 hC3 hψ hs
        (fun x ⟨y, hy, hd⟩ => hU ⟨y, hy, hd.trans (by
          have h2 := hA.tol0
          rw [add_sub_cancel_left]
          gcongr)⟩)
      rw [← List.eq_replicate_of_mem g1] at c
      exact ⟨fun r hr => (c.2.1 r hr).1, c.2.2⟩)
  refine ⟨g.1, g.2.1, g.2.2.1, fun i t x he => ?_⟩
  obtain ⟨l, ⟨x', l', e, hb⟩, hl⟩ := g.2.2.2 i t x he
  cases e
  rw [← hl]
  exact_mod_cast hb

omit hN hreg in
/-- Jacobians with non-positive symmetric part, however large, are tame with the condition number of the mass matrix -/
theorem tameMass_of_monotone (Λ : ℝ) (hΛ : ∀ v, ‖eu n (M *ᵥ v)‖ ≤ Λ * ‖eu n v‖) (hΛ0 : 0 ≤ Λ) (U : Set (n → ℝ)) (a b H γ F : ℝ) (hγ : 0 ≤ γ) (hF : 0 ≤ F)
    (jac : ∀ t ∈ Set.Icc a b, ∀ y ∈ U, IsJacobian (fun y => f y t) (fun y => Df y t) y) (lip : ∀ t ∈ Set.Icc a b, ∀ x ∈ U, ∀ y ∈ U, ∀ v, ‖eu n (Df x t *ᵥ v - Df y t *ᵥ v)‖ ≤ γ * ‖eu n (x - y)‖ * ‖eu n v‖)
    (bound : ∀ t ∈ Set.Icc a b, ∀ y ∈ U, ‖eu n (f y t)‖ ≤ F) (hD : ∀ t ∈ Set.Icc a b, ∀ y ∈ U, ∀ v, (Df y t *ᵥ v) ⬝ᵥ v ≤ 0) : TameMass M f Df U a b H (Λ / μ) γ F := by
  have hμ := hM.pos
  refine ⟨jac, lip, bound, fun t ht y hy c hc v => ?_, by positivity, hγ, hF⟩
  have h1 : μ * ‖eu n v‖ ≤ ‖eu n ((M - c • Df y t) *ᵥ v)‖ := by
    have h2 : μ * (‖eu n v‖ * ‖eu n v‖) ≤ ‖eu n v‖ * ‖eu n ((M - c • Df y t) *ᵥ v)‖ := by
      rw [← real_inner_self_eq_norm_mul_norm, eu_dot]
      refine (hM.coercive v).trans (le_trans ?_ (real_inner_le_norm _ _))
      rw [eu_dot, Matrix.sub_mulVec, Matrix.smul_mulVec, dotProduct_sub, dotProduct_smul, dotProduct_comm v (Df y t *ᵥ v), smul_eq_mul]
      have := mul_nonpos_of_nonneg_of_nonpos hc.1 (hD t ht y hy v)
      linarith
    rcases (norm_nonneg (eu n v)).eq_or_lt with h0 | h0
    · rw [← h0, mul_zero]; exact norm_nonneg _
    · exact le_of_mul_le_mul_left (by linarith) h0
  calc ‖eu n (M *ᵥ v)‖ ≤ Λ * ‖eu n v‖ := hΛ v
    _ = Λ / μ * (μ * ‖eu n v‖) := by field_simp
    _ ≤ _ := by gcongr
end Bounds

end Real

/-! ### Concrete runs: `M y' = M ψ' - Φ(y - ψ)` with the matrix `[2 1; 1 2]`, `Φ(v)_i = v_i + sin v_i` and the solution `ψ = e^-t w` -/
section Examples
open Pressio.Lemmas.GaussNewtonConvergence (eu_sq)

/-- a direct linear solver -/
noncomputable def envM : Env ℝ (Fin 2) (Fin 2) Unit Unit where
  normM := fun v => ‖eu (Fin 2) v‖
  normN := fun v => ‖eu (Fin 2) v‖
  lin := fun A b (_, l) => .ok () (A⁻¹ *ᵥ b, l)
  linJ := fun A b (_, l) => .ok () (A⁻¹ *ᵥ b, l)
  applyJac := fun _ _ b => b
  krylov := fun _ _ c => .ok () c
  qrThin := fun _ _ => .ok () ()
  qrApplyQT := fun _ (b, l) => .ok () (b, l)
  qrSolve := fun _ (c, l) => .ok () (c, l)
  wR := id
  wJ := id
  cwR := fun _ => 0
  cwJ := fun _ => 0
  createState := 0

noncomputable def regM : Reg ℝ (Fin 2) (Fin 2) Unit Unit where
  x := 0
  trial := 7
  c := 7
  r := 7
  J := 7
  g := 7
  H := 7
  H0 := 7
  damp := 7
  Wr := 0
  WJ := 0
  cWr := 0
  cWJ := 0
  QTr := 0
  nu := 7
  cDiagH := 0
  lin := ()
  diag := Model.Nonlinear.newContainer Model.Nonlinear.newtonDiagnostics
  files := []
  log := []

theorem exactNewton_M (tol : ℝ) : ExactNewton (eu (Fin 2)) envM (cfgR tol) (fun A b => A⁻¹ *ᵥ b) id :=
  ⟨(WithLp.linearEquiv 2 ℝ (Fin 2 → ℝ)).symm.injective, fun _ => rfl, fun _ _ _ _ => rfl, fun A b hA => by
    rw [Matrix.mulVec_mulVec, Matrix.mul_nonsing_inv _ hA, Matrix.one_mulVec], rfl, rfl, by simp [cfgR, int32Max]⟩

noncomputable def frictF (w : Fin 2 → ℝ) (y : Fin 2 → ℝ) (t : ℝ) : Fin 2 → ℝ := -(Real.exp (-t) • (mass2 *ᵥ w)) - (fun i => (y - Real.exp (-t) • w) i + Real.sin ((y - Real.exp (-t) • w) i))
noncomputable def frictD (w : Fin 2 → ℝ) (y : Fin 2 → ℝ) (t : ℝ) : Matrix (Fin 2) (Fin 2) ℝ := Matrix.diagonal (fun i => -(1 + Real.cos ((y - Real.exp (-t) • w) i)))

theorem eu_le_of {m : Type} [Fintype m] (a b : m → ℝ) (c : ℝ) (hc : 0 ≤ c) (h : ∀ i, |a i| ≤ c * |b i|) : ‖eu m a‖ ≤ c * ‖eu m b‖ := by
  refine (pow_le_pow_iff_left₀ (norm_nonneg _) (by positivity) two_ne_zero).1 ?_
  rw [mul_pow, eu_sq, eu_sq, dotProduct, dotProduct, Finset.mul_sum]
  refine Finset.sum_le_sum fun i _ => ?_
  have := pow_le_pow_left₀ (abs_nonneg _) (h i) 2
  simp only [mul_pow, sq_abs] at this
  linarith

theorem abs_le_eu {m : Type} [Fintype m] (a : m → ℝ) (i : m) : |a i| ≤ ‖eu m a‖ := by
  refine abs_le_of_sq_le_sq ?_ (norm_nonneg _)
  rw [eu_sq, dotProduct, sq]
  exact Finset.single_le_sum (f := fun i => a i * a i) (fun j _ => mul_self_nonneg _) (Finset.mem_univ i)

theorem frict_jac (w y : Fin 2 → ℝ) (t : ℝ) : IsJacobian (fun y => frictF w y t) (fun y => frictD w y t) y := by
  refine hasFDerivAt_pi'.2 fun i => ?_
  have h1 : HasFDerivAt (fun y : Fin 2 → ℝ => (y - Real.exp (-t) • w) i) (ContinuousLinearMap.proj (R := ℝ) (φ := fun _ : Fin 2 => ℝ) i) y := by
    simpa using (ContinuousLinearMap.proj (R := ℝ) (φ := fun _ : Fin 2 => ℝ) i).hasFDerivAt.sub_const (Real.exp (-t) * w i)
  have h2 := (h1.add (HasFDerivAt.sin h1)).const_sub ((-(Real.exp (-t) • (mass2 *ᵥ w))) i)
  refine h2.congr_fderiv ?_
  ext v
  simp [frictD, Matrix.mulVec_diagonal]
  ring

theorem mass2_bound (v : Fin 2 → ℝ) : ‖eu (Fin 2) (mass2 *ᵥ v)‖ ≤ 3 * ‖eu (Fin 2) v‖ := by
  refine (pow_le_pow_iff_left₀ (norm_nonneg _) (by positivity) two_ne_zero).1 ?_
  rw [mul_pow, eu_sq, eu_sq]
  simp [mass2, dotProduct, Matrix.mulVec, Fin.sum_univ_two]
  nlinarith [sq_nonneg (v 0 - v 1), sq_nonneg (v 0 + v 1)]

theorem frict_phi (x : ℝ) : |x + Real.sin x| ≤ 2 * |x| := by
  have := Real.abs_sin_le_abs (x := x)
  have := abs_add_le x (Real.sin x)
  linarith

theorem frict_phi_mono (x y : ℝ) : |(x + Real.sin x) - (y + Real.sin y)| ≤ 2 * |x - y| ∧ 0 ≤ ((x + Real.sin x) - (y + Real.sin y)) * (x - y) := by
  have h : |Real.sin x - Real.sin y| ≤ |x - y| := Real.abs_sin_sub_sin_le x y
  constructor
  · have h2 := abs_add_le (x - y) (Real.sin x - Real.sin y)
    rw [show (x + Real.sin x) - (y + Real.sin y) = (x - y) + (Real.sin x - Real.sin y) by ring]
    linarith
  · have h1 : -(|Real.sin x - Real.sin y| * |x - y|) ≤ (Real.sin x - Real.sin y) * (x - y) := by rw [← abs_mul]; exact neg_abs_le _
    have h2 : |Real.sin x - Real.sin y| * |x - y| ≤ |x - y| * |x - y| := mul_le_mul_of_nonneg_right h (abs_nonneg _)
    rw [abs_mul_abs_self (x - y)] at h2
    nlinarith

theorem frict_tame (w : Fin 2 → ℝ) (U : Set (Fin 2 → ℝ)) (T F : ℝ) (hF : 0 ≤ F) (hU : ∀ y ∈ U, ∀ t ∈ Set.Icc 0 T, 3 * ‖eu (Fin 2) w‖ + 2 * ‖eu (Fin 2) (y - Real.exp (-t) • w)‖ ≤ F) (H : ℝ) :
    TameMass mass2 (frictF w) (frictD w) U 0 T H (3 / 1) 1 F := by
  refine tameMass_of_monotone mass2_spd (frictF w) (frictD w) 3 mass2_bound (by norm_num) U 0 T H 1 F (by norm_num) hF (fun t _ y _ => frict_jac w y t) ?_ ?_ ?_
  · intro t _ x _ y _ v
    rw [one_mul]
    refine eu_le_of _ _ _ (norm_nonneg _) fun i => ?_
    simp only [frictD, Pi.sub_apply, Matrix.mulVec_diagonal]
    rw [← sub_mul, abs_mul]
    refine mul_le_mul_of_nonneg_right ?_ (abs_nonneg _)
    refine le_trans ?_ (abs_le_eu (x - y) i)
    have := Real.abs_cos_sub_cos_le (y i - (Real.exp (-t) • w) i) (x i - (Real.exp (-t) • w) i)
    rw [show -(1 + Real.cos (x i - (Real.exp (-t) • w) i)) - -(1 + Real.cos (y i - (Real.exp (-t) • w) i)) = Real.cos (y i - (Real.exp (-t) • w) i) - Real.cos (x i - (Real.exp (-t) • w) i) by ring]
    refine this.trans (le_of_eq ?_)
    rw [abs_sub_comm, Pi.sub_apply]; congr 1; ring
  · intro t ht y hy
    refine le_trans ?_ (hU y hy t ht)
    rw [frictF, map_sub, map_neg]
    refine (norm_sub_le _ _).trans ?_
    rw [norm_neg, map_smul, norm_smul, Real.norm_eq_abs, abs_of_pos (Real.exp_pos _)]
    have h1 : Real.exp (-t) ≤ 1 := Real.exp_le_one_iff.2 (by linarith [ht.1])
    have h2 := mass2_bound w
    have h3 : Real.exp (-t) * ‖eu (Fin 2) (mass2 *ᵥ w)‖ ≤ ‖eu (Fin 2) (mass2 *ᵥ w)‖ := mul_le_of_le_one_left (norm_nonneg _) h1
    have h4 := eu_le_of (fun i => (y - Real.exp (-t) • w) i + Real.sin ((y - Real.exp (-t) • w) i)) (y - Real.exp (-t) • w) 2 (by norm_num) (fun i => frict_phi _)
    linarith
  · intro t _ y _ v
    rw [dotProduct]
    refine Finset.sum_nonpos fun i _ => ?_
    simp only [frictD, Matrix.mulVec_diagonal]
    have h1 := Real.neg_one_le_cos ((y - Real.exp (-t) • w) i)
    have h2 := mul_self_nonneg (v i)
    nlinarith

theorem frict_monotone (w y z : Fin 2 → ℝ) (t : ℝ) : (frictF w y t - frictF w z t) ⬝ᵥ (y - z) ≤ 0 := by
  rw [dotProduct]
  refine Finset.sum_nonpos fun i _ => ?_
  have := (frict_phi_mono ((y - Real.exp (-t) • w) i) ((z - Real.exp (-t) • w) i)).2
  simp only [frictF, Pi.sub_apply] at this ⊢
  nlinarith

theorem frict_lip (w y z : Fin 2 → ℝ) (t : ℝ) : ‖eu (Fin 2) (frictF w y t - frictF w z t)‖ ≤ 2 * ‖eu (Fin 2) (y - z)‖ := by
  refine eu_le_of _ _ _ (by norm_num) fun i => ?_
  have := (frict_phi_mono ((y - Real.exp (-t) • w) i) ((z - Real.exp (-t) • w) i)).1
  rw [abs_sub_comm] at this
  refine le_trans (le_of_eq ?_) (this.trans (le_of_eq ?_))
  · simp only [frictF, Pi.sub_apply]; congr 1; ring
  · simp only [Pi.sub_apply]; congr 2; ring

theorem frict_at (w : Fin 2 → ℝ) (s : ℝ) : frictF w (Real.exp (-s) • w) s = -(mass2 *ᵥ (Real.exp (-s) • w)) := by
  rw [frictF, Matrix.mulVec_smul]
  ext i
  simp

theorem frict_solves (w : Fin 2 → ℝ) (T : ℝ) : Solves mass2 (frictF w) (fun s => Real.exp (-s) • w) (fun s => -(Real.exp (-s) • w)) 0 T where
  deriv s _ := hasDerivAt_exp_neg_smul w s
  equation s _ := by rw [frict_at, Matrix.mulVec_neg]

theorem frict_smooth2 (w : Fin 2 → ℝ) (T : ℝ) : Smooth2 mass2 (frictF w) (fun s => Real.exp (-s) • w) (fun s => Real.exp (-s) • w) (energy mass2 w) (energy mass2 w) 0 T where
  deriv s hs := by simpa only [frict_at] using (decay_smooth2 mass2_spd w T).deriv s hs
  bound := (decay_smooth2 mass2_spd w T).bound
  lip := (decay_smooth2 mass2_spd w T).lip

theorem eu_le_energy2 (v : Fin 2 → ℝ) : ‖eu (Fin 2) v‖ ≤ energy mass2 v := by
  refine Real.le_sqrt_of_sq_le ?_
  have := mass2_spd.coercive v
  rw [eu_sq]; linarith

/-- the region: at most 1 away from the solution at some time -/
noncomputable def frictU (T : ℝ) : Set (Fin 2 → ℝ) := WithinEnergy mass2 ((fun s => Real.exp (-s) • ![1, 0]) '' Set.Icc 0 T) 1

theorem unit_energy : energy mass2 ![1, 0] ≤ 3 / 2 := by
  refine Real.sqrt_le_iff.2 ⟨by norm_num, ?_⟩
  simp [mass2, dotProduct, Matrix.mulVec, Fin.sum_univ_two]; norm_num

theorem frictU_tame (T H : ℝ) : TameMass mass2 (frictF ![1, 0]) (frictD ![1, 0]) (frictU T) 0 T H (3 / 1) 1 8 := by
  refine frict_tame _ _ _ _ (by norm_num) ?_ H
  rintro y ⟨_, ⟨s, hs, rfl⟩, hy⟩ t ht
  have h1 : ‖eu (Fin 2) ![1, 0]‖ ≤ 1 := eu_two_le _ _ _ (by norm_num) (by norm_num)
  have h2 := (eu_le_energy2 _).trans hy
  have h3 : ‖eu (Fin 2) (Real.exp (-s) • ![1, 0] - Real.exp (-t) • ![1, 0])‖ ≤ 1 := by
    rw [← sub_smul, map_smul, norm_smul, Real.norm_eq_abs]
    have e1 : Real.exp (-s) ≤ 1 := Real.exp_le_one_iff.2 (by linarith [hs.1])
    have e2 : Real.exp (-t) ≤ 1 := Real.exp_le_one_iff.2 (by linarith [ht.1])
    have e3 : |Real.exp (-s) - Real.exp (-t)| ≤ 1 := abs_le.2 ⟨by linarith [Real.exp_pos (-s)], by linarith [Real.exp_pos (-t)]⟩
    exact mul_le_one₀ e3 (norm_nonneg _) h1
  have h4 := norm_add_le (eu (Fin 2) (y - Real.exp (-s) • ![1, 0])) (eu (Fin 2) (Real.exp (-s) • ![1, 0] - Real.exp (-t) • ![1, 0]))
  rw [← map_add, sub_add_sub_cancel] at h4
  linarith

theorem within_mono {M : Matrix (Fin 2) (Fin 2) ℝ} {S : Set (Fin 2 → ℝ)} {d d' : ℝ} (h : d ≤ d') : WithinEnergy M S d ⊆ WithinEnergy M S d' := fun _ ⟨y, hy, hd⟩ => ⟨y, hy, hd.trans h⟩

theorem frict_affords : Affords (cfgR (1 / 10 ^ 6)) (1 / 100) (3 / 1) (1 / 1 ^ 2) 8 5 := by
  constructor <;> norm_num [cfgR]

theorem frict_start (w : Fin 2 → ℝ) : energy mass2 (w - Real.exp (-0) • w) = 0 := by simp [energy]

/-- any step sizes up to 0.01, until time 1, at most 1000 of them -/
example (dts : List ℝ) (hdt : ∀ h ∈ dts, 0 ≤ h ∧ h ≤ 1 / 100) (hT : 0 + dts.sum ≤ 1) (hlen : dts.length ≤ 1000) :=
  C94_bdf1_monotone mass2_spd (frictF ![1, 0]) (frictD ![1, 0]) (massMem 1 (Fin 2)) envM (cfgR (1 / 10 ^ 6)) _ _ (exactNewton_M _) regM (fun _ => .created _ rfl) rfl dts 0 ![1, 0] (1 / 100) 1 (by norm_num) hdt hT (frictU 1) _ _ _
    (frictU_tame 1 _) 5 frict_affords (frict_monotone _) _ _ (energy mass2 ![1, 0]) (Real.sqrt_nonneg _) (frict_solves _ _) (decay_smooth1 mass2 _ _) (within_mono (by
      have h1 := unit_energy
      have h2 : (dts.length : ℝ) ≤ 1000 := by exact_mod_cast hlen
      rw [frict_start, Real.sqrt_one]
      simp only [cfgR]
      norm_num
      linarith))

example := C94_bdf2_monotone mass2_spd (frictF ![1, 0]) (frictD ![1, 0]) (massMem 2 (Fin 2)) envM (cfgR (1 / 10 ^ 6)) _ _ (exactNewton_M _) regM (fun _ => .created _ rfl) rfl 100 0 ![1, 0] (1 / 100) 1 (by norm_num) (by norm_num) (frictU 1) _ _ _
    (frictU_tame 1 _) 5 frict_affords (frict_monotone _) _ _ _ (energy mass2 ![1, 0]) (energy mass2 ![1, 0]) (Real.sqrt_nonneg _) (Real.sqrt_nonneg _) (frict_solves _ _) (frict_smooth2 _ _) (within_mono (by
      have h1 := unit_energy
      rw [frict_start, Real.sqrt_one]
      simp only [cfgR]
      norm_num
      linarith))

example (dts : List ℝ) (hdt : ∀ h ∈ dts, 0 ≤ h ∧ h ≤ 1 / 100) (hT : 0 + dts.sum ≤ 1 / 4) (hlen : dts.length ≤ 1000) :=
  C94_bdf1 mass2_spd (frictF ![1, 0]) (frictD ![1, 0]) (massMem 1 (Fin 2)) envM (cfgR (1 / 10 ^ 6)) _ _ (exactNewton_M _) regM (fun _ => .created _ rfl) rfl dts 0 ![1, 0] (1 / 100) (1 / 4) (by norm_num) hdt hT (frictU (1 / 4)) _ _ _
    (frictU_tame _ _) 5 frict_affords 2 (by norm_num) (by norm_num) (frict_lip _) _ _ (energy mass2 ![1, 0]) (Real.sqrt_nonneg _) (frict_solves _ _) (decay_smooth1 mass2 _ _) (within_mono (by
      have h1 := unit_energy
      have h2 : (dts.length : ℝ) ≤ 1000 := by exact_mod_cast hlen
      have h3 := exp_le_three (a := 2 * (2 / 1) * (1 / 4 - 0)) (by norm_num)
      have h4 := Real.exp_pos (2 * (2 / 1) * (1 / 4 - 0))
      rw [frict_start, Real.sqrt_one]
      have h5 : 0 + (dts.length * ((cfgR (1 / 10 ^ 6)).tol / 1) + (1 / 4 - 0) * (energy mass2 ![1, 0] * (1 / 100) / 2)) ≤ 1 / 100 := by
        simp only [cfgR]; norm_num; linarith
      have h6 := mul_le_mul h3 h5 (by have := Real.sqrt_nonneg (![1, 0] ⬝ᵥ (mass2 *ᵥ ![1, 0])); simp only [cfgR, energy]; positivity) (by norm_num)
      simp only [cfgR] at h6 ⊢
      norm_num at h6 ⊢
      linarith))

example := C94_bdf2 mass2_spd (frictF ![1, 0]) (frictD ![1, 0]) (massMem 2 (Fin 2)) envM (cfgR (1 / 10 ^ 6)) _ _ (exactNewton_M _) regM (fun _ => .created _ rfl) rfl 4 0 ![1, 0] (1 / 100) (1 / 24) (by norm_num) (by norm_num) (frictU (1 / 24)) _ _ _
    (frictU_tame _ _) 5 frict_affords 2 (by norm_num) (by norm_num) (frict_lip _) _ _ _ (energy mass2 ![1, 0]) (energy mass2 ![1, 0]) (Real.sqrt_nonneg _) (Real.sqrt_nonneg _) (frict_solves _ _) (frict_smooth2 _ _) (within_mono (by
      have h1 := unit_energy
      have h3 := exp_le_three (a := 12 * (2 / 1) * (1 / 24 - 0)) (by norm_num)
      have h4 := Real.exp_pos (12 * (2 / 1) * (1 / 24 - 0))
      rw [frict_start, Real.sqrt_one]
      have h5 : Real.sqrt 2 * 0 + 3 * energy mass2 ![1, 0] * (1 / 100) ^ 2 + 6 * (((4 : Nat) : ℝ) * ((cfgR (1 / 10 ^ 6)).tol / 1)) + (1 / 24 - 0) * (4 * energy mass2 ![1, 0] * (1 / 100) ^ 2) ≤ 1 / 100 := by
        simp only [cfgR]; norm_num; linarith
      have h6 := mul_le_mul h3 h5 (by have := Real.sqrt_nonneg (![1, 0] ⬝ᵥ (mass2 *ᵥ ![1, 0])); simp only [cfgR, energy]; positivity) (by norm_num)
      simp only [cfgR] at h6 ⊢
      norm_num at h6 ⊢
      linarith))

/-- with `w = 0` the problem is `M y' = -Φ(y)`, which is dissipative -/
example (dts : List ℝ) (hdt : ∀ h ∈ dts, 0 ≤ h ∧ h ≤ 1 / 100) (hlen : dts.length ≤ 1000) :=
  C94_dissipative mass2_spd (frictF 0) (frictD 0) (massMem 2 (Fin 2)) envM (cfgR (1 / 10 ^ 6)) _ _ (exactNewton_M _) regM (fun _ => .created _ rfl) .BDF2 rfl dts 0 ![1, 0] (1 / 100) dts.sum hdt (by simp) {x | ‖eu (Fin 2) x‖ ≤ 4} _ _ _
    (frict_tame 0 _ _ 8 (by norm_num) (fun y hy t _ => by have : ‖eu (Fin 2) y‖ ≤ 4 := hy; simp; linarith) _) 5 frict_affords
    (fun y t => by have := frict_monotone 0 y 0 t; simpa [frictF, dotProduct] using this) (fun x hx => by
      refine (eu_le_energy2 x).trans (hx.trans ?_)
      have h1 := unit_energy
      have h2 : (dts.length : ℝ) ≤ 1000 := by exact_mod_cast hlen
      have h3 : Real.sqrt 2 ≤ 3 / 2 := Real.sqrt_le_iff.2 ⟨by norm_num, by norm_num⟩
      have h4 := mul_le_mul h3 h1 (Real.sqrt_nonneg _) (by norm_num)
      rw [Real.sqrt_one]
      simp only [cfgR]
      norm_num at h4 ⊢
      linarith)

/-- preconditioning: `g = M⁻¹ f` -/
example (dts : List ℝ) (t0 : ℝ) (y0 w : Fin 2 → ℝ) := C94_same_run .BDF2 mass2 (frictF w) (fun y t => mass2⁻¹ *ᵥ frictF w y t) (frictD w) (fun y t => mass2⁻¹ * frictD w y t) (fun _ _ => mass2_spd.mul_inv _) (fun _ _ => mass2_spd.mul_inv_mul _)
  (massMem 2 (Fin 2)) rfl ⟨0, 0, 0, 0, [0, 0], [], freshPMem⟩ rfl envM (cfgR (1 / 10 ^ 6)) (fun A b => A⁻¹ *ᵥ b) id (fun _ _ _ _ => rfl) rfl rfl (by simp [cfgR, int32Max]) regM regM (fun _ => .created _ rfl) (fun _ => .created _ rfl) dts t0 y0

example (w : Fin 2 → ℝ) (dts : List ℝ) (t0 : ℝ) (y0 : Fin 2 → ℝ) := C94_newton_iterates .BDF2 mass2 (frictF w) (frictD w) (massMem 2 (Fin 2)) rfl envM (cfgR (1 / 10 ^ 6)) (fun A b => A⁻¹ *ᵥ b) id (fun _ _ _ _ => rfl) rfl rfl (by simp [cfgR, int32Max]) regM
  (fun _ => .created _ rfl) dts t0 y0

/-- the mass matrix `(1 + |y|²) I` depends on the state; the right-hand side fails at the origin -/
noncomputable def stateMass : IMMSystem ℝ (Fin 2 → ℝ) (Matrix (Fin 2) (Fin 2) ℝ) (Matrix (Fin 2) (Fin 2) ℝ) :=
  open Classical in ⟨fun y t w => if y = 0 then .error (.velocityFailureUnrecoverable, 0, 0) else .ok ((1 + y ⬝ᵥ y) • 1, fun _ => t, if w then some 0 else none)⟩

example (dts : List ℝ) (t0 : ℝ) (y0 : Fin 2 → ℝ) := C94_run_is_newton_solves Matrix.mulVec id .BDF2 stateMass (by intro y t w e junk h; simp only [stateMass] at h; split at h <;> simp_all [Prod.ext_iff]; rw [← h.1]; simp)
  (by intro y t w M f j h; simp only [stateMass] at h; split at h <;> simp_all; rw [← h.2.2]; cases w <;> rfl) (massMem 2 (Fin 2)) rfl envM (by intro A b s; simp [envM]) (cfgR 1) regM (fun _ => .created _ rfl) dts t0 y0
/-- an observer that does nothing -/
def mute : Int → ℝ → (Fin 2 → ℝ) → Prog Unit Unit := fun _ _ _ => pure ()

example (rec : Bool) := C94_target mass2_spd (frictF ![1, 0]) (frictD ![1, 0]) (massMem 1 (Fin 2)) envM (cfgR (1 / 10 ^ 6)) _ _ (exactNewton_M _) regM (fun _ => .created _ rfl) rfl rec 0 (1 / 100) (1 / 100) le_rfl (by norm_num) (by norm_num)
    hundredth3 hundredth5 mute (hundredth_obliging rec) (fun _ _ _ _ => rfl) 0 (99 / 100) (by norm_num) 99 1000 (by norm_num) (by norm_num [int32Max]) (by norm_num) ![1, 0] () (frictU 1) _ _ _ (by rw [show (99 / 100 + 1 / 100 : ℝ) = 1 by norm_num]; exact frictU_tame 1 _) 5 frict_affords (frict_monotone _) _ _
    (energy mass2 ![1, 0]) (Real.sqrt_nonneg _) (frict_solves _ _) (decay_smooth1 mass2 _ _) (by
      rw [show (99 / 100 + 1 / 100 : ℝ) = 1 by norm_num]
      refine within_mono ?_
      have h1 := unit_energy
      rw [frict_start, Real.sqrt_one]
      simp only [cfgR]
      norm_num
      linarith)

example := C94_n_steps mass2_spd (frictF ![1, 0]) (frictD ![1, 0]) (massMem 2 (Fin 2)) envM (cfgR (1 / 10 ^ 6)) _ _ (exactNewton_M _) regM (fun _ => .created _ rfl) rfl 0 (1 / 100) (by norm_num)
    hundredth3 hundredth5 mute (by simp only [Obliging, Bool.false_eq_true, if_false]; exact fun i t d u => ⟨1 / 100, u, rfl, rfl⟩) (fun _ _ _ _ => rfl) 100 (by norm_num [int32Max]) 0 ![1, 0] () (frictU 1) _ _ _ (by rw [show (0 + ((100 : Nat) : ℝ) * (1 / 100) : ℝ) = 1 by norm_num]; exact frictU_tame 1 _) 5 frict_affords (frict_monotone _) _ _ _
    (energy mass2 ![1, 0]) (energy mass2 ![1, 0]) (Real.sqrt_nonneg _) (Real.sqrt_nonneg _) (frict_solves _ _) (frict_smooth2 _ _) (by
      rw [show (0 + ((100 : Nat) : ℝ) * (1 / 100) : ℝ) = 1 by norm_num]
      refine within_mono ?_
      have h1 := unit_energy
      rw [frict_start, Real.sqrt_one]
      simp only [cfgR]
      norm_num
      linarith)

end Examples
end Pressio.Props
