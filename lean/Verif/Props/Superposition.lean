import Verif.Props.ImplicitNewtonRuns
import Verif.Props.SolverAlikeRuns
import Mathlib.LinearAlgebra.Matrix.NonsingularInverse

/-
  C111 for implicit schemes: runs on linear problems superpose.
-/
namespace Pressio.Props
set_option autoImplicit false
set_option linter.unusedSectionVars false
open Pressio Matrix
open Pressio.Model.Nonlinear (Env Cfg Reg StopCrit Update Ans SP)
open Pressio.Spec.Nonlinear Pressio.Lemmas.Nonlinear
open Pressio.Model.Implicit Pressio.Spec.Implicit Pressio.Lemmas.Implicit Pressio.Spec.SolverRun Pressio.Lemmas.SolverTree Pressio.Lemmas.SolverRun
open Pressio.Model.Explicit (Scheme)

section
variable {n p L : Type} [Fintype n] [DecidableEq n] [Fintype p]

/-- the right-hand side `A(t) y + b(t)` -/
def forcedRhs (A : ℝ → Matrix n n ℝ) (b : ℝ → n → ℝ) (y : n → ℝ) (t : ℝ) : n → ℝ := A t *ᵥ y + b t

/-- the equations of the schemes superpose -/
theorem schemeRes_superposes (name : Scheme) (A : ℝ → Matrix n n ℝ) (b c : ℝ → n → ℝ) (α β : ℝ) (u v : n → ℝ) (hu hv : List (n → ℝ)) (hl : hu.length = hv.length) (t dt : ℝ) :
    schemeRes name (forcedRhs A (fun t => α • b t + β • c t)) (List.zipWith (fun u v => α • u + β • v) hu hv) t dt (α • u + β • v) =
      α • schemeRes name (forcedRhs A b) hu t dt u + β • schemeRes name (forcedRhs A c) hv t dt v := by
  rcases hu with _ | ⟨u1, _ | ⟨u2, hu⟩⟩ <;> rcases hv with _ | ⟨v1, _ | ⟨v2, hv⟩⟩ <;> simp at hl <;> cases name <;> funext i <;>
    simp only [List.zipWith_nil_left, List.zipWith_cons_cons, schemeRes, forcedRhs, Matrix.mulVec_add, Matrix.mulVec_smul, Pi.add_apply, Pi.sub_apply, Pi.smul_apply, Pi.zero_apply, smul_eq_mul] <;> ring

/-- the equations have one solution -/
theorem schemeRes_injective (name : Scheme) (A : ℝ → Matrix n n ℝ) (b : ℝ → n → ℝ) (sol : (n → ℝ) → n → ℝ) (yn : n → ℝ) (older : List (n → ℝ)) (t dt : ℝ) (hsol : ∀ d, (1 - schemeCoef name (yn :: older) dt • A (t + dt)) *ᵥ sol d = d) (u v : n → ℝ)
    (hu : schemeRes name (forcedRhs A b) (yn :: older) t dt u = 0) (hv : schemeRes name (forcedRhs A b) (yn :: older) t dt v = 0) : u = v := by
  have hinj : Function.Injective (1 - schemeCoef name (yn :: older) dt • A (t + dt)).mulVec :=
    Matrix.mulVec_injective_iff_isUnit.2 (Matrix.mulVec_surjective_iff_isUnit.1 (fun d => ⟨sol d, hsol d⟩))
  apply hinj
  have hd : (1 - schemeCoef name (yn :: older) dt • A (t + dt)) *ᵥ u - (1 - schemeCoef name (yn :: older) dt • A (t + dt)) *ᵥ v = schemeRes name (forcedRhs A b) (yn :: older) t dt u - schemeRes name (forcedRhs A b) (yn :: older) t dt v := by
    rcases older with _ | ⟨a, older⟩ <;> cases name <;> funext i <;> simp only [schemeRes, schemeCoef, forcedRhs, Matrix.sub_mulVec, Matrix.one_mulVec, Matrix.smul_mulVec, Pi.add_apply, Pi.sub_apply, Pi.smul_apply, smul_eq_mul] <;> ring
  rw [hu, hv, sub_zero] at hd
  exact sub_eq_zero.1 hd

/-- what the records of a run on a linear problem have to do with each other -/
def LinearRecords (name : Scheme) (A : ℝ → Matrix n n ℝ) (b : ℝ → n → ℝ) (t0 : ℝ) (y0 : n → ℝ) (R : List (Record ℝ (n → ℝ) (Ans ℝ n n))) : Prop :=
  ∀ pre r post, R = pre ++ r :: post → r.stop = none ∧ r.t = timeAfter t0 pre ∧ schemeRes name (forcedRhs A b) (accepted y0 pre) r.t r.dt r.y = 0

/-- three lists of records, the third for the combined forcing and initial state -/
theorem records_superpose (name : Scheme) (hname : name = .BDF1 ∨ name = .BDF2 ∨ name = .CrankNicolson) (A : ℝ → Matrix n n ℝ) (b c : ℝ → n → ℝ) (α β t0 : ℝ) (y0 z0 : n → ℝ) (R1 R2 R3 : List (Record ℝ (n → ℝ) (Ans ℝ n n))) (h1 : LinearRecords name A b t0 y0 R1) (h2 : LinearRecords name A c t0 z0 R2) (h3 : LinearRecords name A (fun t => α • b t + β • c t) t0 (α • y0 + β • z0) R3)
    (dts : List ℝ) (d1 : R1.map (·.dt) = dts) (d2 : R2.map (·.dt) = dts) (d3 : R3.map (·.dt) = dts) (sol : Matrix n n ℝ → (n → ℝ) → n → ℝ) (hsol : ∀ h ∈ dts, ∀ t, ∀ c ∈ rhsFactors h name, ∀ d, (1 - c • A t) *ᵥ sol (1 - c • A t) d = d) :
    ∀ k ≤ dts.length, accepted (α • y0 + β • z0) (R3.take k) = List.zipWith (fun u v => α • u + β • v) (accepted y0 (R1.take k)) (accepted z0 (R2.take k)) ∧ (accepted y0 (R1.take k)).length = k + 1 ∧ (accepted z0 (R2.take k)).length = k + 1 ∧
      timeAfter t0 (R3.take k) = timeAfter t0 (R1.take k) ∧ timeAfter t0 (R2.take k) = timeAfter t0 (R1.take k) ∧
      (R3.take k).map (fun r => (r.t, r.dt, r.stop, r.y)) = List.zipWith (fun r s => (r.t, r.dt, r.stop, α • r.y + β • s.y)) (R1.take k) (R2.take k) := by
  have l1 : R1.length = dts.length := by rw [← d1]; simp
  have l2 : R2.length = dts.length := by rw [← d2]; simp
  have l3 : R3.length = dts.length := by rw [← d3]; simp
  intro k
  induction k with
  | zero => intro _; simp [accepted, timeAfter]
  | succ k ih =>
    intro hk
    obtain ⟨i1, i2, i3, i4, i5, i6⟩ := ih (by omega)
    have s1 : R1 = R1.take k ++ R1[k] :: R1.drop (k+1) := by simp
    have s2 : R2 = R2.take k ++ R2[k] :: R2.drop (k+1) := by simp
    have s3 : R3 = R3.take k ++ R3[k] :: R3.drop (k+1) := by simp
    obtain ⟨a1, a2, a3⟩ := h1 _ _ _ s1
    obtain ⟨b1, b2, b3⟩ := h2 _ _ _ s2
    obtain ⟨c1, c2, c3⟩ := h3 _ _ _ s3
    have e1 : R1[k].dt = dts[k] := by simp only [← d1, List.getElem_map]
    have e2 : R2[k].dt = dts[k] := by simp only [← d2, List.getElem_map]
    have e3 : R3[k].dt = dts[k] := by simp only [← d3, List.getElem_map]
    have hy : R3[k].y = α • R1[k].y + β • R2[k].y := by
      have hz : schemeRes name (forcedRhs A (fun t => α • b t + β • c t)) (accepted (α • y0 + β • z0) (R3.take k)) R3[k].t R3[k].dt (α • R1[k].y + β • R2[k].y) = 0 := by
        rw [a2, e1] at a3
        rw [b2, e2, i5] at b3
        rw [i1, c2, i4, e3, schemeRes_superposes _ _ _ _ _ _ _ _ _ _ (by rw [i2, i3]), a3, b3]
        simp
      rcases hacc : accepted (α • y0 + β • z0) (R3.take k) with _ | ⟨yn, older⟩
      · have := congrArg List.length hacc; simp [accepted] at this
      rw [hacc] at hz c3
      refine schemeRes_injective name A _ (sol _) yn older _ _ (fun d => hsol _ (List.getElem_mem (by omega : k < dts.length)) _ _ ?_ d) _ _ c3 hz
      rw [e3]
      rcases hname with rfl | rfl | rfl <;> cases older <;> simp [schemeCoef, rhsFactors]
    simp only [List.take_succ_eq_append_getElem (show k < R1.length by omega), List.take_succ_eq_append_getElem (show k < R2.length by omega), List.take_succ_eq_append_getElem (show k < R3.length by omega), accepted_snoc, timeAfter_snoc, a1, b1, c1, Option.isNone_none, if_true]
    refine ⟨by rw [i1, hy]; rfl, by simp [i2], by simp [i3], by rw [i4, e1, e3], by rw [i5, e1, e2], ?_⟩
    rw [List.map_append, List.zipWith_append (by simp; omega), i6]
    simp [a1, c1, hy, e1, e3, a2, c2, i4]

/-- **C111, superposition, implicit schemes.** On linear problems `y' = A(t) y + b(t)`, with BDF1, BDF2 or CrankNicolson, a Newton object that takes full steps with exact linear solves and does not stop early (an absolute criterion with tolerance 0), matrices `1 - c A` of the scheme regular: all steps of the three runs are accepted, and the run from the
    combination of two initial states under the combination of two forcings goes through the combinations of the states of the two runs. The stepper and solver objects of the three runs may be in any idle state. -/
theorem C111_superposition_implicit (name : Scheme) (A : ℝ → Matrix n n ℝ) (b c : ℝ → n → ℝ) (α β : ℝ) (mem1 mem2 mem3 : SMem ℝ (n → ℝ) (n → ℝ) PMem) (hm1 : Ready name mem1) (hm2 : Ready name mem2) (hm3 : Ready name mem3)
    (env : Env ℝ n n p L) (hM : ∀ r, 0 ≤ env.normM r) (hN : ∀ r, 0 ≤ env.normN r) (cfg : Cfg ℝ) (sol : Matrix n n ℝ → (n → ℝ) → n → ℝ) (tick : L → L) (hlin : ∀ B d c l, env.linJ B d (c, l) = .ok () (sol B d, tick l))
    (hcrit : cfg.stop = .WhenAbsolutel2NormOfResidualBelowTolerance ∨ cfg.stop = .WhenAbsolutel2NormOfCorrectionBelowTolerance) (htol : cfg.tol = 0) (hupd : cfg.update = .Standard) (hmax : cfg.maxIters < int32Max) (hit : 1 ≤ cfg.maxIters)
    (reg1 reg2 reg3 : Reg ℝ n n p L) (hr1 : NewtonIdle reg1) (hr2 : NewtonIdle reg2) (hr3 : NewtonIdle reg3) (dts : List ℝ) (hsol : ∀ h ∈ dts, ∀ t, ∀ c ∈ rhsFactors h name, ∀ d, (1 - c • A t) *ᵥ sol (1 - c • A t) d = d) (t0 : ℝ) (y0 z0 : n → ℝ) :
    let R := fun (b : ℝ → n → ℝ) (y0 : n → ℝ) mem reg => driveObj (stdStep name (odeSystem (forcedRhs A b) (fun _ t => A t))) (Model.Nonlinear.newtonSolve env cfg) dts t0 [y0] y0 mem reg
    (∀ r ∈ R b y0 mem1 reg1, r.stop = none) ∧ (R b y0 mem1 reg1).length = dts.length ∧ (R c z0 mem2 reg2).length = dts.length ∧
    (R (fun t => α • b t + β • c t) (α • y0 + β • z0) mem3 reg3).map (fun r => (r.t, r.dt, r.stop, r.y)) = List.zipWith (fun r s => (r.t, r.dt, r.stop, α • r.y + β • s.y)) (R b y0 mem1 reg1) (R c z0 mem2 reg2) := by
  intro R
  have hroot : rootCriterion cfg.stop = true := by rcases hcrit with h | h <;> rw [h] <;> rfl
  have key : ∀ (b : ℝ → n → ℝ) (y0 : n → ℝ) (mem : SMem ℝ (n → ℝ) (n → ℝ) PMem) (reg : Reg ℝ n n p L), Ready name mem → NewtonIdle reg → LinearRecords name A b t0 y0 (R b y0 mem reg) := by
    intro b y0 mem reg hm hr pre r post e
    obtain ⟨o1, yn, older, o2, o3, o4⟩ := C66_linear_ode name A b mem hm env cfg sol tick hlin hroot hupd hmax hit reg hr dts t0 y0 pre post r e (fun d => by
      have hdt : r.dt ∈ dts := driveObj_dts _ _ dts t0 [y0] y0 mem reg r (by change r ∈ R b y0 mem reg; rw [e]; simp)
      refine hsol _ hdt _ _ ?_ d
      rcases accepted y0 pre with _ | ⟨u, _ | ⟨v, l⟩⟩ <;> rcases ready_name name mem hm with rfl | rfl | rfl <;> simp [schemeCoef, rhsFactors])
    refine ⟨o1, o3, ?_⟩
    rw [o2]
    rcases o4 with o | ⟨-, o⟩
    · exact o
    · exfalso
      rcases hcrit with h | h <;> simp only [h, below, htol, decide_eq_true_eq] at o
      · exact absurd o (not_lt.2 (hM _))
      · exact absurd o (not_lt.2 (hN _))
  have none : ∀ b y0 mem reg, Ready name mem → NewtonIdle reg → ∀ r ∈ R b y0 mem reg, r.stop = none := fun b y0 mem reg hm hr r h => by
    obtain ⟨pre, post, e⟩ := List.append_of_mem h
    exact (key b y0 mem reg hm hr pre r post e).1
  have all : ∀ b y0 mem reg, Ready name mem → NewtonIdle reg → (R b y0 mem reg).map (·.dt) = dts := fun b y0 mem reg hm hr => driveObj_all _ _ dts t0 [y0] y0 mem reg (none b y0 mem reg hm hr)
  have len : ∀ b y0 mem reg, Ready name mem → NewtonIdle reg → (R b y0 mem reg).length = dts.length := fun b y0 mem reg hm hr => by
    have := congrArg List.length (all b y0 mem reg hm hr)
    simpa using this
  refine ⟨none b y0 mem1 reg1 hm1 hr1, len b y0 mem1 reg1 hm1 hr1, len c z0 mem2 reg2 hm2 hr2, ?_⟩
  have := (records_superpose name (ready_name name mem1 hm1) A b c α β t0 y0 z0 _ _ _ (key b y0 mem1 reg1 hm1 hr1) (key c z0 mem2 reg2 hm2 hr2) (key _ _ mem3 reg3 hm3 hr3) dts (all b y0 mem1 reg1 hm1 hr1) (all c z0 mem2 reg2 hm2 hr2) (all _ _ mem3 reg3 hm3 hr3) sol hsol dts.length le_rfl).2.2.2.2.2
  rw [List.take_of_length_le (by rw [len _ _ mem3 reg3 hm3 hr3]), List.take_of_length_le (by rw [len b y0 mem1 reg1 hm1 hr1]), List.take_of_length_le (by rw [len c z0 mem2 reg2 hm2 hr2])] at this
  exact this
end
section Examples
/-- a decay that gets faster, `y' = -(1 + t²) y + b(t)` -/
def decayMat (t : ℝ) : Matrix Unit Unit ℝ := Matrix.of fun _ _ => -(1 + t ^ 2)
theorem decay_regular (h : ℝ) (hh : 0 ≤ h) (t c : ℝ) (name : Scheme) (hc : c ∈ rhsFactors h name) (d : Unit → ℝ) : (1 - c • decayMat t) *ᵥ (fun _ => d () / (1 - c • decayMat t) () ()) = d := by
  have hc0 : 0 ≤ c := by cases name <;> simp [rhsFactors] at hc <;> (try rcases hc with rfl | rfl) <;> linarith
  have hp : (1 - c • decayMat t) () () ≠ 0 := by
    have : 0 ≤ c * (1 + t ^ 2) := by positivity
    simp [decayMat]
    linarith
  funext u
  cases u
  simp only [Matrix.mulVec, dotProduct, Finset.univ_unique, Finset.sum_singleton]
  exact mul_div_cancel₀ _ hp

/-- all three schemes, any steps `h ≥ 0`, the forcings `1` and `t` -/
example (name : Scheme) (hname : Ready name (newStepperR name)) (dts : List ℝ) (hdt : ∀ h ∈ dts, 0 ≤ h) :=
  C111_superposition_implicit name decayMat (fun _ _ => 1) (fun t _ => t) 2 (-3) (newStepperR name) (newStepperR name) (newStepperR name) hname hname hname envR (fun _ => abs_nonneg _) (fun _ => abs_nonneg _) (cfgR 0) (fun B d _ => d () / B () ()) id (fun _ _ _ _ => rfl)
    (.inl rfl) rfl rfl (by decide) (by decide) regR regR regR (fun _ => .created _ rfl) (fun _ => .created _ rfl) (fun _ => .created _ rfl) dts (fun h hm t c hc d => decay_regular h (hdt h hm) t c name hc d) 0 (fun _ => 1) (fun _ => 5)
example : Ready .BDF1 (newStepperR .BDF1) ∧ Ready .BDF2 (newStepperR .BDF2) ∧ Ready .CrankNicolson (newStepperR .CrankNicolson) := ⟨rfl, rfl, rfl, rfl, by decide⟩
end Examples
end Pressio.Props
