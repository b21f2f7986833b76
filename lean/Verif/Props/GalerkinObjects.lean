import Verif.Model.GalerkinObjects
import Verif.Props.GalerkinRun

/-
  C63: copies of explicit Galerkin problems; and concrete instances for C50, C51.
-/
namespace Pressio.Props
set_option autoImplicit false
open Pressio Pressio.Model.Galerkin Pressio.Spec.Galerkin Pressio.Model.GalerkinObjects
open Pressio.Model.Explicit (Scheme RhsEv)
open scoped Matrix

set_option linter.unusedSectionVars false
section
variable {K m q n : Type} [Field K] [Fintype m] [Fintype q] [Fintype n]

/-- what a program can do with problems, apart from copying them -/
inductive ObjOp (K m q n : Type) where
  | construct (a : Nat) (S : Trial K m n) (F : Fom K m m n) (scheme : Scheme) (bufs : GSt K m m q n) (st : List (n → K) × (n → K) × List (RhsEv K (n → K)))
  | destroy (a : Nat)
  | step (a : Nat) (t : K) (cnt : Int) (dt : K) (y : n → K)

/-- the memory after an operation (a step may also have thrown) -/
def ObjOp.run : ObjOp K m q n → Heap K m q n → Heap K m q n
  | .construct a S F sch b st, h => Model.GalerkinObjects.construct a S F sch b st h
  | .destroy a, h => Model.GalerkinObjects.destroy a h
  | .step a t c dt y, h => (Model.GalerkinObjects.step a t c dt (y, h)).state.2

/-- every object refers to its own system -/
def SelfRef (h : Heap K m q n) : Prop := ∀ a o, h a = some o → o.sysRef = a

theorem selfRef_update (h : Heap K m q n) (hs : SelfRef h) (a b : Nat) (st) : SelfRef (countUse a (setStore b st h)) := by
  intro c o ho
  unfold countUse setStore at ho
  cases hc : h c with
  | none => by_cases h1 : c = a <;> by_cases h2 : c = b <;> simp_all
  | some o' =>
    have := hs c o' hc
    by_cases h1 : c = a <;> by_cases h2 : c = b
    · subst h1; subst h2; simp [hc] at ho; subst ho; exact this
    · subst h1; simp [hc, h2] at ho; subst ho; exact this
    · subst h2; simp [hc, h1] at ho; subst ho; exact this
    · simp [hc, h1, h2] at ho; subst ho; exact this

theorem selfRef_run (op : ObjOp K m q n) (h : Heap K m q n) (hs : SelfRef h) : SelfRef (op.run h) := by
  cases op with
  | construct a S F sch b st =>
    intro c o ho
    simp only [ObjOp.run, Model.GalerkinObjects.construct] at ho
    by_cases hc : c = a
    · simp only [hc, if_true, Option.some.injEq] at ho; subst ho; exact hc.symm
    · simp only [hc, if_false] at ho; exact hs c o ho
  | destroy a =>
    intro c o ho
    simp only [ObjOp.run, Model.GalerkinObjects.destroy] at ho
    by_cases hc : c = a
    · simp [hc] at ho
    · simp only [hc, if_false] at ho; exact hs c o ho
  | step a t c dt y =>
    simp only [ObjOp.run, Model.GalerkinObjects.step]
    split
    · exact hs
    · split
      · exact hs
      · split
        · exact selfRef_update h hs _ _ _
        · exact selfRef_update h hs _ _ _

/-- **C63, what holds.** As long as a program does not copy or move problems: after every sequence of constructions, destructions and steps, each problem refers to its own system. -/
theorem C63_without_copies_partial (ops : List (ObjOp K m q n)) : SelfRef (ops.foldl (fun h op => op.run h) (fun _ => none)) := by
  have : ∀ h : Heap K m q n, SelfRef h → SelfRef (ops.foldl (fun h op => op.run h) h) := by
    induction ops with
    | nil => exact fun h hs => hs
    | cons op ops ih => exact fun h hs => ih _ (selfRef_run op h hs)
  exact this _ (by intro a o h; simp at h)

/-- hence a step of a live problem calls its own system, counts as a use of it, and never follows a dangling reference -/
theorem C63_own_system_partial (h : Heap K m q n) (hs : SelfRef h) (a : Nat) (o : Obj K m q n) (ho : h a = some o) (t : K) (cnt : Int) (dt : K) (y : n → K) :
    (step a t cnt dt (y, h)).stop? = (Model.Explicit.asStepper (asSystem (defaultRhs o.trial o.fom) o.bufs) o.scheme Model.Explicit.dummyObserver t cnt dt (y, o.store)).stop? ∧
    (step a t cnt dt (y, h)).state.1 = (Model.Explicit.asStepper (asSystem (defaultRhs o.trial o.fom) o.bufs) o.scheme Model.Explicit.dummyObserver t cnt dt (y, o.store)).state.1 ∧
    ∀ b, ((step a t cnt dt (y, h)).state.2 b).map Obj.uses = if b = a then some (o.uses + 1) else (h b).map Obj.uses := by
  have hr := hs a o ho
  unfold Model.GalerkinObjects.step
  simp only [ho, hr]
  generalize Model.Explicit.asStepper (asSystem (defaultRhs o.trial o.fom) o.bufs) o.scheme Model.Explicit.dummyObserver t cnt dt (y, o.store) = res
  cases res <;> refine ⟨rfl, rfl, fun b => ?_⟩ <;> by_cases hb : b = a <;> simp [Res.state, countUse, setStore, hb, ho]

/-- **C63 is false of the code.** Let `b` be a copy of any problem `a` that refers to its own system. Every step of `b` uses the buffers of `a`'s system and not those of `b`; and once `a` has been destroyed every step of `b`, at any time, with any state, follows a
    reference to a destroyed object. -/
theorem C63_copy_refuted (h : Heap K m q n) (a b : Nat) (hab : b ≠ a) (o : Obj K m q n) (ho : h a = some o) (hr : o.sysRef = a) (t : K) (cnt : Int) (dt : K) (y : n → K) :
    ((step b t cnt dt (y, copyTo a b h)).state.2 a).map Obj.uses = some (o.uses + 1) ∧
    ((step b t cnt dt (y, copyTo a b h)).state.2 b).map Obj.uses = some 0 ∧
    step b t cnt dt (y, destroy a (copyTo a b h)) = .stop (.ub "reference to a destroyed system") (y, destroy a (copyTo a b h)) := by
  have hab' : a ≠ b := fun e => hab e.symm
  have hb : copyTo a b h b = some { o with uses := 0 } := by simp [copyTo, ho]
  have ha : copyTo a b h a = some o := by simp [copyTo, ho, hab']
  refine ⟨?_, ?_, ?_⟩
  · unfold Model.GalerkinObjects.step
    simp only [ha, hb, hr]
    split <;> simp [Res.state, countUse, setStore, hab', ha]
  · unfold Model.GalerkinObjects.step
    simp only [ha, hb, hr]
    split <;> simp [Res.state, countUse, setStore, hab, hb]
  · unfold Model.GalerkinObjects.step
    simp [destroy, hb, hab, hr]

/-- While the original lives, and if the FOM writes its output completely, a step of the copy computes the state a problem with its own system would. -/
theorem C63_copy_values_partial {f : (m → K) → K → m → K} {Df Mm : (m → K) → K → Except Exc (Matrix m m K)} (h : Heap K m q n) (a b : Nat) (hab : b ≠ a) (o : Obj K m q n) (ho : h a = some o) (hr : o.sysRef = a)
    (hF : FomIs o.fom (fun y t => .ok (f y t)) Df Mm) (t : K) (cnt : Int) (dt : K) (y : n → K) (bufs : GSt K m m q n) :
    (step b t cnt dt (y, copyTo a b h)).stop? = (step b t cnt dt (y, construct b o.trial o.fom o.scheme bufs o.store h)).stop? ∧
    (step b t cnt dt (y, copyTo a b h)).state.1 = (step b t cnt dt (y, construct b o.trial o.fom o.scheme bufs o.store h)).state.1 := by
  have hab' : a ≠ b := fun e => hab e.symm
  have hb : copyTo a b h b = some { o with uses := 0 } := by simp [copyTo, ho]
  have ha : copyTo a b h a = some o := by simp [copyTo, ho, hab']
  have hc : construct b o.trial o.fom o.scheme bufs o.store h b = some ⟨o.trial, o.fom, bufs, 0, o.scheme, b, o.store⟩ := by simp [construct]
  have hsys : asSystem (defaultRhs o.trial o.fom) o.bufs = asSystem (defaultRhs o.trial o.fom) bufs := by
    have h1 : (asSystem (defaultRhs o.trial o.fom) o.bufs).rhs = (asSystem (defaultRhs o.trial o.fom) bufs).rhs := by
      funext x t b
      have e : ∀ s0 : GSt K m m q n, (asSystem (defaultRhs o.trial o.fom) s0).rhs x t b = .ok () (o.trial.basisᵀ.mulVec (f (lift o.trial x) t)) := by
        intro s0
        obtain ⟨s, hs, hv⟩ := C49_default_rhs hF o.trial x t { s0 with r := b }
        simp only [Prod.mk.injEq] at hv
        unfold asSystem
        simp only [hs, hv.1]
      rw [e, e]
    cases h2 : asSystem (defaultRhs o.trial o.fom) o.bufs; cases h3 : asSystem (defaultRhs o.trial o.fom) bufs
    rw [h2, h3] at h1; simp only at h1; rw [h1]
  unfold Model.GalerkinObjects.step
  simp only [ha, hb, hr, hc, hsys]
  generalize Model.Explicit.asStepper (asSystem (defaultRhs o.trial o.fom) bufs) o.scheme Model.Explicit.dummyObserver t cnt dt (y, o.store) = res
  cases res <;> exact ⟨rfl, rfl⟩

end

/-! ### Concrete instances -/
section
open Pressio.Spec.Implicit Pressio.Model.Implicit

/-- an affine trial space with orthonormal basis -/
def trial3 : Trial ℚ (Fin 2) (Fin 1) := ⟨!![3/5; 4/5], ![1, 2], true⟩
theorem trial3_orthonormal : Orthonormal trial3 := by
  unfold Orthonormal trial3
  ext i j
  fin_cases i; fin_cases j
  simp [Matrix.mul_apply, Matrix.transpose_apply, Fin.sum_univ_two]
  norm_num

/-- hypotheses of C51: a nonlinear, time-dependent FOM that leaves the trial space invariant -/
def fom3 : Fom ℚ (Fin 2) (Fin 2) (Fin 1) where
  rhs := fun y t _ => .ok ((t + y 0 * y 1) • ![3/5, 4/5])
  applyJac := fun y B _ _ => .ok ((!![3/5 * y 1, 3/5 * y 0; 4/5 * y 1, 4/5 * y 0] : Matrix (Fin 2) (Fin 2) ℚ) * B)
  applyMM := fun _ B _ _ => .ok ((!![2, 0; 0, 2] : Matrix (Fin 2) (Fin 2) ℚ) * B)

theorem fom3_is : FomIs fom3 (fun y t => .ok ((t + y 0 * y 1) • ![3/5, 4/5])) (fun y _ => .ok !![3/5 * y 1, 3/5 * y 0; 4/5 * y 1, 4/5 * y 0]) (fun _ _ => .ok !![2, 0; 0, 2]) :=
  ⟨fun _ _ _ => rfl, fun _ _ _ _ => rfl, fun _ _ _ _ => rfl⟩

theorem trial3_invariant (x : Fin 1 → ℚ) (t : ℚ) : ∃ z, (t + lift trial3 x 0 * lift trial3 x 1) • (![3/5, 4/5] : Fin 2 → ℚ) = trial3.basis.mulVec z := by
  refine ⟨![t + lift trial3 x 0 * lift trial3 x 1], ?_⟩
  generalize t + lift trial3 x 0 * lift trial3 x 1 = c
  funext i
  fin_cases i <;> simp [trial3, Matrix.mulVec, dotProduct] <;> ring

/-- one ForwardEuler step of the Galerkin problem from `x = 0` and of the FOM from `(1,2)`, size 1: `x = 2`, and `(1,2) + 2 (3/5, 4/5)` -/
example : (Model.Explicit.asStepper (asSystem (defaultRhs trial3 fom3) gst2) .ForwardEuler Model.Explicit.dummyObserver 0 1 1 (![0], ([![9]], ![9], []))).state.1 0 = 2 := by decide +kernel
example : (fun r => (r 0, r 1)) (Model.Explicit.asStepper (fomAsSystem fom3) .ForwardEuler Model.Explicit.dummyObserver 0 1 1 (![1, 2], ([![9, 9]], ![9, 9], []))).state.1 = (11/5, 18/5) := by decide +kernel

/-- a solver for the runs of C50: asks for the residual and Jacobian and makes a Newton step -/
def newton1 : (Fin 1 → ℚ) → SolveTree (Fin 1 → ℚ) ((Fin 1 → ℚ) × Option (Matrix (Fin 1) (Fin 1) ℚ)) := fun y =>
  .ask y true (fun a => match a with
    | .ok (r, some j) => .ret (fun i => y i - r i / j 0 0)
    | .ok (_, none) => .stop (.exc .outOfRange) y
    | .error _ => .stop (.exc .nonlinearSolveFailure) y)

theorem newton1_honest (y : Fin 1 → ℚ) : Honest (newton1 y) := by
  intro a ha
  rcases a with e | ⟨r, _ | j⟩ <;> simp [Honest]

theorem fom2_noTSF : FomNoTSF (fun y (t : ℚ) => if y 1 = 100 then Except.error Exc.velocityFailureUnrecoverable else .ok ![y 0 * y 1, t + y 1])
    (fun (y : Fin 2 → ℚ) (_ : ℚ) => .ok !![y 1, y 0; 0, 1]) := by
  constructor
  · intro y t; dsimp only; split <;> simp
  · intro y t; simp

def memBDF2 : SMem ℚ (Fin 1 → ℚ) (Fin 1 → ℚ) PMem := ⟨0, 0, 0, ![0], [![0], ![0]], [], freshPMem⟩

/-- hypotheses of C50 on a run of two BDF2 steps; the run has records with queries -/
example := C50_projection_of_discretisation fom2_is fom2_noTSF trial3 trial3_orthonormal gst2 .BDF2 memBDF2 (by decide) [⟨1/2, newton1⟩, ⟨1/2, newton1⟩]
  (by simp only [List.mem_cons, List.not_mem_nil, or_false]; rintro a (rfl | rfl) y <;> exact newton1_honest y) 0 ![0]
example : ((drive (stdStep .BDF2 (asISystem (defaultRhsJac trial3 fom2) gst2)) [⟨1/2, newton1⟩, ⟨1/2, newton1⟩] 0 [![0]] ![0] memBDF2).map (fun r => (r.queries.length, r.stop))) = [(1, none), (1, none)] := by
  decide +kernel

/-- C51 on this problem: all explicit schemes with step sizes `1/(n+1)` -/
example (scheme : Scheme) (h : scheme.isExplicit = true) (N : Nat) (hN : (N : Int) < int32Max) :=
  C51_exact_on_invariant_subspace fom3_is trial3 trial3_orthonormal trial3_invariant gst2 scheme h (fun k _ _ => 1 / (k + 1)) 0 N hN ![1] (List.replicate (Model.Explicit.numRhs scheme) ![9], ![9], []) (by simp)
    (List.replicate (Model.Explicit.numRhs scheme) ![9, 9], ![9, 9], []) (by simp)

/-- an exact solver for the reduced and for the full mass matrix -/
def cramer (p : Type) [Fintype p] [DecidableEq p] : Model.ExplicitMM.LinSolve (p → ℚ) (Matrix p p ℚ) := fun M s => .ok () ((M.det)⁻¹ • M.adjugate.mulVec s.2, s.2)
theorem cramer_solves (p : Type) [Fintype p] [DecidableEq p] : Spec.ExplicitMM.SolvesMxf Matrix.mulVec (cramer p) := by
  intro M hM x f
  refine ⟨_, rfl, ?_⟩
  have hdet : M.det ≠ 0 := by
    have := Matrix.mulVec_injective_iff_isUnit.1 hM.1
    exact ((Matrix.isUnit_iff_isUnit_det M).1 this).ne_zero
  rw [Matrix.mulVec_smul, Matrix.mulVec_mulVec, Matrix.mul_adjugate, Matrix.smul_mulVec, Matrix.one_mulVec, smul_smul, inv_mul_cancel₀ hdet, one_smul]
theorem bijective_of_det {p : Type} [Fintype p] [DecidableEq p] (M : Matrix p p ℚ) (h : M.det ≠ 0) : Function.Bijective M.mulVec := by
  have hu : IsUnit M := (Matrix.isUnit_iff_isUnit_det M).2 (isUnit_iff_ne_zero.2 h)
  exact ⟨Matrix.mulVec_injective_iff_isUnit.2 hu, Matrix.mulVec_surjective_iff_isUnit.2 hu⟩
example (scheme : Scheme) (h : scheme.isExplicit = true) (N : Nat) (hN : (N : Int) < int32Max) :=
  C51_exact_with_mass_matrix fom3_is trial3 (fun _ _ => bijective_of_det _ (by simp [trial3, Matrix.mul_apply, Fin.sum_univ_two]; norm_num)) (fun _ _ => bijective_of_det _ (by simp [Matrix.det_fin_two]))
    (fun x t => by
      obtain ⟨z, hz⟩ := trial3_invariant x t
      refine ⟨(1 / 2 : ℚ) • z, ?_⟩
      rw [hz]
      funext i
      fin_cases i <;> simp [trial3, Matrix.mulVec, dotProduct] <;> ring)
    ⟨fun y t _ => .ok () (!![2, 0; 0, 2], (t + y 0 * y 1) • ![3/5, 4/5])⟩ (fun _ _ _ => rfl) (cramer _) (cramer_solves _) (cramer _) (cramer_solves _) gst2 scheme h (fun k _ _ => 1 / (k + 1)) 0 N hN ![1]
    (![9], List.replicate (Model.ExplicitMM.numX scheme) ![9], !![9], []) (by simp) (![9, 9], List.replicate (Model.ExplicitMM.numX scheme) ![9, 9], !![9, 9; 9, 9], []) (by simp)

/-- C50 with mass matrix: the second of two BDF2 steps -/
def memMM2 : SMem ℚ (Fin 1 → ℚ) (Fin 1 → ℚ) (MMMem (Fin 1 → ℚ) (Matrix (Fin 1) (Fin 1) ℚ)) := ⟨0, 0, 0, ![0], [![0], ![0]], [], ⟨-1, ![0], !![0], ![0]⟩⟩
def mmRun := drive (mmStep Matrix.mulVec id .BDF2 (asIMMSystem (defaultMMRhsJac trial3 fom2) gst2)) [⟨1/2, newton1⟩, ⟨1/2, newton1⟩] 0 [![0]] ![0] memMM2
theorem mmRun_length : mmRun.length = 2 := by decide +kernel
example := C50_projection_with_mass_matrix fom2_is fom2_noTSF (fun _ _ => by simp) trial3 gst2 .BDF2 memMM2 rfl [⟨1/2, newton1⟩, ⟨1/2, newton1⟩]
  (by simp only [List.mem_cons, List.not_mem_nil, or_false]; rintro a (rfl | rfl) y <;> exact newton1_honest y) 0 ![0] (mmRun.take 1) (mmRun.drop 2) (mmRun[1]'(by rw [mmRun_length]; norm_num))
  (by rw [← List.drop_eq_getElem_cons, List.take_append_drop]; rfl)
example : mmRun.map (fun r => (r.queries.length, r.stop)) = [(1, none), (1, none)] := by decide +kernel

/-- C63: two problems, one of which is destroyed; a step of the other; a copy of it -/
example := C63_without_copies_partial [.construct 1 trial3 fom3 .ForwardEuler gst2 ([![9]], ![9], []), .construct 2 trial2 fom2 .AdamsBashforth2 gst2 ([![9], ![9]], ![9], []), .step 1 0 1 1 ![0], .destroy 1, .step 2 0 1 1 ![0]]
def oneProblem : Heap ℚ (Fin 2) (Fin 1) (Fin 1) := construct 1 trial3 fom3 .ForwardEuler gst2 ([![9]], ![9], []) (fun _ => none)
example := C63_own_system_partial oneProblem (C63_without_copies_partial [.construct 1 trial3 fom3 .ForwardEuler gst2 ([![9]], ![9], [])]) 1 _ rfl 0 1 1 ![0]
example := C63_copy_refuted oneProblem 1 2 (by decide) _ rfl rfl 0 1 1 ![0]


end
end Pressio.Props
