import Verif.Model.Factory

/-
  C28 (scheme selection), C29 (systems passed by value).
-/
namespace Pressio.Props
set_option autoImplicit false
open Pressio Pressio.Model.Factory
open Pressio.Model.Explicit (Scheme)

/-! ### C28 -/

/-- **C28.** The two predicates partition the schemes. -/
theorem C28_partition (s : Scheme) : isImplicit s = !s.isExplicit ∧
    (s.isExplicit = true ↔ s = .ForwardEuler ∨ s = .RungeKutta4 ∨ s = .AdamsBashforth2 ∨ s = .SSPRungeKutta3) ∧
    (isImplicit s = true ↔ s = .BDF1 ∨ s = .BDF2 ∨ s = .CrankNicolson ∨ s = .ImplicitArbitrary) := by
  cases s <;> decide

/-- **C28.** `create_explicit_stepper` makes the scheme that was asked for if it is explicit, and throws otherwise. -/
theorem C28_create_explicit (s : Scheme) :
    (s.isExplicit = true → createExplicitStepper s = .made s) ∧
    (s.isExplicit = false → ∃ m, createExplicitStepper s = .thrown m) := by
  cases s <;> simp [createExplicitStepper, Scheme.isExplicit]

/-- **C28.** `create_implicit_stepper` makes the scheme that was asked for if it is BDF1, BDF2 or CrankNicolson; otherwise it does not return (it throws, and
    in debug builds an assertion fails before that). -/
theorem C28_create_implicit (debug : Bool) (s : Scheme) :
    (s = .BDF1 ∨ s = .BDF2 ∨ s = .CrankNicolson → createImplicitStepper debug s = .made s) ∧
    (¬ (s = .BDF1 ∨ s = .BDF2 ∨ s = .CrankNicolson) →
      if debug then createImplicitStepper debug s = .aborted else ∃ m, createImplicitStepper debug s = .thrown m) := by
  cases s <;> cases debug <;> simp [createImplicitStepper, createImplicitStepperImpl, assertThen]

/-- **C28, with mass matrix.** BDF1 and BDF2 are made. CrankNicolson is not supported, but in release builds it is made all the same (it then throws at the first
    evaluation, `C26_cn_refused`). -/
theorem C28_create_implicit_mass_matrix (debug : Bool) (s : Scheme) :
    (s = .BDF1 ∨ s = .BDF2 → createImplicitStepperMM debug s = .made s) ∧
    (createImplicitStepperMM true .CrankNicolson = .aborted) ∧
    (createImplicitStepperMM false .CrankNicolson = .made .CrankNicolson) ∧
    (s = .ImplicitArbitrary ∨ s.isExplicit = true → ∀ r, createImplicitStepperMM debug s ≠ .made r) := by
  cases s <;> cases debug <;> simp [createImplicitStepperMM, createImplicitStepperImpl, assertThen, Scheme.isExplicit]

/-- **C28.** Galerkin and LSPG: whatever is made has the scheme that was asked for, and only explicit schemes, only the three implicit schemes, only
    BDF1 and BDF2 respectively. -/
theorem C28_rom_factories (debug mm : Bool) (s r : Scheme) :
    (createGalerkinExplicit s = .made r ↔ r = s ∧ s.isExplicit = true) ∧
    (createGalerkinImplicit debug mm s = .made r ↔ r = s ∧ (s = .BDF1 ∨ s = .BDF2 ∨ (s = .CrankNicolson ∧ (mm && debug) = false))) ∧
    (createLspg debug s = .made r ↔ r = s ∧ (s = .BDF1 ∨ s = .BDF2)) := by
  cases s <;> cases debug <;> cases mm <;> cases r <;> decide

/-- and a scheme of the wrong kind is refused with an exception, in release and in debug builds -/
theorem C28_rom_factories_throw (debug mm : Bool) (s : Scheme) :
    (s.isExplicit = false → ∃ m, createGalerkinExplicit s = .thrown m) ∧
    (s.isExplicit = true → ∃ m, createGalerkinImplicit debug mm s = .thrown m) ∧
    (s ≠ .BDF1 → s ≠ .BDF2 → ∃ m, createLspg debug s = .thrown m) := by
  cases s <;> simp [createGalerkinExplicit, createGalerkinImplicit, createLspg, Scheme.isExplicit, isImplicit]

/-- **C28.** The functions named after a scheme make that scheme, in release and in debug builds. -/
theorem C28_named_factories (debug : Bool) (s : Scheme) (hs : s ≠ .ImplicitArbitrary) : createNamed debug s = .made s := by
  cases s <;> cases debug <;> simp_all [createNamed, Scheme.isExplicit, createExplicitStepper, createImplicitStepper, createImplicitStepperImpl, assertThen]

/-- **C28.** The stepper models used in the other properties are created for exactly the same schemes. -/
theorem C28_models_agree (s : Scheme) (r : Nat → Int) (a : Int) (y : Int) (p : Unit) :
    ((∃ m, Model.Explicit.createExplicit s r a = .ok m) ↔ createExplicitStepper s = .made s) ∧
    ((∃ m : Model.Implicit.SMem Int Int Int Unit, Model.Implicit.createImplicit s y p = .ok m) ↔ createImplicitStepper false s = .made s) := by
  cases s <;> simp [Model.Explicit.createExplicit, Model.Implicit.createImplicit, createExplicitStepper, createImplicitStepper,
    createImplicitStepperImpl, assertThen]

/-! ### C29 -/
variable {σ V M : Type}

/-- a system type that is not changed by being moved from, as far as its `create` functions can tell -/
def MoveSafe (T : SystemType σ V M) (s : σ) : Prop :=
  T.createState (T.moved s) = T.createState s ∧ T.createRhs (T.moved s) = T.createRhs s ∧
  T.createMassMatrix (T.moved s) = T.createMassMatrix s

/-- **C29, what holds.** The standard implicit steppers have the same members however the system was passed; the other steppers do if moving from the system does
    not change what it creates. -/
theorem C29_rvalue_system_partial (T : SystemType σ V M) (s : σ) :
    (∀ n, ctorStandardImplicit T .rvalue n s = ctorStandardImplicit T .lvalue n s) ∧
    (MoveSafe T s → (∀ name, ctorExplicit T .rvalue name s = ctorExplicit T .lvalue name s) ∧
      (∀ name, ctorExplicitMM T .rvalue name s = ctorExplicitMM T .lvalue name s) ∧
      (∀ n, ctorArbitrary T .rvalue n s = ctorArbitrary T .lvalue n s) ∧
      ctorPolicyMM T .rvalue s = ctorPolicyMM T .lvalue s) := by
  refine ⟨fun n => rfl, ?_⟩
  rintro ⟨h1, h2, h3⟩
  refine ⟨fun name => ?_, fun name => ?_, fun n => ?_, ?_⟩
  · simp only [ctorExplicit, storeSystem, h1, h2]
  · simp only [ctorExplicitMM, storeSystem, h1, h2, h3]
  · simp only [ctorArbitrary, storeSystem, h1]
  · simp only [ctorPolicyMM, storeSystem, h1, h2, h3]

/-- **C29, the members.** From a system passed by reference, or by value if moving from it does not change what it creates, the constructors make exactly the members with which the stepper
    models of the other properties start, and store the system itself. -/
theorem C29_members_partial {K : Type} (T : SystemType σ V M) (p : Passed) (s : σ) (hs : p = .rvalue → MoveSafe T s) :
    (∀ name, Scheme.isExplicit name = true → (ctorExplicit T p name s).1 = s ∧
      Model.Explicit.createExplicit name (fun _ => T.createRhs s) (T.createState s) = .ok (ctorExplicit T p name s).2) ∧
    (∀ name, Scheme.isExplicit name = true → (ctorExplicitMM T p name s).1 = s ∧
      Model.ExplicitMM.createExplicitMM name (T.createRhs s) (fun _ => T.createState s) (T.createMassMatrix s) = .ok (ctorExplicitMM T p name s).2) ∧
    (∀ (zK : Zero K) (zV : Zero V) n, T.createState s = 0 → (ctorArbitrary T p n s).1 = s ∧
      (Model.Implicit.createArbitrary n (T.createState s) : Model.Implicit.AMem K V) = ⟨0, 0, 0, (ctorArbitrary T p n s).2.1, (ctorArbitrary T p n s).2.2⟩) ∧
    (ctorPolicyMM T p s = (s, T.createState s, T.createMassMatrix s, T.createRhs s)) := by
  have hm : storeSystem T p s = (s, (storeSystem T p s).2) ∧ T.createState (storeSystem T p s).2 = T.createState s ∧ T.createRhs (storeSystem T p s).2 = T.createRhs s ∧
      T.createMassMatrix (storeSystem T p s).2 = T.createMassMatrix s := by
    cases p with
    | lvalue => exact ⟨rfl, rfl, rfl, rfl⟩
    | rvalue => exact ⟨rfl, hs rfl⟩
  obtain ⟨h0, h1, h2, h3⟩ := hm
  have h0' : (storeSystem T p s).1 = s := by rw [h0]
  refine ⟨fun name hn => ⟨h0', ?_⟩, fun name hn => ⟨h0', ?_⟩, fun zK zV n hz => ⟨h0', ?_⟩, ?_⟩
  · simp only [ctorExplicit, h1, h2]
    cases name <;> simp [Scheme.isExplicit] at hn <;> rfl
  · simp only [ctorExplicitMM, h1, h2, h3]
    cases name <;> simp [Scheme.isExplicit] at hn <;> rfl
  · simp only [ctorArbitrary, h1, Model.Implicit.createArbitrary, hz]
  · simp only [ctorPolicyMM, h0', h1, h2, h3]

/-- **C29, one object per call.** The members of the explicit steppers come from successive calls of the system's `createRhs` (`createState` with a mass matrix), each result used once, in order. -/
theorem C29_members_from_successive_calls {V M : Type} (r : Nat → V) (a : V) (r' : V) (a' : Nat → V) (mm : M) (name : Scheme) :
    (∀ n, (name, n) ∈ [(Scheme.ForwardEuler, 1), (Scheme.RungeKutta4, 4), (Scheme.AdamsBashforth2, 2), (Scheme.SSPRungeKutta3, 1)] → Model.Explicit.createExplicit name r a = .ok ((List.range n).map r, a)) ∧
    (∀ n, (name, n) ∈ [(Scheme.ForwardEuler, 1), (Scheme.RungeKutta4, 5), (Scheme.AdamsBashforth2, 2), (Scheme.SSPRungeKutta3, 2)] → Model.ExplicitMM.createExplicitMM name r' a' mm = .ok (r', (List.range n).map a', mm)) := by
  constructor <;> intro n hn <;> cases name <;> simp at hn <;> subst hn <;> rfl

/-- **C29, the members of the standard implicit steppers**, however the system was passed: as many states as the scheme needs, all created by the system itself, with which the stepper models start. -/
theorem C29_standard_implicit_members {K P : Type} [Zero K] [Zero V] (T : SystemType σ V M) (p : Passed) (s : σ) (hz : T.createState s = 0) (pol : P) :
    (∀ name n, (name, n) ∈ [(Scheme.BDF1, 1), (Scheme.BDF2, 2), (Scheme.CrankNicolson, 1)] → ctorStandardImplicit T p n s = (s, List.replicate n (T.createState s), T.createState s) ∧
      ∃ rhs, (Model.Implicit.createImplicit name (T.createState s) pol : Except Exc (Model.Implicit.SMem K V V P)) = .ok ⟨0, 0, 0, (ctorStandardImplicit T p n s).2.2, (ctorStandardImplicit T p n s).2.1, rhs, pol⟩) := by
  have h : ∀ n, ctorStandardImplicit T p n s = (s, List.replicate n (T.createState s), T.createState s) := fun n => by
    cases p <;> rfl
  intro name n hn
  refine ⟨h n, ?_⟩
  rw [h n, hz]
  simp only [List.mem_cons, Prod.mk.injEq, List.not_mem_nil, or_false] at hn
  rcases hn with ⟨rfl, rfl⟩ | ⟨rfl, rfl⟩ | ⟨rfl, rfl⟩
  · exact ⟨_, rfl⟩
  · exact ⟨_, rfl⟩
  · exact ⟨_, rfl⟩

/-- A system that owns a vector (for instance of grid points), creates operators of the same length, and is left with an empty vector by the move
    constructor, as `std::vector` is. -/
def gridSystem : SystemType (List Nat) (List Nat) (List Nat) where
  moved := fun _ => []
  createState := fun g => List.replicate g.length 0
  createRhs := fun g => List.replicate g.length 0
  createMassMatrix := fun g => List.replicate g.length 0

/-- **C29 is false** of the explicit steppers, the stepper for user-defined schemes and the policy with mass matrix: from a temporary of that type they
    get empty operators, whereas the stored system has all its points. -/
theorem C29_refuted (g : List Nat) (hg : g ≠ []) :
    (∀ name, Scheme.isExplicit name = true → ctorExplicit gridSystem .rvalue name g ≠ ctorExplicit gridSystem .lvalue name g ∧
      (ctorExplicit gridSystem .rvalue name g).1 = g ∧ (ctorExplicit gridSystem .rvalue name g).2.2 = []) ∧
    (∀ name, ctorExplicitMM gridSystem .rvalue name g ≠ ctorExplicitMM gridSystem .lvalue name g) ∧
    (∀ n, ctorArbitrary gridSystem .rvalue n g ≠ ctorArbitrary gridSystem .lvalue n g) ∧
    ctorPolicyMM gridSystem .rvalue g ≠ ctorPolicyMM gridSystem .lvalue g := by
  have hl : g.length ≠ 0 := by simpa using hg
  have hne : ([] : List Nat) ≠ List.replicate g.length 0 := by
    intro h
    have := congrArg List.length h
    simp at this
    exact hl this.symm
  refine ⟨fun name _ => ⟨?_, rfl, rfl⟩, fun name => ?_, fun n => ?_, ?_⟩
  · intro h
    have := congrArg (fun x => x.2.2) h
    exact hne (by simpa [ctorExplicit, storeSystem, gridSystem] using this)
  · intro h
    have := congrArg (fun x => x.2.1) h
    exact hne (by simpa [ctorExplicitMM, storeSystem, gridSystem] using this)
  · intro h
    have := congrArg (fun x => x.2.2) h
    exact hne (by simpa [ctorArbitrary, storeSystem, gridSystem] using this)
  · intro h
    have := congrArg (fun x => x.2.1) h
    exact hne (by simpa [ctorPolicyMM, storeSystem, gridSystem] using this)

/-- a system that only holds numbers is safe -/
example : MoveSafe ({ moved := id, createState := fun n => n, createRhs := fun n => n, createMassMatrix := fun n => n } : SystemType Nat Nat Nat) 3 :=
  ⟨rfl, rfl, rfl⟩
example : ([1, 2, 3] : List Nat) ≠ [] := by decide

/-- factories for schemes of the wrong kind -/
example := (C28_create_explicit .BDF2).2 rfl
example := (C28_create_implicit false .RungeKutta4).2 (by decide)
example := (C28_create_implicit_mass_matrix false .ForwardEuler).2.2.2 (Or.inr rfl)
example := (C28_rom_factories_throw false false .CrankNicolson).2.2 (by decide) (by decide)
example := C28_named_factories true .CrankNicolson (by decide)
/-- a system that keeps its content when moved -/
def copySystem : SystemType Nat Nat Nat := { moved := id, createState := fun _ => 0, createRhs := fun n => n, createMassMatrix := fun n => n }
example := (C29_rvalue_system_partial copySystem 3).2 ⟨rfl, rfl, rfl⟩
example := C29_members_partial (K := Int) copySystem .rvalue 3 (fun _ => ⟨rfl, rfl, rfl⟩)
example := (C29_members_from_successive_calls (fun k => 10 + k) 7 8 (fun k => 20 + k) 9 .RungeKutta4).1 4 (by simp)
example := C29_standard_implicit_members (K := Int) copySystem .rvalue 3 rfl () .BDF2 2 (by simp)

end Pressio.Props
