import Verif.Props.ExplicitRun
import Verif.Spec.ExplicitMM

/-
  C17, C18: explicit steppers with mass matrix.
-/
namespace Pressio.Props
set_option autoImplicit false
open Pressio Pressio.Model.Advance Pressio.Model.ExplicitMM Pressio.Spec.Explicit Pressio.Spec.ExplicitMM Pressio.Spec.Run Pressio.Lemmas.Run
open Pressio.Spec.AdvanceTarget
open Pressio.Model.Explicit (Scheme RhsEv dummyObserver asStepper System numRhs)

set_option linter.unusedSectionVars false

section
variable {K Y Mt : Type} [Field K] [CharZero K] [AddCommGroup Y] [Module K Y]
variable (act : Mt → Y → Y) (sys : MMSystem K Y Mt) (ls : LinSolve Y Mt) (M : Y → K → Mt) (f g : Y → K → Y)

/-- what the solver does is determined when the mass matrix is invertible -/
theorem solve_eq (hls : SolvesMxf act ls) (hinv : ∀ y t, Function.Bijective (act (M y t))) (hg : ∀ y t, act (M y t) (g y t) = f y t)
    (y : Y) (t : K) (x : Y) : ls (M y t) (x, f y t) = .ok () (g y t, f y t) := by
  obtain ⟨x', h1, h2⟩ := hls (M y t) (hinv y t) x (f y t)
  rw [h1, (hinv y t).1 (h2.trans (hg y t).symm)]

/-- one step of the one-step schemes -/
theorem mm_step (hf : ComputesMM sys M f) (hls : SolvesMxf act ls) (hinv : ∀ y t, Function.Bijective (act (M y t)))
    (hg : ∀ y t, act (M y t) (g y t) = f y t) (scheme : Scheme) (tab : Tableau K) (ht : tableauOf scheme = some tab)
    (obs : RhsEv K Y → Except Exc Unit) (hobs : ∀ e, obs e = .ok ()) (t h : K) (n : Int) (s : MSt K Y Mt)
    (hlen : s.x.length = numX scheme) :
    ∃ s', doStep sys ls scheme obs t h n s = .ok () s' ∧ s'.y = rkStep tab g s.y t h ∧ s'.x.length = numX scheme := by
  have hs := solve_eq act ls M f g hls hinv hg
  have hf' := hf
  simp only [ComputesMM] at hf'
  -- the same step without mass matrix, for `g`
  have main : ∃ s' e', doStep sys ls scheme obs t h n s = .ok () s' ∧
      Model.Explicit.doStep ⟨fun y t _ => .ok () (g y t)⟩ scheme dummyObserver t h n
        ⟨s.y, List.replicate (numRhs scheme) 0, 0, []⟩ = .ok () e' ∧ s'.y = e'.y ∧ s'.x.length = numX scheme := by
    obtain ⟨y, f0, xs, m, l⟩ := s
    cases scheme <;> simp only [tableauOf, reduceCtorEq] at ht <;> simp only [numX] at hlen
    · obtain ⟨x0, rfl⟩ := List.length_eq_one_iff.1 hlen
      simp [doStep, stepFE, Model.Explicit.doStep, Model.Explicit.stepFE, Prog.bind_run, evalMM, observeMM, solveInto, xAt, setY, hf', hobs, hs,
        Model.Explicit.evalInto, Model.Explicit.observe, Model.Explicit.rhsAt, Model.Explicit.setY, numRhs, dummyObserver, numX]
    · obtain ⟨x0, x1, x2, x3, x4, rfl⟩ : ∃ x0 x1 x2 x3 x4, xs = [x0, x1, x2, x3, x4] := by
        match xs, hlen with
        | [x0, x1, x2, x3, x4], _ => exact ⟨x0, x1, x2, x3, x4, rfl⟩
      simp [doStep, stepRK4, Model.Explicit.doStep, Model.Explicit.stepRK4, Prog.bind_run, evalMM, observeMM, solveInto, xAt, setX, setY, hf', hobs, hs,
        Model.Explicit.evalInto, Model.Explicit.observe, Model.Explicit.rhsAt, Model.Explicit.setY, Model.Explicit.setAux, numRhs, dummyObserver, numX,
        rk4Stage, Model.Explicit.rk4Stage]
    · obtain ⟨x0, x1, rfl⟩ := List.length_eq_two.1 hlen
      simp [doStep, stepSSPRK3, Model.Explicit.doStep, Model.Explicit.stepSSPRK3, Prog.bind_run, evalMM, observeMM, solveInto, xAt, setX, setY, hf', hobs, hs,
        Model.Explicit.evalInto, Model.Explicit.observe, Model.Explicit.rhsAt, Model.Explicit.setY, Model.Explicit.setAux, numRhs, dummyObserver, numX]
  obtain ⟨s', e', h1, h2, h3, h4⟩ := main
  obtain ⟨e2, g1, g2, -⟩ := C13_runge_kutta_step (K := K) (Y := Y) ⟨fun y t _ => .ok () (g y t)⟩ g (fun _ _ _ => rfl) scheme tab ht dummyObserver
    (fun _ => rfl) t h n ⟨s.y, List.replicate (numRhs scheme) 0, 0, []⟩ (by simp)
  rw [h2] at g1
  simp only [Res.ok.injEq, true_and] at g1
  refine ⟨s', h1, ?_, h4⟩
  rw [h3, g1, g2]

/-- memory of a mass-matrix stepper as kept by the advancer -/
abbrev MMem (K Y Mt : Type) := Y × List Y × Mt × List (RhsEv K Y)

/-- the states of a run of the mass-matrix stepper: Runge-Kutta recursion or AB2 recursion for `g` -/
theorem mm_run_states (hf : ComputesMM sys M f) (hls : SolvesMxf act ls) (hinv : ∀ y t, Function.Bijective (act (M y t)))
    (hg : ∀ y t, act (M y t) (g y t) = f y t) (scheme : Scheme) (hsch : scheme.isExplicit = true)
    (obs : RhsEv K Y → Except Exc Unit) (hobs : ∀ e, obs e = .ok ())
    (pol : Int → K → K → K) (start : K) (N : Nat) (hN : (N : Int) < int32Max) (y0 : Y) (m : MMem K Y Mt)
    (hlen : m.2.1.length = numX scheme) :
    ∃ s', run 0 pol (asStepperMM sys ls scheme obs) N start y0 m = .ok () s' ∧
      observations s'.log = (List.range (N+1)).map (fun k : Nat => ((k : Int), tSeq 0 pol start k,
        (match tableauOf scheme with
          | some tab => oneStepSeq (rkStep tab g) y0 (tSeq 0 pol start) (hSeq 0 pol start) k
          | none => ab2 g y0 (tSeq 0 pol start) (hSeq 0 pol start) k))) ∧
      s'.y = (match tableauOf scheme with
          | some tab => oneStepSeq (rkStep tab g) y0 (tSeq 0 pol start) (hSeq 0 pol start) N
          | none => ab2 g y0 (tSeq 0 pol start) (hSeq 0 pol start) N) := by
  have hf' := hf
  simp only [ComputesMM] at hf'
  have hs := solve_eq act ls M f g hls hinv hg
  rcases htab : (tableauOf scheme : Option (Tableau K)) with _ | tab
  · obtain rfl : scheme = .AdamsBashforth2 := by
      cases scheme <;> simp_all [tableauOf, Scheme.isExplicit]
    obtain ⟨s', h1, h2, h3, h4⟩ := plain_run 0 pol (asStepperMM sys ls .AdamsBashforth2 obs) start N hN
      (ab2 g y0 (tSeq 0 pol start) (hSeq 0 pol start))
      (fun k m => m.2.1.length = 2 ∧ ∀ j, k = j + 1 →
        m.2.1.getD 0 0 = g (ab2 g y0 (tSeq 0 pol start) (hSeq 0 pol start) j) (tSeq 0 pol start j)) m
      ⟨hlen, by intro j hj; omega⟩ (by
        rintro k _ ⟨f0, xs, m0, l⟩ ⟨hm, hm'⟩
        simp only at hm hm'
        obtain ⟨r0, r1, rfl⟩ := List.length_eq_two.1 hm
        cases k with
        | zero =>
          refine ⟨(f y0 (tSeq 0 pol start 0), [g y0 (tSeq 0 pol start 0), r1], M y0 (tSeq 0 pol start 0),
            l ++ [⟨1, 0, tSeq 0 pol start 0, f y0 (tSeq 0 pol start 0)⟩]), ?_, ?_⟩
          · simp [asStepperMM, doStep, stepAB2, Prog.bind_run, evalMM, observeMM, solveInto, xAt, setY, hf', hobs, hs, ab2]
          · refine ⟨rfl, ?_⟩
            intro j hj
            obtain rfl : j = 0 := by omega
            simp [ab2]
        | succ k =>
          have hr0 := hm' k rfl
          simp only [List.getD_cons_zero] at hr0
          have hk1 : ¬ ((k : Int) + 1 = 0) := by omega
          set y := ab2 g y0 (tSeq 0 pol start) (hSeq 0 pol start) (k+1) with hy
          refine ⟨(f y (tSeq 0 pol start (k+1)), [g y (tSeq 0 pol start (k+1)), r0], M y (tSeq 0 pol start (k+1)),
            l ++ [⟨((k + 1 : Nat) : Int) + 1, 0, tSeq 0 pol start (k+1), f y (tSeq 0 pol start (k+1))⟩]), ?_, ?_⟩
          · have hab : ab2 g y0 (tSeq 0 pol start) (hSeq 0 pol start) (k+1+1)
                = (1:K) • y + ((3:K) / 2 * hSeq 0 pol start (k+1)) • g y (tSeq 0 pol start (k+1))
                  + ((-1:K) / 2 * hSeq 0 pol start (k+1)) • r0 := by
              rw [ab2, hr0, hy]
              module
            rw [hab]
            simp [asStepperMM, doStep, stepAB2, Prog.bind_run, evalMM, observeMM, solveInto, xAt, setX, setY, hf', hobs, hs, hk1]
          · refine ⟨rfl, ?_⟩
            intro j hj
            obtain rfl : j = k + 1 := by omega
            simp [hy])
    exact ⟨s', h1, h4, h2⟩
  · obtain ⟨s', h1, h2, h3, h4⟩ := plain_run 0 pol (asStepperMM sys ls scheme obs) start N hN
      (oneStepSeq (rkStep tab g) y0 (tSeq 0 pol start) (hSeq 0 pol start))
      (fun _ m => m.2.1.length = numX scheme) m hlen (by
        intro k _ m hm
        obtain ⟨s', g1, g2, g3⟩ := mm_step act sys ls M f g hf hls hinv hg scheme tab htab obs hobs (tSeq 0 pol start k) (hSeq 0 pol start k)
          (k+1) ⟨oneStepSeq (rkStep tab g) y0 (tSeq 0 pol start) (hSeq 0 pol start) k, m.1, m.2.1, m.2.2.1, m.2.2.2⟩ hm
        exact ⟨(s'.f, s'.x, s'.M, s'.log), by simp only [asStepperMM, g1, oneStepSeq, g2], g3⟩)
    exact ⟨s', h1, h4, h2⟩

/-- **C17.** Let the mass matrix be invertible, `g(y,t) = M(y,t)^{-1} f(y,t)`, and let the linear solver solve
    `M x = f` when called as `solve(M, x, f)`.  Then, for each explicit scheme, every step-size policy and every run length, and
    whatever the storage contains at the beginning, the run of the stepper with mass matrix observes the same
    states at the same times and ends in the same state as the run of the stepper without mass matrix on `g`. -/
theorem C17_mass_matrix_runs (hf : ComputesMM sys M f) (hls : SolvesMxf act ls) (hinv : ∀ y t, Function.Bijective (act (M y t)))
    (hg : ∀ y t, act (M y t) (g y t) = f y t) (scheme : Scheme) (hsch : scheme.isExplicit = true)
    (plain : System K Y) (hp : Computes plain g)
    (pol : Int → K → K → K) (start : K) (N : Nat) (hN : (N : Int) < int32Max) (y0 : Y)
    (m : MMem K Y Mt) (hlen : m.2.1.length = numX scheme) (m' : EMem K Y) (hlen' : m'.1.length = numRhs scheme) :
    ∃ a b, run 0 pol (asStepperMM sys ls scheme dummyObserver) N start y0 m = .ok () a ∧
      run 0 pol (asStepper plain scheme dummyObserver) N start y0 m' = .ok () b ∧
      a.y = b.y ∧ observations a.log = observations b.log := by
  obtain ⟨a, a1, a2, a3⟩ := mm_run_states act sys ls M f g hf hls hinv hg scheme hsch dummyObserver (fun _ => rfl) pol start N hN y0 m hlen
  rcases htab : (tableauOf scheme : Option (Tableau K)) with _ | tab
  · obtain rfl : scheme = .AdamsBashforth2 := by
      cases scheme <;> simp_all [tableauOf, Scheme.isExplicit]
    obtain ⟨b, b1, -, b2, b3⟩ := C14_adams_bashforth_run plain g hp dummyObserver (fun _ => rfl) pol start N hN y0 m' hlen'
    rw [htab] at a2 a3
    exact ⟨a, b, a1, b1, a3.trans b2.symm, a2.trans b3.symm⟩
  · obtain ⟨b, b1, -, b2, b3⟩ := C13_runge_kutta_run plain g hp scheme tab htab dummyObserver (fun _ => rfl) pol start N hN y0 m' hlen'
    rw [htab] at a2 a3
    exact ⟨a, b, a1, b1, a3.trans b2.symm, a2.trans b3.symm⟩

/-- the storage made by the factory has the required sizes -/
theorem C17_factory_storage (scheme : Scheme) (r : Y) (a : Nat → Y) (m0 : Mt) (mem : Y × List Y × Mt)
    (h : createExplicitMM scheme r a m0 = .ok mem) : mem.2.1.length = numX scheme ∧ scheme.isExplicit = true := by
  cases scheme <;> simp only [createExplicitMM, Except.ok.injEq, reduceCtorEq] at h <;> subst h <;> simp [numX, Scheme.isExplicit]

/-! ### C18 -/

/-- **C18 is false of the code.** Take a linear solver that obeys the convention of pressio's own linear solvers, `solve(A, b, x)`.
    A ForwardEuler step with mass matrix then never uses the right-hand side: the new state is `y + h * (old content of the scratch vector)`,
    the same for every `f`, and the buffer for the right-hand side is what gets overwritten. -/
theorem C18_documented_convention_refuted (hf : ComputesMM sys M f) (hls : SolvesAbx act ls) (hinv : ∀ y t, Function.Bijective (act (M y t)))
    (t h : K) (n : Int) (y f0 x0 : Y) (m0 : Mt) (l : List (RhsEv K Y)) :
    ∃ s', doStep sys ls .ForwardEuler dummyObserver t h n ⟨y, f0, [x0], m0, l⟩ = .ok () s' ∧
      s'.y = y + h • x0 ∧ s'.x = [x0] ∧ act (M y t) s'.f = x0 := by
  have hf' := hf
  simp only [ComputesMM] at hf'
  obtain ⟨x', h1, h2⟩ := hls (M y t) (hinv y t) x0 (f y t)
  refine ⟨⟨y + h • x0, x', [x0], M y t, l ++ [⟨n, 0, t, f y t⟩]⟩, ?_, rfl, rfl, h2⟩
  simp [doStep, stepFE, Prog.bind_run, evalMM, observeMM, solveInto, xAt, setY, hf', dummyObserver, h1]

end

/-! Concrete cases: scalar mass matrix 2 and right-hand side `4 y` over the rationals. -/

/-- `2 y' = 4 y` -/
def mmSys : MMSystem Rat Rat Rat := ⟨fun y _ _ => .ok () (2, 4 * y)⟩
/-- exact scalar solver called as `solve(M, x, f)` -/
def lsMxf : LinSolve Rat Rat := fun M p => .ok () (if M = 0 then p.1 else p.2 / M, p.2)
/-- exact scalar solver called as `solve(A, b, x)` -/
def lsAbx : LinSolve Rat Rat := fun M p => .ok () (p.1, if M = 0 then p.2 else p.1 / M)

/-- the hypotheses of C17 and C18 hold for this problem, and the two solvers are different objects -/
theorem mm_objects : ComputesMM mmSys (fun _ _ => 2) (fun y _ => 4 * y) ∧ SolvesMxf (fun M x : Rat => M * x) lsMxf ∧
    SolvesAbx (fun M x : Rat => M * x) lsAbx ∧ Function.Bijective (fun x : Rat => 2 * x) ∧ ∀ y : Rat, 2 * (2 * y) = 4 * y := by
  have hne : ∀ M : Rat, Function.Bijective (fun x : Rat => M * x) → M ≠ 0 := by
    rintro M h rfl
    obtain ⟨x, hx⟩ := h.2 1
    simp at hx
  refine ⟨fun _ _ _ => rfl, ?_, ?_, ⟨?_, ?_⟩, ?_⟩
  · intro M hM x f
    have := hne M hM
    exact ⟨f / M, by simp [lsMxf, this], by field_simp⟩
  · intro M hM b x
    have := hne M hM
    exact ⟨b / M, by simp [lsAbx, this], by field_simp⟩
  · intro a b h; simpa using h
  · intro b; exact ⟨b / 2, by ring⟩
  · intro y; ring

/-- an AB2 run with mass matrix: `y' = 2 y`, unit steps: 1, 3, 3 + 3/2*6 - 1/2*2 = 11 -/
example : observations (run 0 (fun _ _ _ => (1 : Rat)) (asStepperMM mmSys lsMxf .AdamsBashforth2 dummyObserver) 2 0 1 (5, [6, 7], 8, [])).state.log
    = [(0, 0, 1), (1, 1, 3), (2, 2, 11)] := by decide +kernel

/-- C18, concretely: with a fresh (zero) scratch vector the state never moves although `y' = 2y`; the correct step gives 3. -/
example : (doStep mmSys lsAbx .ForwardEuler dummyObserver 0 1 1 ⟨1, 0, [0], 0, []⟩).state.y = 1 ∧
    (doStep mmSys lsMxf .ForwardEuler dummyObserver 0 1 1 ⟨1, 0, [0], 0, []⟩).state.y = 3 := by decide +kernel

/-- C17 for these objects and the plain problem `y' = 2 y` -/
example := C17_mass_matrix_runs (fun M x : Rat => M * x) mmSys lsMxf (fun _ _ => 2) (fun y _ => 4 * y) (fun y _ => 2 * y) mm_objects.1 mm_objects.2.1
  (fun _ _ => mm_objects.2.2.2.1) (fun y _ => mm_objects.2.2.2.2 y) .RungeKutta4 rfl ⟨fun y _ _ => .ok () (2 * y)⟩ (fun _ _ _ => rfl) harmonic 0 5 (by decide) 1
  (5, [6, 7, 8, 9, 10], 8, []) rfl ([1, 2, 3, 4], 0, []) rfl
example := C17_factory_storage .SSPRungeKutta3 (7 : ℚ) (fun k => (k : ℚ)) (5 : ℚ) (7, [0, 1], 5) rfl

end Pressio.Props
