import Verif.Props.Explicit
import Verif.Lemmas.Run
import Mathlib.Analysis.Convex.Function
import Mathlib.LinearAlgebra.Finsupp.LinearCombination
import Mathlib.Algebra.Module.LinearMap.End
import Mathlib.Data.Nat.Factorial.Basic
import Mathlib.Algebra.BigOperators.Group.Finset.Basic
import Mathlib.Data.Real.Basic
import Mathlib.Tactic.Linarith
import Mathlib.Tactic.NormNum

/-
  C04, C14, C15, C16, C62: runs of explicit steppers.
-/
namespace Pressio.Props
set_option autoImplicit false
open Pressio Pressio.Model.Advance Pressio.Model.Explicit Pressio.Spec.Explicit Pressio.Spec.Run Pressio.Lemmas.Run
open Pressio.Spec.AdvanceTarget

section Field
variable {K Y : Type} [Field K] [CharZero K] [AddCommGroup Y] [Module K Y]

/-- memory of an explicit stepper as kept by the advancer: `rhsInstances_`, `auxiliaryState_`, ghost log -/
abbrev EMem (K Y : Type) := List Y × Y × List (RhsEv K Y)

/-- the states of a one-step method: `y_{k+1} = Φ(y_k, t_k, h_k)` -/
def oneStepSeq (Φ : Y → K → K → Y) (y0 : Y) (t h : Nat → K) : Nat → Y
  | 0 => y0
  | k+1 => Φ (oneStepSeq Φ y0 t h k) (t k) (h k)

/-- C13 for whole runs: with every step-size policy, a run of `N` steps of ForwardEuler, SSPRungeKutta3 or RungeKutta4 observes exactly
    the states of the Runge-Kutta recursion at the times accumulated by the policy. -/
theorem C13_runge_kutta_run (sys : System K Y) (f : Y → K → Y) (hf : Computes sys f)
    (scheme : Scheme) (tab : Tableau K) (ht : tableauOf scheme = some tab)
    (obs : RhsEv K Y → Except Exc Unit) (hobs : ∀ e, obs e = .ok ())
    (pol : Int → K → K → K) (start : K) (N : Nat) (hN : (N : Int) < int32Max) (y0 : Y) (m : EMem K Y)
    (hlen : m.1.length = numRhs scheme) :
    ∃ s', run 0 pol (asStepper sys scheme obs) N start y0 m = .ok () s' ∧
      s'.w.1.length = numRhs scheme ∧
      s'.y = oneStepSeq (rkStep tab f) y0 (tSeq 0 pol start) (hSeq 0 pol start) N ∧
      observations s'.log = (List.range (N+1)).map (fun k : Nat => ((k : Int), tSeq 0 pol start k,
        oneStepSeq (rkStep tab f) y0 (tSeq 0 pol start) (hSeq 0 pol start) k)) := by
  obtain ⟨s', h1, h2, h3, h4⟩ := plain_run 0 pol (asStepper sys scheme obs) start N hN
    (oneStepSeq (rkStep tab f) y0 (tSeq 0 pol start) (hSeq 0 pol start))
    (fun _ m => m.1.length = numRhs scheme) m hlen (by
      intro k _ m hm
      obtain ⟨s', g1, g2, g3, -⟩ := C13_runge_kutta_step sys f hf scheme tab ht obs hobs (tSeq 0 pol start k) (hSeq 0 pol start k)
        (k+1) ⟨oneStepSeq (rkStep tab f) y0 (tSeq 0 pol start) (hSeq 0 pol start) k, m.1, m.2.1, m.2.2⟩ hm
      exact ⟨(s'.rhs, s'.aux, s'.log), by simp only [asStepper, g1, oneStepSeq, g2], g3⟩)
  exact ⟨s', h1, h3, h2, h4⟩

/-- **C14.** Every run of the AdamsBashforth2 stepper, with every step-size policy and whatever the stepper's memory contains at
    the beginning (so in particular after earlier runs): the states observed are those of the
    two-step recursion started with an Euler step. -/
theorem C14_adams_bashforth_run (sys : System K Y) (f : Y → K → Y) (hf : Computes sys f)
    (obs : RhsEv K Y → Except Exc Unit) (hobs : ∀ e, obs e = .ok ())
    (pol : Int → K → K → K) (start : K) (N : Nat) (hN : (N : Int) < int32Max) (y0 : Y) (m : EMem K Y)
    (hlen : m.1.length = numRhs .AdamsBashforth2) :
    ∃ s', run 0 pol (asStepper sys .AdamsBashforth2 obs) N start y0 m = .ok () s' ∧
      s'.w.1.length = numRhs .AdamsBashforth2 ∧
      s'.y = ab2 f y0 (tSeq 0 pol start) (hSeq 0 pol start) N ∧
      observations s'.log = (List.range (N+1)).map (fun k : Nat => ((k : Int), tSeq 0 pol start k,
        ab2 f y0 (tSeq 0 pol start) (hSeq 0 pol start) k)) := by
  obtain ⟨s', h1, h2, h3, h4⟩ := plain_run 0 pol (asStepper sys .AdamsBashforth2 obs) start N hN
    (ab2 f y0 (tSeq 0 pol start) (hSeq 0 pol start))
    (fun k m => m.1.length = 2 ∧ ∀ j, k = j + 1 →
      m.1.getD 0 0 = f (ab2 f y0 (tSeq 0 pol start) (hSeq 0 pol start) j) (tSeq 0 pol start j)) m
    ⟨hlen, by intro j hj; omega⟩ (by
      rintro k _ ⟨r, a, l⟩ ⟨hm, hm'⟩
      simp only at hm hm'
      obtain ⟨r0, r1, rfl⟩ : ∃ r0 r1, r = [r0, r1] := by
        match r, hm with
        | [r0, r1], _ => exact ⟨r0, r1, rfl⟩
      have hf' := hf
      simp only [Computes] at hf'
      cases k with
      | zero =>
        refine ⟨([f y0 (tSeq 0 pol start 0), r1], a, l ++ [⟨1, 0, tSeq 0 pol start 0, f y0 (tSeq 0 pol start 0)⟩]), ?_, ?_⟩
        · simp [asStepper, doStep, stepAB2, Prog.bind_run, evalInto, observe, rhsAt, setY, hf', hobs, ab2]
        · refine ⟨rfl, ?_⟩
          intro j hj
          obtain rfl : j = 0 := by omega
          simp [ab2]
      | succ k =>
        have hr0 := hm' k rfl
        simp only [List.getD_cons_zero] at hr0
        have hn1 : ¬ (((k + 1 : Nat) : Int) + 1 = 1) := by push_cast; omega
        have hk1 : ¬ ((k : Int) + 1 = 0) := by omega
        set y := ab2 f y0 (tSeq 0 pol start) (hSeq 0 pol start) (k+1) with hy
        refine ⟨([f y (tSeq 0 pol start (k+1)), r0], a, l ++ [⟨((k + 1 : Nat) : Int) + 1, 0, tSeq 0 pol start (k+1), f y (tSeq 0 pol start (k+1))⟩]), ?_, ?_⟩
        · have hab : ab2 f y0 (tSeq 0 pol start) (hSeq 0 pol start) (k+1+1)
              = (1:K) • y + ((3:K) / 2 * hSeq 0 pol start (k+1)) • f y (tSeq 0 pol start (k+1))
                + ((-1:K) / 2 * hSeq 0 pol start (k+1)) • r0 := by
            rw [ab2, hr0, hy]
            module
          rw [hab]
          simp [asStepper, doStep, stepAB2, Prog.bind_run, evalInto, observe, rhsAt, setY, copyRhs, hf', hobs, hk1]
        · refine ⟨rfl, ?_⟩
          intro j hj
          obtain rfl : j = k + 1 := by omega
          simp [hy])
  exact ⟨s', h1, h3.1, h2, h4⟩

/-- C14: a second run with the same stepper object does not depend on the first one. -/
theorem C14_runs_do_not_interfere (sys : System K Y) (f : Y → K → Y) (hf : Computes sys f)
    (obs : RhsEv K Y → Except Exc Unit) (hobs : ∀ e, obs e = .ok ())
    (pol : Int → K → K → K) (start : K) (N : Nat) (hN : (N : Int) < int32Max) (y0 : Y) (m m' : EMem K Y)
    (hlen : m.1.length = numRhs .AdamsBashforth2) (hlen' : m'.1.length = numRhs .AdamsBashforth2) :
    (run 0 pol (asStepper sys .AdamsBashforth2 obs) N start y0 m).state.y =
    (run 0 pol (asStepper sys .AdamsBashforth2 obs) N start y0 m').state.y := by
  obtain ⟨s1, h1, -, h2, -⟩ := C14_adams_bashforth_run sys f hf obs hobs pol start N hN y0 m hlen
  obtain ⟨s2, g1, -, g2, -⟩ := C14_adams_bashforth_run sys f hf obs hobs pol start N hN y0 m' hlen'
  rw [h1, g1]
  simp [h2, g2]

omit [CharZero K] in
theorem oneStepSeq_congr (Φ : Y → K → K → Y) (y0 : Y) (t h t' h' : Nat → K) (n : Nat)
    (ht : ∀ k < n, t k = t' k) (hh : ∀ k < n, h k = h' k) : oneStepSeq Φ y0 t h n = oneStepSeq Φ y0 t' h' n := by
  induction n with
  | zero => rfl
  | succ n ih =>
    rw [oneStepSeq, oneStepSeq, ih (fun k hk => ht k (by omega)) (fun k hk => hh k (by omega)), ht n (by omega), hh n (by omega)]

omit [CharZero K] in
theorem oneStepSeq_add (Φ : Y → K → K → Y) (y0 : Y) (t h : Nat → K) (n m : Nat) :
    oneStepSeq Φ y0 t h (n+m) =
      oneStepSeq Φ (oneStepSeq Φ y0 t h n) (fun k => t (n+k)) (fun k => h (n+k)) m := by
  induction m with
  | zero => rfl
  | succ m ih => rw [← Nat.add_assoc, oneStepSeq, oneStepSeq, ih]

/-- **C04.** For the one-step schemes and a step size that is a function of the time (in particular a fixed one): `N + M` steps give the
    same state as `N` steps followed by `M` steps with the same stepper object started from the reached time and state. -/
theorem C04_splitting_one_step_schemes (sys : System K Y) (f : Y → K → Y) (hf : Computes sys f)
    (scheme : Scheme) (tab : Tableau K) (ht : tableauOf scheme = some tab)
    (obs : RhsEv K Y → Except Exc Unit) (hobs : ∀ e, obs e = .ok ())
    (g : K → K) (start : K) (N M : Nat) (hN : ((N + M : Nat) : Int) < int32Max) (y0 : Y) (m : EMem K Y)
    (hlen : m.1.length = numRhs scheme) :
    let pol := fun (_ : Int) (t _ : K) => g t
    let first := (run 0 pol (asStepper sys scheme obs) N start y0 m).state
    let second := (run 0 pol (asStepper sys scheme obs) M (tSeq 0 pol start N) first.y first.w).state
    let whole := (run 0 pol (asStepper sys scheme obs) (N + M) start y0 m).state
    whole.y = second.y ∧ tSeq 0 pol start (N + M) = tSeq 0 pol (tSeq 0 pol start N) M := by
  intro pol first second whole
  have htime : ∀ k, tSeq 0 pol start (N + k) = tSeq 0 pol (tSeq 0 pol start N) k := by
    intro k
    induction k with
    | zero => rfl
    | succ k ih =>
      have e1 : tSeq 0 pol start (N + (k+1)) = tSeq 0 pol start (N + k) + g (tSeq 0 pol start (N + k)) := rfl
      have e2 : tSeq 0 pol (tSeq 0 pol start N) (k+1) = tSeq 0 pol (tSeq 0 pol start N) k
          + g (tSeq 0 pol (tSeq 0 pol start N) k) := rfl
      rw [e1, e2, ih]
  have hsize : ∀ k, hSeq 0 pol start (N + k) = hSeq 0 pol (tSeq 0 pol start N) k := by
    intro k
    have e1 : hSeq 0 pol start (N + k) = g (tSeq 0 pol start (N + k)) := rfl
    have e2 : hSeq 0 pol (tSeq 0 pol start N) k = g (tSeq 0 pol (tSeq 0 pol start N) k) := rfl
    rw [e1, e2, htime]
  obtain ⟨s1, a1, a2, a3, -⟩ := C13_runge_kutta_run sys f hf scheme tab ht obs hobs pol start N (by omega) y0 m hlen
  have hfirst : first = s1 := by simp only [first, a1, Res.state_ok]
  obtain ⟨s2, b1, -, b3, -⟩ := C13_runge_kutta_run sys f hf scheme tab ht obs hobs pol (tSeq 0 pol start N) M (by omega) first.y
    first.w (by rw [hfirst]; exact a2)
  obtain ⟨s3, c1, -, c3, -⟩ := C13_runge_kutta_run sys f hf scheme tab ht obs hobs pol start (N + M) (by exact_mod_cast hN) y0 m hlen
  refine ⟨?_, htime M⟩
  have hw : whole.y = s3.y := by
    simp only [whole]
    rw [show ((N : Nat) + M : Nat) = N + M from rfl, c1]
    rfl
  have hs2 : second.y = s2.y := by simp only [second, b1, Res.state_ok]
  rw [hw, hs2, c3, b3, hfirst, a3, oneStepSeq_add]
  exact oneStepSeq_congr _ _ _ _ _ _ _ (fun k _ => htime k) (fun k _ => hsize k)

/-- the exponential growth problem `y' = y` over the rationals -/
def growth : System Rat Rat := ⟨fun y _ _ => .ok () y⟩

example : Computes growth (fun y _ => y) := fun _ _ _ => rfl

/-- **C04 is false for AdamsBashforth2**: two steps of size 1 for `y' = y`, `y(0) = 1` give 9/2 in one run
    and 4 in two runs of one step. -/
theorem C04_splitting_adams_bashforth_refuted :
    let pol := fun (_ : Int) (_ _ : Rat) => (1 : Rat)
    let st := asStepper growth .AdamsBashforth2 dummyObserver
    let first := (run 0 pol st 1 0 1 ([0, 0], 0, [])).state
    let second := (run 0 pol st 1 1 first.y first.w).state
    (run 0 pol st 2 0 1 ([0, 0], 0, [])).state.y = 9/2 ∧ second.y = 4 := by
  decide +kernel

/-! ### C15 -/

/-- order of accuracy of a one-step scheme -/
def orderOf : Scheme → Nat
  | .ForwardEuler => 1
  | .SSPRungeKutta3 => 3
  | .RungeKutta4 => 4
  | _ => 0

/-- Taylor polynomial of degree `p` of `exp(hA)` applied to `y` -/
def taylorExp (A : Y →ₗ[K] Y) (h : K) (p : Nat) (y : Y) : Y :=
  ∑ k ∈ Finset.range (p+1), (h^k / (Nat.factorial k : K)) • (A^k) y

theorem rkStep_linear (A : Y →ₗ[K] Y) (y : Y) (t h : K) (scheme : Scheme) (tab : Tableau K) (ht : tableauOf scheme = some tab) :
    rkStep tab (fun y _ => A y) y t h = taylorExp A h (orderOf scheme) y := by
  cases scheme <;> simp only [tableauOf, Option.some.injEq, reduceCtorEq] at ht <;> subst ht
  · simp [rkStep, stages, sumBelow, eulerTableau, ofRow, taylorExp, orderOf, Finset.sum_range_succ]
  · simp only [rkStep, stages, sumBelow, rk4Tableau, ofRow, ofRows, taylorExp, orderOf, Finset.sum_range_succ, Finset.sum_range_zero,
      Nat.factorial, pow_succ, pow_zero, Module.End.mul_apply, Module.End.one_apply]
    simp only [List.nil_append, List.cons_append, List.getD_cons_zero, List.getD_cons_succ, List.getD_nil, zero_mul, add_zero,
        zero_add, smul_zero, zero_smul, one_smul, map_add, map_smul]
    push_cast
    module
  · simp only [rkStep, stages, sumBelow, ssprk3Tableau, ofRow, ofRows, taylorExp, orderOf, Finset.sum_range_succ, Finset.sum_range_zero,
      Nat.factorial, pow_succ, pow_zero, Module.End.mul_apply, Module.End.one_apply]
    simp only [List.nil_append, List.cons_append, List.getD_cons_zero, List.getD_cons_succ, List.getD_nil, zero_mul, add_zero,
        zero_add, smul_zero, zero_smul, one_smul, map_add, map_smul]
    push_cast
    module

/-- **C15, linear systems.** On `y' = A y` one step of the code is the Taylor polynomial of `exp(hA)` of degree equal to
    the order of the scheme (1, 3, 4). -/
theorem C15_linear_problems (sys : System K Y) (A : Y →ₗ[K] Y) (hf : Computes sys (fun y _ => A y))
    (scheme : Scheme) (hs : scheme = .ForwardEuler ∨ scheme = .SSPRungeKutta3 ∨ scheme = .RungeKutta4)
    (t h : K) (n : Int) (s : ESt K Y) (hlen : s.rhs.length = numRhs scheme) :
    ∃ s', doStep sys scheme dummyObserver t h n s = .ok () s' ∧ s'.y = taylorExp A h (orderOf scheme) s.y := by
  obtain ⟨tab, ht⟩ : ∃ tab : Tableau K, tableauOf scheme = some tab := by
    rcases hs with rfl | rfl | rfl <;> exact ⟨_, rfl⟩
  obtain ⟨s', h1, h2, -⟩ := C13_runge_kutta_step sys _ hf scheme tab ht dummyObserver (fun _ => rfl) t h n s hlen
  exact ⟨s', h1, by rw [h2, rkStep_linear A s.y t h scheme tab ht]⟩

/-- highest degree in time of the right-hand sides integrated exactly -/
def quadDegree : Scheme → Nat
  | .ForwardEuler => 0
  | .SSPRungeKutta3 => 2
  | .RungeKutta4 => 3
  | _ => 0

/-- **C15, quadratures.** On `y' = Σ_{j≤d} t^j c_j` with `d` at most 0, 2, 3 one step of the code adds the exact integral
    `Σ_j ((t+h)^{j+1} - t^{j+1})/(j+1) c_j`. -/
theorem C15_quadratures (sys : System K Y) (c : Nat → Y)
    (scheme : Scheme) (hs : scheme = .ForwardEuler ∨ scheme = .SSPRungeKutta3 ∨ scheme = .RungeKutta4)
    (d : Nat) (hd : d ≤ quadDegree scheme)
    (hf : Computes sys (fun _ t => ∑ j ∈ Finset.range (d+1), (t^j) • c j))
    (t h : K) (n : Int) (s : ESt K Y) (hlen : s.rhs.length = numRhs scheme) :
    ∃ s', doStep sys scheme dummyObserver t h n s = .ok () s' ∧
      s'.y = s.y + ∑ j ∈ Finset.range (d+1), (((t+h)^(j+1) - t^(j+1)) / ((j+1 : Nat) : K)) • c j := by
  obtain ⟨tab, ht⟩ : ∃ tab : Tableau K, tableauOf scheme = some tab := by
    rcases hs with rfl | rfl | rfl <;> exact ⟨_, rfl⟩
  obtain ⟨s', h1, h2, -⟩ := C13_runge_kutta_step sys _ hf scheme tab ht dummyObserver (fun _ => rfl) t h n s hlen
  refine ⟨s', h1, ?_⟩
  rw [h2]
  rcases hs with rfl | rfl | rfl <;> simp only [tableauOf, Option.some.injEq] at ht <;> subst ht
  · obtain rfl : d = 0 := by simpa [quadDegree] using hd
    simp [rkStep, stages, sumBelow, eulerTableau, ofRow]
  · have hd' : d = 0 ∨ d = 1 ∨ d = 2 := by simp only [quadDegree] at hd; omega
    rcases hd' with rfl | rfl | rfl <;>
    · simp only [rkStep, stages, sumBelow, ssprk3Tableau, ofRow, Finset.sum_range_succ, Finset.sum_range_zero]
      simp only [List.nil_append, List.cons_append, List.getD_cons_zero, List.getD_cons_succ, zero_mul, add_zero,
        zero_add]
      push_cast
      module
  · have hd' : d = 0 ∨ d = 1 ∨ d = 2 ∨ d = 3 := by simp only [quadDegree] at hd; omega
    rcases hd' with rfl | rfl | rfl | rfl <;>
    · simp only [rkStep, stages, sumBelow, rk4Tableau, ofRow, Finset.sum_range_succ, Finset.sum_range_zero]
      simp only [List.nil_append, List.cons_append, List.getD_cons_zero, List.getD_cons_succ, zero_mul, add_zero,
        zero_add]
      push_cast
      module

end Field

/-- concrete case for C13/C15: one RK4 step of size 1 for `y' = y` from 1 gives 1 + 1 + 1/2 + 1/6 + 1/24 -/
example : doStep growth .RungeKutta4 dummyObserver 0 1 1 ⟨1, [7, 7, 7, 7], 9, []⟩ =
    .ok () ⟨65/24, [1, 3/2, 7/4, 11/4], 11/4, [⟨1, 0, 0, 1⟩, ⟨1, 1, 1/2, 3/2⟩, ⟨1, 2, 1/2, 7/4⟩, ⟨1, 3, 1, 11/4⟩]⟩ := by
  decide +kernel

/-- the order is not higher: SSPRungeKutta3 does not reproduce the fourth Taylor term -/
example : (doStep growth .SSPRungeKutta3 dummyObserver 0 1 1 ⟨1, [7], 9, []⟩).state.y = 8/3 := by decide +kernel

/-- a concrete AB2 run meeting the hypotheses of C14: three unit steps for `y' = y`; states 1, 2, 9/2, 41/4 -/
example : observations (run 0 (fun _ _ _ => (1 : Rat)) (asStepper growth .AdamsBashforth2 dummyObserver) 3 0 1 ([5, 6], 7, [])).state.log
    = [(0, 0, 1), (1, 1, 2), (2, 2, 9/2), (3, 3, 41/4)] := by decide +kernel

/-! ### C16 -/
section SSP
variable {Y : Type} [AddCommGroup Y] [Module ℝ Y]

theorem ssprk3_convex (f : Y → ℝ → Y) (φ : Y → ℝ) (hφ : ConvexOn ℝ Set.univ φ) (h : ℝ)
    (hE : ∀ y t, φ (y + h • f y t) ≤ φ y) (y : Y) (t : ℝ) : φ (rkStep ssprk3Tableau f y t h) ≤ φ y := by
  have cvx : ∀ (a b : ℝ) (u v : Y), 0 ≤ a → 0 ≤ b → a + b = 1 → φ (a • u + b • v) ≤ a * φ u + b * φ v := by
    intro a b u v ha hb hab
    have := hφ.2 (Set.mem_univ u) (Set.mem_univ v) ha hb hab
    simpa [smul_eq_mul] using this
  obtain ⟨k1, hk1⟩ : ∃ k, k = f y t := ⟨_, rfl⟩
  obtain ⟨u1, hu1⟩ : ∃ u, u = y + h • k1 := ⟨_, rfl⟩
  obtain ⟨k2, hk2⟩ : ∃ k, k = f u1 (t + h) := ⟨_, rfl⟩
  obtain ⟨u2, hu2⟩ : ∃ u, u = (3/4 : ℝ) • y + (1/4 : ℝ) • (u1 + h • k2) := ⟨_, rfl⟩
  obtain ⟨k3, hk3⟩ : ∃ k, k = f u2 (t + h/2) := ⟨_, rfl⟩
  have e : rkStep ssprk3Tableau f y t h = (1/3 : ℝ) • y + (2/3 : ℝ) • (u2 + h • k3) := by
    simp only [rkStep, stages, sumBelow, ssprk3Tableau, ofRow, ofRows]
    simp only [List.nil_append, List.cons_append, List.getD_cons_zero, List.getD_cons_succ, zero_mul, add_zero,
        zero_add, smul_zero, one_smul, one_mul, ← hk1, ← hu1, ← hk2]
    have e2 : y + h • ((1/4 : ℝ) • k1 + (1/4 : ℝ) • k2) = u2 := by rw [hu2, hu1]; module
    rw [e2, show t + 1/2 * h = t + h/2 by ring, ← hk3, hu2, hu1]
    module
  have h1 : φ u1 ≤ φ y := by rw [hu1, hk1]; exact hE y t
  have h2 : φ u2 ≤ φ y := by
    rw [hu2]
    have := cvx (3/4) (1/4) y (u1 + h • k2) (by norm_num) (by norm_num) (by norm_num)
    have h3 : φ (u1 + h • k2) ≤ φ u1 := by rw [hk2]; exact hE _ _
    linarith
  rw [e]
  have := cvx (1/3) (2/3) y (u2 + h • k3) (by norm_num) (by norm_num) (by norm_num)
  have h3 : φ (u2 + h • k3) ≤ φ u2 := by rw [hk3]; exact hE _ _
  linarith

/-- **C16.** Strong stability: let `φ` be a convex functional (a norm, a semi-norm such as the total variation, ...) that one
    forward Euler step of size `h` from any state at any time does not increase.  Then one step of size `h` of the code's
    SSPRungeKutta3 does not increase it. -/
theorem C16_strong_stability (sys : System ℝ Y) (f : Y → ℝ → Y) (hf : Computes sys f)
    (φ : Y → ℝ) (hφ : ConvexOn ℝ Set.univ φ) (h : ℝ) (hE : ∀ y t, φ (y + h • f y t) ≤ φ y)
    (obs : RhsEv ℝ Y → Except Exc Unit) (hobs : ∀ e, obs e = .ok ())
    (t : ℝ) (n : Int) (s : ESt ℝ Y) (hlen : s.rhs.length = numRhs .SSPRungeKutta3) :
    ∃ s', doStep sys .SSPRungeKutta3 obs t h n s = .ok () s' ∧ φ s'.y ≤ φ s.y := by
  obtain ⟨s', h1, h2, -⟩ := C13_runge_kutta_step sys f hf .SSPRungeKutta3 ssprk3Tableau rfl obs hobs t h n s hlen
  exact ⟨s', h1, by rw [h2]; exact ssprk3_convex f φ hφ h hE s.y t⟩

/-- C16 along whole runs with any step-size policy whose sizes all satisfy the Euler bound: the functional of the observed states
    never increases. -/
theorem C16_strong_stability_run (sys : System ℝ Y) (f : Y → ℝ → Y) (hf : Computes sys f)
    (φ : Y → ℝ) (hφ : ConvexOn ℝ Set.univ φ) (h0 : ℝ) (hE : ∀ h, 0 ≤ h → h ≤ h0 → ∀ y t, φ (y + h • f y t) ≤ φ y)
    (obs : RhsEv ℝ Y → Except Exc Unit) (hobs : ∀ e, obs e = .ok ())
    (pol : Int → ℝ → ℝ → ℝ) (hpol : ∀ n t d, 0 ≤ pol n t d ∧ pol n t d ≤ h0)
    (start : ℝ) (N : Nat) (hN : (N : Int) < int32Max) (y0 : Y) (m : EMem ℝ Y) (hlen : m.1.length = numRhs .SSPRungeKutta3) :
    ∃ (s' : St (EMem ℝ Y) ℝ Y) (z : Nat → Y), run 0 pol (asStepper sys .SSPRungeKutta3 obs) N start y0 m = .ok () s' ∧
      observations s'.log = (List.range (N+1)).map (fun k : Nat => ((k : Int), tSeq 0 pol start k, z k)) ∧
      s'.y = z N ∧ z 0 = y0 ∧ ∀ i j, i ≤ j → φ (z j) ≤ φ (z i) := by
  obtain ⟨s', h1, -, h3, h4⟩ := C13_runge_kutta_run sys f hf .SSPRungeKutta3 ssprk3Tableau rfl obs hobs pol start N hN y0 m hlen
  refine ⟨s', oneStepSeq (rkStep ssprk3Tableau f) y0 (tSeq 0 pol start) (hSeq 0 pol start), h1, h4, h3, rfl, ?_⟩
  apply antitone_nat_of_succ_le (f := fun k => φ (oneStepSeq (rkStep ssprk3Tableau f) y0 (tSeq 0 pol start) (hSeq 0 pol start) k))
  intro k
  rw [oneStepSeq]
  have hp := hpol ((k:Int)+1) (clock 0 pol start k).1 (clock 0 pol start k).2
  exact ssprk3_convex f φ hφ _ (hE _ hp.1 hp.2) _ _

/-- the hypotheses are met by a non-trivial problem: `y' = -y` on the reals, `φ = |.|`, sizes up to 2 -/
example : ConvexOn ℝ Set.univ (fun y : ℝ => |y|) ∧
    ∀ h : ℝ, 0 ≤ h → h ≤ 2 → ∀ y _t : ℝ, |y + h • (-y)| ≤ |y| := by
  refine ⟨?_, ?_⟩
  · refine ⟨convex_univ, ?_⟩
    intro x _ y _ a b ha hb _
    simp only [smul_eq_mul]
    calc |a*x + b*y| ≤ |a*x| + |b*y| := abs_add_le _ _
      _ = a*|x| + b*|y| := by rw [abs_mul, abs_mul, abs_of_nonneg ha, abs_of_nonneg hb]
  · intro h h0 h2 y _
    have : y + h • (-y) = (1-h) * y := by simp only [smul_eq_mul]; ring
    rw [this, abs_mul]
    have : |1-h| ≤ 1 := by rw [abs_le]; constructor <;> linarith
    nlinarith [abs_nonneg y]
end SSP

/-! ### C62 -/
section Fail
variable {K Y : Type} [Field K] [AddCommGroup Y] [Module K Y]

/-- programs that leave the caller's state alone unless they return normally -/
def KeepsYOnStop (p : Prog (ESt K Y) Unit) : Prop := ∀ s st s', p s = .stop st s' → s'.y = s.y

theorem evalInto_y (sys : System K Y) (i : Nat) (y : Y) (t : K) (s : ESt K Y) : (evalInto sys i y t s).state.y = s.y := by
  unfold evalInto
  split
  · rfl
  · split <;> rfl

theorem rhsAt_y (i : Nat) (s : ESt K Y) : (rhsAt i s).state.y = s.y := by
  unfold rhsAt; split <;> rfl

theorem copyRhs_y (i j : Nat) (s : ESt K Y) : (copyRhs j i s).state.y = s.y := by
  unfold copyRhs; split <;> rfl

theorem observe_y (obs : RhsEv K Y → Except Exc Unit) (n : Int) (k : Nat) (t : K) (i : Nat) (s : ESt K Y) :
    (observe obs n k t i s).state.y = s.y := by
  simp only [observe, Prog.bind_run]
  have := rhsAt_y i s
  split
  · rename_i a s' h
    rw [h] at this
    simp only [Prog.modify_run]
    rcases hx : obs ⟨n, k, t, a⟩ <;> simpa [hx, Prog.ofExcept] using this
  · rename_i h s' hs; rw [hs] at this; simpa using this

/-- `p` never touches the caller's state -/
def Silent {α : Type} (p : Prog (ESt K Y) α) : Prop := ∀ s, (p s).state.y = s.y

theorem keeps_bind {α : Type} (p : Prog (ESt K Y) α) (q : α → Prog (ESt K Y) Unit) (hp : Silent p)
    (hq : ∀ a, KeepsYOnStop (q a)) : KeepsYOnStop (p >>= q) := by
  intro s st s' h
  rw [Prog.bind_run] at h
  have := hp s
  rcases hps : p s with ⟨a, s1⟩ | ⟨st1, s1⟩
  · rw [hps] at h this
    rw [hq a s1 st s' h]; exact this
  · rw [hps] at h this
    simp only [Res.stop.injEq] at h
    rw [← h.2]; exact this

theorem keeps_setY (y : Y) : KeepsYOnStop (setY (K := K) y) := by
  intro s st s' h; simp [setY] at h

theorem silent_get : Silent (Prog.get : Prog (ESt K Y) (ESt K Y)) := fun _ => rfl
theorem silent_setAux (y : Y) : Silent (setAux (K := K) y) := fun _ => rfl
theorem silent_rk4Stage (i : Nat) (c : K) : Silent (rk4Stage (Y := Y) i c) := by
  intro s
  simp only [rk4Stage, Prog.bind_run]
  have := rhsAt_y i s
  split
  · rename_i a s' h; rw [h] at this; simpa [setAux] using this
  · rename_i a s' h; rw [h] at this; simpa using this

/-- **C62.** A step of any explicit scheme that does not return normally (the user's right-hand side throws at any stage, having
    written anything in its output, or the right-hand-side observer throws) leaves the caller's state exactly as it was:
    the state is only assigned by the last statement of the step. -/
theorem C62_failed_explicit_step_keeps_state (sys : System K Y) (scheme : Scheme) (obs : RhsEv K Y → Except Exc Unit)
    (t h : K) (n : Int) (s s' : ESt K Y) (st : Stop) (hs : doStep sys scheme obs t h n s = .stop st s') : s'.y = s.y := by
  have E := fun i y t => evalInto_y (K := K) (Y := Y) sys i y t
  have O := fun n k t i => observe_y (K := K) (Y := Y) obs n k t i
  have R := fun i => rhsAt_y (K := K) (Y := Y) i
  have C := fun i j => copyRhs_y (K := K) (Y := Y) i j
  have key : KeepsYOnStop (doStep sys scheme obs t h n) := by
    cases scheme <;> simp only [doStep]
    · unfold stepFE
      refine keeps_bind _ _ silent_get fun s => ?_
      refine keeps_bind _ _ (E _ _ _) fun _ => keeps_bind _ _ (O _ _ _ _) fun _ => keeps_bind _ _ (R _) fun _ => keeps_setY _
    · unfold stepRK4
      refine keeps_bind _ _ silent_get fun s => ?_
      refine keeps_bind _ _ (E _ _ _) fun _ => keeps_bind _ _ (O _ _ _ _) fun _ => keeps_bind _ _ (silent_rk4Stage _ _) fun _ => ?_
      refine keeps_bind _ _ silent_get fun s => ?_
      refine keeps_bind _ _ (E _ _ _) fun _ => keeps_bind _ _ (O _ _ _ _) fun _ => keeps_bind _ _ (silent_rk4Stage _ _) fun _ => ?_
      refine keeps_bind _ _ silent_get fun s => ?_
      refine keeps_bind _ _ (E _ _ _) fun _ => keeps_bind _ _ (O _ _ _ _) fun _ => keeps_bind _ _ (silent_rk4Stage _ _) fun _ => ?_
      refine keeps_bind _ _ silent_get fun s => ?_
      refine keeps_bind _ _ (E _ _ _) fun _ => keeps_bind _ _ (O _ _ _ _) fun _ => ?_
      exact keeps_bind _ _ (R _) fun _ => keeps_bind _ _ (R _) fun _ => keeps_bind _ _ (R _) fun _ => keeps_bind _ _ (R _) fun _ => keeps_setY _
    · unfold stepAB2
      refine keeps_bind _ _ silent_get fun s => ?_
      dsimp only
      split
      · refine keeps_bind _ _ (E _ _ _) fun _ => keeps_bind _ _ (O _ _ _ _) fun _ => keeps_bind _ _ (R _) fun _ => keeps_setY _
      · refine keeps_bind _ _ (C _ _) fun _ => ?_
        refine keeps_bind _ _ (E _ _ _) fun _ => keeps_bind _ _ (O _ _ _ _) fun _ => keeps_bind _ _ (R _) fun _ => keeps_bind _ _ (R _) fun _ => keeps_setY _
    · unfold stepSSPRK3
      refine keeps_bind _ _ silent_get fun s => ?_
      refine keeps_bind _ _ (E _ _ _) fun _ => keeps_bind _ _ (O _ _ _ _) fun _ => keeps_bind _ _ (R _) fun _ => keeps_bind _ _ (silent_setAux _) fun _ => ?_
      refine keeps_bind _ _ silent_get fun s => ?_
      refine keeps_bind _ _ (E _ _ _) fun _ => keeps_bind _ _ (O _ _ _ _) fun _ => keeps_bind _ _ (R _) fun _ => keeps_bind _ _ (silent_setAux _) fun _ => ?_
      refine keeps_bind _ _ silent_get fun s => ?_
      exact keeps_bind _ _ (E _ _ _) fun _ => keeps_bind _ _ (O _ _ _ _) fun _ => keeps_bind _ _ (R _) fun _ => keeps_setY _
    all_goals (intro s st s' h; simp at h)
  exact key s st s' hs

/-- storage of the right size: the size is kept, and there is no undefined behaviour other than the user's -/
def Safe {α : Type} (len : Nat) (p : Prog (ESt K Y) α) : Prop :=
  ∀ s, s.rhs.length = len → (p s).state.rhs.length = len ∧ ∀ w, (p s).stop? ≠ some (.ub w)

theorem safe_bind {α β : Type} {len : Nat} {p : Prog (ESt K Y) α} {q : α → Prog (ESt K Y) β} (hp : Safe len p)
    (hq : ∀ a, Safe len (q a)) : Safe len (p >>= q) := by
  intro s hs
  rw [Prog.bind_run]
  have := hp s hs
  rcases hps : p s with ⟨a, s1⟩ | ⟨st1, s1⟩
  · rw [hps] at this
    exact hq a s1 this.1
  · rw [hps] at this
    exact this

theorem safe_rhsAt {len i : Nat} (hi : i < len) : Safe (K := K) (Y := Y) len (rhsAt i) := by
  intro s hs
  unfold rhsAt
  rw [List.getElem?_eq_getElem (by omega)]
  exact ⟨hs, by simp⟩

theorem safe_evalInto {len i : Nat} (hi : i < len) (sys : System K Y) (hub : ∀ y t b w, (sys.rhs y t b).stop? ≠ some (.ub w))
    (y : Y) (t : K) : Safe len (evalInto sys i y t) := by
  intro s hs
  unfold evalInto
  rw [List.getElem?_eq_getElem (by omega)]
  have := hub y t (s.rhs[i]'(by omega))
  rcases h : sys.rhs y t (s.rhs[i]'(by omega)) with ⟨_, b'⟩ | ⟨st, b'⟩
  · simp [h, hs]
  · rw [h] at this
    simpa [h, hs] using this

theorem safe_observe {len i : Nat} (hi : i < len) (obs : RhsEv K Y → Except Exc Unit) (n : Int) (k : Nat) (t : K) :
    Safe len (observe obs n k t i) := by
  refine safe_bind (safe_rhsAt hi) fun f => safe_bind (fun s hs => ⟨hs, by simp⟩) fun _ => ?_
  intro s hs
  rcases hx : obs ⟨n, k, t, f⟩ <;> simp [Prog.ofExcept, hs]

theorem safe_copyRhs {len i j : Nat} (hi : i < len) (hj : j < len) : Safe (K := K) (Y := Y) len (copyRhs j i) := by
  intro s hs
  unfold copyRhs
  rw [List.getElem?_eq_getElem (by omega), List.getElem?_eq_getElem (by omega)]
  simp [hs]

theorem safe_setY {len : Nat} (y : Y) : Safe (K := K) len (setY y) := fun s hs => ⟨hs, by simp [setY]⟩
theorem safe_setAux {len : Nat} (y : Y) : Safe (K := K) len (setAux y) := fun s hs => ⟨hs, by simp [setAux]⟩
theorem safe_get {len : Nat} : Safe len (Prog.get : Prog (ESt K Y) (ESt K Y)) := fun s hs => ⟨hs, by simp⟩
theorem safe_rk4Stage {len i : Nat} (hi : i < len) (c : K) : Safe (Y := Y) len (rk4Stage i c) :=
  safe_bind (safe_rhsAt hi) fun _ => safe_bind safe_get fun _ => safe_setAux _

/-- C62: with the storage made by the factory no step of any explicit scheme indexes outside of it, whatever
    the user's functions throw and when: undefined behaviour can only come from the user's own code, and the storage
    keeps its size. -/
theorem C62_factory_storage_suffices (sys : System K Y) (hub : ∀ y t b w, (sys.rhs y t b).stop? ≠ some (.ub w))
    (scheme : Scheme) (r : Nat → Y) (a : Y) (mem : List Y × Y) (hc : createExplicit scheme r a = .ok mem)
    (obs : RhsEv K Y → Except Exc Unit) (t h : K) (n : Int) (s : ESt K Y) (hs : s.rhs.length = mem.1.length) :
    (doStep sys scheme obs t h n s).state.rhs.length = mem.1.length ∧
    ∀ w, (doStep sys scheme obs t h n s).stop? ≠ some (.ub w) := by
  have E := fun {len i : Nat} (hi : i < len) => safe_evalInto (K := K) (Y := Y) hi sys hub
  have key : Safe mem.1.length (doStep sys scheme obs t h n) := by
    cases scheme <;> simp only [createExplicit, Except.ok.injEq, reduceCtorEq] at hc <;> subst hc <;> simp only [doStep]
    · refine safe_bind safe_get fun s => ?_
      exact safe_bind (E (by simp) _ _) fun _ => safe_bind (safe_observe (by simp) _ _ _ _) fun _ =>
        safe_bind (safe_rhsAt (by simp)) fun _ => safe_setY _
    · refine safe_bind safe_get fun s => ?_
      refine safe_bind (E (by simp) _ _) fun _ => safe_bind (safe_observe (by simp) _ _ _ _) fun _ =>
        safe_bind (safe_rk4Stage (by simp) _) fun _ => safe_bind safe_get fun _ => ?_
      refine safe_bind (E (by simp) _ _) fun _ => safe_bind (safe_observe (by simp) _ _ _ _) fun _ =>
        safe_bind (safe_rk4Stage (by simp) _) fun _ => safe_bind safe_get fun _ => ?_
      refine safe_bind (E (by simp) _ _) fun _ => safe_bind (safe_observe (by simp) _ _ _ _) fun _ =>
        safe_bind (safe_rk4Stage (by simp) _) fun _ => safe_bind safe_get fun _ => ?_
      refine safe_bind (E (by simp) _ _) fun _ => safe_bind (safe_observe (by simp) _ _ _ _) fun _ => ?_
      exact safe_bind (safe_rhsAt (by simp)) fun _ => safe_bind (safe_rhsAt (by simp)) fun _ => safe_bind (safe_rhsAt (by simp)) fun _ =>
        safe_bind (safe_rhsAt (by simp)) fun _ => safe_setY _
    · refine safe_bind safe_get fun s => ?_
      dsimp only
      split
      · exact safe_bind (E (by simp) _ _) fun _ => safe_bind (safe_observe (by simp) _ _ _ _) fun _ =>
          safe_bind (safe_rhsAt (by simp)) fun _ => safe_setY _
      · refine safe_bind (safe_copyRhs (by simp) (by simp)) fun _ => ?_
        exact safe_bind (E (by simp) _ _) fun _ => safe_bind (safe_observe (by simp) _ _ _ _) fun _ =>
          safe_bind (safe_rhsAt (by simp)) fun _ => safe_bind (safe_rhsAt (by simp)) fun _ => safe_setY _
    · refine safe_bind safe_get fun s => ?_
      refine safe_bind (E (by simp) _ _) fun _ => safe_bind (safe_observe (by simp) _ _ _ _) fun _ =>
        safe_bind (safe_rhsAt (by simp)) fun _ => safe_bind (safe_setAux _) fun _ => safe_bind safe_get fun _ => ?_
      refine safe_bind (E (by simp) _ _) fun _ => safe_bind (safe_observe (by simp) _ _ _ _) fun _ =>
        safe_bind (safe_rhsAt (by simp)) fun _ => safe_bind (safe_setAux _) fun _ => safe_bind safe_get fun _ => ?_
      exact safe_bind (E (by simp) _ _) fun _ => safe_bind (safe_observe (by simp) _ _ _ _) fun _ =>
        safe_bind (safe_rhsAt (by simp)) fun _ => safe_setY _
  exact key s hs

end Fail

/-- A right-hand side that throws on its second use after having written into its output: `y' = y`, but a failure for `y = 2`
    at time 1 the first time it sees a buffer other than -1. -/
def flaky : System Rat Rat := ⟨fun y t b => if t = 1 ∧ b ≠ -1 then .stop (.exc (.other 0)) (-1) else .ok () y⟩

/-- Concrete failing step: the state is kept although the buffer has been overwritten ... -/
example : doStep flaky .AdamsBashforth2 dummyObserver 1 1 2 ⟨2, [1, 0], 0, []⟩ =
    .stop (.exc (.other 0)) ⟨2, [-1, 1], 0, []⟩ := by decide +kernel

/-- ... **but retrying an AdamsBashforth2 step after such a failure is not the step that would have been taken**: the failed attempt has
    replaced the previous right-hand side by what the throwing call left in the buffer. The step without failure
    gives `2 + 3/2*2 - 1/2*1 = 9/2`; the retry gives `2 + 3/2*2 + 1/2 = 11/2`. -/
theorem C62_adams_bashforth_retry_refuted :
    (doStep growth .AdamsBashforth2 dummyObserver 1 1 2 ⟨2, [1, 0], 0, []⟩).state.y = 9/2 ∧
    (doStep flaky .AdamsBashforth2 dummyObserver 1 1 2
      (doStep flaky .AdamsBashforth2 dummyObserver 1 1 2 ⟨2, [1, 0], 0, []⟩).state).state.y = 11/2 ∧
    (doStep flaky .AdamsBashforth2 dummyObserver 1 1 2
      (doStep flaky .AdamsBashforth2 dummyObserver 1 1 2 ⟨2, [1, 0], 0, []⟩).state).stop? = none := by
  decide +kernel

/-- C62, retry for the one-step schemes: a failed attempt (of any system, whatever it left in the buffers) does not influence any later
    step made with the storage of the factory. -/
theorem C62_one_step_schemes_retry {K Y : Type} [Field K] [CharZero K] [AddCommGroup Y] [Module K Y]
    (bad good : System K Y) (hub : ∀ y t b w, (bad.rhs y t b).stop? ≠ some (.ub w)) (f : Y → K → Y) (hf : Computes good f)
    (scheme : Scheme) (hs : scheme = .ForwardEuler ∨ scheme = .SSPRungeKutta3 ∨ scheme = .RungeKutta4)
    (t h t' h' : K) (n n' : Int) (obs : RhsEv K Y → Except Exc Unit) (s s1 : ESt K Y) (st : Stop)
    (hlen : s.rhs.length = numRhs scheme) (hbad : doStep bad scheme obs t h n s = .stop st s1) :
    ∃ a b, doStep good scheme dummyObserver t' h' n' s1 = .ok () a ∧ doStep good scheme dummyObserver t' h' n' s = .ok () b ∧ a.y = b.y := by
  obtain ⟨tab, ht⟩ : ∃ tab : Tableau K, tableauOf scheme = some tab := by
    rcases hs with rfl | rfl | rfl <;> exact ⟨_, rfl⟩
  have hlen1 : s1.rhs.length = numRhs scheme := by
    obtain ⟨mem, hm, hml⟩ : ∃ mem, createExplicit scheme (fun _ => (0 : Y)) 0 = .ok mem ∧ mem.1.length = numRhs scheme := by
      rcases hs with rfl | rfl | rfl <;> exact ⟨_, rfl, rfl⟩
    have := (C62_factory_storage_suffices bad hub scheme _ _ mem hm obs t h n s (by rw [hlen, hml])).1
    rw [hbad, hml] at this
    exact this
  obtain ⟨a, h1, h2, -⟩ := C13_runge_kutta_step good f hf scheme tab ht dummyObserver (fun _ => rfl) t' h' n' s1 hlen1
  obtain ⟨b, g1, g2, -⟩ := C13_runge_kutta_step good f hf scheme tab ht dummyObserver (fun _ => rfl) t' h' n' s hlen
  refine ⟨a, b, h1, g1, ?_⟩
  rw [h2, g2, C62_failed_explicit_step_keeps_state bad scheme obs t h n s s1 st hbad]

/-! ### Cases of the theorems above -/
section Cases

/-- step sizes 1/step -/
def harmonic : Int → ℚ → ℚ → ℚ := fun n _ _ => 1 / n

example := C13_runge_kutta_run spin _ spin_computes .RungeKutta4 _ rfl dummyObserver (fun _ => rfl) harmonic 0 5 (by decide) (1, 2)
  ([(7, 7), (8, 8), (9, 9), (0, 0)], (5, 5), []) rfl
example := C14_adams_bashforth_run spin _ spin_computes dummyObserver (fun _ => rfl) harmonic 0 5 (by decide) (1, 2)
  ([(7, 7), (8, 8)], (5, 5), []) rfl
example := C14_runs_do_not_interfere spin _ spin_computes dummyObserver (fun _ => rfl) harmonic 0 5 (by decide) (1, 2)
  ([(7, 7), (8, 8)], (5, 5), []) ([(0, 1), (2, 3)], (4, 4), []) rfl rfl
example := C15_linear_problems growth LinearMap.id (fun _ _ _ => rfl) .RungeKutta4 (Or.inr (Or.inr rfl)) 0 (1/2) 1
  ⟨3, [7, 7, 7, 7], 9, []⟩ rfl
/-- the failing step shown above -/
example := C62_failed_explicit_step_keeps_state flaky .AdamsBashforth2 dummyObserver 1 1 2 ⟨2, [1, 0], 0, []⟩
  ⟨2, [-1, 1], 0, []⟩ (.exc (.other 0)) (by decide +kernel)
/-- a third stage that throws, then a system that does not -/
example := C62_one_step_schemes_retry ⟨fun y t b => if t = 1/2 ∧ b ≠ 7 then .stop (.exc (.other 0)) (-1) else .ok () y⟩ growth
  (fun _ _ _ _ => by simp only; split <;> simp) _ (fun _ _ _ => rfl) .RungeKutta4 (Or.inr (Or.inr rfl)) 0 1 0 (1/2) 1 1 dummyObserver
  ⟨1, [7, 7, 6, 7], 9, []⟩
  (doStep (⟨fun y t b => if t = 1/2 ∧ b ≠ 7 then .stop (.exc (.other 0)) (-1) else .ok () y⟩ : System ℚ ℚ) .RungeKutta4 dummyObserver 0 1 1
    ⟨1, [7, 7, 6, 7], 9, []⟩).state (.exc (.other 0)) rfl (by decide +kernel)

/-- the decay `y' = -y` with sizes up to 2 and the absolute value -/
def decay : System ℝ ℝ := ⟨fun y _ _ => .ok () (-y)⟩

theorem abs_convex : ConvexOn ℝ Set.univ (fun y : ℝ => |y|) := by
  refine ⟨convex_univ, ?_⟩
  intro x _ y _ a b ha hb _
  simp only [smul_eq_mul]
  calc |a*x + b*y| ≤ |a*x| + |b*y| := abs_add_le _ _
    _ = a*|x| + b*|y| := by rw [abs_mul, abs_mul, abs_of_nonneg ha, abs_of_nonneg hb]

theorem decay_bounded (h : ℝ) (h0 : 0 ≤ h) (h2 : h ≤ 2) (y _t : ℝ) : |y + h • (-y)| ≤ |y| := by
  have : y + h • (-y) = (1-h) * y := by simp only [smul_eq_mul]; ring
  rw [this, abs_mul]
  have : |1-h| ≤ 1 := by rw [abs_le]; constructor <;> linarith
  nlinarith [abs_nonneg y]

example := C16_strong_stability decay _ (fun _ _ _ => rfl) (fun y => |y|) abs_convex (3/2) (decay_bounded (3/2) (by norm_num) (by norm_num))
  dummyObserver (fun _ => rfl) 0 1 ⟨5, [7], 9, []⟩ rfl
end Cases

end Pressio.Props
