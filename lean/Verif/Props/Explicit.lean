import Verif.Spec.Explicit
import Mathlib.Tactic.Module
import Mathlib.Tactic.FieldSimp
import Mathlib.Algebra.CharZero.Defs
import Mathlib.Algebra.Order.Ring.Rat

/-
  C13, C14: explicit schemes against their textbook definitions.
-/
namespace Pressio.Props
set_option autoImplicit false
open Pressio Pressio.Model.Explicit Pressio.Spec.Explicit

variable {K Y : Type} [Field K] [CharZero K] [AddCommGroup Y] [Module K Y]

/-- the Butcher tableau of a one-step scheme -/
def tableauOf : Scheme → Option (Tableau K)
  | .ForwardEuler => some eulerTableau
  | .SSPRungeKutta3 => some ssprk3Tableau
  | .RungeKutta4 => some rk4Tableau
  | _ => none

omit [CharZero K] in
/-- stepping lemma: Euler -/
theorem stepFE_eq (sys : System K Y) (f : Y → K → Y) (hf : Computes sys f) (obs : RhsEv K Y → Except Exc Unit)
    (hobs : ∀ e, obs e = .ok ()) (t h : K) (n : Int) (y r0 a : Y) (l : List (RhsEv K Y)) :
    stepFE sys obs t h n ⟨y, [r0], a, l⟩ =
      .ok () ⟨y + h • f y t, [f y t], a, l ++ [⟨n, 0, t, f y t⟩]⟩ := by
  have hf' := hf
  simp only [Computes] at hf'
  simp [stepFE, Prog.bind_run, evalInto, observe, rhsAt, setY, hf', hobs]

/-- stepping lemma: RK4 -/
theorem stepRK4_eq (sys : System K Y) (f : Y → K → Y) (hf : Computes sys f) (obs : RhsEv K Y → Except Exc Unit)
    (hobs : ∀ e, obs e = .ok ()) (t h : K) (n : Int) (y r0 r1 r2 r3 a : Y) (l : List (RhsEv K Y)) :
    stepRK4 sys obs t h n ⟨y, [r0, r1, r2, r3], a, l⟩ =
      (let k1 := f y t
       let k2 := f (y + (h / 2) • k1) (t + h / 2)
       let k3 := f (y + (h / 2) • k2) (t + h / 2)
       let k4 := f (y + h • k3) (t + h)
       .ok () ⟨y + (h / 6) • k1 + (h / 3) • k2 + (h / 3) • k3 + (h / 6) • k4, [k1, k2, k3, k4], y + h • k3,
         l ++ [⟨n, 0, t, k1⟩, ⟨n, 1, t + h / 2, k2⟩, ⟨n, 2, t + h / 2, k3⟩, ⟨n, 3, t + h, k4⟩]⟩) := by
  have hf' := hf
  simp only [Computes] at hf'
  simp [stepRK4, Prog.bind_run, evalInto, observe, rhsAt, setY, setAux, rk4Stage, hf', hobs]

/-- stepping lemma: SSPRK3 -/
theorem stepSSPRK3_eq (sys : System K Y) (f : Y → K → Y) (hf : Computes sys f) (obs : RhsEv K Y → Except Exc Unit)
    (hobs : ∀ e, obs e = .ok ()) (t h : K) (n : Int) (y r0 a : Y) (l : List (RhsEv K Y)) :
    stepSSPRK3 sys obs t h n ⟨y, [r0], a, l⟩ =
      (let k1 := f y t
       let u1 := y + h • k1
       let k2 := f u1 (t + h)
       let u2 := ((1:K) / 4) • u1 + ((3:K) / 4) • y + ((1:K) / 4 * h) • k2
       let k3 := f u2 (t + h / 2)
       .ok () ⟨((1:K) / 3) • y + ((2:K) / 3) • u2 + ((2:K) / 3 * h) • k3, [k3], u2,
         l ++ [⟨n, 0, t, k1⟩, ⟨n, 1, t + h, k2⟩, ⟨n, 2, t + h / 2, k3⟩]⟩) := by
  have hf' := hf
  simp only [Computes] at hf'
  simp [stepSSPRK3, Prog.bind_run, evalInto, observe, rhsAt, setY, setAux, hf', hobs]

/-- **C13.** For every user right-hand side `f`, every state, time, step size and step number, and whatever the scratch storage
    of the stepper contains: one step of ForwardEuler, SSPRungeKutta3 and RungeKutta4 returns, leaves in the
    state the value of the Runge-Kutta formula of the scheme's Butcher tableau, and has reported to the right-hand-side observer
    exactly the stages 0..s-1 of that formula with their times. -/
theorem C13_runge_kutta_step (sys : System K Y) (f : Y → K → Y) (hf : Computes sys f)
    (scheme : Scheme) (tab : Tableau K) (ht : tableauOf scheme = some tab)
    (obs : RhsEv K Y → Except Exc Unit) (hobs : ∀ e, obs e = .ok ())
    (t h : K) (n : Int) (s : ESt K Y) (hlen : s.rhs.length = numRhs scheme) :
    ∃ s', doStep sys scheme obs t h n s = .ok () s' ∧
      s'.y = rkStep tab f s.y t h ∧ s'.rhs.length = numRhs scheme ∧
      s'.log = s.log ++ (List.range tab.s).map
        (fun i => ⟨n, i, t + tab.c i * h, (stages tab f s.y t h tab.s).getD i 0⟩) := by
  obtain ⟨y, r, a, l⟩ := s
  cases scheme with
  | ForwardEuler =>
    simp only [tableauOf, Option.some.injEq] at ht
    subst ht
    simp only [numRhs] at hlen
    obtain ⟨r0, rfl⟩ := List.length_eq_one_iff.1 hlen
    refine ⟨_, stepFE_eq sys f hf obs hobs t h n y r0 a l, ?_, ?_, ?_⟩
    · simp [rkStep, stages, sumBelow, eulerTableau, ofRow]
    · rfl
    · simp [stages, sumBelow, eulerTableau, ofRow]
  | RungeKutta4 =>
    simp only [tableauOf, Option.some.injEq] at ht
    subst ht
    simp only [numRhs] at hlen
    obtain ⟨r0, r1, r2, r3, rfl⟩ : ∃ r0 r1 r2 r3, r = [r0, r1, r2, r3] := by
      match r, hlen with
      | [r0, r1, r2, r3], _ => exact ⟨r0, r1, r2, r3, rfl⟩
    refine ⟨_, stepRK4_eq sys f hf obs hobs t h n y r0 r1 r2 r3 a l, ?_, ?_, ?_⟩
    · simp only [rkStep, stages, sumBelow, rk4Tableau, ofRow, ofRows]
      simp only [List.nil_append, List.cons_append, List.getD_cons_zero, List.getD_cons_succ, List.getD_nil, zero_mul, add_zero,
        zero_add, smul_zero, zero_smul, smul_smul, one_smul]
      simp only [show h * (1 / 2) = h / 2 by ring, show (1 / 2 : K) * h = h / 2 by ring, mul_one, one_mul]
      module
    · rfl
    · simp only [stages, sumBelow, rk4Tableau, ofRow, ofRows, List.range_succ, List.range_zero]
      simp only [List.nil_append, List.cons_append, List.map_cons, List.map_nil, List.getD_cons_zero, List.getD_cons_succ, List.getD_nil, zero_mul, add_zero,
        zero_add, smul_zero, zero_smul, smul_smul, one_smul]
      simp only [show h * (1 / 2) = h / 2 by ring, show (1 / 2 : K) * h = h / 2 by ring, mul_one, one_mul]
  | SSPRungeKutta3 =>
    simp only [tableauOf, Option.some.injEq] at ht
    subst ht
    simp only [numRhs] at hlen
    obtain ⟨r0, rfl⟩ := List.length_eq_one_iff.1 hlen
    have hu2 : ∀ k2 : Y, ((1:K) / 4) • (y + h • f y t) + ((3:K) / 4) • y + ((1:K) / 4 * h) • k2
        = y + (h * (1 / 4)) • f y t + (h * (1 / 4)) • k2 := by intro k2; module
    refine ⟨_, stepSSPRK3_eq sys f hf obs hobs t h n y r0 a l, ?_, ?_, ?_⟩
    · simp only [hu2, rkStep, stages, sumBelow, ssprk3Tableau, ofRow, ofRows]
      simp only [List.nil_append, List.cons_append, List.getD_cons_zero, List.getD_cons_succ, List.getD_nil, zero_mul, add_zero,
        zero_add, smul_zero, zero_smul, smul_smul, one_smul, smul_add]
      simp only [show (1 / 2 : K) * h = h / 2 by ring, mul_one, one_mul, ← add_assoc]
      module
    · rfl
    · simp only [hu2, stages, sumBelow, ssprk3Tableau, ofRow, ofRows, List.range_succ, List.range_zero]
      simp only [List.nil_append, List.cons_append, List.map_cons, List.map_nil, List.getD_cons_zero, List.getD_cons_succ, List.getD_nil, zero_mul, add_zero,
        zero_add, smul_zero, zero_smul, smul_smul, one_smul, smul_add]
      simp only [show (1 / 2 : K) * h = h / 2 by ring, mul_one, one_mul, ← add_assoc]
  | AdamsBashforth2 => simp [tableauOf] at ht
  | BDF1 => simp [tableauOf] at ht
  | BDF2 => simp [tableauOf] at ht
  | CrankNicolson => simp [tableauOf] at ht
  | ImplicitArbitrary => simp [tableauOf] at ht

/-! ### A case -/

/-- a forced rotation of the plane -/
def spin : System ℚ (ℚ × ℚ) := ⟨fun y t _ => .ok () (-y.2 + t, y.1)⟩

theorem spin_computes : Computes spin (fun y t => (-y.2 + t, y.1)) := fun _ _ _ => rfl

/-- C13 for the four stages of RungeKutta4 on the forced rotation, with buffers that hold other values before -/
example := C13_runge_kutta_step spin _ spin_computes .RungeKutta4 _ rfl dummyObserver (fun _ => rfl) (1/2) (1/10) 3
  ⟨(1, 2), [(7, 7), (8, 8), (9, 9), (0, 0)], (5, 5), []⟩ rfl
example := C13_runge_kutta_step spin _ spin_computes .SSPRungeKutta3 _ rfl dummyObserver (fun _ => rfl) (1/2) (1/10) 3
  ⟨(1, 2), [(7, 7)], (5, 5), []⟩ rfl
example := C13_runge_kutta_step spin _ spin_computes .ForwardEuler _ rfl dummyObserver (fun _ => rfl) (1/2) (1/10) 3
  ⟨(1, 2), [(7, 7)], (5, 5), []⟩ rfl

end Pressio.Props
