import Verif.Props.ExplicitRun
import Verif.Lemmas.Numerics
import Mathlib.Analysis.Normed.Operator.Basic

/-
  C73, C74: how far the states of runs with the explicit schemes can be from each other and from the solution of the differential equation.

  The right-hand side is Lipschitz: `‖f(y, t) - f(z, t)‖ ≤ L ‖y - z‖`.  Times and sizes are those of an arbitrary step-size policy with nonnegative sizes.
-/
namespace Pressio.Props
set_option autoImplicit false
set_option linter.unusedSectionVars false
open Pressio Pressio.Model.Advance Pressio.Model.Explicit Pressio.Spec.Explicit Pressio.Spec.Run Pressio.Lemmas.Run Pressio.Lemmas.Numerics
open Pressio.Spec.AdvanceTarget

variable {Y : Type} [NormedAddCommGroup Y] [NormedSpace ℝ Y]

/-- Lipschitz in the state, uniformly in time -/
def Lip (f : Y → ℝ → Y) (L : ℝ) : Prop := ∀ y z t, ‖f y t - f z t‖ ≤ L * ‖y - z‖

/-! ### The steps, written out -/

theorem euler_unfold (f : Y → ℝ → Y) (y : Y) (t h : ℝ) : rkStep eulerTableau f y t h = y + h • f y t := by
  simp [rkStep, stages, sumBelow, eulerTableau, ofRow]

theorem ssprk3_unfold (f : Y → ℝ → Y) (y : Y) (t h : ℝ) :
    let k1 := f y t
    let k2 := f (y + h • k1) (t + h)
    let k3 := f (y + (h / 4) • (k1 + k2)) (t + h / 2)
    rkStep ssprk3Tableau f y t h = y + h • ((1/6:ℝ) • k1 + (1/6:ℝ) • k2 + (2/3:ℝ) • k3) := by
  intro k1 k2 k3
  simp only [rkStep, stages, sumBelow, ssprk3Tableau, ofRow, ofRows]
  simp only [List.nil_append, List.cons_append, List.getD_cons_zero, List.getD_cons_succ, zero_mul, add_zero, zero_add, smul_zero, one_smul, one_mul]
  have e : ∀ u v : Y, y + h • ((1/4 : ℝ) • u + (1/4 : ℝ) • v) = y + (h / 4) • (u + v) := fun u v => by module
  rw [e, show t + 1/2 * h = t + h/2 by ring]

theorem rk4_unfold (f : Y → ℝ → Y) (y : Y) (t h : ℝ) :
    let k1 := f y t
    let k2 := f (y + (h / 2) • k1) (t + h / 2)
    let k3 := f (y + (h / 2) • k2) (t + h / 2)
    let k4 := f (y + h • k3) (t + h)
    rkStep rk4Tableau f y t h = y + h • ((1/6:ℝ) • k1 + (1/3:ℝ) • k2 + (1/3:ℝ) • k3 + (1/6:ℝ) • k4) := by
  intro k1 k2 k3 k4
  simp only [rkStep, stages, sumBelow, rk4Tableau, ofRow, ofRows]
  simp only [List.nil_append, List.cons_append, List.getD_cons_zero, List.getD_cons_succ, zero_mul, add_zero, zero_add, smul_zero, zero_smul, one_smul, one_mul]
  have e : ∀ u : Y, h • (1/2 : ℝ) • u = (h / 2) • u := fun u => by module
  rw [e, show t + 1/2 * h = t + h/2 by ring, e]

/-! ### C73: dependence on the data -/

/-- increments of two different right-hand sides -/
theorem rhs_diff (f g : Y → ℝ → Y) (L ε : ℝ) (hf : Lip f L) (hg : ∀ y t, ‖f y t - g y t‖ ≤ ε) (y z : Y) (t : ℝ) : ‖f y t - g z t‖ ≤ L * ‖y - z‖ + ε := by
  have e : f y t - g z t = (f y t - f z t) + (f z t - g z t) := by abel
  rw [e]
  exact (norm_add_le _ _).trans (add_le_add (hf _ _ _) (hg _ _))

theorem norm_add_smul_diff (y z u v : Y) (c d e : ℝ) (hc : 0 ≤ c) (hd : ‖u - v‖ ≤ d) (he : ‖y - z‖ ≤ e) : ‖(y + c • u) - (z + c • v)‖ ≤ e + c * d := by
  have : (y + c • u) - (z + c • v) = (y - z) + c • (u - v) := by module
  rw [this]
  refine (norm_add_le _ _).trans (add_le_add he ?_)
  rw [norm_smul, Real.norm_of_nonneg hc]
  gcongr

theorem rk_perturbation (f g : Y → ℝ → Y) (L ε : ℝ) (hL : 0 ≤ L) (hε : 0 ≤ ε) (hf : Lip f L) (hg : ∀ y t, ‖f y t - g y t‖ ≤ ε)
    (scheme : Scheme) (tab : Tableau ℝ) (ht : tableauOf scheme = some tab) (y z : Y) (t h : ℝ) (hh : 0 ≤ h) :
    ‖rkStep tab f y t h - rkStep tab g z t h‖ ≤ Real.exp (L * h) * (‖y - z‖ + h * ε) := by
  obtain ⟨e, he⟩ : ∃ e, e = ‖y - z‖ := ⟨_, rfl⟩
  have e0 : 0 ≤ e := by rw [he]; exact norm_nonneg _
  have hz : 0 ≤ L * h := mul_nonneg hL hh
  have hD := rhs_diff f g L ε hf hg
  have hx2 := exp_ge (L * h) hz 2
  have hx3 := exp_ge (L * h) hz 3
  have hx4 := exp_ge (L * h) hz 4
  have hx5 := exp_ge (L * h) hz 5
  simp only [Finset.sum_range_succ, Finset.sum_range_zero, Nat.factorial, pow_zero, pow_one] at hx2 hx3 hx4 hx5
  push_cast at hx2 hx3 hx4 hx5
  rw [← he]
  cases scheme <;> simp only [tableauOf, Option.some.injEq, reduceCtorEq] at ht <;> subst ht
  · -- Euler
    rw [euler_unfold, euler_unfold]
    have h1 := norm_add_smul_diff y z (f y t) (g z t) h _ _ hh (hD y z t) le_rfl
    rw [← he] at h1
    refine h1.trans ?_
    have : e + h * (L * e + ε) = (1 + L * h) * e + h * ε := by ring
    rw [this]
    have h2 : (1 + L * h) * e ≤ Real.exp (L * h) * e := mul_le_mul_of_nonneg_right (by linarith) e0
    have h3 : h * ε ≤ Real.exp (L * h) * (h * ε) := le_mul_of_one_le_left (mul_nonneg hh hε) (Real.one_le_exp hz)
    linarith
  · -- RK4
    rw [rk4_unfold, rk4_unfold]
    have d1 := hD y z t
    have d2 := hD (y + (h / 2) • f y t) (z + (h / 2) • g z t) (t + h / 2)
    have d3 := hD (y + (h / 2) • f (y + (h / 2) • f y t) (t + h / 2)) (z + (h / 2) • g (z + (h / 2) • g z t) (t + h / 2)) (t + h / 2)
    have d4 := hD (y + h • f (y + (h / 2) • f (y + (h / 2) • f y t) (t + h / 2)) (t + h / 2)) (z + h • g (z + (h / 2) • g (z + (h / 2) • g z t) (t + h / 2)) (t + h / 2)) (t + h)
    set k1 := f y t
    set l1 := g z t
    set k2 := f (y + (h / 2) • k1) (t + h / 2)
    set l2 := g (z + (h / 2) • l1) (t + h / 2)
    set k3 := f (y + (h / 2) • k2) (t + h / 2)
    set l3 := g (z + (h / 2) • l2) (t + h / 2)
    set k4 := f (y + h • k3) (t + h)
    set l4 := g (z + h • l3) (t + h)
    have e2 := norm_add_smul_diff y z k1 l1 (h/2) _ _ (by positivity) le_rfl he.ge
    have e3 := norm_add_smul_diff y z k2 l2 (h/2) _ _ (by positivity) le_rfl he.ge
    have e4 := norm_add_smul_diff y z k3 l3 h _ _ hh le_rfl he.ge
    rw [← he] at d1
    obtain ⟨D, hDd⟩ : ∃ D, D = L * e + ε := ⟨_, rfl⟩
    have D0 : 0 ≤ D := by rw [hDd]; positivity
    have b1 : ‖k1 - l1‖ ≤ D := by rw [hDd]; exact d1
    have b2 : ‖k2 - l2‖ ≤ D * (1 + L * h / 2) := by
      have := mul_le_mul_of_nonneg_left (e2.trans (add_le_add_right (mul_le_mul_of_nonneg_left b1 (by positivity)) _)) hL
      calc _ ≤ _ := d2
        _ ≤ L * (e + h / 2 * D) + ε := by linarith
        _ = _ := by rw [hDd]; ring
    have b3 : ‖k3 - l3‖ ≤ D * (1 + L * h / 2 + (L * h) ^ 2 / 4) := by
      have := mul_le_mul_of_nonneg_left (e3.trans (add_le_add_right (mul_le_mul_of_nonneg_left b2 (by positivity)) _)) hL
      calc _ ≤ _ := d3
        _ ≤ L * (e + h / 2 * (D * (1 + L * h / 2))) + ε := by linarith
        _ = (L * e + ε) + L * h / 2 * (D * (1 + L * h / 2)) := by ring
        _ = _ := by rw [← hDd]; ring
    have b4 : ‖k4 - l4‖ ≤ D * (1 + L * h + (L * h) ^ 2 / 2 + (L * h) ^ 3 / 4) := by
      have := mul_le_mul_of_nonneg_left (e4.trans (add_le_add_right (mul_le_mul_of_nonneg_left b3 hh) _)) hL
      calc _ ≤ _ := d4
        _ ≤ L * (e + h * (D * (1 + L * h / 2 + (L * h) ^ 2 / 4))) + ε := by linarith
        _ = (L * e + ε) + L * h * (D * (1 + L * h / 2 + (L * h) ^ 2 / 4)) := by ring
        _ = _ := by rw [← hDd]; ring
    have hs : ‖((1/6:ℝ) • k1 + (1/3:ℝ) • k2 + (1/3:ℝ) • k3 + (1/6:ℝ) • k4) - ((1/6:ℝ) • l1 + (1/3:ℝ) • l2 + (1/3:ℝ) • l3 + (1/6:ℝ) • l4)‖ ≤ D * (1 + L * h / 2 + (L * h) ^ 2 / 6 + (L * h) ^ 3 / 24) := by
      have ee : ((1/6:ℝ) • k1 + (1/3:ℝ) • k2 + (1/3:ℝ) • k3 + (1/6:ℝ) • k4) - ((1/6:ℝ) • l1 + (1/3:ℝ) • l2 + (1/3:ℝ) • l3 + (1/6:ℝ) • l4) =
          (1/6:ℝ) • (k1 - l1) + (1/3:ℝ) • (k2 - l2) + (1/3:ℝ) • (k3 - l3) + (1/6:ℝ) • (k4 - l4) := by module
      rw [ee]
      have n : ∀ (c : ℝ) (v : Y), 0 ≤ c → ‖c • v‖ = c * ‖v‖ := fun c v hc => by rw [norm_smul, Real.norm_of_nonneg hc]
      calc _ ≤ ‖(1/6:ℝ) • (k1 - l1)‖ + ‖(1/3:ℝ) • (k2 - l2)‖ + ‖(1/3:ℝ) • (k3 - l3)‖ + ‖(1/6:ℝ) • (k4 - l4)‖ :=
            (norm_add_le _ _).trans (add_le_add_left ((norm_add_le _ _).trans (add_le_add_left (norm_add_le _ _) _)) _)
        _ ≤ 1/6 * D + 1/3 * (D * (1 + L * h / 2)) + 1/3 * (D * (1 + L * h / 2 + (L * h) ^ 2 / 4)) + 1/6 * (D * (1 + L * h + (L * h) ^ 2 / 2 + (L * h) ^ 3 / 4)) := by
            rw [n _ _ (by norm_num), n _ _ (by norm_num), n _ _ (by norm_num), n _ _ (by norm_num)]
            linarith
        _ = _ := by ring
    have hfin := norm_add_smul_diff y z _ _ h _ _ hh hs he.ge
    refine hfin.trans ?_
    have e1 : e + h * (D * (1 + L * h / 2 + (L * h) ^ 2 / 6 + (L * h) ^ 3 / 24)) =
        (1 + L * h + (L * h) ^ 2 / 2 + (L * h) ^ 3 / 6 + (L * h) ^ 4 / 24) * e + (1 + L * h / 2 + (L * h) ^ 2 / 6 + (L * h) ^ 3 / 24) * (h * ε) := by rw [hDd]; ring
    rw [e1, mul_add]
    have p2 : 0 ≤ (L * h) ^ 2 := by positivity
    have p3 : 0 ≤ (L * h) ^ 3 := by positivity
    have p4 : 0 ≤ (L * h) ^ 4 := by positivity
    refine add_le_add (mul_le_mul_of_nonneg_right ?_ e0) (mul_le_mul_of_nonneg_right ?_ (mul_nonneg hh hε)) <;> linarith
  · -- SSPRK3
    rw [ssprk3_unfold, ssprk3_unfold]
    have d1 := hD y z t
    have d2 := hD (y + h • f y t) (z + h • g z t) (t + h)
    have d3 := hD (y + (h / 4) • (f y t + f (y + h • f y t) (t + h))) (z + (h / 4) • (g z t + g (z + h • g z t) (t + h))) (t + h / 2)
    set k1 := f y t
    set l1 := g z t
    set k2 := f (y + h • k1) (t + h)
    set l2 := g (z + h • l1) (t + h)
    set k3 := f (y + (h / 4) • (k1 + k2)) (t + h / 2)
    set l3 := g (z + (h / 4) • (l1 + l2)) (t + h / 2)
    have e2 := norm_add_smul_diff y z k1 l1 h _ _ hh le_rfl he.ge
    rw [← he] at d1
    obtain ⟨D, hDd⟩ : ∃ D, D = L * e + ε := ⟨_, rfl⟩
    have D0 : 0 ≤ D := by rw [hDd]; positivity
    have b1 : ‖k1 - l1‖ ≤ D := by rw [hDd]; exact d1
    have b2 : ‖k2 - l2‖ ≤ D * (1 + L * h) := by
      have := mul_le_mul_of_nonneg_left (e2.trans (add_le_add_right (mul_le_mul_of_nonneg_left b1 hh) _)) hL
      calc _ ≤ _ := d2
        _ ≤ L * (e + h * D) + ε := by linarith
        _ = (L * e + ε) + L * h * D := by ring
        _ = _ := by rw [← hDd]; ring
    have b12 : ‖(k1 + k2) - (l1 + l2)‖ ≤ D * (2 + L * h) := by
      have ee : (k1 + k2) - (l1 + l2) = (k1 - l1) + (k2 - l2) := by abel
      rw [ee]
      refine (norm_add_le _ _).trans ?_
      linarith
    have e3 := norm_add_smul_diff y z (k1 + k2) (l1 + l2) (h / 4) _ _ (by positivity) b12 he.ge
    have b3 : ‖k3 - l3‖ ≤ D * (1 + L * h / 2 + (L * h) ^ 2 / 4) := by
      have := mul_le_mul_of_nonneg_left e3 hL
      calc _ ≤ _ := d3
        _ ≤ L * (e + h / 4 * (D * (2 + L * h))) + ε := by linarith
        _ = (L * e + ε) + L * h / 4 * (D * (2 + L * h)) := by ring
        _ = _ := by rw [← hDd]; ring
    have hs : ‖((1/6:ℝ) • k1 + (1/6:ℝ) • k2 + (2/3:ℝ) • k3) - ((1/6:ℝ) • l1 + (1/6:ℝ) • l2 + (2/3:ℝ) • l3)‖ ≤ D * (1 + L * h / 2 + (L * h) ^ 2 / 6) := by
      have ee : ((1/6:ℝ) • k1 + (1/6:ℝ) • k2 + (2/3:ℝ) • k3) - ((1/6:ℝ) • l1 + (1/6:ℝ) • l2 + (2/3:ℝ) • l3) =
          (1/6:ℝ) • (k1 - l1) + (1/6:ℝ) • (k2 - l2) + (2/3:ℝ) • (k3 - l3) := by module
      rw [ee]
      have n : ∀ (c : ℝ) (v : Y), 0 ≤ c → ‖c • v‖ = c * ‖v‖ := fun c v hc => by rw [norm_smul, Real.norm_of_nonneg hc]
      calc _ ≤ ‖(1/6:ℝ) • (k1 - l1)‖ + ‖(1/6:ℝ) • (k2 - l2)‖ + ‖(2/3:ℝ) • (k3 - l3)‖ :=
            (norm_add_le _ _).trans (add_le_add_left (norm_add_le _ _) _)
        _ ≤ 1/6 * D + 1/6 * (D * (1 + L * h)) + 2/3 * (D * (1 + L * h / 2 + (L * h) ^ 2 / 4)) := by
            rw [n _ _ (by norm_num), n _ _ (by norm_num), n _ _ (by norm_num)]
            linarith
        _ = _ := by ring
    have hfin := norm_add_smul_diff y z _ _ h _ _ hh hs he.ge
    refine hfin.trans ?_
    have e1 : e + h * (D * (1 + L * h / 2 + (L * h) ^ 2 / 6)) =
        (1 + L * h + (L * h) ^ 2 / 2 + (L * h) ^ 3 / 6) * e + (1 + L * h / 2 + (L * h) ^ 2 / 6) * (h * ε) := by rw [hDd]; ring
    rw [e1, mul_add]
    have p2 : 0 ≤ (L * h) ^ 2 := by positivity
    have p3 : 0 ≤ (L * h) ^ 3 := by positivity
    refine add_le_add (mul_le_mul_of_nonneg_right ?_ e0) (mul_le_mul_of_nonneg_right ?_ (mul_nonneg hh hε)) <;> linarith

/-- the explicit schemes -/
def isExplicit (scheme : Scheme) : Prop := scheme = .ForwardEuler ∨ scheme = .SSPRungeKutta3 ∨ scheme = .RungeKutta4 ∨ scheme = .AdamsBashforth2

/-- the sequence of states of a scheme -/
noncomputable def seqOf (scheme : Scheme) (f : Y → ℝ → Y) (y0 : Y) (t h : Nat → ℝ) : Nat → Y :=
  match tableauOf scheme with
  | some tab => oneStepSeq (rkStep tab f) y0 t h
  | none => ab2 f y0 t h

theorem seqOf_zero (scheme : Scheme) (f : Y → ℝ → Y) (y0 : Y) (t h : Nat → ℝ) : seqOf scheme f y0 t h 0 = y0 := by
  cases scheme <;> rfl

/-- the runs of all explicit schemes, in one statement -/
theorem explicit_run (sys : System ℝ Y) (f : Y → ℝ → Y) (hf : Computes sys f) (scheme : Scheme) (hs : isExplicit scheme)
    (obs : RhsEv ℝ Y → Except Exc Unit) (hobs : ∀ e, obs e = .ok ()) (pol : Int → ℝ → ℝ → ℝ) (start : ℝ) (N : Nat) (hN : (N : Int) < int32Max) (y0 : Y) (m : EMem ℝ Y)
    (hlen : m.1.length = numRhs scheme) :
    ∃ s', run 0 pol (asStepper sys scheme obs) N start y0 m = .ok () s' ∧ s'.y = seqOf scheme f y0 (tSeq 0 pol start) (hSeq 0 pol start) N ∧
      ∀ k ≤ N, (observations s'.log)[k]? = some ((k : Int), tSeq 0 pol start k, seqOf scheme f y0 (tSeq 0 pol start) (hSeq 0 pol start) k) := by
  have fin : ∀ (s' : St (EMem ℝ Y) ℝ Y) (z : Nat → Y), observations s'.log = (List.range (N+1)).map (fun k : Nat => ((k : Int), tSeq 0 pol start k, z k)) →
      ∀ k ≤ N, (observations s'.log)[k]? = some ((k : Int), tSeq 0 pol start k, z k) := by
    intro s' z h k hk
    rw [h, List.getElem?_map, List.getElem?_range (by omega)]
    rfl
  rcases hs with rfl | rfl | rfl | rfl
  · obtain ⟨s', h1, -, h3, h4⟩ := C13_runge_kutta_run sys f hf _ _ rfl obs hobs pol start N hN y0 m hlen
    exact ⟨s', h1, h3, fin s' _ h4⟩
  · obtain ⟨s', h1, -, h3, h4⟩ := C13_runge_kutta_run sys f hf _ _ rfl obs hobs pol start N hN y0 m hlen
    exact ⟨s', h1, h3, fin s' _ h4⟩
  · obtain ⟨s', h1, -, h3, h4⟩ := C13_runge_kutta_run sys f hf _ _ rfl obs hobs pol start N hN y0 m hlen
    exact ⟨s', h1, h3, fin s' _ h4⟩
  · obtain ⟨s', h1, -, h3, h4⟩ := C14_adams_bashforth_run sys f hf obs hobs pol start N hN y0 m hlen
    exact ⟨s', h1, h3, fin s' _ h4⟩

/-- growth of errors compared to that of the differential equation: 1 for the one-step schemes, 2 for AdamsBashforth2 -/
def gain : Scheme → ℝ
  | .AdamsBashforth2 => 2
  | _ => 1

/-- Gronwall for two-step recursions -/
theorem gronwall_two_step (e t h : Nat → ℝ) (L τ : ℝ) (hL : 0 ≤ L) (hτ : 0 ≤ τ) (he : ∀ k, 0 ≤ e k) (hh : ∀ k, 0 ≤ h k) (ht : ∀ k, t (k+1) = t k + h k) (e0 : ℝ) (he0 : e 0 ≤ e0)
    (h1 : e 1 ≤ Real.exp (2 * L * h 0) * (e0 + h 0 * τ)) (N : Nat)
    (hstep : ∀ k < N, e (k+2) ≤ e (k+1) + h (k+1) * (L * (3/2 * e (k+1) + 1/2 * e k) + τ)) :
    ∀ k ≤ N + 1, t 0 ≤ t k ∧ e k ≤ Real.exp (2 * L * (t k - t 0)) * (e0 + (t k - t 0) * τ) := by
  have he00 : 0 ≤ e0 := (he 0).trans he0
  have hmono : ∀ a b : ℝ, 0 ≤ a → a ≤ b → Real.exp (2 * L * a) * (e0 + a * τ) ≤ Real.exp (2 * L * b) * (e0 + b * τ) := by
    intro a b ha hab
    have : Real.exp (2 * L * a) ≤ Real.exp (2 * L * b) := Real.exp_le_exp.2 (by gcongr)
    have h2 : e0 + a * τ ≤ e0 + b * τ := by gcongr
    exact mul_le_mul this h2 (by positivity) (Real.exp_pos _).le
  suffices H : ∀ k ≤ N, (t 0 ≤ t k ∧ e k ≤ Real.exp (2 * L * (t k - t 0)) * (e0 + (t k - t 0) * τ)) ∧
      (t 0 ≤ t (k+1) ∧ e (k+1) ≤ Real.exp (2 * L * (t (k+1) - t 0)) * (e0 + (t (k+1) - t 0) * τ)) by
    intro k hk
    rcases Nat.lt_or_ge k (N+1) with h | h
    · exact (H k (by omega)).1
    · obtain rfl : k = N + 1 := by omega
      exact (H N le_rfl).2
  intro k
  induction k with
  | zero =>
    intro _
    refine ⟨by simpa using he0, ?_⟩
    rw [ht 0]
    refine ⟨by linarith [hh 0], ?_⟩
    rw [show t 0 + h 0 - t 0 = h 0 by ring]
    exact h1
  | succ k ih =>
    intro hk
    obtain ⟨⟨i1, i2⟩, i3, i4⟩ := ih (by omega)
    refine ⟨⟨i3, i4⟩, ?_⟩
    have hk1 := hh (k+1)
    rw [ht (k+1)]
    refine ⟨by linarith, ?_⟩
    set a := t (k+1) - t 0 with ha
    have ha0 : 0 ≤ a := by linarith
    have i2' : e k ≤ Real.exp (2 * L * a) * (e0 + a * τ) := i2.trans (hmono _ _ (by linarith) (by rw [ha, ht k]; linarith [hh k]))
    set B := Real.exp (2 * L * a) * (e0 + a * τ) with hB
    have hB0 : 0 ≤ B := by positivity
    have hs := hstep k (by omega)
    have hx := Real.add_one_le_exp (2 * L * h (k+1))
    have hx1 : 1 ≤ Real.exp (2 * L * a) := Real.one_le_exp (by positivity)
    have hx2 : 1 ≤ Real.exp (2 * L * h (k+1)) := Real.one_le_exp (by positivity)
    calc e (k+2) ≤ e (k+1) + h (k+1) * (L * (3/2 * e (k+1) + 1/2 * e k) + τ) := hs
      _ ≤ B + h (k+1) * (L * (3/2 * B + 1/2 * B) + τ) := by gcongr
      _ = (2 * L * h (k+1) + 1) * B + h (k+1) * τ := by ring
      _ ≤ Real.exp (2 * L * h (k+1)) * B + Real.exp (2 * L * h (k+1)) * (Real.exp (2 * L * a) * (h (k+1) * τ)) := by
          have hq : 0 ≤ h (k+1) * τ := mul_nonneg hk1 hτ
          have q1 : h (k+1) * τ ≤ Real.exp (2 * L * a) * (h (k+1) * τ) := le_mul_of_one_le_left hq hx1
          have q2 : Real.exp (2 * L * a) * (h (k+1) * τ) ≤ Real.exp (2 * L * h (k+1)) * (Real.exp (2 * L * a) * (h (k+1) * τ)) := le_mul_of_one_le_left (by positivity) hx2
          have := mul_le_mul_of_nonneg_right hx hB0
          linarith
      _ = Real.exp (2 * L * (t (k+1) + h (k+1) - t 0)) * (e0 + (t (k+1) + h (k+1) - t 0) * τ) := by
          rw [hB, show 2 * L * (t (k+1) + h (k+1) - t 0) = 2 * L * h (k+1) + 2 * L * a by rw [ha]; ring, Real.exp_add]
          rw [show t (k+1) + h (k+1) - t 0 = a + h (k+1) by rw [ha]; ring]
          ring

/-- two sequences of the same scheme for right-hand sides that differ by at most `ε` -/
theorem seq_perturbation (f g : Y → ℝ → Y) (L ε : ℝ) (hL : 0 ≤ L) (hε : 0 ≤ ε) (hf : Lip f L) (hg : ∀ y t, ‖f y t - g y t‖ ≤ ε) (scheme : Scheme) (hs : isExplicit scheme) (y0 z0 : Y) (t h : Nat → ℝ)
    (hh : ∀ k, 0 ≤ h k) (ht : ∀ k, t (k+1) = t k + h k) (k : Nat) :
    t 0 ≤ t k ∧ ‖seqOf scheme f y0 t h k - seqOf scheme g z0 t h k‖ ≤ Real.exp (gain scheme * L * (t k - t 0)) * (‖y0 - z0‖ + gain scheme * (t k - t 0) * ε) := by
  by_cases h2 : scheme = .AdamsBashforth2
  · subst h2
    have hD := rhs_diff f g L ε hf hg
    have := gronwall_two_step (fun k => ‖ab2 f y0 t h k - ab2 g z0 t h k‖) t h L (2 * ε) hL (by positivity) (fun _ => norm_nonneg _) hh ht ‖y0 - z0‖ le_rfl (by
      have b := norm_add_smul_diff y0 z0 (f y0 (t 0)) (g z0 (t 0)) (h 0) _ _ (hh 0) (hD y0 z0 (t 0)) le_rfl
      refine b.trans ?_
      have q := Real.add_one_le_exp (2 * L * h 0)
      have q1 : 1 ≤ Real.exp (2 * L * h 0) := Real.one_le_exp (mul_nonneg (by positivity) (hh 0))
      have q2 := mul_le_mul_of_nonneg_right q (norm_nonneg (y0 - z0))
      have q3 : h 0 * (2 * ε) ≤ Real.exp (2 * L * h 0) * (h 0 * (2 * ε)) := le_mul_of_one_le_left (mul_nonneg (hh 0) (by positivity)) q1
      have q4 := mul_nonneg (mul_nonneg hL (hh 0)) (norm_nonneg (y0 - z0))
      have q5 := mul_nonneg (hh 0) hε
      nlinarith) k (by
      intro j _
      show ‖ab2 f y0 t h (j+2) - ab2 g z0 t h (j+2)‖ ≤ _
      rw [ab2, ab2]
      set a := ab2 f y0 t h (j+1)
      set b := ab2 g z0 t h (j+1)
      set a' := ab2 f y0 t h j
      set b' := ab2 g z0 t h j
      have hd : ‖(((3:ℝ)/2) • f a (t (j+1)) - ((1:ℝ)/2) • f a' (t j)) - (((3:ℝ)/2) • g b (t (j+1)) - ((1:ℝ)/2) • g b' (t j))‖ ≤ 3/2 * (L * ‖a - b‖ + ε) + 1/2 * (L * ‖a' - b'‖ + ε) := by
        have e : (((3:ℝ)/2) • f a (t (j+1)) - ((1:ℝ)/2) • f a' (t j)) - (((3:ℝ)/2) • g b (t (j+1)) - ((1:ℝ)/2) • g b' (t j)) =
            ((3:ℝ)/2) • (f a (t (j+1)) - g b (t (j+1))) - ((1:ℝ)/2) • (f a' (t j) - g b' (t j)) := by module
        rw [e]
        refine (norm_sub_le _ _).trans (add_le_add ?_ ?_)
        · rw [norm_smul, Real.norm_of_nonneg (by norm_num)]; exact mul_le_mul_of_nonneg_left (hD _ _ _) (by norm_num)
        · rw [norm_smul, Real.norm_of_nonneg (by norm_num)]; exact mul_le_mul_of_nonneg_left (hD _ _ _) (by norm_num)
      have := norm_add_smul_diff a b _ _ (h (j+1)) _ _ (hh _) hd le_rfl
      refine this.trans (le_of_eq ?_)
      ring) k (by omega)
    refine ⟨this.1, this.2.trans (le_of_eq ?_)⟩
    simp only [gain]; ring
  · obtain ⟨tab, htab⟩ : ∃ tab : Tableau ℝ, tableauOf scheme = some tab := by
      rcases hs with rfl | rfl | rfl | rfl <;> first | exact ⟨_, rfl⟩ | exact absurd rfl h2
    have hgain : gain scheme = 1 := by
      rcases hs with rfl | rfl | rfl | rfl <;> first | rfl | exact absurd rfl h2
    have := gronwall (fun k => ‖seqOf scheme f y0 t h k - seqOf scheme g z0 t h k‖) t h L ε hL hε k (fun k _ => hh k) (fun k _ => ht k) (by
      intro j _
      simp only [seqOf, htab, oneStepSeq]
      exact rk_perturbation f g L ε hL hε hf hg scheme tab htab _ _ _ _ (hh j)) k le_rfl
    rw [seqOf_zero, seqOf_zero] at this
    rw [hgain, one_mul, one_mul]
    exact this

/-- **C73.** Two runs of the same explicit scheme with the same step-size policy, one for `f`, one for `g` where `g` differs from `f` by at most `ε` (round-off in the user's right-hand side, a surrogate, ...), from different initial
    states: at every observation the states differ by at most `exp(c L (t - start)) (‖y₀ - z₀‖ + c (t - start) ε)`, with `c = 1` for the one-step schemes and `c = 2` for AdamsBashforth2. -/
theorem C73_dependence_on_data (sysf sysg : System ℝ Y) (f g : Y → ℝ → Y) (hsf : Computes sysf f) (hsg : Computes sysg g) (L ε : ℝ) (hL : 0 ≤ L) (hε : 0 ≤ ε) (hf : Lip f L) (hg : ∀ y t, ‖f y t - g y t‖ ≤ ε)
    (scheme : Scheme) (hs : isExplicit scheme) (obs obs' : RhsEv ℝ Y → Except Exc Unit) (hobs : ∀ e, obs e = .ok ()) (hobs' : ∀ e, obs' e = .ok ())
    (pol : Int → ℝ → ℝ → ℝ) (hpol : ∀ n t d, 0 ≤ pol n t d) (start : ℝ) (N : Nat) (hN : (N : Int) < int32Max) (y0 z0 : Y) (m m' : EMem ℝ Y)
    (hlen : m.1.length = numRhs scheme) (hlen' : m'.1.length = numRhs scheme) :
    ∃ s s', run 0 pol (asStepper sysf scheme obs) N start y0 m = .ok () s ∧ run 0 pol (asStepper sysg scheme obs') N start z0 m' = .ok () s' ∧
      ∀ k ≤ N, ∃ t y z, (observations s.log)[k]? = some ((k : Int), t, y) ∧ (observations s'.log)[k]? = some ((k : Int), t, z) ∧ (k = N → s.y = y ∧ s'.y = z) ∧
        start ≤ t ∧ ‖y - z‖ ≤ Real.exp (gain scheme * L * (t - start)) * (‖y0 - z0‖ + gain scheme * (t - start) * ε) := by
  obtain ⟨s, a1, a2, a3⟩ := explicit_run sysf f hsf scheme hs obs hobs pol start N hN y0 m hlen
  obtain ⟨s', b1, b2, b3⟩ := explicit_run sysg g hsg scheme hs obs' hobs' pol start N hN z0 m' hlen'
  refine ⟨s, s', a1, b1, ?_⟩
  intro k hk
  obtain ⟨c1, c2⟩ := seq_perturbation f g L ε hL hε hf hg scheme hs y0 z0 (tSeq 0 pol start) (hSeq 0 pol start) (fun j => hpol _ _ _) (fun j => rfl) k
  exact ⟨_, _, _, a3 k hk, b3 k hk, by rintro rfl; exact ⟨a2, b2⟩, c1, c2⟩

end Pressio.Props
