import Verif.Props.ExplicitRun
import Verif.Props.ImplicitNewton
import Mathlib.Data.List.GetD
import Mathlib.Tactic.Module

/-
  C72: linear invariants (total mass, momentum, ...) are conserved.

  A linear functional, or any linear map `ℓ`, with `ℓ (f(y, t)) = 0` for all `y`, `t` is constant along every solution of `y' = f(y, t)`.  Every run with a pressio scheme keeps it exactly.
-/
namespace Pressio.Props
set_option autoImplicit false
set_option linter.unusedSectionVars false
open Pressio Matrix Pressio.Model.Advance Pressio.Model.Explicit Pressio.Spec.Explicit Pressio.Spec.Run Pressio.Lemmas.Run
open Pressio.Spec.AdvanceTarget
open Pressio.Model.Implicit Pressio.Spec.Implicit Pressio.Lemmas.Implicit Pressio.Spec.SolverRun Pressio.Lemmas.SolverRun Pressio.Lemmas.SolverTree
open Pressio.Model.Nonlinear (Env Cfg Reg Ans SP StopCrit Update newtonDiagnostics)
open Pressio.Spec.Nonlinear

section Explicit
variable {K Y Z : Type} [Field K] [CharZero K] [AddCommGroup Y] [Module K Y] [AddCommGroup Z] [Module K Z]

/-- `ℓ` does not change along the right-hand side -/
def Invariant (ℓ : Y →ₗ[K] Z) (f : Y → K → Y) : Prop := ∀ y t, ℓ (f y t) = 0

theorem stages_mem (tab : Tableau K) (f : Y → K → Y) (y : Y) (t h : K) (i : Nat) : ∀ k ∈ stages tab f y t h i, ∃ y' t', k = f y' t' := by
  induction i with
  | zero => simp [stages]
  | succ i ih =>
    intro k hk
    simp only [stages, List.mem_append, List.mem_singleton] at hk
    rcases hk with hk | hk
    · exact ih k hk
    · exact ⟨_, _, hk⟩

theorem map_sumBelow (ℓ : Y →ₗ[K] Z) (g : Nat → Y) (n : Nat) (h : ∀ i, ℓ (g i) = 0) : ℓ (sumBelow g n) = 0 := by
  induction n with
  | zero => simp [sumBelow]
  | succ n ih => simp [sumBelow, ih, h]

theorem rkStep_invariant (ℓ : Y →ₗ[K] Z) (tab : Tableau K) (f : Y → K → Y) (hℓ : Invariant ℓ f) (y : Y) (t h : K) : ℓ (rkStep tab f y t h) = ℓ y := by
  have hs : ∀ i, ℓ ((stages tab f y t h tab.s).getD i 0) = 0 := by
    intro i
    rcases Nat.lt_or_ge i (stages tab f y t h tab.s).length with hi | hi
    · rw [List.getD_eq_getElem _ _ hi]
      obtain ⟨y', t', e⟩ := stages_mem tab f y t h tab.s _ (List.getElem_mem hi)
      rw [e]; exact hℓ _ _
    · rw [List.getD_eq_default _ _ hi]; simp
  unfold rkStep
  rw [map_add, map_smul, map_sumBelow ℓ _ _ (fun i => by rw [map_smul, hs, smul_zero]), smul_zero, add_zero]

theorem ab2_invariant (ℓ : Y →ₗ[K] Z) (f : Y → K → Y) (hℓ : Invariant ℓ f) (y0 : Y) (t h : Nat → K) (n : Nat) : ℓ (ab2 f y0 t h n) = ℓ y0 := by
  have : ∀ n, ℓ (ab2 f y0 t h n) = ℓ y0 ∧ ℓ (ab2 f y0 t h (n+1)) = ℓ y0 := by
    intro n
    induction n with
    | zero => simp [ab2, hℓ _ _]
    | succ n ih =>
      refine ⟨ih.2, ?_⟩
      rw [ab2]
      simp [ih.2, hℓ _ _]
  exact (this n).1

/-- **C72, explicit schemes.** Every explicit scheme, any step-size policy, any number of steps, whatever the stepper object was used for before: all observed states and the final state have the invariant of the
    initial state. -/
theorem C72_explicit_run (sys : System K Y) (f : Y → K → Y) (hf : Computes sys f) (ℓ : Y →ₗ[K] Z) (hℓ : Invariant ℓ f)
    (scheme : Scheme) (hs : scheme = .ForwardEuler ∨ scheme = .SSPRungeKutta3 ∨ scheme = .RungeKutta4 ∨ scheme = .AdamsBashforth2)
    (obs : RhsEv K Y → Except Exc Unit) (hobs : ∀ e, obs e = .ok ())
    (pol : Int → K → K → K) (start : K) (N : Nat) (hN : (N : Int) < int32Max) (y0 : Y) (m : EMem K Y)
    (hlen : m.1.length = numRhs scheme) :
    ∃ s', run 0 pol (asStepper sys scheme obs) N start y0 m = .ok () s' ∧ (observations s'.log).length = N + 1 ∧
      ℓ s'.y = ℓ y0 ∧ ∀ o ∈ observations s'.log, ℓ o.2.2 = ℓ y0 := by
  by_cases h2 : scheme = .AdamsBashforth2
  · subst h2
    obtain ⟨s', h1, -, h3, h4⟩ := C14_adams_bashforth_run sys f hf obs hobs pol start N hN y0 m hlen
    refine ⟨s', h1, by rw [h4]; simp, by rw [h3]; exact ab2_invariant ℓ f hℓ _ _ _ _, ?_⟩
    rw [h4]
    simp only [List.mem_map, forall_exists_index, and_imp]
    rintro o k - rfl
    exact ab2_invariant ℓ f hℓ _ _ _ _
  · obtain ⟨tab, ht⟩ : ∃ tab : Tableau K, tableauOf scheme = some tab := by
      rcases hs with rfl | rfl | rfl | rfl <;> first | exact ⟨_, rfl⟩ | exact absurd rfl h2
    obtain ⟨s', h1, -, h3, h4⟩ := C13_runge_kutta_run sys f hf scheme tab ht obs hobs pol start N hN y0 m hlen
    have hseq : ∀ k, ℓ (oneStepSeq (rkStep tab f) y0 (tSeq 0 pol start) (hSeq 0 pol start) k) = ℓ y0 := by
      intro k
      induction k with
      | zero => rfl
      | succ k ih => rw [oneStepSeq, rkStep_invariant ℓ tab f hℓ, ih]
    refine ⟨s', h1, by rw [h4]; simp, by rw [h3]; exact hseq _, ?_⟩
    rw [h4]
    simp only [List.mem_map, forall_exists_index, and_imp]
    rintro o k - rfl
    exact hseq _

end Explicit

section Implicit
variable {K n p L : Type} [Field K] [LinearOrder K] [IsStrictOrderedRing K] [Fintype n] [DecidableEq n] [Fintype p]
variable {Z : Type} [AddCommGroup Z] [Module K Z]

theorem mem_accepted (y0 : n → K) {A : Type} (pre : List (Record K (n → K) A)) (y : n → K) (h : y ∈ accepted y0 pre) : y = y0 ∨ ∃ r ∈ pre, r.stop = none ∧ r.y = y := by
  simp only [accepted, List.mem_append, List.mem_reverse, List.mem_map, List.mem_filter, List.mem_singleton, Option.isNone_iff_eq_none] at h
  rcases h with ⟨r, ⟨hr, hs⟩, e⟩ | h
  · exact .inr ⟨r, hr, hs, e⟩
  · exact .inl h

/-- the invariant of the residual: that of the unknown minus that of the earlier states -/
theorem schemeRes_invariant (ℓ : (n → K) →ₗ[K] Z) (f : (n → K) → K → (n → K)) (hℓ : Invariant ℓ f) (name : Scheme) (yn : n → K) (older : List (n → K)) (c : Z)
    (hc : ∀ y ∈ yn :: older, ℓ y = c) (t dt : K) (x : n → K) : ℓ (schemeRes name f (yn :: older) t dt x) = ℓ x - c := by
  have h3 : (3:K) ≠ 0 := by norm_num
  have h0 : ℓ yn = c := hc yn (by simp)
  have key : ∀ u v : n → K, ℓ u = c → ℓ v = c → ℓ (x - ((4:K)/3) • u + ((1:K)/3) • v) = ℓ x - c := by
    intro u v hu hv
    simp only [map_add, map_sub, map_smul, hu, hv]
    have : ((4:K)/3) • c = c + ((1:K)/3) • c := by
      rw [show (4:K)/3 = 1 + 1/3 by field_simp; norm_num, add_smul, one_smul]
    rw [this]; abel
  unfold schemeRes
  split
  · rename_i a b l e
    simp only [List.cons.injEq] at e
    obtain ⟨rfl, rfl⟩ := e
    rw [map_sub, map_smul, hℓ, smul_zero, sub_zero]
    exact key _ _ h0 (hc b (by simp))
  · rename_i a l e
    simp only [List.cons.injEq] at e
    obtain ⟨rfl, rfl⟩ := e
    simp [hℓ _ _, h0]
  · rename_i a l _ _ e
    simp only [List.cons.injEq] at e
    obtain ⟨rfl, rfl⟩ := e
    simp [hℓ _ _, h0]
  · rename_i e; cases e

/-- **C72, implicit schemes, exact solves.** Whatever the nonlinear solver is: if the states that it returned solve the equations of their steps, then all accepted states have the invariant of the initial state. -/
theorem C72_implicit_exact_solves (name : Scheme) (f : (n → K) → K → (n → K)) (Df : (n → K) → K → Matrix n n K) (ℓ : (n → K) →ₗ[K] Z) (hℓ : Invariant ℓ f)
    (mem : SMem K (n → K) (n → K) PMem) (atts : List (Attempt K (n → K) (Ans K n n))) (t0 : K) (y0 : n → K)
    (hex : ∀ pre r post, drive (stdStep name (odeSystem f Df)) atts t0 [y0] y0 mem = pre ++ r :: post → r.stop = none →
      schemeRes name f (accepted y0 pre) r.t r.dt r.y = 0) :
    ∀ r ∈ drive (stdStep name (odeSystem f Df)) atts t0 [y0] y0 mem, r.stop = none → ℓ r.y = ℓ y0 := by
  suffices H : ∀ k pre r post, pre.length ≤ k → drive (stdStep name (odeSystem f Df)) atts t0 [y0] y0 mem = pre ++ r :: post → r.stop = none → ℓ r.y = ℓ y0 by
    intro r hr hs
    obtain ⟨pre, post, e⟩ := List.append_of_mem hr
    exact H _ pre r post le_rfl e hs
  intro k
  induction k using Nat.strong_induction_on with
  | _ k ih =>
    intro pre r post hk e hs
    have hacc : ∀ y ∈ accepted y0 pre, ℓ y = ℓ y0 := by
      intro y hy
      rcases mem_accepted y0 pre y hy with rfl | ⟨r', hr', hs', rfl⟩
      · rfl
      · obtain ⟨a, b, rfl⟩ := List.append_of_mem hr'
        refine ih a.length (by simp only [List.length_append, List.length_cons] at hk; omega) a r' (b ++ r :: post) le_rfl ?_ hs'
        rw [e]; simp
    have h0 := hex pre r post e hs
    rcases ha : accepted y0 pre with _ | ⟨yn, older⟩
    · simp [accepted] at ha
    · rw [ha] at h0 hacc
      have := schemeRes_invariant ℓ f hℓ name yn older (ℓ y0) hacc r.t r.dt r.y
      rw [h0, map_zero] at this
      exact (sub_eq_zero.1 this.symm)

/-- **C72, implicit schemes with pressio's Newton solver.** One Newton solver object for all steps, full updates, linear systems solved exactly, user Jacobian tangent to the invariant: every state of the run has the invariant
    of the initial state — also those of steps in which the iteration was stopped before it converged. -/
theorem C72_implicit_newton (name : Scheme) (f : (n → K) → K → (n → K)) (Df : (n → K) → K → Matrix n n K) (ℓ : (n → K) →ₗ[K] Z) (hℓ : Invariant ℓ f) (hD : ∀ y t v, ℓ (Df y t *ᵥ v) = 0)
    (mem : SMem K (n → K) (n → K) PMem) (hmem : Ready name mem)
    (env : Env K n n p L) (cfg : Cfg K) (sol : Matrix n n K → (n → K) → n → K) (tick : L → L) (hlin : ∀ A b c l, env.linJ A b (c, l) = .ok () (sol A b, tick l))
    (hcrit : rootCriterion cfg.stop = true) (hupd : cfg.update = .Standard) (hmax : cfg.maxIters < int32Max) (reg : Reg K n n p L) (hreg : NewtonIdle reg)
    (dts : List K) (t0 : K) (y0 : n → K)
    (hsol : ∀ dt ∈ dts, ∀ c ∈ [dt, dt / 2, (2:K)/3 * dt], ∀ y t d, (1 - c • Df y t) *ᵥ sol (1 - c • Df y t) d = d) :
    ∀ r ∈ driveObj (stdStep name (odeSystem f Df)) (Model.Nonlinear.newtonSolve env cfg) dts t0 [y0] y0 mem reg, r.stop = none ∧ ℓ r.y = ℓ y0 := by
  suffices H : ∀ k pre r post, pre.length ≤ k → driveObj (stdStep name (odeSystem f Df)) (Model.Nonlinear.newtonSolve env cfg) dts t0 [y0] y0 mem reg = pre ++ r :: post → r.stop = none ∧ ℓ r.y = ℓ y0 by
    intro r hr
    obtain ⟨pre, post, e⟩ := List.append_of_mem hr
    exact H _ pre r post le_rfl e
  intro k
  induction k using Nat.strong_induction_on with
  | _ k ih =>
    intro pre r post hk e
    have hdt : r.dt ∈ dts := by
      obtain ⟨_, _, _, -, -, -, h5, -⟩ := C66_run_is_newton_solves name (odeSystem f Df) (by intro y t w e junk h; cases h)
        (by intro y t w g j h; simp only [odeSystem, Except.ok.injEq, Prod.mk.injEq] at h; obtain ⟨-, rfl⟩ := h; cases w <;> rfl)
        mem hmem env (by intro A b s; obtain ⟨c, l⟩ := s; rw [hlin]; simp [Res.stop?]) cfg reg hreg dts t0 y0 pre post r e
      exact h5
    have hacc : ∀ y ∈ accepted y0 pre, ℓ y = ℓ y0 := by
      intro y hy
      rcases mem_accepted y0 pre y hy with rfl | ⟨r', hr', hs', rfl⟩
      · rfl
      · obtain ⟨a, b, rfl⟩ := List.append_of_mem hr'
        refine (ih a.length (by simp only [List.length_append, List.length_cons] at hk; omega) a r' (b ++ r :: post) le_rfl ?_).2
        rw [e]; simp
    obtain ⟨yn, older, h2, h4, h5, h6⟩ := C66_newton_iterates name f Df mem hmem env cfg sol tick hlin hcrit hupd hmax reg hreg dts t0 y0 pre post r e
    rw [h2] at hacc
    have hcoef : schemeCoef name (yn :: older) r.dt ∈ [r.dt, r.dt / 2, (2:K)/3 * r.dt] := by
      unfold schemeCoef; split <;> simp
    have hstep : ∀ x, ℓ x = ℓ y0 → ℓ (x + -sol (schemeJac name Df (yn :: older) r.t r.dt x) (schemeRes name f (yn :: older) r.t r.dt x)) = ℓ y0 := by
      intro x hx
      have hR := schemeRes_invariant ℓ f hℓ name yn older (ℓ y0) hacc r.t r.dt x
      have hJ := congrArg ℓ (hsol r.dt hdt _ hcoef x (r.t + r.dt) (schemeRes name f (yn :: older) r.t r.dt x))
      rw [hR, hx, sub_self, Matrix.sub_mulVec, Matrix.one_mulVec, Matrix.smul_mulVec, map_sub, map_smul, hD, smul_zero, sub_zero] at hJ
      unfold schemeJac
      rw [map_add, map_neg, hJ, neg_zero, add_zero, hx]
    have hit : ∀ k x, ℓ x = ℓ y0 → ℓ ((fun x => x + -sol (schemeJac name Df (yn :: older) r.t r.dt x) (schemeRes name f (yn :: older) r.t r.dt x))^[k] x) = ℓ y0 := by
      intro k
      induction k with
      | zero => intro x hx; exact hx
      | succ k ihk => intro x hx; rw [Function.iterate_succ_apply]; exact ihk _ (hstep x hx)
    refine ⟨h5, ?_⟩
    rcases h6 with ⟨k, -, -, -, hy, -⟩ | ⟨-, hy, -⟩ <;> rw [hy] <;> exact hit _ _ (hacc yn (by simp))

end Implicit

/-! ### Concrete runs -/
section Examples
open Pressio.Model.Nonlinear

/-- exchange between two reservoirs: `y₀' = (y₁ - y₀)³`, `y₁' = -(y₁ - y₀)³` -/
def exch (y : Fin 2 → ℚ) (_ : ℚ) : Fin 2 → ℚ := ![(y 1 - y 0) ^ 3, -(y 1 - y 0) ^ 3]
def exchJac (y : Fin 2 → ℚ) (_ : ℚ) : Matrix (Fin 2) (Fin 2) ℚ := !![-3 * (y 1 - y 0) ^ 2, 3 * (y 1 - y 0) ^ 2; 3 * (y 1 - y 0) ^ 2, -3 * (y 1 - y 0) ^ 2]
/-- the total content -/
def total : (Fin 2 → ℚ) →ₗ[ℚ] ℚ := (LinearMap.proj 0 : (Fin 2 → ℚ) →ₗ[ℚ] ℚ) + (LinearMap.proj 1 : (Fin 2 → ℚ) →ₗ[ℚ] ℚ)

theorem exch_invariant : Invariant total exch := by intro y t; simp [total, exch]
theorem exchJac_invariant : ∀ y t v, total (exchJac y t *ᵥ v) = 0 := by
  intro y t v; simp [total, exchJac, dotProduct, Fin.sum_univ_two]; ring

def exchSys : System ℚ (Fin 2 → ℚ) := ⟨fun y t _ => .ok () (exch y t)⟩
example : Computes exchSys exch := fun _ _ _ => rfl

/-- two steps of AdamsBashforth2 with sizes 1/2, 1/4: the states change, their sum does not -/
example : (observations (run 0 (fun n _ _ => (1 : ℚ) / (2 * n)) (asStepper exchSys .AdamsBashforth2 dummyObserver) 2 0 ![0, 1] ([![5, 5], ![6, 6]], ![7, 7], [])).state.log).map (fun o => (o.2.1, o.2.2 0, o.2.2 1))
    = [(0, 0, 1), (1/2, 1/2, 1/2), (3/4, 3/8, 5/8)] := by decide +kernel

/-- Cramer's rule -/
def sol2 (A : Matrix (Fin 2) (Fin 2) ℚ) (b : Fin 2 → ℚ) : Fin 2 → ℚ :=
  let d := A 0 0 * A 1 1 - A 0 1 * A 1 0
  ![(A 1 1 * b 0 - A 0 1 * b 1) / d, (A 0 0 * b 1 - A 1 0 * b 0) / d]

theorem sol2_exact (A : Matrix (Fin 2) (Fin 2) ℚ) (b : Fin 2 → ℚ) (h : A 0 0 * A 1 1 - A 0 1 * A 1 0 ≠ 0) : A *ᵥ sol2 A b = b := by
  funext i
  have e : ∀ x y : ℚ, x = y * (A 0 0 * A 1 1 - A 0 1 * A 1 0) → x / (A 0 0 * A 1 1 - A 0 1 * A 1 0) = y := fun x y hx => by rw [hx, mul_div_assoc, div_self h, mul_one]
  fin_cases i <;> simp only [sol2, Matrix.mulVec, dotProduct, Fin.sum_univ_two, ← mul_div_assoc, ← add_div, Matrix.cons_val_zero, Matrix.cons_val_one, Fin.zero_eta, Fin.mk_one] <;> apply e <;> ring

def env2 : Env ℚ (Fin 2) (Fin 2) Unit ℚ where
  normM := fun v => |v 0| + |v 1|
  normN := fun v => |v 0| + |v 1|
  lin := fun A b (_, l) => .ok () (sol2 A b, l)
  linJ := fun A b (_, l) => .ok () (sol2 A b, l + 1)
  applyJac := fun _ v _ => v
  krylov := fun _ b _ => .ok () b
  qrThin := fun _ l => .ok () l
  qrApplyQT := fun r (_, l) => .ok () (r, l)
  qrSolve := fun b (_, l) => .ok () (b, l)
  wR := fun _ _ => 0
  wJ := fun _ _ _ => 0
  cwR := fun _ _ => 0
  cwJ := fun _ _ _ => 0
  createState := 0

def reg2 : Reg ℚ (Fin 2) (Fin 2) Unit ℚ where
  x := ![7, 7]
  trial := ![7, 7]
  c := ![7, 7]
  r := ![7, 7]
  J := 1
  g := ![7, 7]
  H := 1
  H0 := 1
  damp := 7
  Wr := ![7, 7]
  WJ := fun _ _ => 7
  cWr := v1 7
  cWJ := fun _ _ => 7
  QTr := ![7, 7]
  nu := 7
  cDiagH := ![7, 7]
  lin := 7
  diag := newContainer newtonDiagnostics
  files := []
  log := []

def newStepper2 : SMem ℚ (Fin 2 → ℚ) (Fin 2 → ℚ) PMem := ⟨0, 0, 0, 0, [0, 0], [], freshPMem⟩

example : Ready .BDF2 newStepper2 := by decide
example : NewtonIdle reg2 := fun _ => .created _ rfl

/-- the Jacobians of the exchange problem are never singular for positive step sizes -/
example : ∀ dt ∈ [(1:ℚ), 1], ∀ c ∈ [dt, dt / 2, (2:ℚ)/3 * dt], ∀ y t d, (1 - c • exchJac y t) *ᵥ sol2 (1 - c • exchJac y t) d = d := by
  intro dt hdt c hc y t d
  have hc0 : 0 ≤ c := by
    have : dt = 1 := by simpa using hdt
    subst this
    simp only [List.mem_cons, List.not_mem_nil, or_false] at hc
    rcases hc with rfl | rfl | rfl <;> norm_num
  refine sol2_exact _ _ ?_
  have : (1 - c • exchJac y t) 0 0 * (1 - c • exchJac y t) 1 1 - (1 - c • exchJac y t) 0 1 * (1 - c • exchJac y t) 1 0 = 1 + c * (6 * (y 1 - y 0) ^ 2) := by
    simp [exchJac]; ring
  rw [this]
  have := mul_nonneg hc0 (mul_nonneg (by norm_num : (0:ℚ) ≤ 6) (sq_nonneg (y 1 - y 0)))
  exact ne_of_gt (by linarith)

/-- two BDF2 steps with a single Newton iteration each (far from converged): total content exactly 1 -/
example : (driveObj (stdStep .BDF2 (odeSystem exch exchJac)) (newtonSolve env2 (cfgN .WhenAbsolutel2NormOfResidualBelowTolerance (1/1000) 1 .Standard)) [1, 1] 0 [![0, 1]] ![0, 1] newStepper2 reg2).map
      (fun r => (r.stop, r.y 0, r.y 1)) = [(none, 1/7, 6/7), (none, 746/3129, 2383/3129)] := by decide +kernel

example := C72_explicit_run exchSys exch (fun _ _ _ => rfl) total exch_invariant .AdamsBashforth2 (.inr (.inr (.inr rfl))) dummyObserver (fun _ => rfl) (fun n _ _ => (1 : ℚ) / (2 * n)) 0 2 (by decide) ![0, 1]
  ([![5, 5], ![6, 6]], ![7, 7], []) rfl

/-- linear exchange, `y₀' = y₁ - y₀ = -y₁'`, with a solver that returns the exact solution of the BDF1 equations for step size 1 -/
def mix (y : Fin 2 → ℚ) (_ : ℚ) : Fin 2 → ℚ := ![y 1 - y 0, y 0 - y 1]
def mixJac (_ : Fin 2 → ℚ) (_ : ℚ) : Matrix (Fin 2) (Fin 2) ℚ := !![-1, 1; 1, -1]
def mixAtt : Attempt ℚ (Fin 2 → ℚ) (Ans ℚ (Fin 2) (Fin 2)) := ⟨1, fun y => .ask y true (fun _ => .ret ![(2 * y 0 + y 1) / 3, (y 0 + 2 * y 1) / 3])⟩
def mixRun := drive (stdStep .BDF1 (odeSystem mix mixJac)) [mixAtt, mixAtt] 0 [![0, 1]] ![0, 1] ⟨0, 0, 0, 0, [0], [], freshPMem⟩
theorem mixRun_length : mixRun.length = 2 := by decide +kernel
theorem mixRun_exact : ∀ k (h : k < mixRun.length), schemeRes .BDF1 mix (accepted ![0, 1] (mixRun.take k)) mixRun[k].t mixRun[k].dt mixRun[k].y = 0 := by
  intro k h
  have h2 : k < 2 := by rw [← mixRun_length]; exact h
  have h0 : schemeRes .BDF1 mix (accepted ![0, 1] (mixRun.take 0)) (mixRun[0]'(by rw [mixRun_length]; decide)).t (mixRun[0]'(by rw [mixRun_length]; decide)).dt (mixRun[0]'(by rw [mixRun_length]; decide)).y = 0 := by
    decide +kernel
  have h1 : schemeRes .BDF1 mix (accepted ![0, 1] (mixRun.take 1)) (mixRun[1]'(by rw [mixRun_length]; decide)).t (mixRun[1]'(by rw [mixRun_length]; decide)).dt (mixRun[1]'(by rw [mixRun_length]; decide)).y = 0 := by
    decide +kernel
  obtain rfl | rfl : k = 0 ∨ k = 1 := by omega
  · exact h0
  · exact h1
example := C72_implicit_exact_solves .BDF1 mix mixJac total (by intro y t; simp [total, mix]) ⟨0, 0, 0, 0, [0], [], freshPMem⟩ [mixAtt, mixAtt] 0 ![0, 1] (by
  intro pre r post h _
  change mixRun = _ at h
  have hk : pre.length < mixRun.length := by rw [h]; simp
  have := mixRun_exact pre.length hk
  have e1 : mixRun.take pre.length = pre := by rw [h]; simp
  have e2 : mixRun[pre.length] = r := by simp [h]
  rwa [e1, e2] at this)

end Examples
end Pressio.Props
