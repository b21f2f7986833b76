import Verif.Lemmas.Units
import Verif.Props.Coordinates
import Verif.Props.MassMatrixNewton
import Verif.Props.GalerkinRun

/-
  C100: a problem in other units of time and state.
-/
namespace Pressio.Props
set_option autoImplicit false
set_option linter.unusedSectionVars false
open Pressio Matrix
open Pressio.Model.Advance Pressio.Spec.AdvanceTarget Pressio.Spec.AdvanceDrive Pressio.Spec.CustomSchemes Pressio.Spec.Units Pressio.Lemmas.Units
open Pressio.Lemmas.AdvanceBisim (callObs_user)

/-! ### Any stepper whose attempts agree -/
section
variable {K Y Y' M N U : Type} [Field K] (c : Clock K) (φ : Y' → Y) (D : K → Prop) (s1 : K → Int → K → Prog (Y × M) Unit) (s2 : K → Int → K → Prog (Y' × N) Unit)
  (pol pol' : Int → K → K → Prog U K) (pol5 pol5' : Int → K → DtVars K → Prog U (DtVars K)) (obs : Int → K → Y → Prog U Unit) (obs' : Int → K → Y' → Prog U Unit)

theorem n_steps_units (hpol : SamePolicy c pol pol') (hobs : SameObserver c φ obs obs') (hD : ∀ i t d u d' u', pol' i t d u = .ok d' u' → D d') (start : K) (y0 : Y') (a : M) (b : N) (h : Moved c φ D s1 s2 start 1 y0 a b) (n : Int) (u : U) :
    visible (advanceN 0 (userObjects s1 pol pol5 obs) n (c.time start) ⟨(a, u), φ y0, []⟩) = seenIn c id φ (visible (advanceN 0 (userObjects s2 pol' pol5' obs') n start ⟨(b, u), y0, []⟩)) := by
  simp only [advanceN, Prog.bind_run, callObs_user, hobs 0 start y0 u]
  rcases obs' 0 start y0 u with ⟨_, u'⟩ | ⟨z, u'⟩
  · have e := nLoop_moved c φ D s1 s2 pol pol' pol5 pol5' obs obs' hpol hobs hD n.toNat 1 start 0 y0 a b u' [.obs 0 start y0] h
    rw [size_zero] at e
    exact e
  · rfl

theorem target_units [LinearOrder K] [IsStrictOrderedRing K] (hc : 0 < c.rate) (hpol : SamePolicy c pol pol') (hpol5 : SamePolicy5 c pol5 pol5') (hobs : SameObserver c φ obs obs') (hD : ∀ i t d u d' u', pol' i t d u = .ok d' u' → D d')
    (hD5 : ∀ i t v u v' u', pol5' i t v u = .ok v' u' → D v'.dt) (hq : ∀ d q, D d → 1 < q → D (d / q)) (rec : Bool) (eps eps' : K) (heps : eps = c.size eps') (start final : K) (y0 : Y') (a : M) (b : N) (h : Moved c φ D s1 s2 start 1 y0 a b) (fuel : Nat) (u : U) :
    visible (advanceT rec eps (userObjects s1 pol pol5 obs) fuel (c.time start) (c.time final) ⟨(a, u), φ y0, []⟩) =
      seenIn c c.time φ (visible (advanceT rec eps' (userObjects s2 pol' pol5' obs') fuel start final ⟨(b, u), y0, []⟩)) := by
  subst heps
  simp only [advanceT, time_lt c hc, time_eq c hc]
  split
  · rfl
  split
  · rfl
  simp only [Prog.bind_run, callObs_user, hobs 0 start y0 u]
  rcases obs' 0 start y0 u with ⟨_, u'⟩ | ⟨z, u'⟩
  · have e := tLoop_moved c φ D s1 s2 pol pol' pol5 pol5' obs obs' hc hpol hpol5 hobs hD hD5 hq rec eps' final fuel 1 start ⟨0, 0, 1⟩ y0 a b u' [.obs 0 start y0] h
    rw [show c.vars (⟨0, 0, 1⟩ : DtVars K) = ⟨0, 0, 1⟩ by simp [Clock.vars, size_zero]] at e
    exact e
  · rfl
end

/-! ### Explicit steppers -/
section
open Pressio.Model.Explicit Pressio.Spec.Explicit Pressio.Lemmas.Run
variable {K X V : Type} [Field K] [AddCommGroup X] [Module K X] [AddCommGroup V] [Module K V]

theorem stages_clock (c : Clock K) (tab : Tableau K) (f : V → K → V) (y : V) (t h : K) : ∀ i, stages tab (fun y t => c.rate • f y (c.time t)) y t h i = (stages tab f y (c.time t) (c.size h) i).map (fun k => c.rate • k)
  | 0 => rfl
  | i+1 => by
    have hs : sumBelow (fun j => tab.a i j • ((stages tab f y (c.time t) (c.size h) i).map (fun k => c.rate • k)).getD j 0) i
        = c.rate • sumBelow (fun j => tab.a i j • (stages tab f y (c.time t) (c.size h) i).getD j 0) i := by
      have e := sumBelow_map (LinearMap.lsmul K V c.rate) (fun j => tab.a i j • (stages tab f y (c.time t) (c.size h) i).getD j 0) i
      simp only [LinearMap.lsmul_apply] at e
      rw [← e]
      congr 1; funext j
      have e2 := getD_map_zero (LinearMap.lsmul K V c.rate) (stages tab f y (c.time t) (c.size h) i) j
      simp only [LinearMap.lsmul_apply] at e2
      rw [show (fun k : V => c.rate • k) = (LinearMap.lsmul K V c.rate : V → V) from rfl, e2, smul_comm]
    simp only [stages, stages_clock c tab f y t h i, List.map_append, List.map_cons, List.map_nil, hs, smul_smul]
    have ht : c.time (t + tab.c i * h) = c.time t + tab.c i * c.size h := by unfold Clock.time Clock.size; ring
    rw [ht, show h * c.rate = c.size h from mul_comm _ _]

theorem rkStep_clock (c : Clock K) (tab : Tableau K) (f : V → K → V) (y : V) (t h : K) : rkStep tab f y (c.time t) (c.size h) = rkStep tab (fun y t => c.rate • f y (c.time t)) y t h := by
  have hs : sumBelow (fun i => tab.b i • ((stages tab f y (c.time t) (c.size h) tab.s).map (fun k => c.rate • k)).getD i 0) tab.s
      = c.rate • sumBelow (fun i => tab.b i • (stages tab f y (c.time t) (c.size h) tab.s).getD i 0) tab.s := by
    have e := sumBelow_map (LinearMap.lsmul K V c.rate) (fun j => tab.b j • (stages tab f y (c.time t) (c.size h) tab.s).getD j 0) tab.s
    simp only [LinearMap.lsmul_apply] at e
    rw [← e]
    congr 1; funext j
    have e2 := getD_map_zero (LinearMap.lsmul K V c.rate) (stages tab f y (c.time t) (c.size h) tab.s) j
    simp only [LinearMap.lsmul_apply] at e2
    rw [show (fun k : V => c.rate • k) = (LinearMap.lsmul K V c.rate : V → V) from rfl, e2, smul_comm]
  unfold rkStep
  rw [stages_clock, hs, smul_smul, show h * c.rate = c.size h from mul_comm _ _]

variable [CharZero K]

theorem explicit_moved (c : Clock K) (Φ : X →ₗ[K] V) (y1 : V) (f : V → K → V) (g : X → K → X) (hfg : ∀ x t, c.rate • f (Φ x + y1) (c.time t) = Φ (g x t)) (sf : System K V) (hsf : Computes sf f) (sg : System K X) (hsg : Computes sg g)
    (scheme : Scheme) (hsch : scheme.isExplicit = true) (start : K) (x0 : X) (m : EMem K V) (hm : m.1.length = numRhs scheme) (m' : EMem K X) (hm' : m'.1.length = numRhs scheme) :
    Moved c (fun x => Φ x + y1) (fun _ => True) (asStepper sf scheme dummyObserver) (asStepper sg scheme dummyObserver) start 1 x0 m m' := by
  rcases htab : (tableauOf scheme : Option (Tableau K)) with _ | tab
  · obtain rfl : scheme = .AdamsBashforth2 := by
      cases scheme <;> simp_all [tableauOf, Scheme.isExplicit]
    refine moved_of c _ _ _ _ (fun _ i _ a b => a.1.length = 2 ∧ b.1.length = 2 ∧ (i ≤ 1 → i = 1) ∧ (i ≠ 1 → c.rate • a.1.getD 0 0 = Φ (b.1.getD 0 0))) ?_ start 1 x0 m m' ⟨hm, hm', fun _ => rfl, fun h => absurd rfl h⟩
    rintro t i x ⟨r, ax, l⟩ ⟨r', ax', l'⟩ d - ⟨ha, hb, hi, hr⟩
    simp only at ha hb hr
    obtain ⟨r0, r1, rfl⟩ := List.length_eq_two.1 ha
    obtain ⟨q0, q1, rfl⟩ := List.length_eq_two.1 hb
    simp only [List.getD_cons_zero] at hr
    have hf' := hsf
    have hg' := hsg
    simp only [Computes] at hf' hg'
    have hfx := hfg x t
    left
    by_cases h1 : i = 1
    · subst h1
      refine ⟨x + d • g x t, ([f (Φ x + y1) (c.time t), r1], ax, l ++ [⟨1, 0, c.time t, f (Φ x + y1) (c.time t)⟩]), ([g x t, q1], ax', l' ++ [⟨1, 0, t, g x t⟩]), ?_, ?_, rfl, rfl, fun h => by omega, fun _ => ?_⟩
      · have e : Φ x + y1 + c.size d • f (Φ x + y1) (c.time t) = Φ (x + d • g x t) + y1 := by
          rw [map_add, map_smul, ← hfx, smul_smul, show d * c.rate = c.size d from mul_comm _ _]; abel
        rw [← e]
        simp [asStepper, doStep, stepAB2, Prog.bind_run, evalInto, observe, rhsAt, setY, hf', dummyObserver]
      · simp [asStepper, doStep, stepAB2, Prog.bind_run, evalInto, observe, rhsAt, setY, hg', dummyObserver]
      · simpa using hfx
    · have hr0 := hr h1
      refine ⟨(1:K) • x + ((3:K) / 2 * d) • g x t + ((-1:K) / 2 * d) • q0, ([f (Φ x + y1) (c.time t), r0], ax, l ++ [⟨i, 0, c.time t, f (Φ x + y1) (c.time t)⟩]), ([g x t, q0], ax', l' ++ [⟨i, 0, t, g x t⟩]), ?_, ?_, rfl, rfl, fun h => by have := hi (by omega); omega, fun _ => ?_⟩
      · have e : (1:K) • (Φ x + y1) + ((3:K) / 2 * c.size d) • f (Φ x + y1) (c.time t) + ((-1:K) / 2 * c.size d) • r0 = Φ ((1:K) • x + ((3:K) / 2 * d) • g x t + ((-1:K) / 2 * d) • q0) + y1 := by
          rw [map_add, map_add, map_smul, map_smul, map_smul, ← hfx, ← hr0]
          unfold Clock.size
          module
        rw [← e]
        simp [asStepper, doStep, stepAB2, Prog.bind_run, evalInto, observe, rhsAt, setY, copyRhs, hf', dummyObserver, h1]
      · simp [asStepper, doStep, stepAB2, Prog.bind_run, evalInto, observe, rhsAt, setY, copyRhs, hg', dummyObserver, h1]
      · simpa using hfx
  · refine moved_of c _ _ _ _ (fun _ _ _ a b => a.1.length = numRhs scheme ∧ b.1.length = numRhs scheme) ?_ start 1 x0 m m' ⟨hm, hm'⟩
    rintro t i x ⟨r, ax, l⟩ ⟨r', ax', l'⟩ d - ⟨ha, hb⟩
    obtain ⟨s, e1, e2, e3, -⟩ := C13_runge_kutta_step sf f hsf scheme tab htab dummyObserver (fun _ => rfl) (c.time t) (c.size d) i ⟨Φ x + y1, r, ax, l⟩ ha
    obtain ⟨s', f1, f2, f3, -⟩ := C13_runge_kutta_step sg g hsg scheme tab htab dummyObserver (fun _ => rfl) t d i ⟨x, r', ax', l'⟩ hb
    left
    refine ⟨s'.y, (s.rhs, s.aux, s.log), (s'.rhs, s'.aux, s'.log), ?_, by simp only [asStepper, f1], e3, f3⟩
    have e : s.y = Φ s'.y + y1 := by
      rw [e2, f2]
      simp only
      rw [rkStep_clock, rkStep_lift Φ y1 (fun y t => c.rate • f y (c.time t)) g hfg]
    simp only [asStepper, e1, e]

/-- **C100, explicit steppers, `advance_n_steps`.** The equation `dy/dt = f(y, t)` and the same equation for `x` with `y = Φ x + y1` and a time `t'` with `t = rate t' + origin` (`rate • f(Φ x + y1, t) = Φ (g(x, t'))`; `Φ` need not be invertible), solved with the same
    explicit scheme, the same number of steps, the same step-size policy and the same observer, each in its own units: the two calls end in the same way with the same state, made the same calls to policy, stepper and observer in the same order with the same times, sizes and states, and did the
    same to the rest of the world; whatever the steppers' memories contain; policies and observers may throw and have side effects. -/
theorem C100_explicit_n_steps {U : Type} (c : Clock K) (Φ : X →ₗ[K] V) (y1 : V) (f : V → K → V) (g : X → K → X) (hfg : ∀ x t, c.rate • f (Φ x + y1) (c.time t) = Φ (g x t)) (sf : System K V) (hsf : Computes sf f) (sg : System K X) (hsg : Computes sg g)
    (scheme : Scheme) (hsch : scheme.isExplicit = true) (m : EMem K V) (hm : m.1.length = numRhs scheme) (m' : EMem K X) (hm' : m'.1.length = numRhs scheme)
    (pol pol' : Int → K → K → Prog U K) (pol5 pol5' : Int → K → DtVars K → Prog U (DtVars K)) (obs : Int → K → V → Prog U Unit) (obs' : Int → K → X → Prog U Unit) (hpol : SamePolicy c pol pol') (hobs : SameObserver c (fun x => Φ x + y1) obs obs')
    (n : Int) (start : K) (x0 : X) (u : U) :
    visible (advanceN 0 (userObjects (asStepper sf scheme dummyObserver) pol pol5 obs) n (c.time start) ⟨(m, u), Φ x0 + y1, []⟩) =
      seenIn c id (fun x => Φ x + y1) (visible (advanceN 0 (userObjects (asStepper sg scheme dummyObserver) pol' pol5' obs') n start ⟨(m', u), x0, []⟩)) :=
  n_steps_units c _ _ _ _ pol pol' pol5 pol5' obs obs' hpol hobs (fun _ _ _ _ _ _ _ => trivial) start x0 m m' (explicit_moved c Φ y1 f g hfg sf hsf sg hsg scheme hsch start x0 m hm m' hm') n u

/-- **C100, explicit steppers, `advance_to_target_point`, without and with recovery (partial).** The same for the advancers to a target time, with a clock that runs forward, if the tolerance on reaching the target is the same duration in both units.  In the code this tolerance is
    the constant machine epsilon in whatever units, so the theorem applies to changes of the state's units and of the origin of time (`rate = 1`); for changes of the unit of time the property is false (`C100_target_refuted`). -/
theorem C100_explicit_target_partial {U : Type} [LinearOrder K] [IsStrictOrderedRing K] (c : Clock K) (hc : 0 < c.rate) (Φ : X →ₗ[K] V) (y1 : V) (f : V → K → V) (g : X → K → X) (hfg : ∀ x t, c.rate • f (Φ x + y1) (c.time t) = Φ (g x t)) (sf : System K V) (hsf : Computes sf f)
    (sg : System K X) (hsg : Computes sg g) (scheme : Scheme) (hsch : scheme.isExplicit = true) (m : EMem K V) (hm : m.1.length = numRhs scheme) (m' : EMem K X) (hm' : m'.1.length = numRhs scheme)
    (pol pol' : Int → K → K → Prog U K) (pol5 pol5' : Int → K → DtVars K → Prog U (DtVars K)) (obs : Int → K → V → Prog U Unit) (obs' : Int → K → X → Prog U Unit) (hpol : SamePolicy c pol pol') (hpol5 : SamePolicy5 c pol5 pol5') (hobs : SameObserver c (fun x => Φ x + y1) obs obs')
    (rec : Bool) (eps eps' : K) (heps : eps = c.size eps') (fuel : Nat) (start final : K) (x0 : X) (u : U) :
    visible (advanceT rec eps (userObjects (asStepper sf scheme dummyObserver) pol pol5 obs) fuel (c.time start) (c.time final) ⟨(m, u), Φ x0 + y1, []⟩) =
      seenIn c c.time (fun x => Φ x + y1) (visible (advanceT rec eps' (userObjects (asStepper sg scheme dummyObserver) pol' pol5' obs') fuel start final ⟨(m', u), x0, []⟩)) :=
  target_units c _ _ _ _ pol pol' pol5 pol5' obs obs' hc hpol hpol5 hobs (fun _ _ _ _ _ _ _ => trivial) (fun _ _ _ _ _ _ _ => trivial) (fun _ _ _ _ => trivial) rec eps eps' heps start final x0 m m'
    (explicit_moved c Φ y1 f g hfg sf hsf sg hsg scheme hsch start x0 m hm m' hm') fuel u
end

/-! ### Implicit steppers -/
section
open Pressio.Model.Nonlinear (Env Cfg Reg StopCrit Update Tag Ans SP)
open Pressio.Spec.Nonlinear Pressio.Spec.SolverAlike Pressio.Spec.Coordinates
open Pressio.Lemmas.Nonlinear Pressio.Lemmas.SolverAlike Pressio.Lemmas.Coordinates
open Pressio.Model.Implicit Pressio.Spec.Implicit Pressio.Lemmas.Implicit Pressio.Spec.SolverRun Pressio.Lemmas.SolverTree Pressio.Lemmas.SolverRun
open Pressio.Model.Explicit (Scheme)

section Equations
variable {K n : Type} [Field K] [CharZero K] [Fintype n] [DecidableEq n]

/-- residual and Jacobian in other units -/
def inUnits (A B : Matrix n n K) (v : (n → K) × Option (Matrix n n K)) : (n → K) × Option (Matrix n n K) := (A *ᵥ v.1, v.2.map (fun J => A * J * B))

theorem inv_chart {A B : Matrix n n K} (hAB : A * B = 1) (a x : n → K) : A *ᵥ chart B a x = x + A *ᵥ a := by
  unfold chart; rw [Matrix.mulVec_add, Matrix.mulVec_mulVec, hAB, Matrix.one_mulVec]

theorem units_bdf1 (c : Clock K) {A B : Matrix n n K} (hAB : A * B = 1) (a : n → K) (dt : K) (x y v : n → K) : bdf1Res dt x y (c.rate • (A *ᵥ v)) = A *ᵥ bdf1Res (c.size dt) (chart B a x) (chart B a y) v := by
  unfold bdf1Res Clock.size
  rw [Matrix.mulVec_sub, Matrix.mulVec_sub, Matrix.mulVec_smul, inv_chart hAB, inv_chart hAB]
  module

theorem units_bdf2 (c : Clock K) {A B : Matrix n n K} (hAB : A * B = 1) (a : n → K) (dt : K) (x y z v : n → K) : bdf2Res dt x y z (c.rate • (A *ᵥ v)) = A *ᵥ bdf2Res (c.size dt) (chart B a x) (chart B a y) (chart B a z) v := by
  unfold bdf2Res Clock.size
  rw [Matrix.mulVec_sub, Matrix.mulVec_add, Matrix.mulVec_sub, Matrix.mulVec_smul, Matrix.mulVec_smul, Matrix.mulVec_smul, inv_chart hAB, inv_chart hAB, inv_chart hAB]
  module

theorem units_cn (c : Clock K) {A B : Matrix n n K} (hAB : A * B = 1) (a : n → K) (dt : K) (x y v w : n → K) : cnRes dt x y (c.rate • (A *ᵥ v)) (c.rate • (A *ᵥ w)) = A *ᵥ cnRes (c.size dt) (chart B a x) (chart B a y) v w := by
  unfold cnRes Clock.size
  rw [Matrix.mulVec_sub, Matrix.mulVec_sub, Matrix.mulVec_smul, Matrix.mulVec_add, inv_chart hAB, inv_chart hAB]
  module

theorem units_jac (c : Clock K) {A B : Matrix n n K} (hAB : A * B = 1) (s dt : K) (J : Matrix n n K) : 1 - (s * dt) • (c.rate • (A * J * B)) = A * (1 - (s * c.size dt) • J) * B := by
  rw [Matrix.mul_sub, Matrix.sub_mul, Matrix.mul_one, hAB, Matrix.mul_smul, Matrix.smul_mul]
  unfold Clock.size
  module

theorem units_jac1 (c : Clock K) {A B : Matrix n n K} (hAB : A * B = 1) (dt : K) (J : Matrix n n K) : 1 - dt • (c.rate • (A * J * B)) = A * (1 - c.size dt • J) * B := by
  simpa using units_jac c hAB 1 dt J

theorem units_jac_half (c : Clock K) {A B : Matrix n n K} (hAB : A * B = 1) (dt : K) (J : Matrix n n K) : 1 - (dt / 2) • (c.rate • (A * J * B)) = A * (1 - (c.size dt / 2) • J) * B := by
  have h := units_jac c hAB (1/2) dt J
  rw [one_div_mul_eq_div, one_div_mul_eq_div] at h
  exact h

theorem textbook_units {c : Clock K} {A B : Matrix n n K} (hAB : A * B = 1) {a : n → K} {sys sys' : ISystem K (n → K) (Matrix n n K)} (h : SameRhs c A B a sys sys') (name : Scheme) (hist : List (n → K)) (t dt : K) (x : n → K) (w : Bool) :
    textbook name sys' hist t dt x w = (textbook name sys (hist.map (chart B a)) (c.time t) (c.size dt) (chart B a x) w).map (inUnits A B) := by
  have h1 := h x (t + dt) w
  rw [← time_add] at h1
  generalize hA : sys'.eval x (t + dt) w = E at h1
  generalize hB : sys.eval (chart B a x) (c.time t + c.size dt) w = E' at h1
  rcases E with ⟨e, j⟩ | ⟨v, j⟩ <;> rcases E' with ⟨e', j'⟩ | ⟨v', j'⟩ <;>
    simp only [Except.mapError, Except.map, reduceCtorEq, Except.error.injEq, Except.ok.injEq] at h1
  · subst h1
    cases name <;> rcases hist with _ | ⟨yn, _ | ⟨ynm1, hist⟩⟩ <;> try rfl
    all_goals simp only [textbook, List.map, hA, hB]
    all_goals try rfl
    all_goals
      have h2 := h yn t false
      generalize sys'.eval yn t false = A2 at h2
      generalize sys.eval (chart B a yn) (c.time t) false = B2 at h2
      rcases A2 with ⟨e2, j2⟩ | ⟨v2, j2⟩ <;> rcases B2 with ⟨e2', j2'⟩ | ⟨v2', j2'⟩ <;>
        simp only [Except.mapError, Except.map, reduceCtorEq, Except.error.injEq, Except.ok.injEq] at h2 ⊢
      exact h2
  · obtain ⟨rfl, rfl⟩ : v = c.rate • (A *ᵥ v') ∧ j = j'.map (fun J => c.rate • (A * J * B)) := by simpa using h1
    cases name <;> rcases hist with _ | ⟨yn, _ | ⟨ynm1, hist⟩⟩ <;> try rfl
    all_goals simp only [textbook, List.map, hA, hB]
    · simp only [Except.map, inUnits, units_bdf1 c hAB a, Option.map_map, Function.comp_def, bdf1Jac, units_jac1 c hAB]
    · simp only [Except.map, inUnits, units_bdf1 c hAB a, Option.map_map, Function.comp_def, bdf1Jac, units_jac1 c hAB]
    · simp only [Except.map, inUnits, units_bdf1 c hAB a, Option.map_map, Function.comp_def, bdf1Jac, units_jac1 c hAB]
    · simp only [Except.map, inUnits, units_bdf2 c hAB a, Option.map_map, Function.comp_def, bdf2Jac, units_jac c hAB]
    all_goals
      have h2 := h yn t false
      generalize sys'.eval yn t false = A2 at h2
      generalize sys.eval (chart B a yn) (c.time t) false = B2 at h2
      rcases A2 with ⟨e2, j2⟩ | ⟨v2, j2⟩ <;> rcases B2 with ⟨e2', j2'⟩ | ⟨v2', j2'⟩ <;>
        simp only [Except.mapError, Except.map, reduceCtorEq, Except.error.injEq, Except.ok.injEq] at h2 ⊢
      · exact h2
      · obtain ⟨rfl, -⟩ : v2 = c.rate • (A *ᵥ v2') ∧ j2 = j2'.map (fun J => c.rate • (A * J * B)) := by simpa using h2
        simp only [inUnits, units_cn c hAB a, Option.map_map, Function.comp_def, cnJac, units_jac_half c hAB]

theorem sysOf_units {A B : Matrix n n K} {a : n → K} (F F' : (n → K) → Bool → Except Exc (Ans K n n)) (h : ∀ x w, F' x w = (F (chart B a x) w).map (inUnits A B)) : SameSystem A B a (sysOf F) (sysOf F') := by
  constructor
  · intro x
    simp only [sysOf, h]
    rcases F (chart B a x) true with e | ⟨r, _ | J⟩
    · rfl
    · rfl
    · simp only [Except.map, inUnits, Option.map]
  · intro x
    simp only [sysOf, h]
    rcases F (chart B a x) false with e | ⟨r, j⟩
    · rfl
    · simp only [Except.map, inUnits]

end Equations

section Newton
variable {K n p p' L L' U : Type} [Field K] [LinearOrder K] [IsStrictOrderedRing K] [Fintype n] [DecidableEq n] [Fintype p] [Fintype p']

/-- the matrices of the steps of size `dt` are regular -/
def StepRegular (name : Scheme) (sys : ISystem K (n → K) (Matrix n n K)) (dt : K) : Prop :=
  ∀ y t f J, sys.eval y t true = .ok (f, some J) → ∀ k ∈ rhsFactors dt name, IsUnit (1 - k • J).det

/-- **C100, implicit steppers with Newton.** The equation `dy/dt = f(y, t)` and the same equation in other units of state (`y = B y' + a` with an invertible matrix `B`) and time (`t = rate t' + origin`), each with its own implicit stepper of the same scheme (BDF1, BDF2,
    CrankNicolson) and its own Newton object with the same options, from the same initial state, through the same step sizes: the two runs go through the same states at the same times, accept and fail in the same steps in the same way, and evaluate the right-hand side at the same states;
    for every criterion that measures the same in both units, if the matrices of the steps are regular; whatever the objects did before. -/
theorem C100_implicit_runs (c : Clock K) (A B : Matrix n n K) (hAB : A * B = 1) (a : n → K) (sys sys' : ISystem K (n → K) (Matrix n n K)) (hrhs : SameRhs c A B a sys sys') (hsys : NoTSF sys) (hw : WellTypedRhs sys) (hw' : WellTypedRhs sys')
    (name : Scheme) (mem mem' : SMem K (n → K) (n → K) PMem) (hmem : Ready name mem) (hmem' : Ready name mem')
    (env : Env K n n p L) (env' : Env K n n p' L') (he : ∀ A b s, (env.linJ A b s).stop? ≠ some (.exc .timeStepFailure)) (he' : ∀ A b s, (env'.linJ A b s).stop? ≠ some (.exc .timeStepFailure)) (hlin : SolvesRegular env.linJ) (hlin' : SolvesRegular env'.linJ)
    (cfg : Cfg K) (hM : cfg.update = .Standard ∨ ∀ r, env'.normM (A *ᵥ r) = env.normM r) (hcrit : SameMeasure A B env.normM env'.normM env.normN env'.normN cfg.stop) (reg : Reg K n n p L) (reg' : Reg K n n p' L') (hreg : NewtonIdle reg) (hreg' : NewtonIdle reg')
    (dts : List K) (hdt : ∀ dt ∈ dts, StepRegular name sys (c.size dt)) (t0 : K) (x0 : n → K) :
    (driveObj (stdStep name sys) (Model.Nonlinear.newtonSolve env cfg) (dts.map c.size) (c.time t0) [chart B a x0] (chart B a x0) mem reg).map (shown id) =
      (driveObj (stdStep name sys') (Model.Nonlinear.newtonSolve env' cfg) dts t0 [x0] x0 mem' reg').map (shownIn c (chart B a)) := by
  have hA : IsUnit A.det := (Matrix.isUnit_iff_isUnit_det A).1 (IsUnit.of_mul_eq_one B hAB)
  have hB : IsUnit B.det := (Matrix.isUnit_iff_isUnit_det B).1 (IsUnit.of_mul_eq_one A (mul_eq_one_comm.1 hAB))
  refine driveObj_units c (fun dt => StepRegular name sys (c.size dt)) (chart B a) (fun _ => True) (fun _ => True) _ _ (textbook name sys) (textbook name sys') _ _
    (refinesOn_true (std_refines name (ready_name name mem hmem) _)) (refinesOn_true (std_refines name (ready_name name mem hmem) _)) (textbook_ne name _ hsys) _ _ (fine_newtonSolve env he cfg) (fine_newtonSolve env' he' cfg)
    (fun _ _ => trivial) (fun _ _ => trivial) (fun a b => NewtonIdle a ∧ NewtonIdle b) ?_ dts hdt t0 x0 [] mem mem' reg reg' (ready_inv name _ mem hmem _ _) (ready_inv name _ mem' hmem' t0 _) ⟨hreg, hreg'⟩
  intro rg rg' y prev t dt hd hr r r'
  have hwt := textbook_wellTyped name _ hw ((y :: prev).map (chart B a)) (c.time t) (c.size dt)
  have hwt' := textbook_wellTyped name _ hw' (y :: prev) t dt
  have hsame := C99_newton env env' cfg A B a hA hB _ _ (sysOf_units _ _ (fun x w => textbook_units hAB hrhs name (y :: prev) t dt x w)) hM hcrit hlin hlin' (textbook_regular name _ _ hd _ _)
    { rg with x := chart B a y } { rg' with x := y } (hr.1 _) (hr.2 y) rfl
  unfold runNewton at hsame
  rw [toF_sysOf _ hwt, toF_sysOf _ hwt'] at hsame
  exact ⟨hsame, newtonIdle_run env cfg _ hwt rg _ hr.1, newtonIdle_run env' cfg _ hwt' rg' y hr.2⟩

/-- … and so in a call of `advance_n_steps` -/
theorem C100_implicit_n_steps (c : Clock K) (A B : Matrix n n K) (hAB : A * B = 1) (a : n → K) (sys sys' : ISystem K (n → K) (Matrix n n K)) (hrhs : SameRhs c A B a sys sys') (hsys : NoTSF sys) (hw : WellTypedRhs sys) (hw' : WellTypedRhs sys')
    (name : Scheme) (mem mem' : SMem K (n → K) (n → K) PMem) (hmem : Ready name mem) (hmem' : Ready name mem')
    (env : Env K n n p L) (env' : Env K n n p' L') (he : ∀ A b s, (env.linJ A b s).stop? ≠ some (.exc .timeStepFailure)) (he' : ∀ A b s, (env'.linJ A b s).stop? ≠ some (.exc .timeStepFailure)) (hlin : SolvesRegular env.linJ) (hlin' : SolvesRegular env'.linJ)
    (cfg : Cfg K) (hM : cfg.update = .Standard ∨ ∀ r, env'.normM (A *ᵥ r) = env.normM r) (hcrit : SameMeasure A B env.normM env'.normM env.normN env'.normN cfg.stop) (reg : Reg K n n p L) (reg' : Reg K n n p' L') (hreg : NewtonIdle reg) (hreg' : NewtonIdle reg')
    (pol pol' : Int → K → K → Prog U K) (pol5 pol5' : Int → K → DtVars K → Prog U (DtVars K)) (obs obs' : Int → K → (n → K) → Prog U Unit) (hpol : SamePolicy c pol pol') (hobs : SameObserver c (chart B a) obs obs')
    (hdt : ∀ i t d u d' u', pol' i t d u = .ok d' u' → StepRegular name sys (c.size d')) (N : Int) (start : K) (x0 : n → K) (u : U) :
    visible (advanceN 0 (userObjects (objStepper (stdStep name sys) (Model.Nonlinear.newtonSolve env cfg)) pol pol5 obs) N (c.time start) ⟨((mem, reg), u), chart B a x0, []⟩) =
      seenIn c id (chart B a) (visible (advanceN 0 (userObjects (objStepper (stdStep name sys') (Model.Nonlinear.newtonSolve env' cfg)) pol' pol5' obs') N start ⟨((mem', reg'), u), x0, []⟩)) :=
  n_steps_units c _ (fun dt => StepRegular name sys (c.size dt)) _ _ pol pol' pol5 pol5' obs obs' hpol hobs hdt start x0 _ _
    (moved_of_runs c _ _ _ _ _ _ _ _ _ _ _ _ (fun dts hd => C100_implicit_runs c A B hAB a sys sys' hrhs hsys hw hw' name mem mem' hmem hmem' env env' he he' hlin hlin' cfg hM hcrit reg reg' hreg hreg' dts hd start x0)) N u

/-- … and, if the tolerance on reaching the target is the same duration in both units (which for the code means `rate = 1`, see `C100_target_refuted`), in calls of the advancers to a target time, without and with recovery.  (Partial for that reason.) -/
theorem C100_implicit_target_partial (c : Clock K) (hc : 0 < c.rate) (A B : Matrix n n K) (hAB : A * B = 1) (a : n → K) (sys sys' : ISystem K (n → K) (Matrix n n K)) (hrhs : SameRhs c A B a sys sys') (hsys : NoTSF sys) (hw : WellTypedRhs sys) (hw' : WellTypedRhs sys')
    (name : Scheme) (mem mem' : SMem K (n → K) (n → K) PMem) (hmem : Ready name mem) (hmem' : Ready name mem')
    (env : Env K n n p L) (env' : Env K n n p' L') (he : ∀ A b s, (env.linJ A b s).stop? ≠ some (.exc .timeStepFailure)) (he' : ∀ A b s, (env'.linJ A b s).stop? ≠ some (.exc .timeStepFailure)) (hlin : SolvesRegular env.linJ) (hlin' : SolvesRegular env'.linJ)
    (cfg : Cfg K) (hM : cfg.update = .Standard ∨ ∀ r, env'.normM (A *ᵥ r) = env.normM r) (hcrit : SameMeasure A B env.normM env'.normM env.normN env'.normN cfg.stop) (reg : Reg K n n p L) (reg' : Reg K n n p' L') (hreg : NewtonIdle reg) (hreg' : NewtonIdle reg')
    (pol pol' : Int → K → K → Prog U K) (pol5 pol5' : Int → K → DtVars K → Prog U (DtVars K)) (obs obs' : Int → K → (n → K) → Prog U Unit) (hpol : SamePolicy c pol pol') (hpol5 : SamePolicy5 c pol5 pol5') (hobs : SameObserver c (chart B a) obs obs')
    (D : K → Prop) (hD : ∀ d q, D d → 1 < q → D (d / q)) (hdt : ∀ d, D d → StepRegular name sys (c.size d)) (hpolD : ∀ i t d u d' u', pol' i t d u = .ok d' u' → D d') (hpolD5 : ∀ i t v u v' u', pol5' i t v u = .ok v' u' → D v'.dt)
    (rec : Bool) (eps eps' : K) (heps : eps = c.size eps') (fuel : Nat) (start final : K) (x0 : n → K) (u : U) :
    visible (advanceT rec eps (userObjects (objStepper (stdStep name sys) (Model.Nonlinear.newtonSolve env cfg)) pol pol5 obs) fuel (c.time start) (c.time final) ⟨((mem, reg), u), chart B a x0, []⟩) =
      seenIn c c.time (chart B a) (visible (advanceT rec eps' (userObjects (objStepper (stdStep name sys') (Model.Nonlinear.newtonSolve env' cfg)) pol' pol5' obs') fuel start final ⟨((mem', reg'), u), x0, []⟩)) :=
  target_units c _ D _ _ pol pol' pol5 pol5' obs obs' hc hpol hpol5 hobs hpolD hpolD5 hD rec eps eps' heps start final x0 _ _
    (moved_of_runs c _ _ _ _ _ _ _ _ _ _ _ _ (fun dts hd => C100_implicit_runs c A B hAB a sys sys' hrhs hsys hw hw' name mem mem' hmem hmem' env env' he he' hlin hlin' cfg hM hcrit reg reg' hreg hreg' dts (fun d h => hdt d (hd d h)) start x0)) fuel u
end Newton

/-! ### Another clock, any solver -/
section Clock
variable {K m n p L S S' : Type} [Field K] [Fintype n]

theorem runs_clock (c : Clock K) (Q : SolveTree (n → K) (Ans K m n) → Prop)
    (step : ((n → K) → SolveTree (n → K) (Ans K m n)) → K → K → Int → Prog (SolveSt (n → K) S (Ans K m n)) Unit) (step' : ((n → K) → SolveTree (n → K) (Ans K m n)) → K → K → Int → Prog (SolveSt (n → K) S' (Ans K m n)) Unit)
    (F F' : List (n → K) → K → K → (n → K) → Bool → Except Exc (Ans K m n)) (Inv : K → List (n → K) → S → Prop) (Inv' : K → List (n → K) → S' → Prop) (h : RefinesOn Q step F Inv) (h' : RefinesOn Q step' F' Inv')
    (hF : ∀ hist t dt x w, F hist t dt x w ≠ .error .timeStepFailure) (hFF : ∀ y prev t dt x w, F' (y :: prev) t dt x w = F (y :: prev) (c.time t) (c.size dt) x w) (solve : SP K m n p L Unit) (hs : Fine solve) (hQ : ∀ reg y, Q (solverOf solve reg y))
    (dts : List K) (t : K) (y : n → K) (mem : S) (mem' : S') (reg : Reg K m n p L) (hI : Inv (c.time t) [y] mem) (hI' : Inv' t [y] mem') :
    (driveObj step solve (dts.map c.size) (c.time t) [y] y mem reg).map (shown id) = (driveObj step' solve dts t [y] y mem' reg).map (shownIn c id) := by
  refine driveObj_units c (fun _ => True) id Q Q step step' F F' Inv Inv' h h' hF solve solve hs hs hQ hQ Eq ?_ dts (fun _ _ => trivial) t y [] mem mem' reg reg hI hI' rfl
  rintro rg _ y prev t dt - rfl r r'
  have e : r = r' := by
    simp only [r, r', List.map_id, id_eq]
    rw [show F' (y :: prev) t dt = F (y :: prev) (c.time t) (c.size dt) from funext fun x => funext fun w => hFF y prev t dt x w]
  refine ⟨⟨by rw [e], by rw [e]; rfl, _, _, ?_, log_run solve hs (F' (y :: prev) t dt) { rg with x := y }, rfl⟩, by rw [e]⟩
  rw [e]
  exact log_run solve hs (F' (y :: prev) t dt) { rg with x := y }

end Clock
end
end Pressio.Props
