import Mathlib.Analysis.Calculus.Deriv.Add
import Mathlib.Analysis.Calculus.Deriv.Prod
import Mathlib.Analysis.Calculus.Deriv.Comp
import Mathlib.Analysis.Calculus.Deriv.Mul
import Mathlib.Analysis.Calculus.Deriv.Pow
import Mathlib.Analysis.Calculus.FDeriv.Mul
import Mathlib.Analysis.Calculus.FDeriv.Pow
import Verif.Props.GalerkinRun

/-
  C111: explicit runs on linear problems superpose; explicit runs on the linearised problem are the derivatives of the runs.
-/
namespace Pressio.Props
set_option autoImplicit false
set_option linter.unusedSectionVars false
open Pressio Pressio.Model.Advance Pressio.Model.Explicit Pressio.Spec.Explicit Pressio.Spec.Run Pressio.Lemmas.Run Pressio.Spec.AdvanceTarget

section
variable {K X Y Z : Type} [Field K] [CharZero K] [AddCommGroup X] [Module K X] [AddCommGroup Y] [Module K Y] [AddCommGroup Z] [Module K Z]

/-- **C111, superposition.** Let the right-hand side `h` answer to a combination of states with the same combination of the answers of `f` and `g` (the case of interest: `f = A(t) x + b(t)`, `g = A(t) x + c(t)`, `h = A(t) x + α b(t) + β c(t)`, with the maps `α •` and `β •`). Then for each explicit scheme and step-size policy the run on `h` from the
    combination of two initial states shows, at the same times, the combinations of the states of the two runs on `f` and `g`. -/
theorem C111_superposition (α : X →ₗ[K] Z) (β : Y →ₗ[K] Z) (f : X → K → X) (g : Y → K → Y) (h : Z → K → Z) (hh : ∀ x y t, h (α x + β y) t = α (f x t) + β (g y t))
    (sf : System K X) (hsf : Computes sf f) (sg : System K Y) (hsg : Computes sg g) (sh : System K Z) (hsh : Computes sh h) (scheme : Scheme) (hsch : scheme.isExplicit = true) (pol : Int → K → K → K) (start : K) (N : Nat) (hN : (N : Int) < int32Max) (x0 : X) (y0 : Y)
    (mf : EMem K X) (hmf : mf.1.length = numRhs scheme) (mg : EMem K Y) (hmg : mg.1.length = numRhs scheme) (mh : EMem K Z) (hmh : mh.1.length = numRhs scheme) :
    ∃ a b c, run 0 pol (asStepper sf scheme dummyObserver) N start x0 mf = .ok () a ∧ run 0 pol (asStepper sg scheme dummyObserver) N start y0 mg = .ok () b ∧ run 0 pol (asStepper sh scheme dummyObserver) N start (α x0 + β y0) mh = .ok () c ∧
      c.y = α a.y + β b.y ∧ observations c.log = List.zipWith (fun o o' => (o.1, o.2.1, α o.2.2 + β o'.2.2)) (observations a.log) (observations b.log) ∧ (observations b.log).map (fun o => (o.1, o.2.1)) = (observations a.log).map (fun o => (o.1, o.2.1)) := by
  let both : System K (X × Y) := ⟨fun z t _ => .ok () (f z.1 t, g z.2 t)⟩
  have hb : Computes both (fun z t => (f z.1 t, g z.2 t)) := fun _ _ _ => rfl
  let m : EMem K (X × Y) := (List.replicate (numRhs scheme) 0, 0, [])
  obtain ⟨p, a, p1, a1, ay, al⟩ := run_lift (LinearMap.fst K X Y) 0 (f := f) (g := fun z t => (f z.1 t, g z.2 t)) (fun x t => by simp) sf hsf both hb scheme hsch pol start N hN (x0, y0) m (by simp [m]) mf hmf
  obtain ⟨p', b, p1', b1, by_, bl⟩ := run_lift (LinearMap.snd K X Y) 0 (f := g) (g := fun z t => (f z.1 t, g z.2 t)) (fun x t => by simp) sg hsg both hb scheme hsch pol start N hN (x0, y0) m (by simp [m]) mg hmg
  obtain ⟨p'', c, p1'', c1, cy, cl⟩ := run_lift (α.coprod β) 0 (f := h) (g := fun z t => (f z.1 t, g z.2 t)) (fun x t => by simp [hh]) sh hsh both hb scheme hsch pol start N hN (x0, y0) m (by simp [m]) mh hmh
  rw [p1] at p1' p1''
  cases p1'; cases p1''
  simp only [LinearMap.fst_apply, LinearMap.snd_apply, LinearMap.coprod_apply, add_zero] at a1 ay al b1 by_ bl c1 cy cl
  refine ⟨a, b, c, a1, b1, c1, by rw [cy, ay, by_], ?_, by rw [al, bl]; simp [List.map_map, Function.comp_def]⟩
  rw [al, bl, cl, List.zipWith_map, List.zipWith_self]
end

section
variable {Y : Type} [NormedAddCommGroup Y] [NormedSpace ℝ Y]

/-- `f ε y t` is differentiable in the parameter and the state together, at parameter 0; `L y t (δε, δy)` is its derivative -/
def Differentiable₀ (f : ℝ → Y → ℝ → Y) (L : Y → ℝ → (ℝ × Y →L[ℝ] Y)) : Prop := ∀ y t, HasFDerivAt (fun p : ℝ × Y => f p.1 p.2 t) (L y t) (0, y)

/-- the linearised problem: the state together with its sensitivity `v`, `y' = f(0, y, t)`, `v' = ∂f/∂ε + ∂f/∂y v` -/
def tangent (f : ℝ → Y → ℝ → Y) (L : Y → ℝ → (ℝ × Y →L[ℝ] Y)) : Y × Y → ℝ → Y × Y := fun z t => (f 0 z.1 t, L z.1 t (1, z.2))

/-- the curve passes through `z.1` with velocity `z.2` at parameter 0 -/
def Tangent (c : ℝ → Y) (z : Y × Y) : Prop := c 0 = z.1 ∧ HasDerivAt c z.2 0

theorem Tangent.add {c d : ℝ → Y} {z w : Y × Y} (hc : Tangent c z) (hd : Tangent d w) : Tangent (fun ε => c ε + d ε) (z + w) := ⟨by beta_reduce; rw [hc.1, hd.1]; rfl, hc.2.add hd.2⟩
theorem Tangent.sub {c d : ℝ → Y} {z w : Y × Y} (hc : Tangent c z) (hd : Tangent d w) : Tangent (fun ε => c ε - d ε) (z - w) := ⟨by beta_reduce; rw [hc.1, hd.1]; rfl, hc.2.sub hd.2⟩
theorem Tangent.smul {c : ℝ → Y} {z : Y × Y} (a : ℝ) (hc : Tangent c z) : Tangent (fun ε => a • c ε) (a • z) := ⟨by beta_reduce; rw [hc.1]; rfl, hc.2.const_smul a⟩
theorem Tangent.zero : Tangent (fun _ => (0 : Y)) 0 := ⟨rfl, hasDerivAt_const _ _⟩
theorem Tangent.rhs {f : ℝ → Y → ℝ → Y} {L : Y → ℝ → (ℝ × Y →L[ℝ] Y)} (hL : Differentiable₀ f L) {c : ℝ → Y} {z : Y × Y} (hc : Tangent c z) (t : ℝ) : Tangent (fun ε => f ε (c ε) t) (tangent f L z t) := by
  refine ⟨by simp only [tangent, hc.1], ?_⟩
  have h := hL z.1 t
  rw [← hc.1] at h
  have := h.comp_hasDerivAt (0 : ℝ) ((hasDerivAt_id (0 : ℝ)).prodMk hc.2)
  rw [hc.1] at this
  exact this
theorem Tangent.sumBelow {g : ℝ → Nat → Y} {G : Nat → Y × Y} (h : ∀ j, Tangent (fun ε => g ε j) (G j)) : ∀ i, Tangent (fun ε => Spec.Explicit.sumBelow (g ε) i) (Spec.Explicit.sumBelow G i)
  | 0 => .zero
  | i+1 => (Tangent.sumBelow h i).add (h i)

theorem length_stages {K V : Type} [Field K] [AddCommGroup V] [Module K V] (tab : Tableau K) (f : V → K → V) (y : V) (t h : K) : ∀ i, (stages tab f y t h i).length = i
  | 0 => rfl
  | i+1 => by simp [stages, length_stages tab f y t h i]

theorem getD_snoc {V : Type} (l : List V) (k d : V) (i j : Nat) (hl : l.length = i) : (l ++ [k]).getD j d = if j < i then l.getD j d else if j = i then k else d := by
  subst hl
  simp only [List.getD_eq_getElem?_getD, List.getElem?_append]
  split
  · rfl
  · rename_i h
    split
    · simp_all
    · rw [List.getElem?_eq_none (by simp; omega)]; rfl

variable {f : ℝ → Y → ℝ → Y} {L : Y → ℝ → (ℝ × Y →L[ℝ] Y)}

theorem stages_tangent (hL : Differentiable₀ f L) (tab : Tableau ℝ) {c : ℝ → Y} {z : Y × Y} (hc : Tangent c z) (t h : ℝ) : ∀ i j, Tangent (fun ε => (stages tab (f ε) (c ε) t h i).getD j 0) ((stages tab (tangent f L) z t h i).getD j 0)
  | 0, j => by simpa [stages] using Tangent.zero (Y := Y)
  | i+1, j => by
    have ih := stages_tangent hL tab hc t h i
    simp only [stages, getD_snoc _ _ _ i j (length_stages _ _ _ _ _ _)]
    split
    · exact ih j
    · split
      · exact Tangent.rhs hL (hc.add ((Tangent.sumBelow (fun j => (ih j).smul _) i).smul _)) _
      · exact .zero

theorem rkStep_tangent (hL : Differentiable₀ f L) (tab : Tableau ℝ) {c : ℝ → Y} {z : Y × Y} (hc : Tangent c z) (t h : ℝ) : Tangent (fun ε => rkStep tab (f ε) (c ε) t h) (rkStep tab (tangent f L) z t h) :=
  hc.add ((Tangent.sumBelow (fun j => (stages_tangent hL tab hc t h _ j).smul _) _).smul _)

theorem oneStep_tangent (hL : Differentiable₀ f L) (tab : Tableau ℝ) {c : ℝ → Y} {z : Y × Y} (hc : Tangent c z) (T H : Nat → ℝ) : ∀ k, Tangent (fun ε => oneStepSeq (rkStep tab (f ε)) (c ε) T H k) (oneStepSeq (rkStep tab (tangent f L)) z T H k)
  | 0 => hc
  | k+1 => rkStep_tangent hL tab (oneStep_tangent hL tab hc T H k) _ _

theorem ab2_tangent (hL : Differentiable₀ f L) {c : ℝ → Y} {z : Y × Y} (hc : Tangent c z) (T H : Nat → ℝ) : ∀ k, Tangent (fun ε => ab2 (f ε) (c ε) T H k) (ab2 (tangent f L) z T H k)
  | 0 => hc
  | 1 => hc.add ((hc.rhs hL _).smul _)
  | k+2 => (ab2_tangent hL hc T H (k+1)).add (((((ab2_tangent hL hc T H (k+1)).rhs hL _).smul _).sub (((ab2_tangent hL hc T H k).rhs hL _).smul _)).smul _)

/-- **C111, sensitivities.** A right-hand side `f(ε, y, t)` that depends on a parameter and is differentiable in parameter and state, initial states `y0 ε` differentiable in the parameter. For each explicit scheme, step-size policy and number of steps, whatever the storages contain: the run on the linearised problem (state and sensitivity side by side) completes; its state is
    the state of the run on the problem, and its sensitivity is the derivative, with respect to the parameter, of the final state of the run. To linearise and then to discretise is the same as to discretise and then to differentiate. -/
theorem C111_sensitivity (hL : Differentiable₀ f L) (sys : ℝ → System ℝ Y) (hs : ∀ ε, Computes (sys ε) (f ε)) (tan : System ℝ (Y × Y)) (ht : Computes tan (tangent f L)) (y0 : ℝ → Y) (v0 : Y) (h0 : HasDerivAt y0 v0 0)
    (scheme : Scheme) (hsch : scheme.isExplicit = true) (pol : Int → ℝ → ℝ → ℝ) (start : ℝ) (N : Nat) (hN : (N : Int) < int32Max) (m : ℝ → EMem ℝ Y) (hlen : ∀ ε, (m ε).1.length = numRhs scheme) (m' : EMem ℝ (Y × Y)) (hlen' : m'.1.length = numRhs scheme) :
    (∀ ε, (run 0 pol (asStepper (sys ε) scheme dummyObserver) N start (y0 ε) (m ε)).stop? = none) ∧ ∃ b, run 0 pol (asStepper tan scheme dummyObserver) N start (y0 0, v0) m' = .ok () b ∧
      (run 0 pol (asStepper (sys 0) scheme dummyObserver) N start (y0 0) (m 0)).state.y = b.y.1 ∧
      HasDerivAt (fun ε => (run 0 pol (asStepper (sys ε) scheme dummyObserver) N start (y0 ε) (m ε)).state.y) b.y.2 0 := by
  have hc : Tangent y0 (y0 0, v0) := ⟨rfl, h0⟩
  rcases htab : (tableauOf scheme : Option (Tableau ℝ)) with _ | tab
  · obtain rfl : scheme = .AdamsBashforth2 := by
      cases scheme <;> simp_all [tableauOf, Scheme.isExplicit]
    choose a a1 _ a2 _ using fun ε => C14_adams_bashforth_run (sys ε) (f ε) (hs ε) dummyObserver (fun _ => rfl) pol start N hN (y0 ε) (m ε) (hlen ε)
    obtain ⟨b, b1, -, b2, b3⟩ := C14_adams_bashforth_run tan _ ht dummyObserver (fun _ => rfl) pol start N hN (y0 0, v0) m' hlen'
    refine ⟨fun ε => by rw [a1]; rfl, b, b1, ?_⟩
    simp only [a1, Res.state, a2, b2]
    exact ab2_tangent hL hc _ _ N
  · choose a a1 _ a2 _ using fun ε => C13_runge_kutta_run (sys ε) (f ε) (hs ε) scheme tab htab dummyObserver (fun _ => rfl) pol start N hN (y0 ε) (m ε) (hlen ε)
    obtain ⟨b, b1, -, b2, b3⟩ := C13_runge_kutta_run tan _ ht scheme tab htab dummyObserver (fun _ => rfl) pol start N hN (y0 0, v0) m' hlen'
    refine ⟨fun ε => by rw [a1]; rfl, b, b1, ?_⟩
    simp only [a1, Res.state, a2, b2]
    exact oneStep_tangent hL tab hc _ _ N
end

/-! Superposition: `x' = A(t) x + b(t)` with `A(t) = t - 2`. -/
def drivenBy (b : ℚ → ℚ) : System ℚ ℚ := ⟨fun x t _ => .ok () ((t - 2) * x + b t)⟩
example (scheme : Scheme) (h : scheme.isExplicit = true) (pol : Int → ℚ → ℚ → ℚ) := C111_superposition ((3 : ℚ) • LinearMap.id) ((-2 : ℚ) • LinearMap.id) (fun x t => (t - 2) * x + t ^ 2) (fun x t => (t - 2) * x + 1) (fun x t => (t - 2) * x + (3 * t ^ 2 - 2)) (fun x y t => by simp; ring)
  (drivenBy (fun t => t ^ 2)) (fun _ _ _ => rfl) (drivenBy (fun _ => 1)) (fun _ _ _ => rfl) (drivenBy (fun t => 3 * t ^ 2 - 2)) (fun _ _ _ => rfl) scheme h pol (1/2) 10 (by decide) 1 4
  (List.replicate (numRhs scheme) 7, 0, []) (by simp) (List.replicate (numRhs scheme) 5, 0, []) (by simp) (List.replicate (numRhs scheme) 3, 0, []) (by simp)

/-! Sensitivities: the Riccati equation `y' = t - (1 + ε) y²`, from `y(0) = 1 + 3 ε`. -/
noncomputable def riccatiEpsRhs (ε y t : ℝ) : ℝ := t - (1 + ε) * y ^ 2
noncomputable def riccatiEpsDer (y _t : ℝ) : ℝ × ℝ →L[ℝ] ℝ := (-(y ^ 2)) • ContinuousLinearMap.fst ℝ ℝ ℝ + (-(2 * y)) • ContinuousLinearMap.snd ℝ ℝ ℝ
theorem riccatiEps_differentiable : Differentiable₀ riccatiEpsRhs riccatiEpsDer := by
  intro y t
  have h1 : HasFDerivAt (fun p : ℝ × ℝ => 1 + p.1) (ContinuousLinearMap.fst ℝ ℝ ℝ) (0, y) := hasFDerivAt_fst.const_add 1
  have h2 : HasFDerivAt (fun p : ℝ × ℝ => p.2) (ContinuousLinearMap.snd ℝ ℝ ℝ) (0, y) := hasFDerivAt_snd
  have h3 := (h1.mul (h2.mul h2)).const_sub t
  refine (h3.congr_fderiv ?_).congr_of_eventuallyEq (Filter.Eventually.of_forall fun p => ?_)
  · ext <;> simp [riccatiEpsDer] <;> ring
  · simp only [riccatiEpsRhs, Pi.mul_apply]; ring
noncomputable def riccatiEpsSys (ε : ℝ) : System ℝ ℝ := ⟨fun y t _ => .ok () (riccatiEpsRhs ε y t)⟩
noncomputable def riccatiEpsTan : System ℝ (ℝ × ℝ) := ⟨fun z t _ => .ok () (riccatiEpsRhs 0 z.1 t, riccatiEpsDer z.1 t (1, z.2))⟩
example (scheme : Scheme) (h : scheme.isExplicit = true) (pol : Int → ℝ → ℝ → ℝ) := C111_sensitivity riccatiEps_differentiable riccatiEpsSys (fun _ _ _ _ => rfl) riccatiEpsTan (fun _ _ _ => rfl) (fun ε => 1 + 3 * ε) 3 (by simpa using ((hasDerivAt_id (0 : ℝ)).const_mul 3).const_add 1)
  scheme h pol 0 10 (by decide) (fun _ => (List.replicate (numRhs scheme) 7, 0, [])) (fun _ => by simp) (List.replicate (numRhs scheme) (7, 5), 0, []) (by simp)
end Pressio.Props
