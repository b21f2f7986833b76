import Verif.Props.GalerkinRun

/-
  C109: explicit runs in which time is carried as a state; explicit runs of uncoupled parts.
-/
namespace Pressio.Props
set_option autoImplicit false
set_option linter.unusedSectionVars false
open Pressio Pressio.Model.Advance Pressio.Model.Explicit Pressio.Spec.Explicit Pressio.Spec.Run Pressio.Lemmas.Run Pressio.Spec.AdvanceTarget Pressio.Spec.ExplicitMM
open Pressio.Model.ExplicitMM (MMSystem LinSolve asStepperMM numX)

section
variable {K X Y Mt : Type} [Field K] [CharZero K] [AddCommGroup X] [Module K X] [AddCommGroup Y] [Module K Y]

/-- `y' = f(y, t)` as an autonomous system: time is a state `τ` with `τ' = 1`, and the right-hand side reads `τ`, never the time argument -/
def autonomous (f : Y → K → Y) : Y × K → K → Y × K := fun z _ => (f z.1 z.2, 1)

/-- the textbook condition: every stage is at the time that the method itself reaches for `τ' = 1`, and the weights add up to 1 -/
def Consistent (tab : Tableau K) : Prop := (∀ i < tab.s, sumBelow (fun j => tab.a i j) i = tab.c i) ∧ sumBelow tab.b tab.s = 1

theorem tableauOf_consistent (scheme : Scheme) (tab : Tableau K) (h : tableauOf scheme = some tab) : Consistent tab := by
  cases scheme <;> simp only [tableauOf, Option.some.injEq, reduceCtorEq] at h <;> subst h
  · exact ⟨fun i hi => by obtain rfl : i = 0 := by simp only [eulerTableau] at hi; omega
                          simp [sumBelow, eulerTableau, ofRow], by simp [sumBelow, eulerTableau, ofRow]⟩
  · refine ⟨fun i hi => ?_, by simp [sumBelow, rk4Tableau, ofRow]; norm_num⟩
    have : i = 0 ∨ i = 1 ∨ i = 2 ∨ i = 3 := by simp only [rk4Tableau] at hi; omega
    rcases this with rfl | rfl | rfl | rfl <;> simp [sumBelow, rk4Tableau, ofRow, ofRows]
  · refine ⟨fun i hi => ?_, by simp [sumBelow, ssprk3Tableau, ofRow]; norm_num⟩
    have : i = 0 ∨ i = 1 ∨ i = 2 := by simp only [ssprk3Tableau] at hi; omega
    rcases this with rfl | rfl | rfl <;> simp [sumBelow, ssprk3Tableau, ofRow, ofRows]
    norm_num

theorem stages_length (tab : Tableau K) (f : Y → K → Y) (y : Y) (t h : K) : ∀ i, (stages tab f y t h i).length = i
  | 0 => rfl
  | i+1 => by simp [stages, stages_length tab f y t h i]

theorem getD_withOne (l : List Y) (j : Nat) (h : j < l.length) : (l.map (fun k => (k, (1 : K)))).getD j 0 = (l.getD j 0, 1) := by
  simp [List.getD_eq_getElem?_getD, List.getElem?_map, h]

theorem sumBelow_pair (g : Nat → Y × K) (u : Nat → Y) (v : Nat → K) : ∀ i, (∀ j < i, g j = (u j, v j)) → sumBelow g i = (sumBelow u i, sumBelow v i)
  | 0, _ => rfl
  | i+1, h => by simp [sumBelow, sumBelow_pair g u v i (fun j hj => h j (by omega)), h i (by omega)]

theorem stages_autonomous (tab : Tableau K) (hc : Consistent tab) (f : Y → K → Y) (y : Y) (t s h : K) : ∀ i, i ≤ tab.s → stages tab (autonomous f) (y, t) s h i = (stages tab f y t h i).map (fun k => (k, (1 : K)))
  | 0, _ => rfl
  | i+1, hi => by
    have hs := sumBelow_pair (fun j => tab.a i j • ((stages tab f y t h i).map (fun k => (k, (1 : K)))).getD j 0) (fun j => tab.a i j • (stages tab f y t h i).getD j 0) (fun j => tab.a i j) i
      (fun j hj => by rw [getD_withOne _ j (by rw [stages_length]; exact hj)]; simp)
    simp only [stages, stages_autonomous tab hc f y t s h i (by omega), List.map_append, List.map_cons, List.map_nil, hs, hc.1 i (by omega)]
    simp [autonomous, mul_comm]

theorem rkStep_autonomous (tab : Tableau K) (hc : Consistent tab) (f : Y → K → Y) (y : Y) (t s h : K) : rkStep tab (autonomous f) (y, t) s h = (rkStep tab f y t h, t + h) := by
  have hs := sumBelow_pair (fun i => tab.b i • ((stages tab f y t h tab.s).map (fun k => (k, (1 : K)))).getD i 0) (fun i => tab.b i • (stages tab f y t h tab.s).getD i 0) tab.b tab.s
    (fun j hj => by rw [getD_withOne _ j (by rw [stages_length]; exact hj)]; simp)
  unfold rkStep
  rw [stages_autonomous tab hc f y t s h tab.s le_rfl, hs, hc.2]
  simp

theorem oneStep_autonomous (tab : Tableau K) (hc : Consistent tab) (f : Y → K → Y) (y : Y) (pol : Int → K → K → K) (start : K) : ∀ k,
    oneStepSeq (rkStep tab (autonomous f)) (y, start) (tSeq 0 pol start) (hSeq 0 pol start) k = (oneStepSeq (rkStep tab f) y (tSeq 0 pol start) (hSeq 0 pol start) k, tSeq 0 pol start k)
  | 0 => rfl
  | k+1 => by rw [oneStepSeq, oneStepSeq, oneStep_autonomous tab hc f y pol start k, rkStep_autonomous tab hc, tSeq_succ]

theorem ab2_autonomous (f : Y → K → Y) (y : Y) (pol : Int → K → K → K) (start : K) : ∀ k,
    ab2 (autonomous f) (y, start) (tSeq 0 pol start) (hSeq 0 pol start) k = (ab2 f y (tSeq 0 pol start) (hSeq 0 pol start) k, tSeq 0 pol start k)
  | 0 => rfl
  | 1 => by rw [ab2, ab2, tSeq_succ]; simp [autonomous, tSeq, clock]
  | k+2 => by
    rw [ab2, ab2, ab2_autonomous f y pol start k, ab2_autonomous f y pol start (k+1), tSeq_succ 0 pol start (k+1)]
    simp [autonomous]
    ring

/-- **C109, time as a state.** Explicit schemes, any step-size policy: the run on `y' = f(y, t)` and the run on the autonomous system in which time is a state end in the same state, and an observer sees the same states at the same times; the time carried as a state is, at every observation, the time that the advancer reports. Right-hand
    sides are thus evaluated, in all stages, at the times at which the scheme's own states are. -/
theorem C109_time_as_state (f : Y → K → Y) (sys : System K Y) (hs : Computes sys f) (aut : System K (Y × K)) (ha : Computes aut (autonomous f)) (scheme : Scheme) (hsch : scheme.isExplicit = true)
    (pol : Int → K → K → K) (start : K) (N : Nat) (hN : (N : Int) < int32Max) (y0 : Y) (m : EMem K Y) (hlen : m.1.length = numRhs scheme) (m' : EMem K (Y × K)) (hlen' : m'.1.length = numRhs scheme) :
    ∃ a b, run 0 pol (asStepper sys scheme dummyObserver) N start y0 m = .ok () a ∧ run 0 pol (asStepper aut scheme dummyObserver) N start (y0, start) m' = .ok () b ∧
      b.y.1 = a.y ∧ observations b.log = (observations a.log).map (fun o => (o.1, o.2.1, (o.2.2, o.2.1))) := by
  rcases htab : (tableauOf scheme : Option (Tableau K)) with _ | tab
  · obtain rfl : scheme = .AdamsBashforth2 := by
      cases scheme <;> simp_all [tableauOf, Scheme.isExplicit]
    obtain ⟨a, a1, -, a2, a3⟩ := C14_adams_bashforth_run sys f hs dummyObserver (fun _ => rfl) pol start N hN y0 m hlen
    obtain ⟨b, b1, -, b2, b3⟩ := C14_adams_bashforth_run aut _ ha dummyObserver (fun _ => rfl) pol start N hN (y0, start) m' hlen'
    refine ⟨a, b, a1, b1, by rw [a2, b2, ab2_autonomous], ?_⟩
    rw [a3, b3, List.map_map]
    congr 1; funext k
    simp only [Function.comp, ab2_autonomous]
  · have hc := tableauOf_consistent scheme tab htab
    obtain ⟨a, a1, -, a2, a3⟩ := C13_runge_kutta_run sys f hs scheme tab htab dummyObserver (fun _ => rfl) pol start N hN y0 m hlen
    obtain ⟨b, b1, -, b2, b3⟩ := C13_runge_kutta_run aut _ ha scheme tab htab dummyObserver (fun _ => rfl) pol start N hN (y0, start) m' hlen'
    refine ⟨a, b, a1, b1, by rw [a2, b2, oneStep_autonomous tab hc], ?_⟩
    rw [a3, b3, List.map_map]
    congr 1; funext k
    simp only [Function.comp, oneStep_autonomous tab hc]

/-- **C109, time as a state, with mass matrix.** The same if the system has a mass matrix `M(y, t)`, invertible everywhere; in the autonomous system the mass matrix reads the carried time, and the equation for the time is left as it is. -/
theorem C109_time_as_state_mass {Mt' : Type} (act : Mt → Y → Y) (act' : Mt' → Y × K → Y × K) (sys : MMSystem K Y Mt) (ls : LinSolve Y Mt) (M : Y → K → Mt) (f : Y → K → Y) (hf : ComputesMM sys M f) (hls : SolvesMxf act ls) (hinv : ∀ y t, Function.Bijective (act (M y t)))
    (aut : MMSystem K (Y × K) Mt') (ls' : LinSolve (Y × K) Mt') (M' : Y × K → K → Mt') (ha : ComputesMM aut M' (autonomous f)) (hls' : SolvesMxf act' ls') (hM' : ∀ z s v, act' (M' z s) v = (act (M z.1 z.2) v.1, v.2)) (scheme : Scheme) (hsch : scheme.isExplicit = true)
    (pol : Int → K → K → K) (start : K) (N : Nat) (hN : (N : Int) < int32Max) (y0 : Y) (m : MMem K Y Mt) (hlen : m.2.1.length = numX scheme) (m' : MMem K (Y × K) Mt') (hlen' : m'.2.1.length = numX scheme) :
    ∃ a b, run 0 pol (asStepperMM sys ls scheme dummyObserver) N start y0 m = .ok () a ∧ run 0 pol (asStepperMM aut ls' scheme dummyObserver) N start (y0, start) m' = .ok () b ∧
      b.y.1 = a.y ∧ observations b.log = (observations a.log).map (fun o => (o.1, o.2.1, (o.2.2, o.2.1))) := by
  choose g hg using fun y t => (hinv y t).2 (f y t)
  have hinv' : ∀ z s, Function.Bijective (act' (M' z s)) := fun z s => by
    have e : act' (M' z s) = Prod.map (act (M z.1 z.2)) id := by funext v; rw [hM']; rfl
    rw [e]
    exact (hinv z.1 z.2).prodMap Function.bijective_id
  let sysG : System K Y := ⟨fun y t _ => .ok () (g y t)⟩
  let autG : System K (Y × K) := ⟨fun z t _ => .ok () (autonomous g z t)⟩
  obtain ⟨a, b, a1, b1, a2, a3⟩ := C17_mass_matrix_runs act sys ls M f g hf hls hinv hg scheme hsch sysG (fun _ _ _ => rfl) pol start N hN y0 m hlen (List.replicate (numRhs scheme) 0, 0, []) (by simp)
  obtain ⟨a', b', a1', b1', a2', a3'⟩ := C17_mass_matrix_runs act' aut ls' M' (autonomous f) (autonomous g) ha hls' hinv' (fun z s => by rw [hM']; simp [autonomous, hg]) scheme hsch autG (fun _ _ _ => rfl) pol start N hN (y0, start) m' hlen' (List.replicate (numRhs scheme) 0, 0, []) (by simp)
  obtain ⟨c, d, c1, d1, c2, c3⟩ := C109_time_as_state g sysG (fun _ _ _ => rfl) autG (fun _ _ _ => rfl) scheme hsch pol start N hN y0 (List.replicate (numRhs scheme) 0, 0, []) (by simp) (List.replicate (numRhs scheme) 0, 0, []) (by simp)
  rw [b1] at c1; rw [b1'] at d1
  cases c1; cases d1
  exact ⟨a, a', a1, a1', by rw [a2', c2, a2], by rw [a3', c3, a3]⟩

/-- **C109, uncoupled parts.** A system of two parts of which the first does not read the second (the second may read both): the run of the whole shows, in the first part, the run of the first part alone, whatever the second part does. -/
theorem C109_one_way_coupling (f : X → K → X) (sys : System K X) (hs : Computes sys f) (g : X × Y → K → Y) (whole : System K (X × Y)) (hw : Computes whole (fun z t => (f z.1 t, g z t))) (scheme : Scheme) (hsch : scheme.isExplicit = true)
    (pol : Int → K → K → K) (start : K) (N : Nat) (hN : (N : Int) < int32Max) (x0 : X) (y0 : Y) (m : EMem K X) (hlen : m.1.length = numRhs scheme) (m' : EMem K (X × Y)) (hlen' : m'.1.length = numRhs scheme) :
    ∃ a b, run 0 pol (asStepper whole scheme dummyObserver) N start (x0, y0) m' = .ok () a ∧ run 0 pol (asStepper sys scheme dummyObserver) N start x0 m = .ok () b ∧
      b.y = a.y.1 ∧ observations b.log = (observations a.log).map (fun o => (o.1, o.2.1, o.2.2.1)) := by
  obtain ⟨a, b, ha, hb, hy, hl⟩ := run_lift (LinearMap.fst K X Y) 0 (f := f) (g := fun z t => (f z.1 t, g z t)) (fun x t => by simp) sys hs whole hw scheme hsch pol start N hN (x0, y0) m' hlen' m hlen
  simp only [LinearMap.fst_apply, add_zero] at hb hy hl
  exact ⟨a, b, ha, hb, hy, hl⟩
end

/-! The Riccati equation `y' = t - y²`. -/
def riccatiSys : System ℚ ℚ := ⟨fun y t _ => .ok () (t - y ^ 2)⟩
def riccatiSysAut : System ℚ (ℚ × ℚ) := ⟨fun z _ _ => .ok () (z.2 - z.1 ^ 2, 1)⟩
example (scheme : Scheme) (h : scheme.isExplicit = true) (pol : Int → ℚ → ℚ → ℚ) := C109_time_as_state (fun y t : ℚ => t - y ^ 2) riccatiSys (fun _ _ _ => rfl) riccatiSysAut (fun _ _ _ => rfl) scheme h pol (1/2) 10 (by decide) 1
  (List.replicate (numRhs scheme) 7, 0, []) (by simp) (List.replicate (numRhs scheme) (7, 5), 0, []) (by simp)
/-- three steps of AdamsBashforth2 with changing sizes -/
example : (match run 0 (fun i (_ _ : ℚ) => (1 / (i + 1) : ℚ)) (asStepper riccatiSysAut .AdamsBashforth2 dummyObserver) 3 (1/2) (1, 1/2) ([0, 0], 0, []) with | .ok _ s => (observations s.log).map (fun o => (o.2.1, o.2.2)) | _ => []) =
    [(1/2, (1, 1/2)), (1, (3/4, 1)), (4/3, (101/96, 4/3)), (19/12, (26599/24576, 19/12))] := by decide +kernel
section
open Pressio.Model.ExplicitMM
/-- `(1 + t²) y' = t - y²` -/
def riccatiSysMM : MMSystem ℚ ℚ ℚ := ⟨fun y t _ => .ok () (1 + t ^ 2, t - y ^ 2)⟩
def riccatiSysMMAut : MMSystem ℚ (ℚ × ℚ) ℚ := ⟨fun z _ _ => .ok () (1 + z.2 ^ 2, (z.2 - z.1 ^ 2, 1))⟩
example (scheme : Scheme) (h : scheme.isExplicit = true) (pol : Int → ℚ → ℚ → ℚ) := C109_time_as_state_mass (fun M v : ℚ => M * v) (fun M (v : ℚ × ℚ) => (M * v.1, v.2)) riccatiSysMM (fun M s => .ok () (s.2 / M, s.2)) (fun _ t => 1 + t ^ 2) (fun y t => t - y ^ 2) (fun _ _ _ => rfl)
  (fun M hM x f => ⟨f / M, rfl, mul_div_cancel₀ f (by rintro rfl; have := @hM.1 0 1 (by simp); norm_num at this)⟩) (fun y t => mulLeft_bijective₀ _ (by positivity))
  riccatiSysMMAut (fun M s => .ok () ((s.2.1 / M, s.2.2), s.2)) (fun z _ => 1 + z.2 ^ 2) (fun _ _ _ => rfl) (fun M hM x f => ⟨(f.1 / M, f.2), rfl, Prod.ext (mul_div_cancel₀ f.1 (by rintro rfl; have := @hM.1 (0, 0) (1, 0) (by simp); norm_num at this)) rfl⟩) (fun _ _ _ => rfl) scheme h pol (1/2) 10 (by decide) 1
  (0, List.replicate (numX scheme) 7, 0, []) (by simp) (0, List.replicate (numX scheme) (7, 5), 0, []) (by simp)
end
example (scheme : Scheme) (h : scheme.isExplicit = true) (pol : Int → ℚ → ℚ → ℚ) := C109_one_way_coupling (fun x t : ℚ => t - x ^ 2) riccatiSys (fun _ _ _ => rfl) (fun (z : ℚ × ℚ) t => z.1 * z.2 - t) ⟨fun z t _ => .ok () (t - z.1 ^ 2, z.1 * z.2 - t)⟩ (fun _ _ _ => rfl) scheme h pol (1/2) 10 (by decide) 1 3
  (List.replicate (numRhs scheme) 7, 0, []) (by simp) (List.replicate (numRhs scheme) (7, 5), 0, []) (by simp)
end Pressio.Props
