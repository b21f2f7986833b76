import Verif.Props.Sensitivity
import Verif.Props.ExplicitMM

/-
  C111 for explicit schemes with a mass matrix.
-/
namespace Pressio.Props
set_option autoImplicit false
set_option linter.unusedSectionVars false
open Pressio Pressio.Model.Advance Pressio.Model.ExplicitMM Pressio.Spec.Explicit Pressio.Spec.ExplicitMM Pressio.Spec.Run
open Pressio.Spec.AdvanceTarget
open Pressio.Model.Explicit (Scheme dummyObserver asStepper System numRhs)

section
variable {K Y Mt : Type} [Field K] [CharZero K] [AddCommGroup Y] [Module K Y]

/-- **C111, superposition, explicit schemes with a mass matrix.** On problems `M(t) y' = f(y, t)` with an invertible mass matrix that does not depend on the state and acts linearly, when the right-hand side `h` answers to combinations of states with the combinations of the answers of `f` and `g`: the run on `h` from the combination of two
    initial states shows, at the same times, the combinations of the states of the two runs on `f` and `g`. -/
theorem C111_superposition_mass (act : Mt → Y →ₗ[K] Y) (M : K → Mt) (hinv : ∀ t, Function.Bijective (act (M t))) (α β : K) (f g h : Y → K → Y) (hh : ∀ x y t, h (α • x + β • y) t = α • f x t + β • g y t)
    (sf sg sh : MMSystem K Y Mt) (hsf : ComputesMM sf (fun _ t => M t) f) (hsg : ComputesMM sg (fun _ t => M t) g) (hsh : ComputesMM sh (fun _ t => M t) h) (ls : LinSolve Y Mt) (hls : SolvesMxf (fun m => act m) ls)
    (scheme : Scheme) (hsch : scheme.isExplicit = true) (pol : Int → K → K → K) (start : K) (N : Nat) (hN : (N : Int) < int32Max) (x0 y0 : Y)
    (mf mg mh : MMem K Y Mt) (hmf : mf.2.1.length = numX scheme) (hmg : mg.2.1.length = numX scheme) (hmh : mh.2.1.length = numX scheme) :
    ∃ a b c, run 0 pol (asStepperMM sf ls scheme dummyObserver) N start x0 mf = .ok () a ∧ run 0 pol (asStepperMM sg ls scheme dummyObserver) N start y0 mg = .ok () b ∧ run 0 pol (asStepperMM sh ls scheme dummyObserver) N start (α • x0 + β • y0) mh = .ok () c ∧
      c.y = α • a.y + β • b.y ∧ observations c.log = List.zipWith (fun o o' => (o.1, o.2.1, α • o.2.2 + β • o'.2.2)) (observations a.log) (observations b.log) ∧ (observations b.log).map (fun o => (o.1, o.2.1)) = (observations a.log).map (fun o => (o.1, o.2.1)) := by
  choose inv hi using fun t => (hinv t).2
  let plain : (Y → K → Y) → System K Y := fun f => ⟨fun y t _ => .ok () (inv t (f y t))⟩
  let m : EMem K Y := (List.replicate (numRhs scheme) 0, 0, [])
  have hm : m.1.length = numRhs scheme := by simp [m]
  obtain ⟨a', b', c', a1, b1, c1, hy, ho, ht⟩ := C111_superposition (LinearMap.lsmul K Y α) (LinearMap.lsmul K Y β) (fun y t => inv t (f y t)) (fun y t => inv t (g y t)) (fun y t => inv t (h y t))
    (fun x y t => (hinv t).1 (by simp only [LinearMap.lsmul_apply, map_add, map_smul, hi, hh]))
    (plain f) (fun _ _ _ => rfl) (plain g) (fun _ _ _ => rfl) (plain h) (fun _ _ _ => rfl) scheme hsch pol start N hN x0 y0 m hm m hm m hm
  obtain ⟨a, a'', a2, a3, a4, a5⟩ := C17_mass_matrix_runs (fun m => act m) sf ls (fun _ t => M t) f (fun y t => inv t (f y t)) hsf hls (fun _ t => hinv t) (fun y t => hi t _) scheme hsch (plain f) (fun _ _ _ => rfl) pol start N hN x0 mf hmf m hm
  obtain ⟨b, b'', b2, b3, b4, b5⟩ := C17_mass_matrix_runs (fun m => act m) sg ls (fun _ t => M t) g (fun y t => inv t (g y t)) hsg hls (fun _ t => hinv t) (fun y t => hi t _) scheme hsch (plain g) (fun _ _ _ => rfl) pol start N hN y0 mg hmg m hm
  obtain ⟨c, c'', c2, c3, c4, c5⟩ := C17_mass_matrix_runs (fun m => act m) sh ls (fun _ t => M t) h (fun y t => inv t (h y t)) hsh hls (fun _ t => hinv t) (fun y t => hi t _) scheme hsch (plain h) (fun _ _ _ => rfl) pol start N hN (α • x0 + β • y0) mh hmh m hm
  simp only [LinearMap.lsmul_apply] at c1 hy ho
  rw [a1] at a3; cases a3
  rw [b1] at b3; cases b3
  rw [c1] at c3; cases c3
  exact ⟨a, b, c, a2, b2, c2, by rw [c4, a4, b4, hy], by rw [c5, a5, b5, ho], by rw [a5, b5, ht]⟩
end

section Examples
/-- the problem `2 y' = 4 y` and its multiples -/
example := C111_superposition_mass (K := ℚ) (Y := ℚ) (Mt := ℚ) (fun m => LinearMap.lsmul ℚ ℚ m) (fun _ => 2) (fun _ => mm_objects.2.2.2.1) 3 (-5) (fun y _ => 4 * y) (fun y _ => 4 * y) (fun y _ => 4 * y) (fun x y t => by simp only [smul_eq_mul]; ring)
  mmSys mmSys mmSys mm_objects.1 mm_objects.1 mm_objects.1 lsMxf mm_objects.2.1 .RungeKutta4 rfl harmonic 0 5 (by decide) 1 7 (5, [6, 7, 8, 9, 10], 8, []) (5, [6, 7, 8, 9, 10], 8, []) (5, [6, 7, 8, 9, 10], 8, []) rfl rfl rfl
end Examples
end Pressio.Props
