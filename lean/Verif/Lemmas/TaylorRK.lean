import Verif.Lemmas.TaylorOrder

/-
  Expansion of the third and fourth order Runge-Kutta steps of an autonomous equation; Taylor expansions of smooth functions.  Lemmas for C74.
-/
namespace Pressio.Lemmas.TaylorOrder
set_option autoImplicit false
set_option linter.unusedSectionVars false
open Pressio.Lemmas.Numerics

variable {Z : Type} [NormedAddCommGroup Z] [NormedSpace ℝ Z]
variable {F : Z → Z} {F1 : Z → Lin Z Z} {F2 : Z → Lin Z (Lin Z Z)} {F3 : Z → Lin Z (Lin Z (Lin Z Z))} {φ : ℝ → Z} {a b H : ℝ}

/-- a stage from an expansion of the argument of order one less -/
theorem stage_arg {D : Set (ℝ × ℝ)} {p : Nat} (hD : Steps D H) (c : ℝ) {k e : ℝ × ℝ → Z} (h : Small D p (fun x => k x - e x)) : Small D (p + 1) (fun x => (c * x.2) • k x - (c * x.2) • e x) := by
  refine ((h.pow_smul hD 1).const_smul c).congr (fun x _ => ?_)
  module

/-- local error of SSPRungeKutta3, third order -/
theorem ssprk3_autonomous (hT : Taylor2 F F1 F2) (hφ : ∀ s ∈ Set.Icc a b, HasDerivAt φ (F (φ s)) s) :
    Small (Within a b H) 4 (fun x =>
      let k1 := F (φ x.1)
      let k2 := F (φ x.1 + x.2 • k1)
      let k3 := F (φ x.1 + (x.2 / 4) • (k1 + k2))
      φ x.1 + x.2 • ((1/6:ℝ) • k1 + (1/6:ℝ) • k2 + (2/3:ℝ) • k3) - φ (x.1 + x.2)) := by
  have hD := within_steps a b H
  obtain ⟨z0, z1⟩ := solution_small_zero (H := H) hφ
  obtain ⟨f0, b1, b2⟩ := hT.data z0
  have z' : Small (Within a b H) 0 (fun _ : ℝ × ℝ => (0 : Z)) := bound_small_zero 0 le_rfl (by simp)
  have z3 : Small (Within a b H) 3 (fun _ : ℝ × ℝ => (0 : Z)) := ⟨0, le_rfl, fun x _ => by simp⟩
  have k2 := compose2 hT hD z0 f0 z' (δ := fun x => x.2 • F (φ x.1)) (z3.congr (fun x _ => by simp))
  have k3 := compose2 hT hD z0 (f0.const_smul (1/2)) ((b1.lin f0).const_smul (1/4)) (δ := fun x => (x.2 / 4) • (F (φ x.1) + F (φ x.1 + x.2 • F (φ x.1)))) (by
    have s1 := ((stage_arg hD (1/4) k2).mono (p := 3) hD (by norm_num))
    have s2 := Small.term hD (p := 3) 3 le_rfl (1/4) ((b1.lin z').add ((b2.bilin hD f0 f0).const_smul (1/2)))
    refine (s1.add s2).congr (fun x _ => ?_)
    simp only [map_zero]
    module)
  have s1 := stage_arg hD (1/6) k2
  have s2 := stage_arg hD (2/3) k3
  refine ((s1.add s2).sub (solution3 hT hφ)).congr (fun x _ => ?_)
  simp only [map_zero, map_smul, _root_.smul_apply]
  module

/-- local error of RungeKutta4, fourth order -/
theorem rk4_autonomous (hT : Taylor3 F F1 F2 F3) (hφ : ∀ s ∈ Set.Icc a b, HasDerivAt φ (F (φ s)) s) :
    Small (Within a b H) 5 (fun x =>
      let k1 := F (φ x.1)
      let k2 := F (φ x.1 + (x.2 / 2) • k1)
      let k3 := F (φ x.1 + (x.2 / 2) • k2)
      let k4 := F (φ x.1 + x.2 • k3)
      φ x.1 + x.2 • ((1/6:ℝ) • k1 + (1/3:ℝ) • k2 + (1/3:ℝ) • k3 + (1/6:ℝ) • k4) - φ (x.1 + x.2)) := by
  have hD := within_steps a b H
  obtain ⟨z0, z1⟩ := solution_small_zero (H := H) hφ
  obtain ⟨f0, b1, b2, b3⟩ := hT.data z0
  have z' : Small (Within a b H) 0 (fun _ : ℝ × ℝ => (0 : Z)) := bound_small_zero 0 le_rfl (by simp)
  have z4 : Small (Within a b H) 4 (fun _ : ℝ × ℝ => (0 : Z)) := ⟨0, le_rfl, fun x _ => by simp⟩
  have k2 := compose3 hT hD z0 (f0.const_smul (1/2)) z' z' (δ := fun x => (x.2 / 2) • F (φ x.1)) (z4.congr (fun x _ => by module))
  simp only [map_zero, map_smul, _root_.smul_apply, _root_.zero_apply, zero_add] at k2
  have k3 := compose3 hT hD z0 (f0.const_smul (1/2)) ((b1.lin f0).const_smul (1/4)) ((b2.bilin hD f0 f0).const_smul (1/16))
    (δ := fun x => (x.2 / 2) • F (φ x.1 + (x.2 / 2) • F (φ x.1))) (by
      have s1 := (stage_arg hD (1/2) k2).mono (p := 4) hD (by norm_num)
      have s2 := Small.term hD (p := 4) 4 le_rfl (1/96) (b3.trilin hD f0 f0 f0)
      refine (s1.add s2).congr (fun x _ => ?_)
      module)
  simp only [map_smul, _root_.smul_apply] at k3
  have k4 := compose3 hT hD z0 f0 ((b1.lin f0).const_smul (1/2)) (((b1.lin (b1.lin f0)).const_smul (1/4)).add ((b2.bilin hD f0 f0).const_smul (1/8)))
    (δ := fun x => x.2 • F (φ x.1 + (x.2 / 2) • F (φ x.1 + (x.2 / 2) • F (φ x.1)))) (by
      have s1 := (stage_arg hD 1 k3).mono (p := 4) hD (by norm_num)
      have s2 := Small.term hD (p := 4) 4 le_rfl 1 ((((b1.lin (b2.bilin hD f0 f0)).const_smul (1/16)).add (((b2.bilin hD f0 (b1.lin f0)).add (b2.bilin hD (b1.lin f0) f0)).const_smul (1/16))).add
        ((b3.trilin hD f0 f0 f0).const_smul (1/48)))
      refine (s1.add s2).congr (fun x _ => ?_)
      module)
  simp only [map_smul, map_add, _root_.smul_apply] at k4
  have s2 := stage_arg hD (1/3) k2
  have s3 := stage_arg hD (1/3) k3
  have s4 := stage_arg hD (1/6) k4
  refine (((s2.add s3).add s4).sub (solution4 hT hφ)).congr (fun x _ => ?_)
  module

end Pressio.Lemmas.TaylorOrder
