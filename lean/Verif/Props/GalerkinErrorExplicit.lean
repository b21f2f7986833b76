import Verif.Spec.ReducedModel
import Verif.Props.GalerkinRun
import Verif.Props.Convergence

/-
  C81: error of explicit runs of reduced models against the run of the full-order model.
-/
namespace Pressio.Props
set_option autoImplicit false
set_option linter.unusedSectionVars false
open Pressio Matrix Pressio.Model.Galerkin Pressio.Spec.Galerkin Pressio.Spec.Reduced
open Pressio.Model.Advance Pressio.Model.Explicit Pressio.Spec.Explicit Pressio.Spec.Run Pressio.Lemmas.Run Pressio.Spec.AdvanceTarget

section
variable {m p q n : Type} [Fintype m] [Fintype p] [Fintype q] [Fintype n] [DecidableEq m] [DecidableEq n]

/-- stages, if the right-hand sides correspond at the points of the step -/
theorem stages_lift_on (Φ : (n → ℝ) →ₗ[ℝ] (m → ℝ)) (c : m → ℝ) (G : (m → ℝ) → ℝ → m → ℝ) (g : (n → ℝ) → ℝ → n → ℝ) (tab : Tableau ℝ) (x : n → ℝ) (t h : ℝ)
    (hp : ∀ p ∈ rkPoints tab g x t h, G (Φ p.1 + c) p.2 = Φ (g p.1 p.2)) : ∀ i ≤ tab.s, stages tab G (Φ x + c) t h i = (stages tab g x t h i).map Φ
  | 0, _ => rfl
  | i+1, hi => by
    have ih := stages_lift_on Φ c G g tab x t h hp i (by omega)
    have hs : sumBelow (fun j => tab.a i j • ((stages tab g x t h i).map Φ).getD j 0) i = Φ (sumBelow (fun j => tab.a i j • (stages tab g x t h i).getD j 0) i) := by
      rw [← sumBelow_map]
      congr 1; funext j
      rw [getD_map_zero, map_smul]
    have := hp (x + h • sumBelow (fun j => tab.a i j • (stages tab g x t h i).getD j 0) i, t + tab.c i * h) (List.mem_map.2 ⟨i, List.mem_range.2 (by omega), rfl⟩)
    simp only [stages, ih, List.map_append, List.map_cons, List.map_nil, hs]
    rw [← this, map_add, map_smul, add_right_comm]

theorem rkStep_lift_on (Φ : (n → ℝ) →ₗ[ℝ] (m → ℝ)) (c : m → ℝ) (G : (m → ℝ) → ℝ → m → ℝ) (g : (n → ℝ) → ℝ → n → ℝ) (tab : Tableau ℝ) (x : n → ℝ) (t h : ℝ)
    (hp : ∀ p ∈ rkPoints tab g x t h, G (Φ p.1 + c) p.2 = Φ (g p.1 p.2)) : rkStep tab G (Φ x + c) t h = Φ (rkStep tab g x t h) + c := by
  have hs : sumBelow (fun i => tab.b i • ((stages tab g x t h tab.s).map Φ).getD i 0) tab.s = Φ (sumBelow (fun i => tab.b i • (stages tab g x t h tab.s).getD i 0) tab.s) := by
    rw [← sumBelow_map]
    congr 1; funext j
    rw [getD_map_zero, map_smul]
  unfold rkStep
  rw [stages_lift_on Φ c G g tab x t h hp tab.s le_rfl, hs, map_add, map_smul, add_right_comm]

theorem seqOf_lift_on (Φ : (n → ℝ) →ₗ[ℝ] (m → ℝ)) (c : m → ℝ) (G : (m → ℝ) → ℝ → m → ℝ) (g : (n → ℝ) → ℝ → n → ℝ) (scheme : Scheme) (hs : isExplicit scheme) (x0 : n → ℝ) (t h : Nat → ℝ) (N : Nat)
    (hp : ∀ k < N, ∀ p ∈ evalPoints scheme g (seqOf scheme g x0 t h) t h k, G (Φ p.1 + c) p.2 = Φ (g p.1 p.2)) :
    ∀ k ≤ N, seqOf scheme G (Φ x0 + c) t h k = Φ (seqOf scheme g x0 t h k) + c := by
  have rk : ∀ tab : Tableau ℝ, (∀ k < N, ∀ p ∈ rkPoints tab g (oneStepSeq (rkStep tab g) x0 t h k) (t k) (h k), G (Φ p.1 + c) p.2 = Φ (g p.1 p.2)) →
      ∀ k ≤ N, oneStepSeq (rkStep tab G) (Φ x0 + c) t h k = Φ (oneStepSeq (rkStep tab g) x0 t h k) + c := by
    intro tab hp k
    induction k with
    | zero => intro _; rfl
    | succ k ih => intro hk; rw [oneStepSeq, oneStepSeq, ih (by omega), rkStep_lift_on Φ c G g tab _ _ _ (hp k (by omega))]
  rcases hs with rfl | rfl | rfl | rfl
  · exact rk _ hp
  · exact rk _ hp
  · exact rk _ hp
  · have hp' : ∀ k < N, G (Φ (ab2 g x0 t h k) + c) (t k) = Φ (g (ab2 g x0 t h k) (t k)) := fun k hk => hp k hk (ab2 g x0 t h k, t k) (by simp [evalPoints, seqOf, tableauOf])
    intro k
    show k ≤ N → ab2 G (Φ x0 + c) t h k = Φ (ab2 g x0 t h k) + c
    induction k using Nat.strong_induction_on with
    | _ k ih =>
      intro hk
      match k with
      | 0 => rfl
      | 1 =>
        have := hp' 0 (by omega)
        simp only [ab2] at this ⊢
        rw [this, map_add, map_smul, add_right_comm]
      | k+2 => rw [ab2, ab2, ih k (by omega) (by omega), ih (k+1) (by omega) (by omega), hp' k (by omega), hp' (k+1) (by omega), map_add, map_smul, map_sub, map_smul, map_smul, add_right_comm]

/-- **C81, explicit schemes.** A reduced model `x' = g(x,t)` on a trial space with independent columns, with `‖f(lift x, t) - Phi g(x, t)‖ ≤ ε` at the points at which its run evaluates `g`, and the full-order model `y' = f(y,t)`,
    `f` Lipschitz with constant `L`. For each explicit scheme, every step-size policy and number of steps: both runs complete, observe at the same times, and the state of the FOM differs from the reconstructed reduced state by at
    most `exp(c L (t - t0)) (‖y0 - lift x0‖ + c (t - t0) ε)`, `c = 2` for AdamsBashforth2 and 1 for the other schemes. -/
theorem C81_explicit (S : Trial ℝ m n) (hS : Function.Injective S.basis.mulVec) (f : (m → ℝ) → ℝ → m → ℝ) (g : (n → ℝ) → ℝ → n → ℝ) (L ε : ℝ) (hL : 0 ≤ L) (hε : 0 ≤ ε) (hf : Lip f L)
    (fom : System ℝ (m → ℝ)) (hfom : Computes fom f) (rom : System ℝ (n → ℝ)) (hrom : Computes rom g) (scheme : Scheme) (hs : isExplicit scheme)
    (pol : Int → ℝ → ℝ → ℝ) (hpol : ∀ n t d, 0 ≤ pol n t d) (start : ℝ) (N : Nat) (hN : (N : Int) < int32Max) (y0 : m → ℝ) (x0 : n → ℝ)
    (hg : ∀ k < N, ∀ p ∈ evalPoints scheme g (seqOf scheme g x0 (tSeq 0 pol start) (hSeq 0 pol start)) (tSeq 0 pol start) (hSeq 0 pol start) k, ‖f (lift S p.1) p.2 - S.basis *ᵥ g p.1 p.2‖ ≤ ε)
    (mem : EMem ℝ (m → ℝ)) (hlen : mem.1.length = numRhs scheme) (mem' : EMem ℝ (n → ℝ)) (hlen' : mem'.1.length = numRhs scheme) :
    ∃ s s', run 0 pol (asStepper fom scheme dummyObserver) N start y0 mem = .ok () s ∧ run 0 pol (asStepper rom scheme dummyObserver) N start x0 mem' = .ok () s' ∧
      ∀ k ≤ N, ∃ t y x, (observations s.log)[k]? = some ((k : Int), t, y) ∧ (observations s'.log)[k]? = some ((k : Int), t, x) ∧ (k = N → s.y = y ∧ s'.y = x) ∧
        start ≤ t ∧ ‖y - lift S x‖ ≤ Real.exp (gain scheme * L * (t - start)) * (‖y0 - lift S x0‖ + gain scheme * (t - start) * ε) := by
  classical
  let U : Set ((n → ℝ) × ℝ) := {p | ‖f (lift S p.1) p.2 - S.basis *ᵥ g p.1 p.2‖ ≤ ε}
  let G : (m → ℝ) → ℝ → m → ℝ := fun y t => if h : ∃ x, lift S x = y ∧ (x, t) ∈ U then S.basis *ᵥ g h.choose t else f y t
  have hinj : Function.Injective (lift S) := by
    intro x z h
    refine hS ?_
    unfold lift at h
    exact add_right_cancel h
  have hG : ∀ x t, (x, t) ∈ U → G (lift S x) t = S.basis *ᵥ g x t := by
    intro x t hU
    have h : ∃ z, lift S z = lift S x ∧ (z, t) ∈ U := ⟨x, rfl, hU⟩
    show (if h : ∃ z, lift S z = lift S x ∧ (z, t) ∈ U then _ else _) = _
    rw [dif_pos h, hinj h.choose_spec.1]
  have hfG : ∀ y t, ‖f y t - G y t‖ ≤ ε := by
    intro y t
    by_cases h : ∃ x, lift S x = y ∧ (x, t) ∈ U
    · obtain ⟨x, rfl, hU⟩ := h
      rw [hG x t hU]; exact hU
    · show ‖f y t - (if h : ∃ x, lift S x = y ∧ (x, t) ∈ U then _ else _)‖ ≤ ε
      rw [dif_neg h, sub_self, norm_zero]; exact hε
  obtain ⟨s, a1, a2, a3⟩ := explicit_run fom f hfom scheme hs dummyObserver (fun _ => rfl) pol start N hN y0 mem hlen
  obtain ⟨s', b1, b2, b3⟩ := explicit_run rom g hrom scheme hs dummyObserver (fun _ => rfl) pol start N hN x0 mem' hlen'
  refine ⟨s, s', a1, b1, fun k hk => ?_⟩
  obtain ⟨c1, c2⟩ := seq_perturbation f G L ε hL hε hf hfG scheme hs y0 (lift S x0) (tSeq 0 pol start) (hSeq 0 pol start) (fun j => hpol _ _ _) (fun j => rfl) k
  have hl : seqOf scheme G (lift S x0) (tSeq 0 pol start) (hSeq 0 pol start) k = lift S (seqOf scheme g x0 (tSeq 0 pol start) (hSeq 0 pol start) k) := by
    rw [lift_eq, lift_eq]
    refine seqOf_lift_on (Matrix.mulVecLin S.basis) _ G g scheme hs x0 _ _ N (fun k hk p hp => ?_) k hk
    rw [← lift_eq]
    exact hG p.1 p.2 (hg k hk p hp)
  rw [hl] at c2
  exact ⟨_, _, _, a3 k hk, b3 k hk, by rintro rfl; exact ⟨a2, b2⟩, c1, c2⟩

variable {q p : Type} [Fintype q] [Fintype p]

/-- **C81, explicit default Galerkin**, orthonormal basis -/
theorem C81_explicit_default_galerkin {F : Fom ℝ m m n} {f : (m → ℝ) → ℝ → m → ℝ} {De Me : (m → ℝ) → ℝ → Except Exc (Matrix m m ℝ)} (hF : FomIs F (fun y t => .ok (f y t)) De Me) (S : Trial ℝ m n) (hS : Orthonormal S)
    (s0 : GSt ℝ m m q n) (L ε : ℝ) (hL : 0 ≤ L) (hε : 0 ≤ ε) (hf : Lip f L) (fom : System ℝ (m → ℝ)) (hfom : Computes fom f) (scheme : Scheme) (hs : isExplicit scheme)
    (pol : Int → ℝ → ℝ → ℝ) (hpol : ∀ n t d, 0 ≤ pol n t d) (start : ℝ) (N : Nat) (hN : (N : Int) < int32Max) (y0 : m → ℝ) (x0 : n → ℝ)
    (hg : let g := fun x t => S.basisᵀ *ᵥ f (lift S x) t
      ∀ k < N, ∀ p ∈ evalPoints scheme g (seqOf scheme g x0 (tSeq 0 pol start) (hSeq 0 pol start)) (tSeq 0 pol start) (hSeq 0 pol start) k, ‖f (lift S p.1) p.2 - S.basis *ᵥ g p.1 p.2‖ ≤ ε)
    (mem : EMem ℝ (m → ℝ)) (hlen : mem.1.length = numRhs scheme) (mem' : EMem ℝ (n → ℝ)) (hlen' : mem'.1.length = numRhs scheme) :
    ∃ s s', run 0 pol (asStepper fom scheme dummyObserver) N start y0 mem = .ok () s ∧ run 0 pol (asStepper (asSystem (defaultRhs S F) s0) scheme dummyObserver) N start x0 mem' = .ok () s' ∧
      ∀ k ≤ N, ∃ t y x, (observations s.log)[k]? = some ((k : Int), t, y) ∧ (observations s'.log)[k]? = some ((k : Int), t, x) ∧ (k = N → s.y = y ∧ s'.y = x) ∧
        start ≤ t ∧ ‖y - lift S x‖ ≤ Real.exp (gain scheme * L * (t - start)) * (‖y0 - lift S x0‖ + gain scheme * (t - start) * ε) :=
  C81_explicit S (fun x z h => by
    have := congrArg (S.basisᵀ.mulVec) h
    rwa [Matrix.mulVec_mulVec, Matrix.mulVec_mulVec, hS, Matrix.one_mulVec, Matrix.one_mulVec] at this) f _ L ε hL hε hf fom hfom _ (galerkin_computes hF S s0) scheme hs pol hpol start N hN y0 x0 hg mem hlen mem' hlen'

/-- **C81, explicit hyper-reduced and masked Galerkin**: the right-hand sides that the objects compute -/
theorem C81_explicit_hyperreduced_model {Fs : Fom ℝ m p n} {f : (m → ℝ) → ℝ → p → ℝ} {Ds Ms : (m → ℝ) → ℝ → Except Exc (Matrix p m ℝ)} (hF : FomIs Fs (fun y t => .ok (f y t)) Ds Ms)
    {H : HypRed ℝ p n} {hv : ℝ → (p → ℝ) → n → ℝ} {hm : ℝ → Matrix p n ℝ → Matrix n n ℝ} (hH : HypIs H hv hm) (S : Trial ℝ m n) (s0 : GSt ℝ m p q n) :
    Computes (asSystem (hypredRhs S Fs H) s0) (fun x t => hv t (f (lift S x) t)) := by
  intro x t b
  obtain ⟨s, hs, hv⟩ := C49_hypred_rhs hF hH S x t { s0 with r := b }
  simp only [Prod.mk.injEq] at hv
  unfold asSystem
  simp only [hs, hv.1]

theorem C81_explicit_masked_model {Fs : Fom ℝ m p n} {f : (m → ℝ) → ℝ → p → ℝ} {Ds Ms : (m → ℝ) → ℝ → Except Exc (Matrix p m ℝ)} (hF : FomIs Fs (fun y t => .ok (f y t)) Ds Ms)
    {Mk : Masker ℝ p q n} {mv : (p → ℝ) → q → ℝ} {mm : Matrix p n ℝ → Matrix q n ℝ} (hM : MaskIs Mk mv mm)
    {H : HypRed ℝ q n} {hv : ℝ → (q → ℝ) → n → ℝ} {hm : ℝ → Matrix q n ℝ → Matrix n n ℝ} (hH : HypIs H hv hm) (S : Trial ℝ m n) (s0 : GSt ℝ m p q n) :
    Computes (asSystem (maskedRhs S Fs Mk H) s0) (fun x t => hv t (mv (f (lift S x) t))) := by
  intro x t b
  obtain ⟨s, hs, hv⟩ := C49_masked_rhs hF hM hH S x t { s0 with r := b }
  simp only [Prod.mk.injEq] at hv
  unfold asSystem
  simp only [hs, hv.1]

end

/-! ### A concrete case: `y' = (-y_0, 1/10 - y_1)`, reduced to its first component -/
section Examples

noncomputable def firstR : Trial ℝ (Fin 2) Unit := ⟨Matrix.of fun i _ => ![1, 0] i, 0, false⟩

theorem firstR_orthonormal : Orthonormal firstR := by
  ext i j
  simp [firstR, Matrix.mul_apply, Fin.sum_univ_two, Matrix.transpose_apply]

theorem firstR_lift (x : Unit → ℝ) : lift firstR x = ![x (), 0] := by
  funext i
  fin_cases i <;> simp [lift, firstR, Matrix.mulVec, dotProduct]

noncomputable def sagF (y : Fin 2 → ℝ) (_ : ℝ) : Fin 2 → ℝ := ![- y 0, 1/10 - y 1]

noncomputable def sagR : Fom ℝ (Fin 2) (Fin 2) Unit where
  rhs := fun y t _ => .ok (sagF y t)
  applyJac := fun _ B _ _ => .ok ((-1 : Matrix (Fin 2) (Fin 2) ℝ) * B)
  applyMM := fun _ B _ _ => .ok ((1 : Matrix (Fin 2) (Fin 2) ℝ) * B)

theorem sagR_is : FomIs sagR (fun y t => .ok (sagF y t)) (fun _ _ => .ok (-1)) (fun _ _ => .ok 1) where
  rhs := fun _ _ _ => rfl
  jac := fun _ _ _ _ => rfl
  mm := fun _ _ _ _ => rfl

/-- the defect of the reduced model is 1/10 -/
theorem sag_defect (x : Unit → ℝ) (t : ℝ) : sagF (lift firstR x) t - firstR.basis *ᵥ (firstR.basisᵀ *ᵥ sagF (lift firstR x) t) = ![0, 1/10] := by
  rw [firstR_lift]
  funext i
  fin_cases i <;> simp [firstR, sagF, Matrix.mulVec, dotProduct, Matrix.mul_apply, Matrix.transpose_apply]

/-- C81 for it: RungeKutta4, steps of 1/3 -/
example (s0 : GSt ℝ (Fin 2) (Fin 2) Unit Unit) (N : Nat) (hN : (N : Int) < int32Max) (x0 : Unit → ℝ) :=
  C81_explicit_default_galerkin (q := Unit) sagR_is firstR firstR_orthonormal s0 1 (1/10) (by norm_num) (by norm_num)
    (by
      intro y z t
      rw [one_mul]
      have e : sagF y t - sagF z t = -(y - z) := by
        funext i
        fin_cases i <;> simp [sagF] <;> ring
      rw [e, norm_neg]) ⟨fun y t _ => .ok () (sagF y t)⟩ (fun _ _ _ => rfl) .RungeKutta4 (.inr (.inr (.inl rfl))) (fun _ _ _ => 1/3) (fun _ _ _ => by norm_num) 0 N hN (lift firstR x0) x0
    (fun k _ p _ => by
      show ‖sagF (lift firstR p.1) p.2 - _‖ ≤ _
      rw [sag_defect, pi_norm_le_iff_of_nonneg (by norm_num)]
      intro i
      fin_cases i <;> simp)
    (List.replicate 4 0, 0, []) rfl (List.replicate 4 0, 0, []) rfl

/-- the same, from the general theorem and with the forward Euler scheme -/
example (s0 : GSt ℝ (Fin 2) (Fin 2) Unit Unit) (N : Nat) (hN : (N : Int) < int32Max) (x0 : Unit → ℝ) :=
  C81_explicit firstR (fun x y h => by
      have := congrFun h 0
      simp [firstR, Matrix.mulVec, dotProduct] at this
      funext u; exact this) sagF (fun x t => firstR.basisᵀ *ᵥ sagF (lift firstR x) t) 1 (1/10) (by norm_num) (by norm_num)
    (by
      intro y z t
      rw [one_mul]
      have e : sagF y t - sagF z t = -(y - z) := by
        funext i
        fin_cases i <;> simp [sagF] <;> ring
      rw [e, norm_neg]) ⟨fun y t _ => .ok () (sagF y t)⟩ (fun _ _ _ => rfl) ⟨fun x t _ => .ok () (firstR.basisᵀ *ᵥ sagF (lift firstR x) t)⟩ (fun _ _ _ => rfl) .ForwardEuler (.inl rfl) (fun _ _ _ => 1/3) (fun _ _ _ => by norm_num) 0 N hN (lift firstR x0) x0
    (fun k _ p _ => by
      show ‖sagF (lift firstR p.1) p.2 - firstR.basis *ᵥ (firstR.basisᵀ *ᵥ sagF (lift firstR p.1) p.2)‖ ≤ _
      rw [sag_defect, pi_norm_le_iff_of_nonneg (by norm_num)]
      intro i
      fin_cases i <;> simp)
    (List.replicate 1 0, 0, []) rfl (List.replicate 1 0, 0, []) rfl


end Examples
end Pressio.Props
