import Verif.Lemmas.NonlinearObjects
import Verif.Lemmas.NewtonConvergence
import Verif.Spec.MatrixFree

/-
  The matrix-free Newton solver and Newton's solver with a Jacobian go through the same iterations.
-/
namespace Pressio.Lemmas.Nonlinear
set_option autoImplicit false
open Pressio Matrix
open Pressio.Model.Nonlinear Pressio.Spec.Nonlinear

variable {K m n p L : Type} [Field K] [LinearOrder K] [Fintype m] [Fintype n] [Fintype p]

theorem dropJ_query {sys : Sys K m n} (hc : sys.Consistent) (x : n → K) : dropJ (sys.query x true) = sys.query x false := by
  have : sys.toF x false = (sys.toF x true).map (fun a => (a.1, none)) := by
    show (sys.res x).map _ = ((sys.resJac x).map _).map _
    rw [hc x]
    rcases sys.resJac x with e | ⟨r, J⟩ <;> rfl
  unfold Sys.query dropJ
  rw [this]

theorem iterate_matrixFree (env env' : Env K m n p L) (cfg cfg' : Cfg K) (hm : env'.normM = env.normM) (hn : env'.normN = env.normN) (hstop : cfg'.stop = cfg.stop) (htol : cfg'.tol = cfg.tol)
    (hmax : cfg'.maxIters = cfg.maxIters) {sys : Sys K m n} (hc : sys.Consistent)
    (hcorr : ∀ x r J, sys.resJac x = .ok (r, J) → ∀ inn, krylovNegated env x r inn = negated (env'.linJ J r) inn) :
    ∀ (k : Nat) (i : Int) (ref : Option (Norms K)) (s : St K n L),
      let a := iterate sys (newtonProblem env cfg sys true .standard) k i ref s
      let b := iterate sys (newtonProblem env' cfg' sys false .standard) k i ref s
      a.how = b.how ∧ a.st = b.st ∧ a.files = b.files ∧ a.log = b.log.map dropJ ∧ a.last = b.last := by
  intro k
  induction k with
  | zero =>
    intro i ref s
    simp only [iterate]
    split <;> simp
  | succ k ih =>
    intro i ref s
    have e1 : ∀ x, assembly sys (newtonProblem env cfg sys true .standard) x = (sys.resJac x).map (fun a => (a.1, 0)) := by
      intro x
      show (sys.res x).map _ = _
      rw [hc x]
      rcases sys.resJac x with e | ⟨r, J⟩ <;> rfl
    have e2 : ∀ x, assembly sys (newtonProblem env' cfg' sys false .standard) x = sys.resJac x := fun x => rfl
    have eq1 : sys.query s.x (newtonProblem (p := p) env cfg sys true .standard).withJ = dropJ (sys.query s.x (newtonProblem (p := p) env' cfg' sys false .standard).withJ) := (dropJ_query hc s.x).symm
    simp only [iterate]
    rw [e1, e2, eq1]
    rcases hres : sys.resJac s.x with e | ⟨r, J⟩
    · simp only [Except.map]
      rcases assemblyText e with _ | t <;> exact ⟨rfl, rfl, rfl, rfl, rfl⟩
    · simp only [Except.map]
      have ec : (newtonProblem env cfg sys true .standard).corr s.x r 0 s.damp (s.c, s.QTr, s.lin) = (newtonProblem env' cfg' sys false .standard).corr s.x r J s.damp (s.c, s.QTr, s.lin) :=
        by simpa [newtonProblem] using hcorr s.x r J hres (s.c, s.QTr, s.lin)
      rw [ec]
      rcases (newtonProblem env' cfg' sys false .standard).corr s.x r J s.damp (s.c, s.QTr, s.lin) with ⟨⟨⟩, c, b, l⟩ | ⟨h, c, b, l⟩
      · simp only []
        have en : (newtonProblem env cfg sys true .standard).norms r 0 c = (newtonProblem env' cfg' sys false .standard).norms r J c := by
          show (⟨env.normM r, env.normN c, 0, 0⟩ : Norms K) = ⟨env'.normM r, env'.normN c, 0, 0⟩
          rw [hm, hn]
        rw [en]
        generalize (newtonProblem env' cfg' sys false .standard).norms r J c = now
        have et : (newtonProblem env cfg sys true .standard).test i (ref.getD now) now = (newtonProblem env' cfg' sys false .standard).test i (ref.getD now) now := by
          show (if rootCriterion cfg.stop then _ else _) = (if rootCriterion cfg'.stop then _ else _)
          rw [hstop, htol]
        have eno : (newtonProblem env cfg sys true .standard).note i (ref.getD now) now = (newtonProblem env' cfg' sys false .standard).note i (ref.getD now) now := by
          show (if cfg.maxIters ≤ i ∧ below cfg.stop cfg.tol _ _ = false then _ else _) = (if cfg'.maxIters ≤ i ∧ below cfg'.stop cfg'.tol _ _ = false then _ else _)
          rw [hstop, htol, hmax]
        rw [et, eno]
        rcases (newtonProblem env' cfg' sys false .standard).test i (ref.getD now) now with e | _ | _
        · exact ⟨rfl, rfl, rfl, rfl, rfl⟩
        · obtain ⟨a1, a2, a3, a4, a5⟩ := ih (i + 1) (some (ref.getD now)) { s with x := s.x + c, c := c, QTr := b, lin := l }
          refine ⟨a1, a2, ?_, ?_, ?_⟩
          · show _ ++ _ = _ ++ _
            rw [a3]
          · show _ = List.map dropJ (_ ++ _)
            rw [List.map_append]
            exact congrArg₂ (· ++ ·) rfl a4
          · show (if k = 0 then _ else _) = (if k = 0 then _ else _)
            rw [a5]
        · exact ⟨rfl, rfl, rfl, rfl, rfl⟩
      · exact ⟨rfl, rfl, rfl, rfl, rfl⟩

end Pressio.Lemmas.Nonlinear

namespace Pressio.Lemmas.NewtonConvergence
set_option autoImplicit false
open Matrix Pressio.Spec.NewtonConvergence

variable {E n : Type} [NormedAddCommGroup E] [NormedSpace ℝ E] [Fintype n] [DecidableEq n]
variable {ι : (n → ℝ) →ₗ[ℝ] E} {r : (n → ℝ) → n → ℝ} {J : (n → ℝ) → Matrix n n ℝ} {x' : n → ℝ} {β Λ γ ρ : ℝ} (H : RegularRoot ι r J x' β Λ γ ρ)
include H

/-- error and residual near the root -/
theorem _root_.Pressio.Spec.NewtonConvergence.RegularRoot.error_residual (hι : Function.Injective ι) (x : n → ℝ) (hx : ‖ι (x - x')‖ ≤ ρ) :
    ‖ι (x - x')‖ ≤ 4 / 3 * β * ‖ι (r x)‖ ∧ ‖ι (r x)‖ ≤ 5 / 4 * Λ * ‖ι (x - x')‖ := by
  have hu := H.unit_near hι x hx
  have hd : J x *ᵥ ((J x)⁻¹ *ᵥ r x) = r x := by
    rw [Matrix.mulVec_mulVec, Matrix.mul_nonsing_inv _ hu, Matrix.one_mulVec]
  exact (H.measures hι x _ hx hd).2.2.2

theorem _root_.Pressio.Spec.NewtonConvergence.RegularRoot.bound_near (x : n → ℝ) (hx : ‖ι (x - x')‖ ≤ ρ) (v : n → ℝ) : ‖ι (J x *ᵥ v)‖ ≤ (Λ + γ * ρ) * ‖ι v‖ := by
  have h0 : 0 ≤ ρ := (norm_nonneg _).trans hx
  have h2 := H.lip x x' v hx (by simpa using h0)
  have h3 : ‖ι (J x *ᵥ v)‖ ≤ ‖ι (J x *ᵥ v - J x' *ᵥ v)‖ + ‖ι (J x' *ᵥ v)‖ := by
    have : ι (J x *ᵥ v) = ι (J x *ᵥ v - J x' *ᵥ v) + ι (J x' *ᵥ v) := by rw [← map_add, sub_add_cancel]
    rw [this]; exact norm_add_le _ _
  have h4 : γ * ‖ι (x - x')‖ * ‖ι v‖ ≤ γ * ρ * ‖ι v‖ := by
    have := H.γ0
    gcongr
  have := H.bound v
  linarith

/-- one inexact step -/
theorem _root_.Pressio.Spec.NewtonConvergence.RegularRoot.inexact_step (hι : Function.Injective ι) (η : ℝ) (h0 : 0 ≤ η) (h1 : η < 1) (x d : n → ℝ) (hx : ‖ι (x - x')‖ ≤ ρ)
    (hsmall : 16 / 3 * β * ‖ι (r x)‖ ≤ ρ) (hd : ‖ι (r x - J x *ᵥ d)‖ ≤ η * ‖ι (r x)‖) :
    ‖ι (x - d - x')‖ ≤ ρ ∧ ‖ι (r (x - d))‖ ≤ (η + 8 * γ * β ^ 2 * ‖ι (r x)‖) * ‖ι (r x)‖ ∧ ‖ι d‖ ≤ 4 * β * ‖ι (r x)‖ ∧ (1 - η) * ‖ι (r x)‖ ≤ (Λ + γ * ρ) * ‖ι d‖ := by
  have hb := H.β0
  have hg := H.γ0
  have hr := norm_nonneg (ι (r x))
  have hJd : ‖ι (J x *ᵥ d)‖ ≤ (1 + η) * ‖ι (r x)‖ := by
    have : ι (J x *ᵥ d) = ι (r x) - ι (r x - J x *ᵥ d) := by rw [← map_sub]; congr 1; abel
    have h2 : ‖ι (J x *ᵥ d)‖ ≤ ‖ι (r x)‖ + ‖ι (r x - J x *ᵥ d)‖ := by rw [this]; exact norm_sub_le _ _
    linarith
  have hJd' : (1 - η) * ‖ι (r x)‖ ≤ ‖ι (J x *ᵥ d)‖ := by
    have : ι (r x) = ι (J x *ᵥ d) + ι (r x - J x *ᵥ d) := by rw [← map_add]; congr 1; abel
    have h2 : ‖ι (r x)‖ ≤ ‖ι (J x *ᵥ d)‖ + ‖ι (r x - J x *ᵥ d)‖ := by
      conv_lhs => rw [this]
      exact norm_add_le _ _
    linarith
  have hdn : ‖ι d‖ ≤ 4 * β * ‖ι (r x)‖ := by
    refine (H.inv_near x hx d).trans ?_
    calc 2 * β * ‖ι (J x *ᵥ d)‖ ≤ 2 * β * ((1 + η) * ‖ι (r x)‖) := by gcongr
      _ ≤ 2 * β * (2 * ‖ι (r x)‖) := by gcongr; linarith
      _ = _ := by ring
  have her := (H.error_residual hι x hx).1
  have hin : ‖ι (x - d - x')‖ ≤ ρ := by
    have : ι (x - d - x') = ι (x - x') - ι d := by rw [← map_sub]; congr 1; abel
    rw [this]
    have := norm_sub_le (ι (x - x')) (ι d)
    nlinarith
  refine ⟨hin, ?_, hdn, hJd'.trans (H.bound_near x hx d)⟩
  have hseg : ∀ s ∈ Set.Icc (0:ℝ) 1, ‖ι (x + s • (-d) - x')‖ ≤ ρ := by
    intro s hs
    have : x + s • (-d) - x' = (1 - s) • (x - x') + s • (x - d - x') := by module
    rw [this, map_add, map_smul, map_smul]
    refine (norm_add_le _ _).trans ?_
    rw [norm_smul, norm_smul, Real.norm_eq_abs, Real.norm_eq_abs, abs_of_nonneg hs.1, abs_of_nonneg (by linarith [hs.2])]
    have a1 : (1 - s) * ‖ι (x - x')‖ ≤ (1 - s) * ρ := mul_le_mul_of_nonneg_left hx (by linarith [hs.2])
    have a2 : s * ‖ι (x - d - x')‖ ≤ s * ρ := mul_le_mul_of_nonneg_left hin hs.1
    linarith
  have ht := taylor_jac (ι := ι) (γ := γ) x (-d) (fun s hs => H.jac _ (hseg s hs)) (fun s hs => by
    have := H.lip (x + s • (-d)) x (-d) (hseg s hs) hx
    simpa using this)
  rw [← sub_eq_add_neg, map_neg, norm_neg, Matrix.mulVec_neg] at ht
  have hsum : ι (r (x - d)) = ι (r (x - d) - r x - -(J x *ᵥ d)) + ι (r x - J x *ᵥ d) := by rw [← map_add]; congr 1; abel
  have h3 : ‖ι (r (x - d))‖ ≤ γ / 2 * ‖ι d‖ ^ 2 + η * ‖ι (r x)‖ := by
    rw [hsum]; exact (norm_add_le _ _).trans (add_le_add ht hd)
  have h4 : γ / 2 * ‖ι d‖ ^ 2 ≤ γ / 2 * (4 * β * ‖ι (r x)‖) ^ 2 := by gcongr
  calc _ ≤ γ / 2 * (4 * β * ‖ι (r x)‖) ^ 2 + η * ‖ι (r x)‖ := h3.trans (by linarith)
    _ = _ := by ring

/-- the inexact iterates -/
theorem _root_.Pressio.Spec.NewtonConvergence.RegularRoot.inexact_iterates (hι : Function.Injective ι) (η q : ℝ) (h0 : 0 ≤ η) (h1 : η < 1) (N : (n → ℝ) → n → ℝ)
    (hN : ∀ x, ‖ι (x - x')‖ ≤ ρ → ∃ d, ‖ι (r x - J x *ᵥ d)‖ ≤ η * ‖ι (r x)‖ ∧ N x = x - d) (x0 : n → ℝ) (hx0 : ‖ι (x0 - x')‖ ≤ ρ) (hsmall : 16 / 3 * β * ‖ι (r x0)‖ ≤ ρ)
    (hq : η + 8 * γ * β ^ 2 * ‖ι (r x0)‖ ≤ q) (hq1 : q ≤ 1) (k : Nat) :
    ‖ι (N^[k] x0 - x')‖ ≤ ρ ∧ ‖ι (r (N^[k] x0))‖ ≤ ‖ι (r x0)‖ * q ^ k ∧ ‖ι (r (N^[k + 1] x0))‖ ≤ q * ‖ι (r (N^[k] x0))‖ := by
  have hb := H.β0
  have hg := H.γ0
  have hq0 : 0 ≤ q := le_trans (by positivity) hq
  have key : ∀ x, ‖ι (x - x')‖ ≤ ρ → ‖ι (r x)‖ ≤ ‖ι (r x0)‖ → ‖ι (N x - x')‖ ≤ ρ ∧ ‖ι (r (N x))‖ ≤ q * ‖ι (r x)‖ := by
    intro x hx hrx
    obtain ⟨d, hd, hNx⟩ := hN x hx
    obtain ⟨a1, a2, -, -⟩ := H.inexact_step hι η h0 h1 x d hx (le_trans (by gcongr) hsmall) hd
    rw [hNx]
    refine ⟨a1, a2.trans ?_⟩
    gcongr
    refine le_trans ?_ hq
    gcongr
  have main : ‖ι (N^[k] x0 - x')‖ ≤ ρ ∧ ‖ι (r (N^[k] x0))‖ ≤ ‖ι (r x0)‖ * q ^ k := by
    induction k with
    | zero => simpa using hx0
    | succ k ih =>
      rw [Function.iterate_succ_apply']
      have hle : ‖ι (r (N^[k] x0))‖ ≤ ‖ι (r x0)‖ := ih.2.trans (mul_le_of_le_one_right (norm_nonneg _) (pow_le_one₀ hq0 hq1))
      obtain ⟨b1, b2⟩ := key _ ih.1 hle
      refine ⟨b1, b2.trans ?_⟩
      calc q * ‖ι (r (N^[k] x0))‖ ≤ q * (‖ι (r x0)‖ * q ^ k) := by gcongr; exact ih.2
        _ = _ := by ring
  refine ⟨main.1, main.2, ?_⟩
  rw [Function.iterate_succ_apply']
  exact (key _ main.1 (main.2.trans (mul_le_of_le_one_right (norm_nonneg _) (pow_le_one₀ hq0 hq1)))).2

end Pressio.Lemmas.NewtonConvergence
