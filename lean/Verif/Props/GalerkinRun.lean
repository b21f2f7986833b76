import Verif.Props.Galerkin
import Verif.Props.Implicit
import Verif.Props.ExplicitMM
import Mathlib.LinearAlgebra.Matrix.NonsingularInverse

/-
  Whole runs of Galerkin problems: C50 (implicit), C51 (explicit).
-/
namespace Pressio.Props
set_option autoImplicit false
open Pressio Pressio.Model.Galerkin Pressio.Spec.Galerkin Pressio.Spec.Implicit
open Pressio.Model.Explicit (Scheme)
open Pressio.Lemmas.Implicit
open scoped Matrix

set_option linter.unusedSectionVars false

/-! ### C50 -/
section
variable {K m q n : Type} [Field K] [Fintype m] [Fintype q] [Fintype n] [DecidableEq m] [DecidableEq n]
variable {F : Fom K m m n} {f : (m → K) → K → Except Exc (m → K)} {Df Mm : (m → K) → K → Except Exc (Matrix m m K)}

/-- the Galerkin system seen by an implicit stepper is the projection of the FOM at the lifted state -/
theorem galerkin_eval (hF : FomIs F f Df Mm) (S : Trial K m n) (s0 : GSt K m m q n) (x : n → K) (t : K) (w : Bool) :
    ((asISystem (defaultRhsJac S F) s0).eval x t w).mapError Prod.fst
      = (((fomSystem f Df).eval (lift S x) t w).mapError Prod.fst).map (project S) := by
  have h := C49_default_rhs_jacobian hF S x t w s0
  unfold asISystem fomSystem project
  unfold reduced at h
  rcases hf : f (lift S x) t with e | v
  · rw [hf] at h
    obtain ⟨s, hs⟩ := h
    simp [hs, excOf, Except.map, Except.mapError, hf]
  · rw [hf] at h
    cases w with
    | false =>
      obtain ⟨s, hs, hv⟩ := h
      simp only [Prod.mk.injEq] at hv
      simp [hs, hv.1, Except.map, Except.mapError, hf]
    | true =>
      rcases hD : Df (lift S x) t with e | D
      · rw [hD] at h
        obtain ⟨s, hs⟩ := h
        simp [hs, excOf, Except.map, Except.mapError, hf, hD]
      · rw [hD] at h
        obtain ⟨s, hs, hv⟩ := h
        simp only [Prod.mk.injEq] at hv
        simp [hs, hv.1, hv.2.1, Except.map, Except.mapError, hf, hD, Matrix.mul_assoc]

/-- the same with mass matrix -/
theorem galerkin_eval_mm (hF : FomIs F f Df Mm) (S : Trial K m n) (s0 : GSt K m m q n) (x : n → K) (t : K) (w : Bool) :
    ((asIMMSystem (defaultMMRhsJac S F) s0).eval x t w).mapError Prod.fst
      = (((fomSystemMM f Df Mm).eval (lift S x) t w).mapError Prod.fst).map (fun a => (S.basisᵀ * a.1 * S.basis, project S a.2)) := by
  have h := C49_default_mass_matrix_rhs_jacobian hF S x t w s0
  unfold asIMMSystem fomSystemMM project
  unfold reduced at h
  rcases hf : f (lift S x) t with e | v
  · rw [hf] at h
    obtain ⟨s, hs⟩ := h
    simp [hs, excOf, Except.map, Except.mapError, hf]
  rw [hf] at h
  rcases hM : Mm (lift S x) t with e | A
  · rw [hM] at h
    obtain ⟨s, hs⟩ := h
    simp [hs, excOf, Except.map, Except.mapError, hf, hM]
  rw [hM] at h
  cases w with
  | false =>
    obtain ⟨s, hs, hv⟩ := h
    simp only [Prod.mk.injEq] at hv
    simp [hs, hv.1, hv.2.2, Except.map, Except.mapError, hf, hM, Matrix.mul_assoc]
  | true =>
    rcases hD : Df (lift S x) t with e | D
    · rw [hD] at h
      obtain ⟨s, hs⟩ := h
      simp [hs, excOf, Except.map, Except.mapError, hf, hD, hM]
    · rw [hD] at h
      obtain ⟨s, hs, hv⟩ := h
      simp only [Prod.mk.injEq] at hv
      simp [hs, hv.1, hv.2.1, hv.2.2, Except.map, Except.mapError, hf, hD, hM, Matrix.mul_assoc]

/-- coordinates of a lifted state -/
theorem project_lift (S : Trial K m n) (hS : Orthonormal S) (x : n → K) :
    S.basisᵀ.mulVec (lift S x) = x + S.basisᵀ.mulVec (if S.isAffine then S.translation else 0) := by
  unfold lift
  rw [Matrix.mulVec_add, Matrix.mulVec_mulVec, show S.basisᵀ * S.basis = 1 from hS, Matrix.one_mulVec]

theorem lift_sub (S : Trial K m n) (x y : n → K) : lift S x - lift S y = S.basis.mulVec (x - y) := by
  unfold lift; rw [Matrix.mulVec_sub]; abel

variable [CharZero K]

theorem project_bdf1 (S : Trial K m n) (hS : Orthonormal S) (dt : K) (x y : n → K) (v : m → K) :
    S.basisᵀ.mulVec (bdf1Res dt (lift S x) (lift S y) v) = bdf1Res dt x y (S.basisᵀ.mulVec v) := by
  unfold bdf1Res
  rw [Matrix.mulVec_sub, Matrix.mulVec_sub, Matrix.mulVec_smul, project_lift S hS, project_lift S hS]
  abel

theorem project_bdf2 (S : Trial K m n) (hS : Orthonormal S) (dt : K) (x y z : n → K) (v : m → K) :
    S.basisᵀ.mulVec (bdf2Res dt (lift S x) (lift S y) (lift S z) v) = bdf2Res dt x y z (S.basisᵀ.mulVec v) := by
  unfold bdf2Res
  rw [Matrix.mulVec_sub, Matrix.mulVec_add, Matrix.mulVec_sub, Matrix.mulVec_smul, Matrix.mulVec_smul, Matrix.mulVec_smul, project_lift S hS, project_lift S hS, project_lift S hS]
  module

theorem project_cn (S : Trial K m n) (hS : Orthonormal S) (dt : K) (x y : n → K) (v w : m → K) :
    S.basisᵀ.mulVec (cnRes dt (lift S x) (lift S y) v w) = cnRes dt x y (S.basisᵀ.mulVec v) (S.basisᵀ.mulVec w) := by
  unfold cnRes
  rw [Matrix.mulVec_sub, Matrix.mulVec_sub, Matrix.mulVec_smul, Matrix.mulVec_add, project_lift S hS, project_lift S hS]
  abel

theorem project_jac (S : Trial K m n) (hS : Orthonormal S) (c : K) (D : Matrix m m K) :
    S.basisᵀ * (1 - c • D) * S.basis = 1 - c • (S.basisᵀ * D * S.basis) := by
  rw [Matrix.mul_sub, Matrix.sub_mul, Matrix.mul_one, show S.basisᵀ * S.basis = 1 from hS, Matrix.mul_smul, Matrix.smul_mul]

theorem galerkin_textbook (hF : FomIs F f Df Mm) (S : Trial K m n) (hS : Orthonormal S) (s0 : GSt K m m q n) (name : Scheme) (hist : List (n → K)) (t dt : K)
    (x : n → K) (w : Bool) :
    textbook name (asISystem (defaultRhsJac S F) s0) hist t dt x w
      = (textbook name (fomSystem f Df) (hist.map (lift S)) t dt (lift S x) w).map (project S) := by
  have h := galerkin_eval hF S s0 x (t + dt) w
  generalize hA : (asISystem (defaultRhsJac S F) s0).eval x (t + dt) w = A at h
  generalize hB : (fomSystem f Df).eval (lift S x) (t + dt) w = B at h
  rcases A with ⟨e, j⟩ | ⟨v, j⟩ <;> rcases B with ⟨e', j'⟩ | ⟨v', j'⟩ <;>
    simp only [Except.mapError, Except.map, reduceCtorEq, Except.error.injEq, Except.ok.injEq] at h
  · subst h
    cases name <;> rcases hist with _ | ⟨yn, _ | ⟨ynm1, hist⟩⟩ <;> try rfl
    all_goals simp only [textbook, List.map, hA, hB]
    all_goals try rfl
    all_goals
      have h2 := galerkin_eval hF S s0 yn t false
      generalize (asISystem (defaultRhsJac S F) s0).eval yn t false = A2 at h2
      generalize (fomSystem f Df).eval (lift S yn) t false = B2 at h2
      rcases A2 with ⟨e2, j2⟩ | ⟨v2, j2⟩ <;> rcases B2 with ⟨e2', j2'⟩ | ⟨v2', j2'⟩ <;>
        simp only [Except.mapError, Except.map, reduceCtorEq, Except.error.injEq, Except.ok.injEq] at h2 ⊢
      exact h2
  · obtain ⟨rfl, rfl⟩ : v = S.basisᵀ.mulVec v' ∧ j = j'.map (fun J => S.basisᵀ * J * S.basis) := by
      simpa [project] using h
    cases name <;> rcases hist with _ | ⟨yn, _ | ⟨ynm1, hist⟩⟩ <;> try rfl
    all_goals simp only [textbook, List.map, hA, hB]
    · simp [Except.map, project, project_bdf1 S hS, Option.map_map, Function.comp_def, bdf1Jac, project_jac S hS]
    · simp [Except.map, project, project_bdf1 S hS, Option.map_map, Function.comp_def, bdf1Jac, project_jac S hS]
    · simp [Except.map, project, project_bdf1 S hS, Option.map_map, Function.comp_def, bdf1Jac, project_jac S hS]
    · simp [Except.map, project, project_bdf2 S hS, Option.map_map, Function.comp_def, bdf2Jac, project_jac S hS]
    all_goals
      have h2 := galerkin_eval hF S s0 yn t false
      generalize (asISystem (defaultRhsJac S F) s0).eval yn t false = A2 at h2
      generalize (fomSystem f Df).eval (lift S yn) t false = B2 at h2
      rcases A2 with ⟨e2, j2⟩ | ⟨v2, j2⟩ <;> rcases B2 with ⟨e2', j2'⟩ | ⟨v2', j2'⟩ <;>
        simp only [Except.mapError, Except.map, reduceCtorEq, Except.error.injEq, Except.ok.injEq] at h2 ⊢
      · exact h2
      · obtain ⟨rfl, -⟩ : v2 = S.basisᵀ.mulVec v2' ∧ j2 = j2'.map (fun J => S.basisᵀ * J * S.basis) := by
          simpa [project] using h2
        simp [project, project_cn S hS, Option.map_map, Function.comp_def, cnJac, project_jac S hS]

theorem galerkin_textbook_mm (hF : FomIs F f Df Mm) (S : Trial K m n) (s0 : GSt K m m q n) (name : Scheme) (hist : List (n → K)) (t dt : K)
    (x : n → K) (w : Bool) :
    textbookMM Matrix.mulVec id name (asIMMSystem (defaultMMRhsJac S F) s0) hist t dt x w
      = (textbookMM Matrix.mulVec id name (fomSystemMM f Df Mm) (hist.map (lift S)) t dt (lift S x) w).map (project S) := by
  have h := galerkin_eval_mm hF S s0 x (t + dt) w
  generalize hA : (asIMMSystem (defaultMMRhsJac S F) s0).eval x (t + dt) w = A at h
  generalize hB : (fomSystemMM f Df Mm).eval (lift S x) (t + dt) w = B at h
  rcases A with ⟨e, j⟩ | ⟨M, v, j⟩ <;> rcases B with ⟨e', j'⟩ | ⟨M', v', j'⟩ <;>
    simp only [Except.mapError, Except.map, reduceCtorEq, Except.error.injEq, Except.ok.injEq] at h
  · subst h
    cases name <;> rcases hist with _ | ⟨yn, _ | ⟨ynm1, hist⟩⟩ <;> try rfl
    all_goals simp only [textbookMM, List.map, hA, hB]; rfl
  · obtain ⟨rfl, rfl, rfl⟩ : M = S.basisᵀ * M' * S.basis ∧ v = S.basisᵀ.mulVec v' ∧ j = j'.map (fun J => S.basisᵀ * J * S.basis) := by
      simpa [project] using h
    have hj : ∀ c : K, ∀ D : Matrix m m K, S.basisᵀ * (M' - c • D) * S.basis = S.basisᵀ * M' * S.basis - c • (S.basisᵀ * D * S.basis) := by
      intro c D
      rw [Matrix.mul_sub, Matrix.sub_mul, Matrix.mul_smul, Matrix.smul_mul]
    have hr : ∀ (c : K) (z : n → K), S.basisᵀ.mulVec (M'.mulVec (S.basis.mulVec z) - c • v') = (S.basisᵀ * M' * S.basis).mulVec z - c • S.basisᵀ.mulVec v' := by
      intro c z
      rw [Matrix.mulVec_sub, Matrix.mulVec_smul, Matrix.mulVec_mulVec, Matrix.mulVec_mulVec, Matrix.mul_assoc]
    have h2 : ∀ y z : n → K, lift S x - ((4:K)/3) • lift S y + ((1:K)/3) • lift S z = S.basis.mulVec (x - ((4:K)/3) • y + ((1:K)/3) • z) := by
      intro y z
      unfold lift
      rw [Matrix.mulVec_add, Matrix.mulVec_sub, Matrix.mulVec_smul, Matrix.mulVec_smul]
      module
    cases name <;> rcases hist with _ | ⟨yn, _ | ⟨ynm1, hist⟩⟩ <;> try rfl
    all_goals simp only [textbookMM, List.map, hA, hB, lift_sub, h2]
    all_goals simp only [Except.map, project, hr, id, Option.map_map, Function.comp_def, hj]

/-- The FOM throws no `TimeStepFailure` -/
def FomNoTSF (f : (m → K) → K → Except Exc (m → K)) (Df : (m → K) → K → Except Exc (Matrix m m K)) : Prop :=
  (∀ y t, f y t ≠ .error .timeStepFailure) ∧ (∀ y t, Df y t ≠ .error .timeStepFailure)

theorem galerkin_noTSF (hF : FomIs F f Df Mm) (hn : FomNoTSF f Df) (S : Trial K m n) (s0 : GSt K m m q n) : NoTSF (asISystem (defaultRhsJac S F) s0) := by
  intro x t w e junk h he
  have hg := galerkin_eval hF S s0 x t w
  subst he
  rw [h] at hg
  unfold fomSystem at hg
  simp only [Except.mapError] at hg
  rcases hf : f (lift S x) t with e | v
  · simp only [hf, Except.map, Except.error.injEq] at hg
    exact hn.1 _ _ (by rw [hf, hg])
  · cases w
    · simp [hf, Except.map] at hg
    · rcases hD : Df (lift S x) t with e | D
      · simp only [hf, hD, Except.map, if_true, Except.error.injEq] at hg
        exact hn.2 _ _ (by rw [hD, hg])
      · simp [hf, hD, Except.map] at hg

theorem galerkin_noTSFMM (hF : FomIs F f Df Mm) (hn : FomNoTSF f Df) (hn' : ∀ y t, Mm y t ≠ .error .timeStepFailure) (S : Trial K m n) (s0 : GSt K m m q n) :
    NoTSFMM (asIMMSystem (defaultMMRhsJac S F) s0) := by
  intro x t w e junk h he
  have hg := galerkin_eval_mm hF S s0 x t w
  subst he
  rw [h] at hg
  unfold fomSystemMM at hg
  simp only [Except.mapError] at hg
  rcases hf : f (lift S x) t with e | v
  · simp only [hf, Except.map, Except.error.injEq] at hg
    exact hn.1 _ _ (by rw [hf, hg])
  rcases hM : Mm (lift S x) t with e | A
  · simp only [hf, hM, Except.map, Except.error.injEq] at hg
    exact hn' _ _ (by rw [hM, hg])
  cases w
  · simp [hf, hM, Except.map] at hg
  · rcases hD : Df (lift S x) t with e | D
    · simp only [hf, hM, hD, Except.map, if_true, Except.error.injEq] at hg
      exact hn.2 _ _ (by rw [hD, hg])
    · simp [hf, hM, hD, Except.map] at hg

/-- **C50.** The implicit Galerkin problem without mass matrix, on a trial space with orthonormal basis (linear or affine).  In every run of its stepper
    (BDF1, BDF2, CrankNicolson; any list of attempts, also failing ones), every evaluation the nonlinear solver makes at reduced state `x` answers with the Galerkin projection `(Phi^T R, Phi^T J Phi)` of the textbook residual and
    Jacobian of the FOM at `Phi x + s`, for the lifted accepted states; or with the exception that evaluation of the FOM throws. -/
theorem C50_projection_of_discretisation (hF : FomIs F f Df Mm) (hn : FomNoTSF f Df) (S : Trial K m n) (hS : Orthonormal S) (s0 : GSt K m m q n) (name : Scheme)
    (mem : Model.Implicit.SMem K (n → K) (n → K) Model.Implicit.PMem) (hmem : Ready name mem)
    (atts : List (Attempt K (n → K) ((n → K) × Option (Matrix n n K)))) (hon : ∀ a ∈ atts, ∀ y, Honest (a.solver y)) (t0 : K) (x0 : n → K)
    (pre post : List (Record K (n → K) ((n → K) × Option (Matrix n n K)))) (r : Record K (n → K) ((n → K) × Option (Matrix n n K)))
    (h : drive (stdStep name (asISystem (defaultRhsJac S F) s0)) atts t0 [x0] x0 mem = pre ++ r :: post) :
    ∀ q ∈ r.queries, q.ans = (textbook name (fomSystem f Df) ((accepted x0 pre).map (lift S)) (timeAfter t0 pre) r.dt (lift S q.x) q.wantJ).map (project S) := by
  intro q hq
  rw [(C19_every_evaluation name _ (galerkin_noTSF hF hn S s0) mem hmem atts hon t0 x0 pre post r h).2.2 q hq, galerkin_textbook hF S hS]

/-- **C50, mass matrix.** With the reduced mass matrix the same holds for every basis. -/
theorem C50_projection_with_mass_matrix (hF : FomIs F f Df Mm) (hn : FomNoTSF f Df) (hn' : ∀ y t, Mm y t ≠ .error .timeStepFailure) (S : Trial K m n) (s0 : GSt K m m q n) (name : Scheme)
    (mem : Model.Implicit.SMem K (n → K) (n → K) (Model.Implicit.MMMem (n → K) (Matrix n n K))) (hmem : ReadyMM name mem)
    (atts : List (Attempt K (n → K) ((n → K) × Option (Matrix n n K)))) (hon : ∀ a ∈ atts, ∀ y, Honest (a.solver y)) (t0 : K) (x0 : n → K)
    (pre post : List (Record K (n → K) ((n → K) × Option (Matrix n n K)))) (r : Record K (n → K) ((n → K) × Option (Matrix n n K)))
    (h : drive (mmStep Matrix.mulVec id name (asIMMSystem (defaultMMRhsJac S F) s0)) atts t0 [x0] x0 mem = pre ++ r :: post) :
    ∀ q ∈ r.queries, q.ans
      = (textbookMM Matrix.mulVec id name (fomSystemMM f Df Mm) ((accepted x0 pre).map (lift S)) (timeAfter t0 pre) r.dt (lift S q.x) q.wantJ).map (project S) := by
  intro q hq
  obtain ⟨h1, h2⟩ := drive_split _ _ _ _ _ _ _ _ _ h
  have h1' : r.hist = accepted x0 pre := h1
  rw [C26_run_is_ideal Matrix.mulVec id name _ (galerkin_noTSFMM hF hn hn' S s0) mem hmem atts hon] at h
  obtain ⟨b, -, yn', pv, -, -, e, -⟩ := ideal_record _ _ _ _ _ r (by rw [h]; simp)
  rw [e] at hq
  have ha := outcome_query _ _ q hq
  rw [h1', h2] at ha
  rw [ha, galerkin_textbook_mm hF S]

end

/-! ### C51 -/
section
open Pressio.Model.Advance Pressio.Model.Explicit Pressio.Spec.Explicit Pressio.Spec.Run Pressio.Lemmas.Run Pressio.Spec.AdvanceTarget Pressio.Spec.ExplicitMM
open Pressio.Model.ExplicitMM (MMSystem LinSolve asStepperMM numX)

section Generic
variable {K X V : Type} [Field K] [AddCommGroup X] [Module K X] [AddCommGroup V] [Module K V]
variable (Φ : X →ₗ[K] V) (c : V) (f : V → K → V) (g : X → K → X) (hfg : ∀ x t, f (Φ x + c) t = Φ (g x t))
include hfg

omit hfg in
theorem sumBelow_map (u : Nat → X) : ∀ i, sumBelow (fun j => Φ (u j)) i = Φ (sumBelow u i)
  | 0 => by simp [sumBelow]
  | i+1 => by simp [sumBelow, sumBelow_map u i]

omit hfg in
theorem getD_map_zero (l : List X) (j : Nat) : (l.map Φ).getD j 0 = Φ (l.getD j 0) := by
  simp only [List.getD_eq_getElem?_getD, List.getElem?_map]
  cases l[j]? <;> simp

theorem stages_lift (tab : Tableau K) (x : X) (t h : K) : ∀ i, stages tab f (Φ x + c) t h i = (stages tab g x t h i).map Φ
  | 0 => rfl
  | i+1 => by
    have hs : sumBelow (fun j => tab.a i j • ((stages tab g x t h i).map Φ).getD j 0) i
        = Φ (sumBelow (fun j => tab.a i j • (stages tab g x t h i).getD j 0) i) := by
      rw [← sumBelow_map]
      congr 1; funext j
      rw [getD_map_zero, map_smul]
    simp only [stages, stages_lift tab x t h i, List.map_append, List.map_cons, List.map_nil, hs]
    rw [← hfg, map_add, map_smul, add_right_comm]

theorem rkStep_lift (tab : Tableau K) (x : X) (t h : K) : rkStep tab f (Φ x + c) t h = Φ (rkStep tab g x t h) + c := by
  have hs : sumBelow (fun i => tab.b i • ((stages tab g x t h tab.s).map Φ).getD i 0) tab.s
      = Φ (sumBelow (fun i => tab.b i • (stages tab g x t h tab.s).getD i 0) tab.s) := by
    rw [← sumBelow_map]
    congr 1; funext j
    rw [getD_map_zero, map_smul]
  unfold rkStep
  rw [stages_lift Φ c f g hfg, hs, map_add, map_smul, add_right_comm]

theorem oneStepSeq_lift (tab : Tableau K) (x : X) (t h : Nat → K) : ∀ k, oneStepSeq (rkStep tab f) (Φ x + c) t h k = Φ (oneStepSeq (rkStep tab g) x t h k) + c
  | 0 => rfl
  | k+1 => by rw [oneStepSeq, oneStepSeq, oneStepSeq_lift tab x t h k, rkStep_lift Φ c f g hfg]

theorem ab2_lift (x : X) (t h : Nat → K) : ∀ k, ab2 f (Φ x + c) t h k = Φ (ab2 g x t h k) + c
  | 0 => rfl
  | 1 => by rw [ab2, ab2, hfg, map_add, map_smul, add_right_comm]
  | k+2 => by
    rw [ab2, ab2, ab2_lift x t h k, ab2_lift x t h (k+1), hfg, hfg, map_add, map_smul, map_sub, map_smul, map_smul, add_right_comm]

variable [CharZero K]

/-- runs of a stepper on `f` and on `g` -/
theorem run_lift (sf : System K V) (hsf : Computes sf f) (sg : System K X) (hsg : Computes sg g)
    (scheme : Scheme) (hsch : scheme.isExplicit = true)
    (pol : Int → K → K → K) (start : K) (N : Nat) (hN : (N : Int) < int32Max) (x0 : X)
    (m : EMem K X) (hlen : m.1.length = numRhs scheme) (m' : EMem K V) (hlen' : m'.1.length = numRhs scheme) :
    ∃ a b, run 0 pol (asStepper sg scheme dummyObserver) N start x0 m = .ok () a ∧
      run 0 pol (asStepper sf scheme dummyObserver) N start (Φ x0 + c) m' = .ok () b ∧
      b.y = Φ a.y + c ∧ observations b.log = (observations a.log).map (fun o => (o.1, o.2.1, Φ o.2.2 + c)) := by
  rcases htab : (tableauOf scheme : Option (Tableau K)) with _ | tab
  · obtain rfl : scheme = .AdamsBashforth2 := by
      cases scheme <;> simp_all [tableauOf, Scheme.isExplicit]
    obtain ⟨a, a1, -, a2, a3⟩ := C14_adams_bashforth_run sg g hsg dummyObserver (fun _ => rfl) pol start N hN x0 m hlen
    obtain ⟨b, b1, -, b2, b3⟩ := C14_adams_bashforth_run sf f hsf dummyObserver (fun _ => rfl) pol start N hN (Φ x0 + c) m' hlen'
    refine ⟨a, b, a1, b1, by rw [a2, b2, ab2_lift Φ c f g hfg], ?_⟩
    rw [a3, b3, List.map_map]
    congr 1; funext k
    simp only [Function.comp, ab2_lift Φ c f g hfg]
  · obtain ⟨a, a1, -, a2, a3⟩ := C13_runge_kutta_run sg g hsg scheme tab htab dummyObserver (fun _ => rfl) pol start N hN x0 m hlen
    obtain ⟨b, b1, -, b2, b3⟩ := C13_runge_kutta_run sf f hsf scheme tab htab dummyObserver (fun _ => rfl) pol start N hN (Φ x0 + c) m' hlen'
    refine ⟨a, b, a1, b1, by rw [a2, b2, oneStepSeq_lift Φ c f g hfg], ?_⟩
    rw [a3, b3, List.map_map]
    congr 1; funext k
    simp only [Function.comp, oneStepSeq_lift Φ c f g hfg]

end Generic

variable {K m q n : Type} [Field K] [CharZero K] [Fintype m] [Fintype q] [Fintype n] [DecidableEq m] [DecidableEq n]

/-- the FOM object itself, given to an explicit stepper -/
def fomAsSystem (F : Fom K m m n) : System K (m → K) where
  rhs := fun y t => call id (fun _ v => v) (F.rhs y t)

theorem lift_eq (S : Trial K m n) (x : n → K) : lift S x = Matrix.mulVecLin S.basis x + if S.isAffine then S.translation else 0 := rfl

theorem galerkin_computes {F : Fom K m m n} {f : (m → K) → K → m → K} {Df Mm : (m → K) → K → Except Exc (Matrix m m K)}
    (hF : FomIs F (fun y t => .ok (f y t)) Df Mm) (S : Trial K m n) (s0 : GSt K m m q n) :
    Computes (asSystem (defaultRhs S F) s0) (fun x t => S.basisᵀ.mulVec (f (lift S x) t)) := by
  intro x t b
  obtain ⟨s, hs, hv⟩ := C49_default_rhs hF S x t { s0 with r := b }
  simp only [Prod.mk.injEq] at hv
  unfold asSystem
  simp only [hs, hv.1]

theorem fom_computes {F : Fom K m m n} {f : (m → K) → K → m → K} {Df Mm : (m → K) → K → Except Exc (Matrix m m K)}
    (hF : FomIs F (fun y t => .ok (f y t)) Df Mm) : Computes (fomAsSystem F) f := by
  intro y t b
  exact call_ok id (fun _ v => v) _ _ (hF.rhs y t) b

/-- **C51.** Explicit Galerkin problem on a (linear or affine) trial space with orthonormal basis, FOM whose right-hand side on the trial space lies in the range of the basis.
    For each explicit scheme, every step-size policy, every number of steps, whatever the storages and buffers contain: the run of the FOM from the lifted initial state observes, at the same times,
    exactly the reconstructions of the states the Galerkin run observes, and ends in the reconstruction of its final state. -/
theorem C51_exact_on_invariant_subspace {F : Fom K m m n} {f : (m → K) → K → m → K} {Df Mm : (m → K) → K → Except Exc (Matrix m m K)}
    (hF : FomIs F (fun y t => .ok (f y t)) Df Mm) (S : Trial K m n) (hS : Orthonormal S) (hinv : ∀ x t, ∃ z, f (lift S x) t = S.basis.mulVec z)
    (s0 : GSt K m m q n) (scheme : Scheme) (hsch : scheme.isExplicit = true)
    (pol : Int → K → K → K) (start : K) (N : Nat) (hN : (N : Int) < int32Max) (x0 : n → K)
    (mem : EMem K (n → K)) (hlen : mem.1.length = numRhs scheme) (mem' : EMem K (m → K)) (hlen' : mem'.1.length = numRhs scheme) :
    ∃ a b, run 0 pol (asStepper (asSystem (defaultRhs S F) s0) scheme dummyObserver) N start x0 mem = .ok () a ∧
      run 0 pol (asStepper (fomAsSystem F) scheme dummyObserver) N start (lift S x0) mem' = .ok () b ∧
      b.y = lift S a.y ∧ observations b.log = (observations a.log).map (fun o => (o.1, o.2.1, lift S o.2.2)) := by
  refine run_lift (Matrix.mulVecLin S.basis) (if S.isAffine then S.translation else 0) f (fun x t => S.basisᵀ.mulVec (f (lift S x) t)) ?_ (fomAsSystem F) (fom_computes hF)
    (asSystem (defaultRhs S F) s0) (galerkin_computes hF S s0) scheme hsch pol start N hN x0 mem hlen mem' hlen'
  intro x t
  rw [← lift_eq]
  obtain ⟨z, hz⟩ := hinv x t
  rw [hz, Matrix.mulVec_mulVec, show S.basisᵀ * S.basis = 1 from hS, Matrix.one_mulVec]
  rfl

theorem galerkin_computes_mm {F : Fom K m m n} {f : (m → K) → K → m → K} {M : (m → K) → K → Matrix m m K} {Df : (m → K) → K → Except Exc (Matrix m m K)}
    (hF : FomIs F (fun y t => .ok (f y t)) Df (fun y t => .ok (M y t))) (S : Trial K m n) (s0 : GSt K m m q n) :
    ComputesMM (asMMSystem (defaultMMRhs S F) s0) (fun x t => S.basisᵀ * (M (lift S x) t * S.basis)) (fun x t => S.basisᵀ.mulVec (f (lift S x) t)) := by
  intro x t b
  obtain ⟨s, hs, hv⟩ := C49_default_mass_matrix_rhs hF S x t { s0 with M := b.1, r := b.2 }
  simp only [Prod.mk.injEq] at hv
  unfold asMMSystem
  simp only [hs, hv.1, hv.2.2]

/-- **C51, mass matrix.** The same for problems with mass matrix, and without any assumption on the basis other than that the reduced mass matrix `Phi^T M Phi` is invertible: if the time derivative `M^{-1} f` of the FOM
    lies in the range of the basis at every point of the trial space, the run of the FOM (any system with that mass matrix and right-hand side) and of the Galerkin problem agree. The linear solvers solve `M x = f`. -/
theorem C51_exact_with_mass_matrix {F : Fom K m m n} {f : (m → K) → K → m → K} {M : (m → K) → K → Matrix m m K} {Df : (m → K) → K → Except Exc (Matrix m m K)}
    (hF : FomIs F (fun y t => .ok (f y t)) Df (fun y t => .ok (M y t))) (S : Trial K m n)
    (hred : ∀ x t, Function.Bijective (S.basisᵀ * (M (lift S x) t * S.basis)).mulVec) (hM : ∀ y t, Function.Bijective (M y t).mulVec)
    (hinv : ∀ x t, ∃ z, f (lift S x) t = (M (lift S x) t).mulVec (S.basis.mulVec z))
    (fom : MMSystem K (m → K) (Matrix m m K)) (hfom : ComputesMM fom M f)
    (lsR : LinSolve (n → K) (Matrix n n K)) (hlsR : SolvesMxf Matrix.mulVec lsR)
    (lsF : LinSolve (m → K) (Matrix m m K)) (hlsF : SolvesMxf Matrix.mulVec lsF)
    (s0 : GSt K m m q n) (scheme : Scheme) (hsch : scheme.isExplicit = true)
    (pol : Int → K → K → K) (start : K) (N : Nat) (hN : (N : Int) < int32Max) (x0 : n → K)
    (mem : MMem K (n → K) (Matrix n n K)) (hlen : mem.2.1.length = numX scheme) (mem' : MMem K (m → K) (Matrix m m K)) (hlen' : mem'.2.1.length = numX scheme) :
    ∃ a b, run 0 pol (asStepperMM (asMMSystem (defaultMMRhs S F) s0) lsR scheme dummyObserver) N start x0 mem = .ok () a ∧
      run 0 pol (asStepperMM fom lsF scheme dummyObserver) N start (lift S x0) mem' = .ok () b ∧
      b.y = lift S a.y ∧ observations b.log = (observations a.log).map (fun o => (o.1, o.2.1, lift S o.2.2)) := by
  choose g hg using hinv
  choose gF hgF using fun y t => (hM y t).2 (f y t)
  have e1 : ∀ x t, gF (lift S x) t = S.basis.mulVec (g x t) := fun x t => (hM _ t).1 (by rw [hgF, hg])
  let sg : System K (n → K) := ⟨fun x t _ => .ok () (g x t)⟩
  let sf : System K (m → K) := ⟨fun y t _ => .ok () (gF y t)⟩
  let e : EMem K (n → K) := (List.replicate (numRhs scheme) 0, 0, [])
  let e' : EMem K (m → K) := (List.replicate (numRhs scheme) 0, 0, [])
  obtain ⟨a, a', a1, a2, a3, a4⟩ := C17_mass_matrix_runs Matrix.mulVec _ lsR _ _ g (galerkin_computes_mm hF S s0) hlsR hred
    (by intro x t
        rw [hg, Matrix.mulVec_mulVec, Matrix.mulVec_mulVec, Matrix.mul_assoc]) scheme hsch sg (fun _ _ _ => rfl) pol start N hN x0 mem hlen e (by simp [e])
  obtain ⟨b, b', b1, b2, b3, b4⟩ := C17_mass_matrix_runs Matrix.mulVec fom lsF M f gF hfom hlsF hM hgF scheme hsch sf (fun _ _ _ => rfl) pol start N hN (lift S x0) mem' hlen' e' (by simp [e'])
  obtain ⟨c, d, c1, d1, cd1, cd2⟩ := run_lift (Matrix.mulVecLin S.basis) (if S.isAffine then S.translation else 0) gF g (fun x t => by rw [← lift_eq]; exact e1 x t) sf (fun _ _ _ => rfl)
    sg (fun _ _ _ => rfl) scheme hsch pol start N hN x0 e (by simp [e]) e' (by simp [e'])
  rw [a2] at c1; cases c1
  rw [← lift_eq, b2] at d1; cases d1
  refine ⟨a, b, a1, b1, ?_, ?_⟩
  · rw [b3, cd1, a3]; rfl
  · rw [b4, cd2, a4]; rfl

end
end Pressio.Props
