import Verif.Spec.QR
import Verif.Lemmas.QR
import Verif.Props.LeastSquares
import Mathlib.LinearAlgebra.Matrix.Block
import Mathlib.LinearAlgebra.Matrix.ToLinearEquiv
import Mathlib.LinearAlgebra.Matrix.NonsingularInverse
import Mathlib.Data.Real.Sqrt
import Mathlib.Tactic.FinCases

/-
  C68: the QR solvers that the QR variant of Gauss-Newton uses.
-/
namespace Pressio.Props
set_option autoImplicit false
set_option linter.unusedSectionVars false
open Pressio Matrix
open Pressio.Model.QR Pressio.Spec.QR Pressio.Lemmas.QR
open Pressio.Model.Nonlinear (Env Cfg Reg Tag)
open Pressio.Spec.Nonlinear (Sys LsObj LsOption ExactQR linModel runLs)

variable {K m : Type} [Field K] [LinearOrder K] [IsStrictOrderedRing K] [Fintype m]

/-! ### facts about thin QR -/

theorem upper_injective {N : Nat} {R : Matrix (Fin N) (Fin N) K} (h1 : ∀ i j, j < i → R i j = 0) (h2 : ∀ i, R i i ≠ 0) {x : Fin N → K} (h : R *ᵥ x = 0) : x = 0 := by
  have hdet : R.det ≠ 0 := by
    rw [Matrix.det_of_upperTriangular (fun i j hij => h1 i j hij)]
    exact Finset.prod_ne_zero_iff.2 fun i _ => h2 i
  exact Matrix.eq_zero_of_mulVec_eq_zero hdet h

theorem qr_pythagoras {N : Nat} {A Q : Matrix m (Fin N) K} {R : Matrix (Fin N) (Fin N) K} (hA : A = Q * R) (hQ : Qᵀ * Q = 1) {v : m → K} {c : Fin N → K} (hc : R *ᵥ c = Qᵀ *ᵥ v) (d : Fin N → K) :
    (A *ᵥ d - v) ⬝ᵥ (A *ᵥ d - v) = (A *ᵥ c - v) ⬝ᵥ (A *ᵥ c - v) + (R *ᵥ (d - c)) ⬝ᵥ (R *ᵥ (d - c)) := by
  have e1 : A *ᵥ d - v = A *ᵥ (d - c) + (A *ᵥ c - v) := by rw [Matrix.mulVec_sub]; abel
  have e2 : Qᵀ *ᵥ (A *ᵥ c - v) = 0 := by
    rw [Matrix.mulVec_sub, hA, Matrix.mulVec_mulVec, ← Matrix.mul_assoc, hQ, Matrix.one_mul, hc, sub_self]
  have e0 : A *ᵥ (d - c) = Q *ᵥ (R *ᵥ (d - c)) := by rw [hA, Matrix.mulVec_mulVec]
  have e3 : (A *ᵥ (d - c)) ⬝ᵥ (A *ᵥ c - v) = 0 := by
    rw [e0, Pressio.Lemmas.Nonlinear.dot_mulVec_transpose, e2, dotProduct_zero]
  have e4 : (A *ᵥ (d - c)) ⬝ᵥ (A *ᵥ (d - c)) = (R *ᵥ (d - c)) ⬝ᵥ (R *ᵥ (d - c)) := by
    rw [e0, Pressio.Lemmas.Nonlinear.dot_mulVec_transpose, Matrix.mulVec_mulVec, hQ, Matrix.one_mulVec]
  rw [e1, add_dotProduct, dotProduct_add, dotProduct_add, e3, dotProduct_comm (A *ᵥ c - v) (A *ᵥ (d - c)), e3, e4]; ring

theorem qr_minimiser {N : Nat} {A Q : Matrix m (Fin N) K} {R : Matrix (Fin N) (Fin N) K} (hA : A = Q * R) (hQ : Qᵀ * Q = 1) (h1 : ∀ i j, j < i → R i j = 0) (h2 : ∀ i, R i i ≠ 0)
    {v : m → K} {c : Fin N → K} (hc : R *ᵥ c = Qᵀ *ᵥ v) : UniqueMinimiser A v c := by
  refine ⟨fun d => ?_, fun d hd => ?_⟩
  · rw [qr_pythagoras hA hQ hc d]
    have := Pressio.Lemmas.Nonlinear.dot_self_nonneg (R *ᵥ (d - c))
    linarith
  · have g1 := hd c
    rw [qr_pythagoras hA hQ hc d] at g1
    have g2 := Pressio.Lemmas.Nonlinear.dot_self_nonneg (R *ᵥ (d - c))
    have g3 : (R *ᵥ (d - c)) ⬝ᵥ (R *ᵥ (d - c)) = 0 := le_antisymm (by linarith) g2
    exact sub_eq_zero.1 (upper_injective h1 h2 (dotProduct_self_eq_zero.1 g3))

theorem thinQR_minimiser {N : Nat} {A Q : Matrix m (Fin N) K} {R : Matrix (Fin N) (Fin N) K} (h : IsThinQR A Q R) {v : m → K} {c : Fin N → K} (hc : R *ᵥ c = Qᵀ *ᵥ v) :
    UniqueMinimiser A v c := qr_minimiser h.1 h.2.1 h.2.2.1 (fun i => (h.2.2.2 i).ne') hc

theorem thinQR_independent {N : Nat} {A Q : Matrix m (Fin N) K} {R : Matrix (Fin N) (Fin N) K} (h : IsThinQR A Q R) {x : Fin N → K} (hx : A *ᵥ x = 0) : x = 0 := by
  refine upper_injective h.2.2.1 (fun i => (h.2.2.2 i).ne') ?_
  have : Qᵀ *ᵥ (A *ᵥ x) = R *ᵥ x := by rw [h.1, Matrix.mulVec_mulVec, ← Matrix.mul_assoc, h.2.1, Matrix.one_mul]
  rw [← this, hx, Matrix.mulVec_zero]

/-! ### modified Gram-Schmidt -/

/-- the number of columns `Qmat_` has during `computeThin` -/
def qCols (s : St K m) : Nat :=
  match s.Q with
  | some Q => if Q.map = s.A.map then Q.num else s.A.num
  | none => s.A.num

theorem mgs_start (norm2 : (m → K) → K) (s : St K m) : ∃ s1 Q1 R0, mgsCompute norm2 s = mgsLoop norm2 s.A.num 0 s1 ∧ Inv s.A.col s.A.map s.A.num (qCols s) 0 R0 s1 Q1 := by
  obtain ⟨A, Q, R⟩ := s
  have key : ∀ (Q1 : MV K m), Q1.map = A.map → ∀ R1 : RMat K, R1.size = A.num → Inv A.col A.map A.num Q1.num 0 R1.val ⟨A, some Q1, R1⟩ Q1 := by
    intro Q1 h1 R1 h2
    exact ⟨rfl, h1, rfl, rfl, rfl, h2, fun _ _ _ => rfl, fun j _ _ => by simp, by simp, by simp, by simp, by simp, by simp, by simp⟩
  have hR : ∃ R1 : RMat K, R1.size = A.num ∧ ∀ Q1, (createR : Prog (St K m) Unit) ⟨A, Q1, R⟩ = .ok () ⟨A, Q1, R1⟩ := by
    by_cases hz : R.size = A.num
    · exact ⟨R, hz, fun Q1 => by simp [createR, hz]⟩
    · exact ⟨⟨A.num, fun _ _ => 0⟩, rfl, fun Q1 => by simp [createR, hz]⟩
  obtain ⟨R1, hR1, hR2⟩ := hR
  have go : ∀ Q1 : MV K m, (createQ : Prog (St K m) Unit) ⟨A, Q, R⟩ = .ok () ⟨A, some Q1, R⟩ → mgsCompute norm2 ⟨A, Q, R⟩ = mgsLoop norm2 A.num 0 ⟨A, some Q1, R1⟩ := by
    intro Q1 h
    simp only [mgsCompute, Bind.bind, Prog.bind, h, hR2, Prog.get_run]
  rcases Q with _ | Q
  · exact ⟨_, _, _, go ⟨A.map, A.num, fun _ => 0⟩ rfl, key ⟨A.map, A.num, fun _ => 0⟩ rfl _ hR1⟩
  · by_cases hm : Q.map = A.map
    · have : qCols (⟨A, some Q, R⟩ : St K m) = Q.num := by simp [qCols, hm]
      rw [this]
      exact ⟨_, _, _, go Q (by simp [createQ, hm]), key _ hm _ hR1⟩
    · have : qCols (⟨A, some Q, R⟩ : St K m) = A.num := by simp [qCols, hm]
      rw [this]
      exact ⟨_, _, _, go ⟨A.map, A.num, fun _ => 0⟩ (by simp [createQ, hm]), key ⟨A.map, A.num, fun _ => 0⟩ rfl _ hR1⟩

theorem inv_thin {a : Nat → m → K} {mp N qn : Nat} {R0 : Nat → Nat → K} {s : St K m} {Q : MV K m} (h : Inv a mp N qn N R0 s Q) :
    IsThinQR (Matrix.of fun i (j : Fin N) => a j i) (firstCols N Q) (upper s.R N) := by
  refine ⟨?_, ?_, ?_, ?_⟩
  · ext i j
    have := congrFun (h.done j j.2) i
    rw [Matrix.of_apply, this, Matrix.mul_apply, Finset.sum_apply]
    have e : ∀ x : Fin N, firstCols N Q i x * upper s.R N x j = if (x : Nat) ≤ j then s.R.val x j * Q.col x i else 0 := by
      intro x; simp only [upper, firstCols, Matrix.of_apply]
      by_cases hx : (x : Nat) ≤ j
      · rw [if_pos hx, if_pos (by exact hx)]; ring
      · rw [if_neg hx, if_neg (by exact hx), mul_zero]
    rw [Finset.sum_congr rfl fun x _ => e x, Fin.sum_univ_eq_sum_range (fun x => if x ≤ (j : Nat) then s.R.val x j * Q.col x i else 0) N, ← Finset.sum_filter]
    refine Finset.sum_congr ?_ fun x _ => by simp
    ext x; simp only [Finset.mem_range, Finset.mem_filter]; have := j.2; omega
  · ext i j
    rw [Matrix.mul_apply]
    have := h.orth i i.2 j j.2
    simp only [Matrix.one_apply, Fin.ext_iff]
    exact this
  · intro i j hij; simp only [upper, Matrix.of_apply]; rw [if_neg (not_le.2 hij)]
  · intro i; simp only [upper, Matrix.of_apply]; rw [if_pos le_rfl]; exact h.pos i i.2

theorem dependent {a : Nat → m → K} {N k : Nat} (hk : k < N) (h : a k ∈ Submodule.span K (a '' {l | l < k})) : ¬ LinearIndependent K (fun j : Fin N => a j) := by
  intro hi
  refine hi.notMem_span_image (s := {j : Fin N | j.1 < k}) (x := ⟨k, hk⟩) (by simp) ?_
  refine Submodule.span_mono ?_ h
  rintro _ ⟨l, hl, rfl⟩
  exact ⟨⟨l, lt_trans hl hk⟩, hl, rfl⟩

/-- C68 (modified Gram-Schmidt).  With a fresh object, or one last used on a matrix with another row map or as many columns: `computeThin` on a matrix with linearly
    independent columns returns, and then the object holds a thin QR factorisation of exactly that matrix. -/
theorem C68_mgs_factorization {norm2 : (m → K) → K} (hn : IsNorm norm2) (s : St K m) (hfit : ∀ Q, s.Q = some Q → Q.map = s.A.map → Q.num = s.A.num)
    (hind : LinearIndependent K (fun j : Fin s.A.num => s.A.col j)) :
    ∃ s' Q', mgsCompute norm2 s = .ok () s' ∧ s'.Q = some Q' ∧ Q'.map = s.A.map ∧ Q'.num = s.A.num ∧ s'.R.size = s.A.num ∧
      IsThinQR (mat s.A) (firstCols s.A.num Q') (upper s'.R s.A.num) := by
  obtain ⟨s1, Q1, R0, e, h⟩ := mgs_start norm2 s
  have hq : qCols s = s.A.num := by
    unfold qCols
    rcases hQ : s.Q with _ | Q
    · rfl
    · by_cases hm : Q.map = s.A.map
      · simp [hm, hfit Q hQ hm]
      · simp [hm]
  rcases loop_run norm2 hn _ _ _ _ _ s.A.num 0 s1 Q1 h (by omega) (by omega) with ⟨-, s', Q', g1, g2⟩ | ⟨k', s', -, g2, -, g4⟩ | ⟨g, -⟩
  · exact ⟨s', Q', e.trans g1, g2.q, g2.qmap, g2.qnum.trans hq, g2.size, inv_thin g2⟩
  · exact absurd hind (dependent g2 g4)
  · omega

/-- C68 (modified Gram-Schmidt).  `computeThin` returns without dividing by zero exactly if the columns are linearly independent. -/
theorem C68_mgs_returns_iff {norm2 : (m → K) → K} (hn : IsNorm norm2) (s : St K m) (hfit : ∀ Q, s.Q = some Q → Q.map = s.A.map → Q.num = s.A.num) :
    (mgsCompute norm2 s).stop? = none ↔ LinearIndependent K (fun j : Fin s.A.num => s.A.col j) := by
  constructor
  · intro hstop
    obtain ⟨s1, Q1, R0, e, h⟩ := mgs_start norm2 s
    rw [e] at hstop
    rcases loop_run norm2 hn _ _ _ _ _ s.A.num 0 s1 Q1 h (by omega) (by omega) with ⟨-, s', Q', g1, g2⟩ | ⟨k', s', -, g2, g3, g4⟩ | ⟨g, s', g'⟩
    · rw [Fintype.linearIndependent_iff]
      intro x hx
      have hz : (mat s.A) *ᵥ x = 0 := by
        funext i
        have := congrFun hx i
        rw [Finset.sum_apply] at this
        simp only [Matrix.mulVec, dotProduct, mat, Pi.zero_apply]
        rw [← show (0 : m → K) i = 0 from rfl, ← this]
        exact Finset.sum_congr rfl fun j _ => by simp [mul_comm]
      intro i
      exact congrFun (thinQR_independent (inv_thin g2) hz) i
    · rw [g3] at hstop; cases hstop
    · rw [g'] at hstop; cases hstop
  · intro hind
    obtain ⟨s', Q', h, -⟩ := C68_mgs_factorization hn s hfit hind
    rw [h]; rfl

/-- C68 (modified Gram-Schmidt).  `computeThin` takes its argument by const reference and is an out-of-place factorisation, but it overwrites the caller's matrix: it leaves the matrix as it was exactly
    if its columns were already orthogonal. -/
theorem C68_mgs_overwrites {norm2 : (m → K) → K} (hn : IsNorm norm2) (s s' : St K m) (h : mgsCompute norm2 s = .ok () s') :
    (∀ j < s.A.num, s'.A.col j = s.A.col j) ↔ ∀ i < s.A.num, ∀ j < s.A.num, i ≠ j → s.A.col i ⬝ᵥ s.A.col j = 0 := by
  obtain ⟨s1, Q1, R0, e, hI⟩ := mgs_start norm2 s
  rw [e] at h
  rcases loop_run norm2 hn _ _ _ _ _ s.A.num 0 s1 Q1 hI (by omega) (by omega) with ⟨-, s2, Q, g1, g⟩ | ⟨k', s2, -, -, g3, -⟩ | ⟨-, s2, g'⟩
  · rw [g1] at h
    cases h
    constructor
    · intro hsame i hi j hj hij
      rw [← hsame i hi, ← hsame j hj, g.over i hi, g.over j hj, smul_dotProduct, dotProduct_smul, g.orth i hi j hj, if_neg hij, smul_zero, smul_zero]
    · intro horth j
      induction j using Nat.strong_induction_on with
      | _ j ih =>
        intro hj
        have hz : ∀ i < j, s'.R.val i j = 0 := by
          intro i hi
          have hi' : i < s.A.num := by omega
          have h1 : Q.col i ⬝ᵥ s.A.col j = s'.R.val i j := by
            rw [g.done j hj, dotProduct_sum]
            rw [Finset.sum_eq_single i]
            · rw [dotProduct_smul, g.orth i hi' i hi', if_pos rfl, smul_eq_mul, mul_one]
            · intro l hl hne
              have := Finset.mem_range.1 hl
              rw [dotProduct_smul, g.orth i hi' l (by omega), if_neg (Ne.symm hne), smul_zero]
            · intro hl; exact absurd (Finset.mem_range.2 (by omega)) hl
          have h2 := horth i hi' j hj (by omega)
          rw [← ih i hi hi', g.over i hi', smul_dotProduct, h1, smul_eq_mul] at h2
          rcases mul_eq_zero.1 h2 with h3 | h3
          · exact absurd h3 (g.pos i hi').ne'
          · exact h3
        rw [g.over j hj, g.done j hj, Finset.sum_range_succ, Finset.sum_eq_zero, zero_add]
        intro i hi
        rw [hz i (Finset.mem_range.1 hi), zero_smul]
  · rw [g3] at h; cases h
  · rw [g'] at h; cases h

/-- C68: refuted for objects that are reused (modified Gram-Schmidt and TSQR keep `Q` if the row map is the same, whatever its number of columns): if `Q` has fewer columns than the new matrix, modified Gram-Schmidt accesses columns that do not
    exist. -/
theorem C68_refuted_reuse_more_columns {norm2 : (m → K) → K} (hn : IsNorm norm2) (s : St K m) (Q : MV K m) (hQ : s.Q = some Q) (hmap : Q.map = s.A.map) (hnum : Q.num < s.A.num)
    (hind : LinearIndependent K (fun j : Fin s.A.num => s.A.col j)) : (mgsCompute norm2 s).stop? = some (.ub "no such column of Q") := by
  obtain ⟨s1, Q1, R0, e, hI⟩ := mgs_start norm2 s
  have hq : qCols s = Q.num := by simp [qCols, hQ, hmap]
  rw [e]
  rcases loop_run norm2 hn _ _ _ _ _ s.A.num 0 s1 Q1 hI (by omega) (by omega) with ⟨g, -⟩ | ⟨k', s2, -, g2, -, g4⟩ | ⟨-, s2, g'⟩
  · omega
  · exact absurd hind (dependent g2 g4)
  · rw [g']; rfl

/-- C68: … and with more columns than the new matrix, `applyQTranspose` into a vector of the new size mixes sizes, after any number of factorisations of matrices with that row map. -/
theorem C68_refuted_reuse_fewer_columns {norm2 : (m → K) → K} (hn : IsNorm norm2) (s : St K m) (Q : MV K m) (hQ : s.Q = some Q) (hmap : Q.map = s.A.map) (hnum : s.A.num < Q.num) (s' : St K m)
    (h : mgsCompute norm2 s = .ok () s') (v : m → K) (out : Fin s.A.num → K) : (applyQT v out s').stop? = some (.ub "sizes differ") := by
  obtain ⟨s1, Q1, R0, e, hI⟩ := mgs_start norm2 s
  have hq : qCols s = Q.num := by simp [qCols, hQ, hmap]
  rw [e] at h
  rcases loop_run norm2 hn _ _ _ _ _ s.A.num 0 s1 Q1 hI (by omega) (by omega) with ⟨-, s2, Q2, g1, g⟩ | ⟨k', s2, -, -, g3, -⟩ | ⟨-, s2, g'⟩
  · rw [g1] at h
    cases h
    have : ¬ Q2.num = s.A.num := by rw [g.qnum]; omega
    simp [applyQT, g.q, this, Res.stop?]
  · rw [g3] at h; cases h
  · rw [g'] at h; cases h

/-- a linear least-squares solve as Gauss-Newton does it: `computeThin(A)`, `applyQTranspose(v, out)`, `solve(out, c)` -/
def mgsLeastSquares (norm2 : (m → K) → K) (tri : (N : Nat) → Matrix (Fin N) (Fin N) K → (Fin N → K) → Fin N → K) {N : Nat} (v : m → K) (out : Fin N → K) : Prog (St K m) (Fin N → K) := do
  mgsCompute norm2
  let y ← applyQT v out
  mgsSolve tri y

/-- C68 (modified Gram-Schmidt).  The three calls return the unique least-squares solution, whatever `out` held, for every matrix with independent columns and every object that
    is fresh or was last used on a matrix with another row map or as many columns. -/
theorem C68_mgs_least_squares {norm2 : (m → K) → K} (hn : IsNorm norm2) {tri : (N : Nat) → Matrix (Fin N) (Fin N) K → (Fin N → K) → Fin N → K} (ht : TriSolves tri) (s : St K m)
    (hfit : ∀ Q, s.Q = some Q → Q.map = s.A.map → Q.num = s.A.num) (hind : LinearIndependent K (fun j : Fin s.A.num => s.A.col j)) (v : m → K) (out : Fin s.A.num → K) :
    ∃ c s', mgsLeastSquares norm2 tri v out s = .ok c s' ∧ UniqueMinimiser (mat s.A) v c := by
  obtain ⟨s', Q', h1, h2, h3, h4, h5, h6⟩ := C68_mgs_factorization hn s hfit hind
  refine ⟨tri s.A.num (upper s'.R s.A.num) (fun j => (1:K) * (Q'.col j ⬝ᵥ v) + (0:K) * out j), s', ?_, thinQR_minimiser h6 ?_⟩
  · simp only [mgsLeastSquares, Bind.bind, Prog.bind, h1, applyQT, h2, h4, if_true, mgsSolve, h5]
  · rw [ht _ _ _ h6.2.2.1 (fun i => (h6.2.2.2 i).ne')]
    funext j
    simp only [one_mul, zero_mul, add_zero]
    rfl

/-- the QR members of the solver's environment, made of a modified Gram-Schmidt object for Jacobians with row map `mp` -/
def mgsEnv {p : Type} {N : Nat} (norm2 : (m → K) → K) (tri : (N : Nat) → Matrix (Fin N) (Fin N) K → (Fin N → K) → Fin N → K) (mp : Nat)
    (env : Env K m (Fin N) p (Option (MV K m) × RMat K)) : Env K m (Fin N) p (Option (MV K m) × RMat K) :=
  { env with
    qrThin := fun J l =>
      match mgsCompute norm2 ⟨⟨mp, N, fun j i => if h : j < N then J i ⟨j, h⟩ else 0⟩, l.1, l.2⟩ with
      | .ok _ s => .ok () (s.Q, s.R)
      | .stop h s => .stop h (s.Q, s.R)
    qrApplyQT := fun r s =>
      match applyQT r s.1 ⟨⟨mp, N, fun _ => 0⟩, s.2.1, s.2.2⟩ with
      | .ok y _ => .ok () (y, s.2)
      | .stop h _ => .stop h s
    qrSolve := fun b s =>
      match mgsSolve tri b (⟨⟨mp, N, fun _ => 0⟩, s.2.1, s.2.2⟩ : St K m) with
      | .ok c _ => .ok () (c, s.2)
      | .stop h _ => .stop h s }

/-- C68 (modified Gram-Schmidt).  As the QR solver of Gauss-Newton it meets the contract under which Gauss-Newton steps are proved to be least-squares steps (C34), from any state of the object. -/
theorem C68_mgs_exact_in_gauss_newton {p : Type} [Fintype p] {N : Nat} {norm2 : (m → K) → K} (hn : IsNorm norm2) {tri : (N : Nat) → Matrix (Fin N) (Fin N) K → (Fin N → K) → Fin N → K}
    (ht : TriSolves tri) (mp : Nat) (env : Env K m (Fin N) p (Option (MV K m) × RMat K)) : ExactQR (mgsEnv norm2 tri mp env) := by
  intro J l l1 h
  set s : St K m := ⟨⟨mp, N, fun j i => if h : j < N then J i ⟨j, h⟩ else 0⟩, l.1, l.2⟩ with hs
  have h' : (match mgsCompute norm2 s with | .ok _ s => Res.ok () (s.Q, s.R) | .stop h s => .stop h (s.Q, s.R)) = .ok () l1 := h
  obtain ⟨s1, Q1, R0, e, hI⟩ := mgs_start norm2 s
  rw [e] at h'
  rcases loop_run norm2 hn _ _ _ _ _ s.A.num 0 s1 Q1 hI (by omega) (by omega) with ⟨-, s2, Q, g1, g⟩ | ⟨k', s2, -, -, g3, -⟩ | ⟨-, s2, g'⟩
  · rw [g1] at h'
    cases h'
    have hT := inv_thin g
    have hJ : (Matrix.of fun i (j : Fin N) => s.A.col j i) = J := by
      ext i j; show (if h : (j : Nat) < N then J i ⟨j, h⟩ else 0) = _; rw [dif_pos j.2]
    refine ⟨firstCols N Q, upper s2.R N, hJ.symm.trans hT.1, hT.2.1, ?_⟩
    intro r b b' l2 ha
    have ha' : (match applyQT r b (⟨⟨mp, N, fun _ => 0⟩, s2.Q, s2.R⟩ : St K m) with | .ok y _ => Res.ok () (y, (s2.Q, s2.R)) | .stop h _ => .stop h (b, (s2.Q, s2.R))) = .ok () (b', l2) := ha
    simp only [applyQT, g.q] at ha'
    by_cases hN : Q.num = N
    · rw [if_pos hN] at ha'
      cases ha'
      refine ⟨?_, ?_⟩
      · funext j; simp only [one_mul, zero_mul, add_zero]; rfl
      · intro c c' l3 hc
        have hz : s2.R.size = N := g.size
        simp only [mgsEnv, mgsSolve, hz, if_true] at hc
        cases hc
        exact ht _ _ _ hT.2.2.1 fun i => (hT.2.2.2 i).ne'
    · rw [if_neg hN] at ha'; cases ha'
  · rw [g3] at h'; cases h'
  · rw [g'] at h'; cases h'

/-- C68 and C34 together: Gauss-Newton with a modified Gram-Schmidt QR object moves along least-squares corrections, whatever the system does and whatever both objects did before.  (`computeThin` overwrites the
    solver's Jacobian; the solver does not read it before it is computed again.) -/
theorem C68_gauss_newton_with_mgs [DecidableEq m] {p : Type} [Fintype p] {N : Nat} {norm2 : (m → K) → K} (hn : IsNorm norm2) {tri : (N : Nat) → Matrix (Fin N) (Fin N) K → (Fin N → K) → Fin N → K}
    (ht : TriSolves tri) (mp : Nat) (env : Env K m (Fin N) p (Option (MV K m) × RMat K)) (cfg : Cfg K) (sys : Sys K m (Fin N)) (hopt : LsOption cfg .gnQr)
    (s : Reg K m (Fin N) p (Option (MV K m) × RMat K)) (hs : LsObj s) :
    let res := runLs (mgsEnv norm2 tri mp env) cfg sys .gnQr s
    ∃ xs : List (Fin N → K), xs.length ≤ cfg.maxIters.toNat ∧
      List.IsChain (fun x x' => ∃ r J c, ∃ j < 10, sys.resJac x = .ok (r, J) ∧ (∀ d, (J *ᵥ c + r) ⬝ᵥ (J *ᵥ c + r) ≤ (J *ᵥ d + r) ⬝ᵥ (J *ᵥ d + r)) ∧
        x' = x + (1 / 2 : K) ^ j • c ∧ (cfg.update = .Standard → j = 0)) (s.x :: xs) ∧
      (s.x :: xs).getLast (by simp) = res.state.x :=
  C34_gauss_newton_step _ cfg sys .gnQr (by simp) (C68_mgs_exact_in_gauss_newton hn ht mp env) hopt s hs

/-! ### TSQR -/

/-- Trilinos' TSQR returns a thin QR factorisation of full-rank matrices -/
def TsqrFactors (T : Tsqr K m) : Prop :=
  ∀ N (a : Fin N → m → K), LinearIndependent K a → IsThinQR (Matrix.of fun i j => a j i) (Matrix.of fun i j => T.q N a j i) (T.r N a)

/-- C68 (TSQR).  The same as for modified Gram-Schmidt, if Trilinos' factorisation is right; and the caller's matrix is not changed by pressio. -/
theorem C68_tsqr_factorization {T : Tsqr K m} (hT : TsqrFactors T) (s : St K m) (hfit : ∀ Q, s.Q = some Q → Q.map = s.A.map → Q.num = s.A.num)
    (hind : LinearIndependent K (fun j : Fin s.A.num => s.A.col j)) :
    ∃ s' Q', tsqrCompute T s = .ok () s' ∧ s'.A = s.A ∧ s'.Q = some Q' ∧ Q'.map = s.A.map ∧ Q'.num = s.A.num ∧ s'.R.size = s.A.num ∧
      IsThinQR (mat s.A) (firstCols s.A.num Q') (upper s'.R s.A.num) := by
  obtain ⟨A, Q, R⟩ := s
  have hR : ∃ R1 : RMat K, ∀ Q1, (createR : Prog (St K m) Unit) ⟨A, Q1, R⟩ = .ok () ⟨A, Q1, R1⟩ ∧ R1.size = A.num := by
    by_cases hz : R.size = A.num
    · exact ⟨R, fun Q1 => by simp [createR, hz]⟩
    · exact ⟨⟨A.num, fun _ _ => 0⟩, fun Q1 => by simp [createR, hz]⟩
  obtain ⟨R1, hR⟩ := hR
  have hR1 := fun Q1 => (hR Q1).1
  have hR2 := (hR none).2
  have hQ : ∃ Q1 : MV K m, (createQ : Prog (St K m) Unit) ⟨A, Q, R⟩ = .ok () ⟨A, some Q1, R⟩ ∧ Q1.map = A.map ∧ Q1.num = A.num := by
    rcases Q with _ | Q
    · exact ⟨⟨A.map, A.num, fun _ => 0⟩, rfl, rfl, rfl⟩
    · by_cases hm : Q.map = A.map
      · exact ⟨Q, by simp [createQ, hm], hm, hfit Q rfl hm⟩
      · exact ⟨⟨A.map, A.num, fun _ => 0⟩, by simp [createQ, hm], rfl, rfl⟩
  obtain ⟨Q1, hQ1, hQ2, hQ3⟩ := hQ
  have hthin := hT A.num (fun i => A.col i) hind
  refine ⟨⟨A, some { Q1 with col := fun j => if h : j < A.num then T.q A.num (fun i => A.col i) ⟨j, h⟩ else Q1.col j },
      ⟨A.num, fun i j => if h : i < A.num ∧ j < A.num then T.r A.num (fun i => A.col i) ⟨i, h.1⟩ ⟨j, h.2⟩ else 0⟩⟩, _, ?_, rfl, rfl, hQ2, hQ3, rfl, ?_⟩
  · simp only [tsqrCompute, Bind.bind, Prog.bind, hQ1, hR1, Prog.get_run, hQ3, hR2, and_self, if_true, Prog.modify_run]
  · have e1 : firstCols A.num ({ Q1 with col := fun j => if h : j < A.num then T.q A.num (fun i => A.col i) ⟨j, h⟩ else Q1.col j } : MV K m) = Matrix.of fun i j => T.q A.num (fun i => A.col i) j i := by
      ext i j; simp [firstCols]
    have e2 : upper (⟨A.num, fun i j => if h : i < A.num ∧ j < A.num then T.r A.num (fun i => A.col i) ⟨i, h.1⟩ ⟨j, h.2⟩ else 0⟩ : RMat K) A.num = T.r A.num (fun i => A.col i) := by
      ext i j
      simp only [upper, Matrix.of_apply]
      by_cases hij : i ≤ j
      · rw [if_pos hij]; simp
      · rw [if_neg hij]; exact (hthin.2.2.1 i j (not_le.1 hij)).symm
    rw [e1, e2]; exact hthin

/-- C68 (TSQR): refuted for objects that are reused on a matrix with the same row map and another number of columns. -/
theorem C68_refuted_tsqr_reuse (T : Tsqr K m) (s : St K m) (Q : MV K m) (hQ : s.Q = some Q) (hmap : Q.map = s.A.map) (hnum : Q.num ≠ s.A.num) :
    (tsqrCompute T s).stop? = some (.ub "Q or R has the wrong size") := by
  obtain ⟨A, Q0, R⟩ := s
  cases hQ
  simp only at hmap hnum
  by_cases hz : R.size = A.num <;>
    simp [tsqrCompute, Bind.bind, Prog.bind, createQ, createR, hmap, hz, hnum, Res.stop?]

/-! ### Householder (Eigen) -/

/-- Eigen's Householder QR returns a thin QR factorisation (`R` in the upper triangle of `matrixQR()`; the signs of its diagonal are not fixed) -/
def HouseFactors {F : Type} {N : Nat} (E : House K m F N) : Prop :=
  ∀ A, A = E.thinQ (E.factor A) * Matrix.of (fun i j => if i ≤ j then E.matrixQR (E.factor A) i j else 0) ∧ (E.thinQ (E.factor A))ᵀ * E.thinQ (E.factor A) = 1

/-- C68 (Householder).  Whatever the object did before, after `computeThin(A)` the calls `applyQTranspose` and `solve` give a least-squares solution for exactly `A` (the unique one) if the columns of `A`
    are independent; `A` is not changed. -/
theorem C68_house_least_squares {F : Type} {N : Nat} {E : House K m F N} (hE : HouseFactors E) {tri : (N : Nat) → Matrix (Fin N) (Fin N) K → (Fin N → K) → Fin N → K} (ht : TriSolves tri)
    (s : HSt K m F N) (A : Matrix m (Fin N) K) (hind : ∀ x, A *ᵥ x = 0 → x = 0) (v : m → K) (out : Fin N → K) :
    ∃ s' y c, houseCompute E A s = .ok () s' ∧ houseApplyQT v out s' = .ok y s' ∧ houseSolve E tri y s' = .ok c s' ∧ UniqueMinimiser A v c := by
  obtain ⟨h1, h2⟩ := hE A
  set Q := E.thinQ (E.factor A) with hQ
  set R : Matrix (Fin N) (Fin N) K := Matrix.of (fun i j => if i ≤ j then E.matrixQR (E.factor A) i j else 0) with hR
  have hlow : ∀ i j, j < i → R i j = 0 := by intro i j hij; simp [hR, not_le.2 hij]
  have hdiag : ∀ i, R i i ≠ 0 := by
    have hdet : R.det ≠ 0 := by
      intro h0
      obtain ⟨x, hx, hx0⟩ := Matrix.exists_mulVec_eq_zero_iff.2 h0
      refine hx (hind x ?_)
      rw [h1, ← Matrix.mulVec_mulVec, hx0, Matrix.mulVec_zero]
    rw [Matrix.det_of_upperTriangular (fun i j hij => hlow i j hij)] at hdet
    exact fun i => Finset.prod_ne_zero_iff.1 hdet i (Finset.mem_univ i)
  have hne : ¬ ∃ i, E.matrixQR (E.factor A) i i = 0 := by
    rintro ⟨i, hi⟩
    exact hdiag i (by simp [hR, hi])
  refine ⟨_, _, tri N R (fun j => (1:K) * ((fun i => Q i j) ⬝ᵥ v) + (0:K) * out j), rfl, rfl, by simp only [houseSolve, if_neg hne]; rfl, ?_⟩
  set c := tri N R (fun j => (1:K) * ((fun i => Q i j) ⬝ᵥ v) + (0:K) * out j) with hcdef
  have hc : R *ᵥ c = Qᵀ *ᵥ v := by
    rw [hcdef, ht _ _ _ hlow hdiag]
    funext j; simp only [one_mul, zero_mul, add_zero]; rfl
  exact qr_minimiser h1 h2 hlow hdiag hc

/-- the QR members of the solver's environment, made of Eigen's Householder object -/
def houseEnv {p F : Type} {N : Nat} (E : House K m F N) (tri : (N : Nat) → Matrix (Fin N) (Fin N) K → (Fin N → K) → Fin N → K) (env : Env K m (Fin N) p (HSt K m F N)) :
    Env K m (Fin N) p (HSt K m F N) :=
  { env with
    qrThin := houseCompute E
    qrApplyQT := fun r s =>
      match houseApplyQT r s.1 s.2 with
      | .ok y l => .ok () (y, l)
      | .stop h l => .stop h (s.1, l)
    qrSolve := fun b s =>
      match houseSolve E tri b s.2 with
      | .ok c l => .ok () (c, l)
      | .stop h l => .stop h (s.1, l) }

/-- C68 (Householder).  As the QR solver of Gauss-Newton it meets the contract of C34, from any state of the object. -/
theorem C68_house_exact_in_gauss_newton {p F : Type} [Fintype p] {N : Nat} {E : House K m F N} (hE : HouseFactors E) {tri : (N : Nat) → Matrix (Fin N) (Fin N) K → (Fin N → K) → Fin N → K}
    (ht : TriSolves tri) (env : Env K m (Fin N) p (HSt K m F N)) : ExactQR (houseEnv E tri env) := by
  intro J l l1 h
  cases h
  obtain ⟨h1, h2⟩ := hE J
  refine ⟨_, _, h1, h2, ?_⟩
  intro r b b' l2 ha
  cases ha
  refine ⟨?_, ?_⟩
  · funext j; simp only [one_mul, zero_mul, add_zero]; rfl
  · intro c c' l3 hc
    simp only [houseEnv, houseSolve] at hc
    by_cases hz : ∃ i, E.matrixQR (E.factor J) i i = 0
    · rw [if_pos hz] at hc; cases hc
    · rw [if_neg hz] at hc
      cases hc
      refine ht _ _ _ (fun i j hij => by simp [not_le.2 hij]) (fun i hi => hz ⟨i, by simpa using hi⟩)

/-- C68 (Householder).  Using the object before `computeThin` dereferences null pointers. -/
theorem C68_house_unfactored {F : Type} {N : Nat} (E : House K m F N) (tri : (N : Nat) → Matrix (Fin N) (Fin N) K → (Fin N → K) → Fin N → K) (v : m → K) (out : Fin N → K) :
    (houseApplyQT v out (⟨none, none⟩ : HSt K m F N)).stop? = some (.ub "null pointer") ∧ (houseSolve E tri out (⟨none, none⟩ : HSt K m F N)).stop? = some (.ub "null pointer") := ⟨rfl, rfl⟩

/-- C68.  With Eigen matrices both algorithm tags give Householder; with Tpetra each tag gives its own algorithm; block multivectors accept only TSQR. -/
theorem C68_class_choice (k : MatrixKind) (a : Algorithm) : implClass k a =
    if k = .eigenDense ∧ a ≠ .tsqr then some .houseEigen
    else if k = .tpetraBlockMV ∧ a = .tsqr then some .tsqrTpetraBlock
    else if k = .tpetraMV then some (match a with | .modifiedGramSchmidt => .mgsTpetra | .householder => .houseTpetra | .tsqr => .tsqrTpetra)
    else none := by
  cases k <;> cases a <;> rfl

/-! ### the hypotheses can be met -/

/-- the Euclidean norm over the reals -/
noncomputable def realNorm (v : m → ℝ) : ℝ := Real.sqrt (v ⬝ᵥ v)

theorem realNorm_isNorm : IsNorm (realNorm : (m → ℝ) → ℝ) := fun v =>
  ⟨Real.sqrt_nonneg _, Real.mul_self_sqrt (Finset.sum_nonneg fun i _ => mul_self_nonneg (v i))⟩

/-- an exact triangular solver -/
noncomputable def inverseSolve (N : Nat) (U : Matrix (Fin N) (Fin N) K) (b : Fin N → K) : Fin N → K := U⁻¹ *ᵥ b

theorem inverseSolve_solves : TriSolves (inverseSolve : (N : Nat) → Matrix (Fin N) (Fin N) K → (Fin N → K) → Fin N → K) := by
  intro N U b h1 h2
  have hdet : U.det ≠ 0 := by
    rw [Matrix.det_of_upperTriangular (fun i j hij => h1 i j hij)]
    exact Finset.prod_ne_zero_iff.2 fun i _ => h2 i
  unfold inverseSolve
  rw [Matrix.mulVec_mulVec, Matrix.mul_nonsing_inv _ (isUnit_iff_ne_zero.2 hdet), Matrix.one_mulVec]

/-- columns `(3,4)` and `(1,2)` -/
def mv34 (K : Type) [Field K] : MV K (Fin 2) := ⟨7, 2, fun j => if j = 0 then ![3, 4] else ![1, 2]⟩

theorem mv34_independent : LinearIndependent ℝ (fun j : Fin (mv34 ℝ).num => (mv34 ℝ).col j) := by
  change LinearIndependent ℝ (fun j : Fin 2 => (mv34 ℝ).col j)
  rw [Fintype.linearIndependent_iff]
  intro g hg
  have h0 := congrFun hg 0
  have h1 := congrFun hg 1
  have e0 : g 0 * 3 + g 1 * 1 = 0 := by simpa [mv34, Fin.sum_univ_two] using h0
  have e1 : g 0 * 4 + g 1 * 2 = 0 := by simpa [mv34, Fin.sum_univ_two] using h1
  have a0 : g 0 = 0 := by linarith
  have a1 : g 1 = 0 := by linarith
  intro i
  fin_cases i
  · exact a0
  · exact a1

/-- C68_mgs_factorization, C68_mgs_least_squares: a fresh object, and one used before on a matrix with the same row map and as many columns -/
example : ∃ c s', mgsLeastSquares realNorm inverseSolve ![1, 1] (fun _ => 9) (⟨mv34 ℝ, none, ⟨0, fun _ _ => 0⟩⟩ : St ℝ (Fin 2)) = .ok c s' ∧ UniqueMinimiser (mat (mv34 ℝ)) ![1, 1] c :=
  C68_mgs_least_squares realNorm_isNorm inverseSolve_solves ⟨mv34 ℝ, none, ⟨0, fun _ _ => 0⟩⟩ (by simp) mv34_independent _ _

example : ∃ c s', mgsLeastSquares realNorm inverseSolve ![1, 1] (fun _ => 9) (⟨mv34 ℝ, some ⟨7, 2, fun _ _ => 5⟩, ⟨2, fun _ _ => 8⟩⟩ : St ℝ (Fin 2)) = .ok c s' ∧ UniqueMinimiser (mat (mv34 ℝ)) ![1, 1] c :=
  C68_mgs_least_squares realNorm_isNorm inverseSolve_solves ⟨mv34 ℝ, some ⟨7, 2, fun _ _ => 5⟩, ⟨2, fun _ _ => 8⟩⟩ (fun Q h _ => by cases h; rfl) mv34_independent _ _

/-- C68_refuted_reuse_more_columns: an object used before on a matrix with the same rows and one column -/
example : (mgsCompute realNorm (⟨mv34 ℝ, some ⟨7, 1, fun _ _ => 1⟩, ⟨1, fun _ _ => 1⟩⟩ : St ℝ (Fin 2))).stop? = some (.ub "no such column of Q") :=
  C68_refuted_reuse_more_columns realNorm_isNorm ⟨mv34 ℝ, some ⟨7, 1, fun _ _ => 1⟩, ⟨1, fun _ _ => 1⟩⟩ ⟨7, 1, fun _ _ => 1⟩ rfl rfl (by show 1 < 2; omega) mv34_independent

/-- the two vectors whose norm the run needs -/
def norm34 (v : Fin 2 → ℚ) : ℚ := if v = ![3, 4] then 5 else if v = ![-8/25, 6/25] then 2/5 else 0

/-- the run on this matrix: `Q`, `R`, and what becomes of the caller's matrix -/
example : let r := mgsCompute norm34 ⟨mv34 ℚ, none, ⟨0, fun _ _ => 0⟩⟩
    r.stop?.isNone ∧ r.state.A.col 0 = ![3, 4] ∧ r.state.A.col 1 = ![-8/25, 6/25] ∧
      (r.state.Q.map fun Q => (Q.col 0 0, Q.col 0 1, Q.col 1 0, Q.col 1 1)) = some (3/5, 4/5, -4/5, 3/5) ∧
      r.state.R.val 0 0 = 5 ∧ r.state.R.val 0 1 = 11/5 ∧ r.state.R.val 1 0 = 0 ∧ r.state.R.val 1 1 = 2/5 := by
  decide +kernel

/-- C68_refuted_tsqr_reuse -/
example (T : Tsqr ℚ (Fin 2)) : (tsqrCompute T ⟨mv34 ℚ, some ⟨7, 3, fun _ => 0⟩, ⟨3, fun _ _ => 0⟩⟩).stop? = some (.ub "Q or R has the wrong size") :=
  C68_refuted_tsqr_reuse T _ ⟨7, 3, fun _ => 0⟩ rfl rfl (by decide)

/-- `TsqrFactors`, `HouseFactors` can be met: modified Gram-Schmidt on a fresh object is such a factorisation -/
noncomputable def mgsTsqr : Tsqr ℝ m where
  q := fun N a j =>
    match (mgsCompute realNorm (⟨⟨0, N, fun j => if h : j < N then a ⟨j, h⟩ else 0⟩, none, ⟨0, fun _ _ => 0⟩⟩ : St ℝ m)).state.Q with
    | some Q => Q.col j
    | none => 0
  r := fun N a => upper (mgsCompute realNorm (⟨⟨0, N, fun j => if h : j < N then a ⟨j, h⟩ else 0⟩, none, ⟨0, fun _ _ => 0⟩⟩ : St ℝ m)).state.R N

theorem mgsTsqr_factors : TsqrFactors (mgsTsqr : Tsqr ℝ m) := by
  intro N a ha
  set s : St ℝ m := ⟨⟨0, N, fun j => if h : j < N then a ⟨j, h⟩ else 0⟩, none, ⟨0, fun _ _ => 0⟩⟩ with hs
  have e : (fun j : Fin s.A.num => s.A.col j) = a := by funext j; show (if h : (j : Nat) < N then a ⟨j, h⟩ else 0) = _; rw [dif_pos j.2]
  obtain ⟨s', Q', h1, h2, -, -, -, h6⟩ := C68_mgs_factorization realNorm_isNorm s (by simp [hs]) (by rw [e]; exact ha)
  have eA : (Matrix.of fun i j => a j i) = mat s.A := by
    rw [← e]; rfl
  have eQ : (Matrix.of fun i j => mgsTsqr.q N a j i) = firstCols N Q' := by
    ext i j
    show (match (mgsCompute realNorm s).state.Q with | some Q => Q.col j | none => 0) i = _
    rw [h1]; simp only [Res.state, h2]; rfl
  have eR : mgsTsqr.r N a = upper s'.R N := by
    show upper (mgsCompute realNorm s).state.R N = _
    rw [h1]; rfl
  rw [eA, eQ, eR]
  exact h6

/-- Householder for one column with two entries (up to signs) -/
noncomputable def house1 : House ℝ (Fin 2) (Matrix (Fin 2) (Fin 1) ℝ) 1 where
  factor := fun A => A
  thinQ := fun A => Matrix.of fun i _ => if A 0 0 = 0 ∧ A 1 0 = 0 then (if i = 0 then 1 else 0) else A i 0 / Real.sqrt (A 0 0 * A 0 0 + A 1 0 * A 1 0)
  matrixQR := fun A => Matrix.of fun _ _ => Real.sqrt (A 0 0 * A 0 0 + A 1 0 * A 1 0)

theorem house1_factors : HouseFactors house1 := by
  intro A
  by_cases hA : A 0 0 = 0 ∧ A 1 0 = 0
  · constructor
    · ext i j
      rw [Subsingleton.elim j 0]
      fin_cases i <;> simp [house1, Matrix.mul_apply, hA.1, hA.2]
    · ext i j
      rw [Subsingleton.elim j 0, Subsingleton.elim i 0]
      simp [house1, Matrix.mul_apply, hA.1, hA.2, Fin.sum_univ_two]
  · have hpos : 0 < A 0 0 * A 0 0 + A 1 0 * A 1 0 := by
      rcases not_and_or.1 hA with h | h
      · have := mul_self_pos.2 h; have := mul_self_nonneg (A 1 0); linarith
      · have := mul_self_pos.2 h; have := mul_self_nonneg (A 0 0); linarith
    have hs := Real.sqrt_pos.2 hpos
    have hq := Real.mul_self_sqrt hpos.le
    constructor
    · ext i j
      rw [Subsingleton.elim j 0]
      simp only [house1, Matrix.mul_apply, Finset.univ_unique, Finset.sum_singleton, Matrix.of_apply, if_neg hA]
      simp [div_mul_cancel₀ _ hs.ne']
    · ext i j
      rw [Subsingleton.elim j 0, Subsingleton.elim i 0]
      simp only [house1, Matrix.mul_apply, Matrix.transpose_apply, Matrix.of_apply, if_neg hA, Fin.sum_univ_two, Matrix.one_apply_eq]
      rw [div_mul_div_comm, div_mul_div_comm, hq, ← add_div, div_self hpos.ne']

/-! ### The theorems on these objects -/

theorem column34_independent (x : Fin 1 → ℝ) (h : (!![3; 4] : Matrix (Fin 2) (Fin 1) ℝ) *ᵥ x = 0) : x = 0 := by
  have := congrFun h 0
  funext i
  rw [Subsingleton.elim i 0]
  simpa [Matrix.mulVec, dotProduct] using this
example := C68_mgs_factorization realNorm_isNorm ⟨mv34 ℝ, some ⟨7, 2, fun _ _ => 5⟩, ⟨2, fun _ _ => 8⟩⟩ (fun Q h _ => by cases h; rfl) mv34_independent
example := C68_mgs_returns_iff realNorm_isNorm ⟨mv34 ℝ, some ⟨7, 2, fun _ _ => 5⟩, ⟨2, fun _ _ => 8⟩⟩ (fun Q h _ => by cases h; rfl)
/-- the columns `(3,4)` and `(1,2)` are not orthogonal, and the matrix is overwritten -/
example : ∃ s', mgsCompute realNorm ⟨mv34 ℝ, none, ⟨0, fun _ _ => 0⟩⟩ = .ok () s' ∧ ¬ ∀ j < 2, s'.A.col j = (mv34 ℝ).col j := by
  obtain ⟨s', -, h, -⟩ := C68_mgs_factorization realNorm_isNorm ⟨mv34 ℝ, none, ⟨0, fun _ _ => 0⟩⟩ (by simp) mv34_independent
  refine ⟨s', h, fun hj => ?_⟩
  have := (C68_mgs_overwrites realNorm_isNorm _ s' h).1 hj 0 (by decide) 1 (by decide) (by decide)
  simp [mv34, dotProduct, Fin.sum_univ_two] at this
  norm_num at this
/-- an object used on three columns, then on two: the factorisation returns, and `applyQTranspose` then fails -/
noncomputable def wideSt : St ℝ (Fin 2) := ⟨mv34 ℝ, some ⟨7, 3, fun _ _ => 1⟩, ⟨3, fun _ _ => 1⟩⟩
theorem wideSt_returns : ∃ s', mgsCompute realNorm wideSt = .ok () s' := by
  obtain ⟨s1, Q1, R0, e, h⟩ := mgs_start realNorm wideSt
  have hq : qCols wideSt = 3 := by simp [qCols, wideSt, mv34]
  have hA : wideSt.A.num = 2 := rfl
  rcases loop_run realNorm realNorm_isNorm _ _ _ _ _ wideSt.A.num 0 s1 Q1 h (by omega) (by omega) with ⟨-, s', Q', g1, g2⟩ | ⟨k', s', -, g2, -, g4⟩ | ⟨g, -⟩
  · exact ⟨s', e.trans g1⟩
  · exact absurd mv34_independent (dependent g2 g4)
  · omega
example : ∃ s', mgsCompute realNorm wideSt = .ok () s' ∧ (applyQT ![1, 1] (fun _ : Fin 2 => 9) s').stop? = some (.ub "sizes differ") := by
  obtain ⟨s', h⟩ := wideSt_returns
  exact ⟨s', h, C68_refuted_reuse_fewer_columns realNorm_isNorm wideSt ⟨7, 3, fun _ _ => 1⟩ rfl rfl (by decide) s' h _ _⟩
example (env : Env ℝ (Fin 2) (Fin 2) Unit (Option (MV ℝ (Fin 2)) × RMat ℝ)) := C68_mgs_exact_in_gauss_newton realNorm_isNorm inverseSolve_solves 7 env
example (env : Env ℝ (Fin 2) (Fin 2) Unit (Option (MV ℝ (Fin 2)) × RMat ℝ)) (s : Reg ℝ (Fin 2) (Fin 2) Unit (Option (MV ℝ (Fin 2)) × RMat ℝ)) :=
  C68_gauss_newton_with_mgs realNorm_isNorm inverseSolve_solves 7 env ⟨5, .AfterMaxIters, 1/100, .Standard, none⟩
    (Sys.ofFun (fun x => (!![3, 1; 4, 2] : Matrix (Fin 2) (Fin 2) ℝ) *ᵥ x - ![1, 1]) (fun _ => !![3, 1; 4, 2])) (.inl rfl)
    { s with diag := Model.Nonlinear.newContainer Model.Nonlinear.leastSquaresDiagnostics } (.created _ rfl)
example := C68_tsqr_factorization (mgsTsqr_factors (m := Fin 2)) ⟨mv34 ℝ, none, ⟨0, fun _ _ => 0⟩⟩ (by simp) mv34_independent
example := C68_house_least_squares house1_factors inverseSolve_solves ⟨none, none⟩ !![3; 4] column34_independent ![1, 1] (fun _ => 9)
example (env : Env ℝ (Fin 2) (Fin 1) Unit (HSt ℝ (Fin 2) (Matrix (Fin 2) (Fin 1) ℝ) 1)) := C68_house_exact_in_gauss_newton house1_factors inverseSolve_solves env
example := C68_house_unfactored house1 inverseSolve ![1, 1] (fun _ => 9)


end Pressio.Props
