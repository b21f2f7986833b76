import Verif.Model.LinearRom
import Verif.Props.Galerkin
import Mathlib.Tactic.Module

/-
  C58: reduced linear operators.
-/
namespace Pressio.Props
set_option autoImplicit false
set_option linter.unusedSectionVars false
open Pressio Pressio.Model.Galerkin Pressio.Model.LinearRom Pressio.Spec.Galerkin
open scoped Matrix

section
variable {K m l : Type} [Field K] [Fintype m] [Fintype l] {r : Nat}

/-- the operator computes `A v + c` and does not throw -/
def AffineOp (op : LinOp K m) (A : Matrix m m K) (c : m → K) : Prop := ∀ v old, op.apply v old = .ok (A.mulVec v + c)

theorem columns_run (op : LinOp K m) (g : (m → K) → (m → K)) (hop : ∀ v old, op.apply v old = .ok (g v)) (rb : Matrix m (Fin r) K)
    (body : Fin r → Prog (LR K m l r) Unit) (h : (m → K) → (m → K) → (m → K)) (hbody : ∀ j s, body j s = .ok () { s with AR := setCol s.AR j (h s.hidden (g (fun i => rb i j))) })
    (js : List (Fin r)) (s : LR K m l r) : columns body js s = .ok () { s with AR := fun i k => if k ∈ js then h s.hidden (g (fun i => rb i k)) i else s.AR i k } := by
  induction js generalizing s with
  | nil => simp [columns]
  | cons j js ih =>
    simp only [columns, Prog.bind_run, hbody, ih]
    congr 2
    funext i k
    simp only [setCol, List.mem_cons]
    by_cases h1 : k ∈ js
    · simp [h1]
    · by_cases h2 : k = j
      · subst h2; simp [h1]
      · simp [h1, h2]

theorem allColumns_run (op : LinOp K m) (g : (m → K) → (m → K)) (hop : ∀ v old, op.apply v old = .ok (g v)) (rb : Matrix m (Fin r) K)
    (body : Fin r → Prog (LR K m l r) Unit) (h : (m → K) → (m → K) → (m → K)) (hbody : ∀ j s, body j s = .ok () { s with AR := setCol s.AR j (h s.hidden (g (fun i => rb i j))) })
    (s : LR K m l r) : columns body (List.finRange r) s = .ok () { s with AR := fun i k => h s.hidden (g (fun i => rb i k)) i } := by
  rw [columns_run op g hop rb body h hbody]
  congr 2
  funext i k
  simp

/-- what `compute2` leaves in the members, for any operator function `g`: everything in terms of differences to `g 0` -/
theorem compute2_run (op : LinOp K m) (g : (m → K) → (m → K)) (hop : ∀ v old, op.apply v old = .ok (g v)) (lb : Matrix m l K) (rb : Matrix m (Fin r) K) (shift : m → K) (s : LR K m l r) :
    ∃ s', compute2 op lb rb shift s = .ok () s' ∧ s'.redMat = lbᵀ * Matrix.of (fun i k => (g (fun i => rb i k) - g 0) i) ∧ s'.redShift = lbᵀ.mulVec (g shift - g 0) ∧ s'.redForcing = lbᵀ.mulVec (g 0) := by
  have hcol : ∀ (s : LR K m l r), columns (fun j => do applyColumn op rb j; removeForcing j) (List.finRange r) s = .ok () { s with AR := fun i k => (g (fun i => rb i k) - s.hidden) i } := by
    intro s
    refine allColumns_run op g hop rb _ (fun hd v => v - hd) (fun j s => ?_) s
    simp only [Prog.bind_run, applyColumn, call, hop, removeForcing, Prog.modify]
    congr 2
    funext i k
    by_cases h : k = j
    · subst h; simp [setCol]; ring
    · simp [setCol, h]
  have hrun : compute2 op lb rb shift s = .ok () (compute2 op lb rb shift s).state := by
    unfold compute2
    simp only [Prog.bind_run, call, hop, Prog.modify, hcol, projectMat, applyShift, projectShift]
    rfl
  refine ⟨_, hrun, ?_⟩
  · unfold compute2
    simp only [Prog.bind_run, call, hop, Prog.modify, hcol, projectMat, applyShift, projectShift, Res.state]
    refine ⟨?_, ?_, ?_⟩
    · simp; rfl
    · simp [sub_eq_add_neg]
    · simp

/-- **C58, linear operator with hidden forcing** (`create_reduced_linear_operator`): for every affine operator, bases, shift, and content of the members before: the constructor returns, and
    `L^T (A (R x + s) + c) = Mat x + shift + forcing` for every `x`. -/
theorem C58_linear_operator (op : LinOp K m) (A : Matrix m m K) (c : m → K) (hop : AffineOp op A c) (lb : Matrix m l K) (rb : Matrix m (Fin r) K) (shift : m → K) (s : LR K m l r) :
    ∃ s', compute2 op lb rb shift s = .ok () s' ∧ s'.redMat = lbᵀ * (A * rb) ∧ s'.redForcing = lbᵀ.mulVec c ∧
      ∀ x, lbᵀ.mulVec (A.mulVec (rb.mulVec x + shift) + c) = s'.redMat.mulVec x + s'.redShift + s'.redForcing := by
  obtain ⟨s', h1, h2, h3, h4⟩ := compute2_run op (fun v => A.mulVec v + c) hop lb rb shift s
  have hm : (Matrix.of (fun i k => ((fun v => A.mulVec v + c) (fun i => rb i k) - (fun v => A.mulVec v + c) 0) i) : Matrix m (Fin r) K) = A * rb := by
    ext i k
    simp [Matrix.mulVec_zero, Matrix.mul_apply, Matrix.mulVec, dotProduct]
  rw [hm] at h2
  refine ⟨s', h1, h2, by simpa using h4, fun x => ?_⟩
  rw [h2, h3, h4]
  simp only [Matrix.mulVec_zero, zero_add, add_sub_cancel_right]
  rw [Matrix.mulVec_add, Matrix.mulVec_add, Matrix.mulVec_add, Matrix.mulVec_mulVec, Matrix.mulVec_mulVec, Matrix.mul_assoc, Matrix.mulVec_mulVec]

/-- **C58, matrix operator** (`create_reduced_matrix_operator`): for every linear operator `L^T A (R x + s) = Mat x + shift` for every `x`. -/
theorem C58_matrix_operator (op : LinOp K m) (A : Matrix m m K) (hop : AffineOp op A 0) (lb : Matrix m l K) (rb : Matrix m (Fin r) K) (shift : m → K) (s : LR K m l r) :
    ∃ s', compute op lb rb shift s = .ok () s' ∧ s'.redMat = lbᵀ * (A * rb) ∧ (∀ x, lbᵀ.mulVec (A.mulVec (rb.mulVec x + shift)) = s'.redMat.mulVec x + s'.redShift) ∧
      s'.redForcing = s.redForcing := by
  have hcol : ∀ (s : LR K m l r), columns (applyColumn op rb) (List.finRange r) s = .ok () { s with AR := A * rb } := by
    intro s
    rw [allColumns_run op (fun v => A.mulVec v + 0) hop rb _ (fun _ v => v) (fun j s => ?_) s]
    · congr 2
      funext i k
      simp [Matrix.mul_apply, Matrix.mulVec, dotProduct]
    · simp [applyColumn, call, hop _ _]
  have hrun : compute op lb rb shift s = .ok () (compute op lb rb shift s).state := by
    unfold compute
    simp only [Prog.bind_run, call, hop _ _, Prog.modify, hcol, projectMat, applyShift, projectShift]
    rfl
  refine ⟨_, hrun, ?_⟩
  · unfold compute
    simp only [Prog.bind_run, call, hop _ _, Prog.modify, hcol, projectMat, applyShift, projectShift, Res.state]
    refine ⟨by simp, fun x => ?_, trivial⟩
    simp only [zero_smul, one_smul, zero_add, add_zero]
    rw [Matrix.mulVec_add, Matrix.mulVec_add, Matrix.mulVec_mulVec, Matrix.mulVec_mulVec, Matrix.mul_assoc, Matrix.mulVec_mulVec]

/-- For the matrix operator the third of the values that `operator()` returns is whatever memory contained before: different contents give different results. -/
theorem C58_forcing_uninitialised (op : LinOp K m) (A : Matrix m m K) (hop : AffineOp op A 0) (lb : Matrix m l K) (rb : Matrix m (Fin r) K) (shift : m → K) (s : LR K m l r) (junk : l → K) :
    ∃ s', compute op lb rb shift { s with redForcing := junk } = .ok () s' ∧ s'.redForcing = junk := by
  obtain ⟨s', h1, -, -, h4⟩ := C58_matrix_operator op A hop lb rb shift { s with redForcing := junk }
  exact ⟨s', h1, h4⟩

/-- **Constant vector** (`create_reduced_vector_operator`) -/
theorem C58_vector_operator (f : m → K) (lb : Matrix m l K) (old : l → K) : computeConst (.ok f) lb old = .ok (lbᵀ.mulVec f) := by
  simp [computeConst]

/-- An operator that throws on some argument: the constructor throws the exception of the first call that fails (the zero vector, the columns in order, the shift). -/
theorem C58_exception (op : LinOp K m) (lb : Matrix m l K) (rb : Matrix m (Fin r) K) (shift : m → K) (e : Exc) (h : ∀ old, ∃ j, op.apply 0 old = .error (e, j)) (s : LR K m l r) :
    ∃ s', compute2 op lb rb shift s = .stop (.exc e) s' := by
  obtain ⟨j, hj⟩ := h s.hidden
  unfold compute2
  simp only [Prog.bind_run, call, hj]
  exact ⟨_, rfl⟩

end

/-- an affine operator in dimension two, one mode -/
def op2 : LinOp ℚ (Fin 2) := ⟨fun v _ => .ok ((!![1, 2; 3, 4] : Matrix (Fin 2) (Fin 2) ℚ).mulVec v + ![5, 6])⟩
example : AffineOp op2 !![1, 2; 3, 4] ![5, 6] := fun _ _ => rfl
/-- bases `(1,1)` and `(1,0)`, shift `(0,1)`: matrix `4`, shift `6`, forcing `11` -/
example : (fun r : Res (LR ℚ (Fin 2) (Fin 1) 1) Unit => (r.state.redMat 0 0, r.state.redShift 0, r.state.redForcing 0)) (compute2 op2 !![1; 1] !![1; 0] ![0, 1] ⟨!![9; 9], ![9, 9], ![9, 9], !![9], ![9], ![9]⟩) = (4, 6, 11) := by
  decide +kernel

/-- `create_reduced_matrix_operator` on an operator with hidden forcing: the identity fails (the claim of C58 for it is about linear operators) -/
theorem C58_matrix_operator_needs_linear : ∃ x : Fin 1 → ℚ,
    (!![1; 1] : Matrix (Fin 2) (Fin 1) ℚ)ᵀ.mulVec ((!![1, 2; 3, 4] : Matrix (Fin 2) (Fin 2) ℚ).mulVec ((!![1; 0] : Matrix (Fin 2) (Fin 1) ℚ).mulVec x + ![0, 1]) + ![5, 6]) ≠
      (compute op2 (!![1; 1] : Matrix (Fin 2) (Fin 1) ℚ) !![1; 0] ![0, 1] ⟨!![9; 9], ![9, 9], ![9, 9], !![9], ![9], ![0]⟩).state.redMat.mulVec x +
        (compute op2 (!![1; 1] : Matrix (Fin 2) (Fin 1) ℚ) !![1; 0] ![0, 1] ⟨!![9; 9], ![9, 9], ![9, 9], !![9], ![9], ![0]⟩).state.redShift := by
  refine ⟨![1], fun h => ?_⟩
  have := congrFun h 0
  revert this
  decide +kernel

/-- `v ↦ A v` -/
def op2l : LinOp ℚ (Fin 2) := ⟨fun v _ => .ok ((!![1, 2; 3, 4] : Matrix (Fin 2) (Fin 2) ℚ).mulVec v)⟩
def lr2 : LR ℚ (Fin 2) (Fin 1) 1 := ⟨!![9; 9], ![9, 9], ![9, 9], !![9], ![9], ![9]⟩
example := C58_linear_operator op2 !![1, 2; 3, 4] ![5, 6] (fun _ _ => rfl) !![1; 1] !![1; 0] ![0, 1] lr2
example := C58_matrix_operator op2l !![1, 2; 3, 4] (fun _ _ => by simp [op2l]) !![1; 1] !![1; 0] ![0, 1] lr2
example := C58_forcing_uninitialised op2l !![1, 2; 3, 4] (fun _ _ => by simp [op2l]) !![1; 1] !![1; 0] ![0, 1] lr2 ![77]
example := C58_vector_operator (![5, 6] : Fin 2 → ℚ) (!![1; 1] : Matrix (Fin 2) (Fin 1) ℚ) ![9]


end Pressio.Props
