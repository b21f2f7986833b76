import Verif.Props.SolverAlike
import Verif.Props.QR

/-
  C98 with the QR solvers of the code; and concrete cases for the theorems of `Verif.Props.SolverAlike`.
-/
namespace Pressio.Props
set_option autoImplicit false
set_option linter.unusedSectionVars false
open Pressio Matrix
open Pressio.Model.Nonlinear (Env Cfg Reg StopCrit Update Tag Ans leastSquaresDiagnostics newtonDiagnostics)
open Pressio.Spec.Nonlinear Pressio.Spec.SolverAlike
open Pressio.Model.QR Pressio.Spec.QR Pressio.Lemmas.QR

section
variable {K m p : Type} [Field K] [LinearOrder K] [IsStrictOrderedRing K] [Fintype m] [Fintype p]

theorem normal_of_qr {n : Type} [Fintype n] [DecidableEq n] {J Q : Matrix m n K} {R : Matrix n n K} (h : J = Q * R) (hQ : Qᵀ * Q = 1) {r : m → K} {x : n → K} (hx : R *ᵥ x = Qᵀ *ᵥ r) : (Jᵀ * J) *ᵥ x = Jᵀ *ᵥ r := by
  subst h
  have e : (Q * R)ᵀ * (Q * R) = Rᵀ * R := by rw [Matrix.transpose_mul, Matrix.mul_assoc, ← Matrix.mul_assoc Qᵀ, hQ, Matrix.one_mul]
  rw [e, ← Matrix.mulVec_mulVec, hx, Matrix.transpose_mul, ← Matrix.mulVec_mulVec]

theorem independent_of_regular {n : Type} [Fintype n] [DecidableEq n] {J : Matrix m n K} (hu : IsUnit (Jᵀ * J).det) (x : n → K) (hx : J *ᵥ x = 0) : x = 0 := by
  apply regular_unique hu
  rw [← Matrix.mulVec_mulVec, hx, Matrix.mulVec_zero, Matrix.mulVec_zero]

/-- C98 (modified Gram-Schmidt).  The QR class with modified Gram-Schmidt finds the least-squares solution for every Jacobian of full column rank, if its object is new or was last used on a Jacobian with as many columns; it stays so. -/
theorem C98_mgs_factors {N : Nat} {norm2 : (m → K) → K} (hn : IsNorm norm2) {tri : (N : Nat) → Matrix (Fin N) (Fin N) K → (Fin N → K) → Fin N → K} (ht : TriSolves tri) (mp : Nat)
    (env : Env K m (Fin N) p (Option (MV K m) × RMat K)) : FactorsRegular (mgsEnv norm2 tri mp env) (fun l => ∀ Q, l.1 = some Q → Q.map = mp → Q.num = N) := by
  intro J r c b l hl hu
  have hcol : (fun j : Fin N => fun i => (if h : (j : Nat) < N then J i ⟨j, h⟩ else 0)) = fun j i => J i j := by
    funext j i; rw [dif_pos j.2]
  obtain ⟨s', Q', h1, h2, h3, h4, h5, h6⟩ := C68_mgs_factorization hn (⟨⟨mp, N, fun j i => if h : j < N then J i ⟨j, h⟩ else 0⟩, l.1, l.2⟩ : Model.QR.St K m) hl (by
    change LinearIndependent K (fun j : Fin N => fun i => (if h : (j : Nat) < N then J i ⟨j, h⟩ else 0))
    rw [hcol, Fintype.linearIndependent_iff]
    intro g hg
    have : J *ᵥ g = 0 := by
      funext i
      have := congrFun hg i
      simp only [Finset.sum_apply, Pi.smul_apply, smul_eq_mul, Pi.zero_apply] at this
      rw [Pi.zero_apply, ← this]
      simp only [Matrix.mulVec, dotProduct, mul_comm]
    exact fun i => congrFun (independent_of_regular hu g this) i)
  have hmat : mat (⟨mp, N, fun j i => if h : j < N then J i ⟨j, h⟩ else 0⟩ : MV K m) = J := by
    ext i j; show (if h : (j : Nat) < N then J i ⟨j, h⟩ else 0) = _; rw [dif_pos j.2]
  simp only [hmat] at h6
  refine ⟨(s'.Q, s'.R), fun j => (1:K) * (Q'.col j ⬝ᵥ r) + (0:K) * b j, (s'.Q, s'.R), tri N (upper s'.R N) (fun j => (1:K) * (Q'.col j ⬝ᵥ r) + (0:K) * b j), (s'.Q, s'.R), ?_, ?_, ?_, ?_, ?_⟩
  · simp only [mgsEnv, h1]
  · simp only [mgsEnv, applyQT, h2]
    have h4' : Q'.num = N := h4
    rw [if_pos h4']
  · have h5' : s'.R.size = N := h5
    simp only [mgsEnv, mgsSolve, h5', if_true]
  · apply normal_of_qr h6.1 h6.2.1
    rw [ht _ _ _ h6.2.2.1 (fun i => (h6.2.2.2 i).ne')]
    funext j
    simp only [one_mul, zero_mul, add_zero]
    rfl
  · intro Q hq _
    rw [h2] at hq
    cases hq
    exact h4

/-- C98 (Householder).  So does the Householder class, in every state of its object. -/
theorem C98_house_factors {F : Type} {N : Nat} {E : House K m F N} (hE : HouseFactors E) {tri : (N : Nat) → Matrix (Fin N) (Fin N) K → (Fin N → K) → Fin N → K} (ht : TriSolves tri)
    (env : Env K m (Fin N) p (HSt K m F N)) : FactorsRegular (houseEnv E tri env) (fun _ => True) := by
  intro J r c b l _ hu
  obtain ⟨h1, h2⟩ := hE J
  obtain ⟨s', y, c', e1, e2, e3, -⟩ := C68_house_least_squares hE ht l J (independent_of_regular hu) r b
  refine ⟨s', y, s', c', s', e1, by simp only [houseEnv, e2], by simp only [houseEnv, e3], ?_, trivial⟩
  have hx := C68_house_exact_in_gauss_newton hE ht env J l s' e1
  obtain ⟨Q, R, g1, g2, g3⟩ := hx
  obtain ⟨k1, k2⟩ := g3 r b y s' (by simp only [houseEnv, e2])
  have k3 := k2 c c' s' (by simp only [houseEnv, e3])
  exact normal_of_qr g1 g2 (k3.trans k1)

end

/-! ### Concrete cases -/
section Examples

/-- `env1` with weighting operators that are the identity; with the weight 4 -/
def envId : Env ℚ Unit Unit Unit ℚ := { env1 with wR := id, wJ := id, cwR := id, cwJ := id }
def env4 : Env ℚ Unit Unit Unit ℚ := { env1 with wR := fun r => v1 (4 * r ()), wJ := fun J => m1 (4 * J () ()) }

theorem abs_euclidean : Euclidean (fun v : Unit → ℚ => |v ()|) := by intro r; simp [dotProduct, sq]

theorem div1_solves : SolvesRegular div1 := by
  intro A b c l hA
  have h : A () () ≠ 0 := by
    have := hA.ne_zero
    rwa [Matrix.det_unique] at this
  refine ⟨v1 (b () / A () ()), l, by simp [div1, h], ?_⟩
  funext i
  simp [Matrix.mulVec, dotProduct, v1]
  field_simp

theorem env1_factors : FactorsRegular env1 (fun _ => True) := by
  intro J r c b l _ hu
  have h : J () () ≠ 0 := by
    intro h0
    apply hu.ne_zero
    rw [Matrix.det_unique]
    simp [Matrix.mul_apply, h0]
  refine ⟨J () (), r, J () (), v1 (r () / J () ()), J () (), rfl, rfl, by simp [env1, h], ?_, trivial⟩
  funext i
  simp [Matrix.mulVec, dotProduct, Matrix.mul_apply, v1]
  field_simp

theorem reg1_ls (x : ℚ) : LsObj (reg1 leastSquaresDiagnostics x) := .created _ rfl
theorem reg1_newton (x : ℚ) : NewtonObj (reg1 newtonDiagnostics x) := .created _ rfl

/-- `x³ + x - 3` -/
def cub : Sys ℚ Unit Unit := Sys.ofFun (fun x => v1 (x () ^ 3 + x () - 3)) (fun x => m1 (3 * x () ^ 2 + 1))

theorem cub_regular : ∀ x r J, cub.resJac x = .ok (r, J) → IsUnit J.det := by
  intro x r J h
  cases h
  rw [Matrix.det_unique]
  exact isUnit_iff_ne_zero.2 (by simp only [m1]; positivity)

theorem cub_regular2 : ∀ x r J, cub.resJac x = .ok (r, J) → IsUnit (Jᵀ * J).det := by
  intro x r J h
  rw [Matrix.det_mul, Matrix.det_transpose]
  exact (cub_regular x r J h).mul (cub_regular x r J h)

/-- a backtracking solver with a criterion on the correction, and one on the residual with factors `1/2` and `(1/2)²` -/
def cfgCorr : Cfg ℚ := ⟨5, .WhenAbsolutel2NormOfCorrectionBelowTolerance, 1/100, .BacktrackStrictlyDecreasingObjective, none⟩
def cfgH (z : ℚ) : Cfg ℚ := ⟨5, .WhenAbsolutel2NormOfResidualBelowTolerance, 1/100, .BacktrackStrictlyDecreasingObjective, some [z]⟩

example := C98_identity_weights envId cfgCorr cub (fun _ => rfl) (fun _ => rfl) abs_euclidean (reg1 leastSquaresDiagnostics 3) { reg1 leastSquaresDiagnostics 3 with trial := v1 9, Wr := v1 5 } (reg1_ls 3) (.created _ rfl) rfl rfl rfl
example := C98_identity_compact envId cfgCorr cub (fun _ => rfl) (fun _ => rfl) abs_euclidean (reg1 leastSquaresDiagnostics 3) { reg1 leastSquaresDiagnostics 3 with trial := v1 9, Wr := v1 5 } (reg1_ls 3) (.created _ rfl) rfl rfl rfl
example := C98_weighted_is_scaled env4 env1 (m1 2) cfgCorr rfl cub (fun r => by funext i; simp [env4, v1, m1, Matrix.mulVec, dotProduct, Matrix.mul_apply]; norm_num) (fun J => by ext i j; simp [env4, m1, Matrix.mul_apply]; norm_num)
  rfl rfl abs_euclidean (reg1 leastSquaresDiagnostics 3) (reg1 leastSquaresDiagnostics 3) (reg1_ls 3) (reg1_ls 3) rfl rfl rfl
example := C98_compact_is_scaled env1 env1 (m1 3) cfgCorr rfl cub (fun r => by funext i; simp [env1, v1, m1, Matrix.mulVec, dotProduct]) (fun J => by ext i j; simp [env1, m1, Matrix.mul_apply])
  rfl rfl abs_euclidean (reg1 leastSquaresDiagnostics 3) (reg1 leastSquaresDiagnostics 3) (reg1_ls 3) (reg1_ls 3) rfl rfl rfl
example := C98_qr_is_normal_equations env1 cfgCorr cub _ env1_factors div1_solves cub_regular2 (reg1 leastSquaresDiagnostics 3) (reg1 leastSquaresDiagnostics 3) (reg1_ls 3) (reg1_ls 3) rfl trivial
example := C98_gauss_newton_is_newton env1 (cfgH (1/2)) (cfgH ((1/2)^2)) ⟨rfl, rfl, rfl, .inr ⟨rfl, rfl, .inr ⟨1/2, [], [], by norm_num, rfl, rfl⟩⟩⟩ rfl cub div1_solves div1_solves (fun _ => abs_nonneg _) cub_regular
  (reg1 newtonDiagnostics 3) (reg1 leastSquaresDiagnostics 3) (reg1_newton 3) (reg1_ls 3) rfl

/-- these solves do something -/
example : (runNewton env1 (cfgH (1/2)) cub (reg1 newtonDiagnostics 3)).stop? = none ∧ (runNewton env1 (cfgH (1/2)) cub (reg1 newtonDiagnostics 3)).state.log.length = 9 := by decide +kernel

/-- The theorems about weights exclude criteria on the residual because these do not see the weights: on `x² - 2`, with the tolerance 2/5, the weighted solver with weight `4 = 2²` accepts `3/2`, where the residual is 1/4; the Gauss-Newton solver
    on the system multiplied by 2 goes on, because there it is 1/2. -/
theorem C98_residual_criterion_ignores_weights : let cfg : Cfg ℚ := ⟨5, .WhenAbsolutel2NormOfResidualBelowTolerance, 2/5, .Standard, none⟩
    (runLs env4 cfg sq2 .wgn (reg1 leastSquaresDiagnostics 2)).stop? = none ∧ (runLs env1 cfg (scaledSys (m1 2) sq2) .gn (reg1 leastSquaresDiagnostics 2)).stop? = none ∧
    (runLs env4 cfg sq2 .wgn (reg1 leastSquaresDiagnostics 2)).state.x () = 3/2 ∧ (runLs env1 cfg (scaledSys (m1 2) sq2) .gn (reg1 leastSquaresDiagnostics 2)).state.x () = 17/12 := by
  decide +kernel

/-- modified Gram-Schmidt and Householder QR over the reals, with any other members of the environment -/
example (mp N : Nat) (env : Env ℝ (Fin 3) (Fin N) Unit (Option (MV ℝ (Fin 3)) × RMat ℝ)) := C98_mgs_factors realNorm_isNorm inverseSolve_solves mp env
example (env : Env ℝ (Fin 2) (Fin 1) Unit _) := C98_house_factors house1_factors inverseSolve_solves env

end Examples
end Pressio.Props
