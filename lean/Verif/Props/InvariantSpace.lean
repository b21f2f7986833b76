import Verif.Spec.InvariantSpace
import Verif.Props.FullBasis

/-
  C104: implicit Galerkin and LSPG are exact on invariant trial spaces.
-/
namespace Pressio.Props
set_option autoImplicit false
set_option linter.unusedSectionVars false
open Pressio Matrix
open Pressio.Model.Nonlinear (Env Cfg Reg StopCrit Update Tag Ans SP)
open Pressio.Spec.Nonlinear Pressio.Spec.SolverAlike Pressio.Spec.Coordinates Pressio.Spec.InvariantSpace
open Pressio.Lemmas.Nonlinear Pressio.Lemmas.SolverAlike Pressio.Lemmas.Coordinates
open Pressio.Model.Implicit Pressio.Spec.Implicit Pressio.Lemmas.Implicit Pressio.Spec.SolverRun Pressio.Lemmas.SolverTree Pressio.Lemmas.SolverRun
open Pressio.Model.Explicit (Scheme System numRhs asStepper dummyObserver)
open Pressio.Model.Galerkin Pressio.Spec.Galerkin Pressio.Model.Lspg Pressio.Spec.Lspg Pressio.Lemmas.Lspg

section
variable {K m n q p p' L L' : Type} [Field K] [LinearOrder K] [IsStrictOrderedRing K] [Fintype m] [DecidableEq m] [Fintype n] [DecidableEq n] [Fintype q] [Fintype p] [Fintype p']

/-! ### One solve -/

/-- a matrix that is regular and maps the range of `B` into itself is regular on it -/
theorem restricted_regular {B : Matrix m n K} (hB : Bᵀ * B = 1) {J : Matrix m m K} {J' : Matrix n n K} (hJ : J * B = B * J') (hu : IsUnit J.det) : IsUnit J'.det := by
  rw [← Matrix.isUnit_iff_isUnit_det, ← Matrix.mulVec_injective_iff_isUnit]
  intro v w h
  have h1 : J *ᵥ (B *ᵥ v) = J *ᵥ (B *ᵥ w) := by
    rw [Matrix.mulVec_mulVec, Matrix.mulVec_mulVec, hJ, ← Matrix.mulVec_mulVec, ← Matrix.mulVec_mulVec]
    exact congrArg _ h
  have h2 := congrArg (Bᵀ *ᵥ ·) (regular_unique hu h1)
  simpa only [Matrix.mulVec_mulVec, hB, Matrix.one_mulVec] using h2

/-- Newton on a system whose residuals at the points of an affine space are in the range of its basis, and Newton on the system in the coordinates of this space -/
theorem newton_restricted (env : Env K m m p L) (env' : Env K n n p' L') (cfg : Cfg K) (B : Matrix m n K) (a : m → K) (hB : Bᵀ * B = 1) (sys : Sys K m m) (sys' : Sys K n n)
    (hsys : ∀ x, (∃ e, sys.resJac (chart B a x) = .error e ∧ sys'.resJac x = .error e) ∨ ∃ r J r' J', sys.resJac (chart B a x) = .ok (r, J) ∧ sys'.resJac x = .ok (r', J') ∧ (r = B *ᵥ r' ∧ J * B = B * J' ∧ IsUnit J.det))
    (hres : ∀ x, (∃ e, sys.res (chart B a x) = .error e ∧ sys'.res x = .error e) ∨ ∃ r', sys.res (chart B a x) = .ok (B *ᵥ r') ∧ sys'.res x = .ok r')
    (hM : ∀ r, env'.normM r = env.normM (B *ᵥ r)) (hN : ∀ c, env'.normN c = env.normN (B *ᵥ c)) (hlin : SolvesRegular env.linJ) (hlin' : SolvesRegular env'.linJ)
    (s : Reg K m m p L) (s' : Reg K n n p' L') (hs : NewtonObj s) (hs' : NewtonObj s') (hx : s.x = chart B a s'.x) :
    SamePoints (chart B a) s s' (runNewton env cfg sys s) (runNewton env' cfg sys' s') := by
  suffices h : (newtonSolve env cfg sys (absR s)).how = (newtonSolve env' cfg sys' (absR s')).how ∧ (newtonSolve env cfg sys (absR s)).st.x = chart B a (newtonSolve env' cfg sys' (absR s')).st.x ∧
      points (newtonSolve env cfg sys (absR s)).log = (points (newtonSolve env' cfg sys' (absR s')).log).map (fun q => (chart B a q.1, q.2)) from
    points_of (newton_run env cfg sys hs) (newton_run env' cfg sys' hs') h.1 h.2.1 h.2.2
  unfold newtonSolve
  rcases hr : newtonRule cfg with e | rule
  · exact ⟨rfl, hx, rfl⟩
  simp only
  refine iterate_moved (chart B a) (fun _ _ _ _ => True) (fun c c' => c = B *ᵥ c') sys sys' _ _ (fun r J r' J' => r = B *ᵥ r' ∧ J * B = B * J' ∧ IsUnit J.det) (MeasuredAlike cfg.stop) rfl rfl hsys ?_ ?_ ?_ _ _ _ _ _ _ .none hx trivial
  · rintro x r J r' J' d _ d' _ c b l c' b' l' ⟨rfl, hJ, hu⟩ -
    obtain ⟨y, l1, e1, e2⟩ := hlin J (B *ᵥ r') c l hu
    obtain ⟨y', l1', f1, f2⟩ := hlin' J' r' c' l' (restricted_regular hB hJ hu)
    have hy : B *ᵥ y' = y := by
      apply regular_unique hu
      rw [e2, ← f2, Matrix.mulVec_mulVec, Matrix.mulVec_mulVec, hJ]
    refine ⟨-y, b, l1, -y', b', l1', ?_, ?_, ?_, rfl, ?_⟩
    · simp only [newtonProblem, Bool.false_eq_true, if_false, negated, e1]
    · simp only [newtonProblem, Bool.false_eq_true, if_false, negated, f1]
    · simp only [Matrix.mulVec_neg, hy]
    · have hc : B *ᵥ (-y') = -y := by rw [Matrix.mulVec_neg, hy]
      generalize cfg.stop = stp
      cases stp <;> simp only [newtonProblem, hM, hN, hc]
  · intro i ref ref' now now' h1 h2
    simp only [newtonProblem, measured_below h1 h2]
  · rintro s s' r J r' J' now now' ⟨rfl, hJ, hu⟩ hN' hx hc - hn hn'
    cases rule with
    | standard =>
      simp only [newtonProblem, hx, hc]
      refine ⟨rfl, ?_, trivial⟩
      simp only [SameMove, chart, Matrix.mulVec_add]; abel
    | backtrack z =>
      simp only [newtonProblem, hx, hc]
      have hres' : now.resid = now'.resid := by rw [hn, hn']; simp only [newtonProblem, hM]
      rw [hres']
      refine Lemmas.Coordinates.search_moved _ B a _ _ _ _ _ _ _ _ _ ?_ trivial _
      intro y
      rcases hres y with ⟨e, h1, h2⟩ | ⟨r', h1, h2⟩
      · rw [h1, h2]; rfl
      · rw [h1, h2]; simp only [Except.map, hM]

/-- Gauss-Newton on a square system as above, and on the system with the same residuals as functions of the coordinates -/
theorem gauss_newton_restricted (env : Env K m m p L) (env' : Env K m n p' L') (cfg : Cfg K) (B : Matrix m n K) (a : m → K) (hB : Function.Injective B.mulVec) (sys : Sys K m m) (sys' : Sys K m n)
    (hsys : ∀ x, (∃ e, sys.resJac (chart B a x) = .error e ∧ sys'.resJac x = .error e) ∨ ∃ r J r' J', sys.resJac (chart B a x) = .ok (r, J) ∧ sys'.resJac x = .ok (r', J') ∧ (r' = r ∧ J' = J * B ∧ (∃ z, r = B *ᵥ z) ∧ (∃ A, J * B = B * A) ∧ IsUnit J.det))
    (hres : ∀ x, sys'.res x = sys.res (chart B a x)) (hM : env'.normM = env.normM) (hroot : rootCriterion cfg.stop = true)
    (hN : cfg.stop = .WhenAbsolutel2NormOfCorrectionBelowTolerance ∨ cfg.stop = .WhenRelativel2NormOfCorrectionBelowTolerance → ∀ c, env'.normN c = env.normN (B *ᵥ c)) (hlin : SolvesRegular env.lin) (hlin' : SolvesRegular env'.lin)
    (s : Reg K m m p L) (s' : Reg K m n p' L') (hs : LsObj s) (hs' : LsObj s') (hx : s.x = chart B a s'.x) :
    SamePoints (chart B a) s s' (runLs env cfg sys .gn s) (runLs env' cfg sys' .gn s') := by
  obtain ⟨h1, h2, h3⟩ := ls_moved env env' cfg .gn (by decide) sys sys' B a (fun r J r' J' => r' = r ∧ J' = J * B ∧ (∃ z, r = B *ᵥ z) ∧ (∃ A, J * B = B * A) ∧ IsUnit J.det) (MeasuredAlike cfg.stop) hsys
    (by
      rintro rule x r J _ _ d d' c b l c' b' l' ⟨rfl, rfl, ⟨z, rfl⟩, ⟨A, hA⟩, hu⟩
      have hinj : Function.Injective (J * B).mulVec := by
        intro v w h
        simp only [← Matrix.mulVec_mulVec] at h
        exact hB (regular_unique hu h)
      have hAu : IsUnit A.det := by
        rw [← Matrix.isUnit_iff_isUnit_det, ← Matrix.mulVec_injective_iff_isUnit]
        intro v w h
        apply hinj
        rw [hA]
        simp only [← Matrix.mulVec_mulVec]
        exact congrArg _ h
      have hw : A *ᵥ (A⁻¹ *ᵥ z) = z := by rw [Matrix.mulVec_mulVec, Matrix.mul_nonsing_inv A hAu, Matrix.one_mulVec]
      have hJw : J *ᵥ (B *ᵥ (A⁻¹ *ᵥ z)) = B *ᵥ z := by rw [Matrix.mulVec_mulVec, hA, ← Matrix.mulVec_mulVec, hw]
      have hH : IsUnit (Jᵀ * J).det := by rw [Matrix.det_mul, Matrix.det_transpose]; exact hu.mul hu
      have hH' : IsUnit ((J * B)ᵀ * (J * B)).det := by
        rw [← Matrix.isUnit_iff_isUnit_det, ← Matrix.mulVec_injective_iff_isUnit]
        intro v w h
        apply hinj
        have h0 : ((J * B)ᵀ * (J * B)) *ᵥ (v - w) = 0 := by rw [Matrix.mulVec_sub, sub_eq_zero]; exact h
        have h1 : ((J * B) *ᵥ (v - w)) ⬝ᵥ ((J * B) *ᵥ (v - w)) = 0 := by
          rw [Matrix.dotProduct_mulVec, ← Matrix.mulVec_transpose, Matrix.mulVec_mulVec, h0, zero_dotProduct]
        have h2 := dotProduct_self_eq_zero.1 h1
        rw [Matrix.mulVec_sub, sub_eq_zero] at h2
        exact h2
      obtain ⟨y, l1, e1, e2⟩ := hlin (Jᵀ * J) (Jᵀ *ᵥ (B *ᵥ z)) c l hH
      obtain ⟨y', l1', f1, f2⟩ := hlin' ((J * B)ᵀ * (J * B)) ((J * B)ᵀ *ᵥ (B *ᵥ z)) c' l' hH'
      have hy : y = B *ᵥ (A⁻¹ *ᵥ z) := by
        apply regular_unique hH
        rw [e2, ← Matrix.mulVec_mulVec, hJw]
      have hy' : y' = A⁻¹ *ᵥ z := by
        apply regular_unique hH'
        rw [f2, ← Matrix.mulVec_mulVec, ← Matrix.mulVec_mulVec (M := J), hJw]
      subst hy hy'
      refine ⟨-(A⁻¹ *ᵥ z), b, l1, b', l1', ?_, ?_⟩
      · simp only [lsProblem, hessOf, gradOf, negated, e1, Matrix.mulVec_neg]
      · simp only [lsProblem, hessOf, gradOf, negated, f1])
    (by
      rintro r J _ _ c ⟨rfl, rfl, -⟩
      refine ⟨by simp only [objOf, hM], ?_⟩
      generalize hst : cfg.stop = stp at hroot hN ⊢
      cases stp <;> simp [rootCriterion] at hroot hN <;> simp only [hM, hN])
    (fun _ _ h => h.1) (fun _ _ _ _ => measured_below)
    (by
      intro x
      simp only [objAt, hres]
      rcases sys.res (chart B a x) with e | r
      · rfl
      · simp only [Except.map, objOf, hM])
    (absR s) (absR s') hx
  exact points_of (ls_run env cfg sys .gn hs) (ls_run env' cfg sys' .gn hs') h1 h2 h3

/-! ### The equations of a step -/

/-- the equations of a step at the states of an invariant trial space: residuals in the range of the basis, Jacobians mapping it into itself -/
theorem textbook_invariant {f : (m → K) → K → Except Exc (m → K)} {Df : (m → K) → K → Except Exc (Matrix m m K)} (S : Trial K m n) (hI : InvariantSpace S f Df) (name : Scheme) (hist : List (n → K)) (t dt : K) (x : n → K) (w : Bool) (r : m → K) (j : Option (Matrix m m K))
    (h : textbook name (fomSystem f Df) (hist.map (lift S)) t dt (lift S x) w = .ok (r, j)) : (∃ z, r = S.basis *ᵥ z) ∧ ∀ J ∈ j, ∃ A, J * S.basis = S.basis * A := by
  have hev : ∀ y s w v j, (fomSystem f Df).eval (lift S y) s w = .ok (v, j) → (∃ z, v = S.basis *ᵥ z) ∧ ∀ J ∈ j, ∃ A, J * S.basis = S.basis * A := by
    intro y s w v j h
    unfold fomSystem at h
    dsimp only at h
    rcases hf : f (lift S y) s with e | u
    · rw [hf] at h; cases h
    rw [hf] at h
    cases w
    · cases h; exact ⟨hI.1 _ _ _ hf, by simp⟩
    · rcases hD : Df (lift S y) s with e | D
      · rw [hD] at h; cases h
      · rw [hD] at h; cases h; exact ⟨hI.1 _ _ _ hf, by rintro J ⟨⟩; exact hI.2 _ _ _ hD⟩
  have hjac : ∀ (c : K) (j : Option (Matrix m m K)), (∀ J ∈ j, ∃ A, J * S.basis = S.basis * A) → ∀ J ∈ j.map (fun J => 1 - c • J), ∃ A, J * S.basis = S.basis * A := by
    rintro c (_ | D) h J hJ
    · cases hJ
    · cases hJ
      obtain ⟨A, hA⟩ := h D rfl
      exact ⟨1 - c • A, by rw [Matrix.sub_mul, Matrix.mul_sub, Matrix.one_mul, Matrix.mul_one, Matrix.smul_mul, Matrix.mul_smul, hA]⟩
  have hl : ∀ y, lift S y = S.basis *ᵥ y + (if S.isAffine then S.translation else 0) := fun _ => rfl
  generalize (if S.isAffine then S.translation else 0) = a at hl
  cases name <;> rcases hist with _ | ⟨yn, _ | ⟨ynm1, hist⟩⟩ <;> simp only [textbook, List.map_cons, List.map_nil, reduceCtorEq] at h
  case BDF1.cons.nil | BDF1.cons.cons | BDF2.cons.nil =>
    rcases he : (fomSystem f Df).eval (lift S x) (t + dt) w with ⟨e, z⟩ | ⟨v, j'⟩
    · rw [he] at h; cases h
    rw [he] at h
    cases h
    obtain ⟨⟨z, rfl⟩, h2⟩ := hev _ _ _ _ _ he
    refine ⟨⟨x - yn - dt • z, ?_⟩, hjac _ _ h2⟩
    rw [bdf1Res, hl, hl, Matrix.mulVec_sub, Matrix.mulVec_sub, Matrix.mulVec_smul]; abel
  case BDF2.cons.cons =>
    rcases he : (fomSystem f Df).eval (lift S x) (t + dt) w with ⟨e, z⟩ | ⟨v, j'⟩
    · rw [he] at h; cases h
    rw [he] at h
    cases h
    obtain ⟨⟨z, rfl⟩, h2⟩ := hev _ _ _ _ _ he
    refine ⟨⟨x - ((4:K)/3) • yn + ((1:K)/3) • ynm1 - ((2:K)/3 * dt) • z, ?_⟩, hjac _ _ h2⟩
    rw [bdf2Res, hl, hl, hl]
    simp only [Matrix.mulVec_sub, Matrix.mulVec_add, Matrix.mulVec_smul]
    module
  case CrankNicolson.cons.nil | CrankNicolson.cons.cons =>
    rcases he0 : (fomSystem f Df).eval (lift S yn) t false with ⟨e, z⟩ | ⟨v0, j0⟩
    · rw [he0] at h; cases h
    rw [he0] at h
    dsimp only at h
    rcases he : (fomSystem f Df).eval (lift S x) (t + dt) w with ⟨e, z⟩ | ⟨v, j'⟩
    · rw [he] at h; cases h
    rw [he] at h
    cases h
    obtain ⟨⟨z0, rfl⟩, -⟩ := hev _ _ _ _ _ he0
    obtain ⟨⟨z, rfl⟩, h2⟩ := hev _ _ _ _ _ he
    refine ⟨⟨x - yn - (dt / 2) • (z + z0), ?_⟩, hjac _ _ h2⟩
    rw [cnRes, hl, hl]
    simp only [Matrix.mulVec_sub, Matrix.mulVec_add, Matrix.mulVec_smul]; abel

/-- what is in the range of an orthonormal basis is not changed by the projection onto it -/
theorem range_projected {B : Matrix m n K} (hB : Bᵀ * B = 1) {r : m → K} (h : ∃ z, r = B *ᵥ z) : r = B *ᵥ (Bᵀ *ᵥ r) := by
  obtain ⟨z, rfl⟩ := h
  rw [Matrix.mulVec_mulVec (M := Bᵀ), hB, Matrix.one_mulVec]
theorem range_projected' {B : Matrix m n K} (hB : Bᵀ * B = 1) {J : Matrix m m K} (h : ∃ A, J * B = B * A) : J * B = B * (Bᵀ * J * B) := by
  obtain ⟨A, hA⟩ := h
  rw [Matrix.mul_assoc Bᵀ, hA, ← Matrix.mul_assoc Bᵀ, hB, Matrix.one_mul]

/-- Euclidean norms of a vector and of its image under an orthonormal basis -/
theorem euclidean_range {B : Matrix m n K} (hB : Bᵀ * B = 1) {norm' : (n → K) → K} {norm : (m → K) → K} (h' : Euclidean norm') (h : Euclidean norm) (h0' : ∀ r, 0 ≤ norm' r) (h0 : ∀ r, 0 ≤ norm r) (r : n → K) : norm (B *ᵥ r) = norm' r := by
  have e : norm (B *ᵥ r) ^ 2 = norm' r ^ 2 := by
    rw [h, h', Matrix.dotProduct_mulVec, Matrix.vecMul_mulVec, hB, Matrix.vecMul_one]
  exact (pow_left_inj₀ (h0 _) (h0' _) two_ne_zero).1 e

/-- the reference state -/
def origin (S : Trial K m n) : m → K := if S.isAffine then S.translation else 0
theorem lift_origin (S : Trial K m n) : lift S = chart S.basis (origin S) := rfl

/-- The matrices `1 - c df/dy` of the scheme are regular in steps of size `dt`, at the states of the trial space -/
def RegularOn (S : Trial K m n) (name : Scheme) (Df : (m → K) → K → Except Exc (Matrix m m K)) (dt : K) : Prop := ∀ x t D, Df (lift S x) t = .ok D → ∀ c ∈ rhsFactors dt name, IsUnit (1 - c • D).det

theorem textbook_regularOn {f : (m → K) → K → Except Exc (m → K)} {Df : (m → K) → K → Except Exc (Matrix m m K)} (S : Trial K m n) (name : Scheme) (dt : K) (hreg : RegularOn S name Df dt) (hist : List (m → K)) (t : K) (x : n → K) (r : m → K) (J : Matrix m m K)
    (h : textbook name (fomSystem f Df) hist t dt (lift S x) true = .ok (r, some J)) : IsUnit J.det := by
  -- the equations at this point are those of a system with the same Jacobian everywhere
  have key : ∀ (v : m → K) (j : Option (Matrix m m K)), (fomSystem f Df).eval (lift S x) (t + dt) true = .ok (v, j) → ∀ D ∈ j, ∀ c ∈ rhsFactors dt name, IsUnit (1 - c • D).det := by
    intro v j he D hD
    cases hD
    exact hreg x (t + dt) D (odeIs_eval (fomSystem_is f Df) _ _ _ _ he)
  rcases he : (fomSystem f Df).eval (lift S x) (t + dt) true with ⟨e, z⟩ | ⟨v, _ | D⟩ <;> cases name <;> rcases hist with _ | ⟨yn, _ | ⟨ynm1, hist⟩⟩ <;> simp only [textbook, he, reduceCtorEq] at h
  all_goals first
    | (cases h; exact key _ _ he _ rfl _ (by simp [rhsFactors]))
    | (cases h; done)
    | (rcases he0 : (fomSystem f Df).eval yn t false with ⟨e, z⟩ | ⟨v0, j0⟩ <;> rw [he0] at h <;> first | (cases h; done) | (cases h; exact key _ _ he _ rfl _ (by simp [rhsFactors])))

/-! ### Runs -/

/-- **C104, Galerkin.** Let the trial space of a default Galerkin problem (orthonormal basis, any reference state) be invariant under the full-order model.  The full-order model and the Galerkin problem, each with an implicit stepper (BDF1, BDF2, CrankNicolson) and a Newton object with Euclidean norms and the same options,
    started at the same state of the trial space: both runs go through the same full-order states at the same times, accept and fail in the same steps in the same way, and evaluate the full-order model at the same states. -/
theorem C104_galerkin_implicit {F : Fom K m m n} {f : (m → K) → K → Except Exc (m → K)} {Df Mm : (m → K) → K → Except Exc (Matrix m m K)} (hF : FomIs F f Df Mm) (hn : FomNoTSF f Df) (sys : ISystem K (m → K) (Matrix m m K)) (hsys : OdeIs sys f Df)
    (S : Trial K m n) (hS : Orthonormal S) (hI : InvariantSpace S f Df) (s0 : GSt K m m q n) (name : Scheme) (mem : SMem K (m → K) (m → K) PMem) (mem' : SMem K (n → K) (n → K) PMem) (hmem : Ready name mem) (hmem' : Ready name mem')
    (env : Env K m m p L) (env' : Env K n n p' L') (he : ∀ A b s, (env.linJ A b s).stop? ≠ some (.exc .timeStepFailure)) (he' : ∀ A b s, (env'.linJ A b s).stop? ≠ some (.exc .timeStepFailure)) (hlin : SolvesRegular env.linJ) (hlin' : SolvesRegular env'.linJ)
    (hM : Euclidean env.normM ∧ ∀ r, 0 ≤ env.normM r) (hM' : Euclidean env'.normM ∧ ∀ r, 0 ≤ env'.normM r) (hN : Euclidean env.normN ∧ ∀ r, 0 ≤ env.normN r) (hN' : Euclidean env'.normN ∧ ∀ r, 0 ≤ env'.normN r)
    (cfg : Cfg K) (reg : Reg K m m p L) (reg' : Reg K n n p' L') (hreg : NewtonIdle reg) (hreg' : NewtonIdle reg') (dts : List K) (hdt : ∀ dt ∈ dts, RegularOn S name Df dt) (t0 : K) (x0 : n → K) :
    (driveObj (stdStep name (asISystem (defaultRhsJac S F) s0)) (Model.Nonlinear.newtonSolve env' cfg) dts t0 [x0] x0 mem' reg').map (shown (lift S)) =
      (driveObj (stdStep name sys) (Model.Nonlinear.newtonSolve env cfg) dts t0 [lift S x0] (lift S x0) mem reg).map (shown id) := by
  have hB : S.basisᵀ * S.basis = 1 := hS
  symm
  refine driveObj_moved (RegularOn S name Df) (lift S) (fun _ => True) (fun _ => True) _ _ (textbook name sys) (textbook name (asISystem (defaultRhsJac S F) s0)) _ _
    (refinesOn_true (std_refines name (ready_name name mem hmem) _)) (refinesOn_true (std_refines name (ready_name name mem hmem) _)) (textbook_ne name _ (odeIs_noTSF hsys hn)) _ _ (fine_newtonSolve env he cfg) (fine_newtonSolve env' he' cfg)
    (fun _ _ => trivial) (fun _ _ => trivial) (fun a b => NewtonIdle a ∧ NewtonIdle b) ?_ dts hdt t0 x0 [] mem mem' reg reg' (ready_inv name _ mem hmem t0 _) (ready_inv name _ mem' hmem' t0 _) ⟨hreg, hreg'⟩
  intro rg rg' y prev t dt hd hr r r'
  have hwt := textbook_wellTyped name _ (odeIs_wellTyped hsys) ((y :: prev).map (lift S)) t dt
  have hwt' := textbook_wellTyped name _ (galerkin_wellTyped S F s0) (y :: prev) t dt
  have hgal := fun x w => galerkin_textbook hF S hS s0 name (y :: prev) t dt x w
  have hinv := textbook_invariant S hI name (y :: prev) t dt
  have hrg := textbook_regularOn (f := f) S name dt hd ((y :: prev).map (lift S)) t
  have hsame := newton_restricted env env' cfg S.basis (origin S) hB (sysOf (textbook name sys ((y :: prev).map (lift S)) t dt)) (sysOf (textbook name (asISystem (defaultRhsJac S F) s0) (y :: prev) t dt))
    (by
      intro x
      simp only [sysOf, hgal, odeIs_textbook hsys, ← lift_origin]
      rcases ht : textbook name (fomSystem f Df) ((y :: prev).map (lift S)) t dt (lift S x) true with e | ⟨r, _ | J⟩
      · exact .inl ⟨_, rfl, rfl⟩
      · rw [odeIs_textbook hsys] at hwt
        cases hwt _ _ _ _ ht
      · obtain ⟨h1, h2⟩ := hinv _ _ _ _ ht
        exact .inr ⟨_, _, _, _, rfl, rfl, range_projected hB h1, range_projected' hB (h2 J rfl), hrg _ _ _ ht⟩)
    (by
      intro x
      simp only [sysOf, hgal, odeIs_textbook hsys, ← lift_origin]
      rcases ht : textbook name (fomSystem f Df) ((y :: prev).map (lift S)) t dt (lift S x) false with e | ⟨r, j⟩
      · exact .inl ⟨_, rfl, rfl⟩
      · exact .inr ⟨S.basisᵀ *ᵥ r, congrArg Except.ok (range_projected hB (hinv _ _ _ _ ht).1), rfl⟩)
    (fun r => (euclidean_range hB hM'.1 hM.1 hM'.2 hM.2 r).symm) (fun r => (euclidean_range hB hN'.1 hN.1 hN'.2 hN.2 r).symm) hlin hlin' { rg with x := lift S y } { rg' with x := y } (hr.1 _) (hr.2 y) rfl
  unfold runNewton at hsame
  rw [toF_sysOf _ hwt, toF_sysOf _ hwt'] at hsame
  exact ⟨hsame, newtonIdle_run env cfg _ hwt rg _ hr.1, newtonIdle_run env' cfg _ hwt' rg' y hr.2⟩

/-- the full-order model and LSPG on an invariant trial space, both with Gauss-Newton objects -/
theorem C104_lspg_gauss_newton {F : Fom K m m n} {f : (m → K) → K → Except Exc (m → K)} {Df Mm : (m → K) → K → Except Exc (Matrix m m K)} (hF : FomIs F f Df Mm) (hn : FomNoTSF f Df) (hv : ∀ y t, f y t ≠ .error .velocityFailureUnrecoverable) (hv' : ∀ y t, Df y t ≠ .error .velocityFailureUnrecoverable)
    (sys : ISystem K (m → K) (Matrix m m K)) (hsys : OdeIs sys f Df) (S : Trial K m n) (hS : Function.Injective S.basis.mulVec) (hI : InvariantSpace S f Df) (name : Scheme) (hname : name = .BDF1 ∨ name = .BDF2)
    (mem : SMem K (m → K) (m → K) PMem) (hmem : Ready name mem) (mem' : SMem K (n → K) (n → K) (LMem K m m n)) (hmem' : LspgReady name mem')
    (env : Env K m m p L) (env' : Env K m n p' L') (he : InnerHonest env .gn) (he' : InnerHonest env' .gn) (hlin : SolvesRegular env.lin) (hlin' : SolvesRegular env'.lin) (hM : env'.normM = env.normM)
    (cfg : Cfg K) (h1 : 1 ≤ cfg.maxIters) (hroot : rootCriterion cfg.stop = true) (hN : cfg.stop = .WhenAbsolutel2NormOfCorrectionBelowTolerance ∨ cfg.stop = .WhenRelativel2NormOfCorrectionBelowTolerance → ∀ c, env'.normN c = env.normN (S.basis *ᵥ c))
    (reg : Reg K m m p L) (reg' : Reg K m n p' L') (hreg : LsIdle reg) (hreg' : LsIdle reg') (dts : List K) (hdt : ∀ dt ∈ dts, RegularOn S name Df dt) (t0 : K) (x0 : n → K) :
    (driveObj (stepWith name (defaultPolicy S F)) (Model.Nonlinear.lsSolve env' cfg .gn) dts t0 [x0] x0 mem' reg').map (shown (lift S)) =
      (driveObj (stdStep name sys) (Model.Nonlinear.lsSolve env cfg .gn) dts t0 [lift S x0] (lift S x0) mem reg).map (shown id) := by
  symm
  obtain ⟨Inv', hr', hI'⟩ := policy_lawful name hname _ _ _ _ ((lspgPolicy_refines name hname S _ _ (assembleDefault_ok hF S) (mem'.pol.data.getD 1 0)).congrF (fun y prev t dt x w => equations_lspg name hname S f Df y prev t dt x w)) mem' hmem'.1 t0 x0
      (good_start _ S _ mem'.pol hmem'.2.1 (by rcases hname with rfl | rfl <;> simp [numStates]) hmem'.2.2)
  refine driveObj_moved (RegularOn S name Df) (lift S) (fun _ => True) Asks _ _ (textbook name sys) (lspg name S f Df) _ Inv'
    (refinesOn_true (std_refines name (ready_name name mem hmem) _)) hr' (textbook_ne name _ (odeIs_noTSF hsys hn)) _ _ (fine_lsSolve env cfg _ he) (fine_lsSolve env' cfg _ he')
    (fun _ _ => trivial) (asks_solverOf _ (busy_lsSolve env' cfg _ h1)) (fun a b => LsIdle a ∧ LsIdle b) ?_ dts hdt t0 x0 [] mem mem' reg reg' (ready_inv name _ mem hmem t0 _) hI' ⟨hreg, hreg'⟩
  intro rg rg' y prev t dt hd hr r r'
  have hwt := textbook_wellTyped name _ (odeIs_wellTyped hsys) ((y :: prev).map (lift S)) t dt
  have hwt' := lspg_wellTyped name S f Df (y :: prev) t dt
  have hlspg := fun x w => C52_is_the_full_order_scheme S name hname f Df y prev t dt x w (hv _ _) (hv' _ _)
  have hinv := textbook_invariant S hI name (y :: prev) t dt
  have hrg := textbook_regularOn (f := f) S name dt hd ((y :: prev).map (lift S)) t
  have hsame := gauss_newton_restricted env env' cfg S.basis (origin S) hS (sysOf (textbook name sys ((y :: prev).map (lift S)) t dt)) (sysOf (lspg name S f Df (y :: prev) t dt))
    (by
      intro x
      simp only [sysOf, hlspg, odeIs_textbook hsys, ← lift_origin]
      rcases ht : textbook name (fomSystem f Df) ((y :: prev).map (lift S)) t dt (lift S x) true with e | ⟨r, _ | J⟩
      · exact .inl ⟨_, rfl, rfl⟩
      · rw [odeIs_textbook hsys] at hwt
        cases hwt _ _ _ _ ht
      · obtain ⟨h1, h2⟩ := hinv _ _ _ _ ht
        exact .inr ⟨_, _, _, _, rfl, rfl, rfl, rfl, h1, h2 J rfl, hrg _ _ _ ht⟩)
    (by
      intro x
      simp only [sysOf, hlspg, odeIs_textbook hsys, ← lift_origin]
      rcases ht : textbook name (fomSystem f Df) ((y :: prev).map (lift S)) t dt (lift S x) false with e | ⟨r, j⟩ <;> rfl)
    hM hroot hN hlin hlin' { rg with x := lift S y } { rg' with x := y } (hr.1 _) (hr.2 y) rfl
  unfold runLs at hsame
  rw [toF_sysOf _ hwt, toF_sysOf _ hwt'] at hsame
  exact ⟨hsame, lsIdle_run env cfg _ _ hwt rg _ hr.1, lsIdle_run env' cfg _ _ hwt' rg' y hr.2⟩

/-- **C104, LSPG.** Let the trial space of an LSPG problem (linearly independent basis, any reference state) be invariant under the full-order model.  The full-order model with a Newton object, and the LSPG problem with a Gauss-Newton object, with the same norm of residuals and matching options (a criterion about the residual; or
    about the correction, if the norm of reduced states is the norm of the full-order states they stand for), by BDF1 or BDF2 from the same state of the trial space: both runs go through the same full-order states at the same times, accept and fail in the same steps in the same way, and evaluate the full-order model at the
    same states. -/
theorem C104_lspg {F : Fom K m m n} {f : (m → K) → K → Except Exc (m → K)} {Df Mm : (m → K) → K → Except Exc (Matrix m m K)} (hF : FomIs F f Df Mm) (hn : FomNoTSF f Df) (hv : ∀ y t, f y t ≠ .error .velocityFailureUnrecoverable) (hv' : ∀ y t, Df y t ≠ .error .velocityFailureUnrecoverable)
    (sys : ISystem K (m → K) (Matrix m m K)) (hsys : OdeIs sys f Df) (S : Trial K m n) (hS : Function.Injective S.basis.mulVec) (hI : InvariantSpace S f Df) (name : Scheme) (hname : name = .BDF1 ∨ name = .BDF2)
    (mem : SMem K (m → K) (m → K) PMem) (hmem : Ready name mem) (mem' : SMem K (n → K) (n → K) (LMem K m m n)) (hmem' : LspgReady name mem')
    (env : Env K m m p L) (env' : Env K m n p' L') (he : ∀ A b s, (env.linJ A b s).stop? ≠ some (.exc .timeStepFailure)) (he' : InnerHonest env' .gn) (hlin : SolvesRegular env.linJ) (hlin' : SolvesRegular env'.lin) (hM : env'.normM = env.normM) (hnn : ∀ r, 0 ≤ env.normM r)
    (cfg cfg' : Cfg K) (hcfg : Matching cfg cfg') (h1 : 1 ≤ cfg.maxIters) (hroot : rootCriterion cfg.stop = true) (hN : cfg.stop = .WhenAbsolutel2NormOfCorrectionBelowTolerance ∨ cfg.stop = .WhenRelativel2NormOfCorrectionBelowTolerance → ∀ c, env'.normN c = env.normN (S.basis *ᵥ c))
    (reg : Reg K m m p L) (reg' : Reg K m n p' L') (hreg : NewtonIdle reg) (hreg' : LsIdle reg') (dts : List K) (hdt : ∀ dt ∈ dts, FomRegular name Df dt) (t0 : K) (x0 : n → K) :
    (driveObj (stepWith name (defaultPolicy S F)) (Model.Nonlinear.lsSolve env' cfg' .gn) dts t0 [x0] x0 mem' reg').map (shown (lift S)) =
      (driveObj (stdStep name sys) (Model.Nonlinear.newtonSolve env cfg) dts t0 [lift S x0] (lift S x0) mem reg).map (shown id) := by
  let own : Reg K m m p L := { reg with diag := Model.Nonlinear.newContainer Model.Nonlinear.leastSquaresDiagnostics }
  have hown : LsIdle own := fun _ => .created _ rfl
  rw [C104_lspg_gauss_newton hF hn hv hv' sys hsys S hS hI name hname mem hmem mem' hmem' { env with lin := exactSolver } env' (by intro A b s; simp [exactSolver]) he' exactSolver_regular hlin' hM cfg' (by rw [hcfg.1]; exact h1) (by rw [hcfg.2.1]; exact hroot) (by rw [hcfg.2.1]; exact hN) own reg' hown hreg' dts
      (fun dt hd x t D h => hdt dt hd _ t D h) t0 x0,
    ← newtonSolve_lin env exactSolver cfg]
  rw [C98_implicit_runs name sys (odeIs_noTSF hsys hn) (odeIs_wellTyped hsys) mem mem hmem hmem { env with lin := exactSolver } he (by intro A b s; simp [exactSolver]) cfg cfg' hcfg hroot hlin exactSolver_regular hnn reg own hreg hown dts
    (fun dt hd y t v J h => hdt dt hd y t J (odeIs_eval hsys y t v J h)) t0 (lift S x0)]
end
end Pressio.Props
