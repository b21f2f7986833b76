import Verif.Props.CoordinatesGalerkin
import Verif.Props.SolverAlikeRuns
import Verif.Props.Sharing

/-
  C103: a reduced model whose trial space is the whole space reproduces the full-order run.
-/
namespace Pressio.Props
set_option autoImplicit false
set_option linter.unusedSectionVars false
open Pressio Matrix
open Pressio.Model.Nonlinear (Env Cfg Reg StopCrit Update Tag Ans SP)
open Pressio.Spec.Nonlinear Pressio.Spec.SolverAlike Pressio.Spec.Coordinates
open Pressio.Lemmas.Nonlinear Pressio.Lemmas.SolverAlike Pressio.Lemmas.Coordinates
open Pressio.Model.Implicit Pressio.Spec.Implicit Pressio.Lemmas.Implicit Pressio.Spec.SolverRun Pressio.Lemmas.SolverTree Pressio.Lemmas.SolverRun
open Pressio.Model.Explicit (Scheme System numRhs asStepper dummyObserver)
open Pressio.Model.ExplicitMM (MMSystem LinSolve asStepperMM numX)
open Pressio.Model.Galerkin Pressio.Spec.Galerkin Pressio.Model.Lspg Pressio.Spec.Lspg Pressio.Lemmas.Lspg
open Pressio.Spec.Explicit Pressio.Spec.ExplicitMM Pressio.Spec.Run Pressio.Lemmas.Run Pressio.Spec.AdvanceTarget

section
variable {K n q p p' L L' : Type} [Field K] [LinearOrder K] [IsStrictOrderedRing K] [Fintype n] [DecidableEq n] [Fintype q] [Fintype p] [Fintype p']

/-- the user's system for the implicit stepper of the full-order model computes `f` and its Jacobian `Df` (what it leaves in its output when it throws is arbitrary) -/
def OdeIs (sys : ISystem K (n → K) (Matrix n n K)) (f : (n → K) → K → Except Exc (n → K)) (Df : (n → K) → K → Except Exc (Matrix n n K)) : Prop :=
  ∀ y t w, (sys.eval y t w).mapError Prod.fst = do
    let v ← f y t
    let J ← if w then (Df y t).map some else pure none
    pure (v, J)

theorem fomSystem_is (f : (n → K) → K → Except Exc (n → K)) (Df : (n → K) → K → Except Exc (Matrix n n K)) : OdeIs (fomSystem f Df) f Df := by
  intro y t w
  unfold fomSystem
  dsimp only
  rcases f y t with e | v
  · rfl
  · cases w
    · rfl
    · rcases Df y t with e | D <;> rfl

theorem odeIs_textbook {sys : ISystem K (n → K) (Matrix n n K)} {f : (n → K) → K → Except Exc (n → K)} {Df : (n → K) → K → Except Exc (Matrix n n K)} (h : OdeIs sys f Df) (name : Scheme) : textbook name sys = textbook name (fomSystem f Df) := by
  have he : ∀ y t w, (sys.eval y t w).mapError Prod.fst = ((fomSystem f Df).eval y t w).mapError Prod.fst := fun y t w => (h y t w).trans (fomSystem_is f Df y t w).symm
  have key : ∀ y t w, (∃ a, sys.eval y t w = .ok a ∧ (fomSystem f Df).eval y t w = .ok a) ∨ (∃ e z z', sys.eval y t w = .error (e, z) ∧ (fomSystem f Df).eval y t w = .error (e, z')) := by
    intro y t w
    have := he y t w
    revert this
    rcases sys.eval y t w with ⟨e, z⟩ | a <;> rcases (fomSystem f Df).eval y t w with ⟨e', z'⟩ | a' <;> intro this <;> cases this
    · exact .inr ⟨_, _, _, rfl, rfl⟩
    · exact .inl ⟨_, rfl, rfl⟩
  funext hist t dt y w
  cases name <;> rcases hist with _ | ⟨a, _ | ⟨b, l⟩⟩ <;> simp only [textbook]
  all_goals
    rcases key y (t + dt) w with ⟨v, h1, h2⟩ | ⟨e, z, z', h1, h2⟩ <;> rw [h1, h2]
  all_goals
    rcases key a t false with ⟨v, h1, h2⟩ | ⟨e, z, z', h1, h2⟩ <;> rw [h1, h2]

theorem odeIs_noTSF {sys : ISystem K (n → K) (Matrix n n K)} {f : (n → K) → K → Except Exc (n → K)} {Df : (n → K) → K → Except Exc (Matrix n n K)} (h : OdeIs sys f Df) (hn : FomNoTSF f Df) : NoTSF sys := by
  intro y t w e junk he h0
  subst h0
  have := h y t w
  rw [he] at this
  revert this
  rcases hf : f y t with e | v
  · intro this; cases this; exact hn.1 y t hf
  · cases w
    · intro this; cases this
    · rcases hD : Df y t with e | D
      · intro this; cases this; exact hn.2 y t hD
      · intro this; cases this

theorem odeIs_wellTyped {sys : ISystem K (n → K) (Matrix n n K)} {f : (n → K) → K → Except Exc (n → K)} {Df : (n → K) → K → Except Exc (Matrix n n K)} (h : OdeIs sys f Df) : WellTypedRhs sys := by
  intro y t w v j he
  have := h y t w
  rw [he] at this
  revert this
  rcases hf : f y t with e | v
  · intro this; cases this
  · cases w
    · intro this; cases this; rfl
    · rcases hD : Df y t with e | D
      · intro this; cases this
      · intro this; cases this; rfl

theorem odeIs_eval {sys : ISystem K (n → K) (Matrix n n K)} {f : (n → K) → K → Except Exc (n → K)} {Df : (n → K) → K → Except Exc (Matrix n n K)} (h : OdeIs sys f Df) (y : n → K) (t : K) (v : n → K) (J : Matrix n n K) (he : sys.eval y t true = .ok (v, some J)) : Df y t = .ok J := by
  have := h y t true
  rw [he] at this
  revert this
  rcases hf : f y t with e | v
  · intro this; cases this
  · rcases hD : Df y t with e | D
    · intro this; cases this
    · intro this; cases this; rfl

/-- the reference state -/
def shift (S : Trial K n n) : n → K := if S.isAffine then S.translation else 0

theorem lift_eq_chart (S : Trial K n n) : lift S = chart S.basis (shift S) := rfl

/-- projected equations are the equations in other coordinates, if the basis is square -/
theorem project_square (S : Trial K n n) (T F : (n → K) → Bool → Except Exc (Ans K n n)) (hF : ∀ x w, F x w = (T (lift S x) w).map (project S)) : SameSystem S.basisᵀ S.basis (shift S) (sysOf T) (sysOf F) := by
  constructor
  · intro x
    simp only [sysOf, hF, lift_eq_chart]
    rcases T (chart S.basis (shift S) x) true with e | ⟨r, _ | J⟩ <;> rfl
  · intro x
    simp only [sysOf, hF, lift_eq_chart]
    rcases T (chart S.basis (shift S) x) false with e | ⟨r, j⟩ <;> rfl

/-- the matrices `1 - c df/dy` of the scheme are regular in steps of size `dt` -/
def FomRegular (name : Scheme) (Df : (n → K) → K → Except Exc (Matrix n n K)) (dt : K) : Prop := ∀ y t D, Df y t = .ok D → ∀ c ∈ rhsFactors dt name, IsUnit (1 - c • D).det

/-- **C103, implicit Galerkin.** A default Galerkin problem whose trial space is the whole space (the basis is square and orthonormal; any reference state), and the full-order model itself, each with an implicit stepper (BDF1, BDF2, CrankNicolson) and a Newton object with Euclidean norms and the same options, started at the same
    state: both runs go through the same full-order states at the same times, accept and fail in the same steps in the same way, and evaluate the full-order model at the same states. -/
theorem C103_galerkin_implicit {F : Fom K n n n} {f : (n → K) → K → Except Exc (n → K)} {Df Mm : (n → K) → K → Except Exc (Matrix n n K)} (hF : FomIs F f Df Mm) (hn : FomNoTSF f Df) (sys : ISystem K (n → K) (Matrix n n K)) (hsys : OdeIs sys f Df)
    (S : Trial K n n) (hS : Orthonormal S) (s0 : GSt K n n q n) (name : Scheme) (mem mem' : SMem K (n → K) (n → K) PMem) (hmem : Ready name mem) (hmem' : Ready name mem')
    (env : Env K n n p L) (env' : Env K n n p' L') (he : ∀ A b s, (env.linJ A b s).stop? ≠ some (.exc .timeStepFailure)) (he' : ∀ A b s, (env'.linJ A b s).stop? ≠ some (.exc .timeStepFailure)) (hlin : SolvesRegular env.linJ) (hlin' : SolvesRegular env'.linJ)
    (hM : Euclidean env.normM ∧ ∀ r, 0 ≤ env.normM r) (hM' : Euclidean env'.normM ∧ ∀ r, 0 ≤ env'.normM r) (hN : Euclidean env.normN ∧ ∀ r, 0 ≤ env.normN r) (hN' : Euclidean env'.normN ∧ ∀ r, 0 ≤ env'.normN r)
    (cfg : Cfg K) (reg : Reg K n n p L) (reg' : Reg K n n p' L') (hreg : NewtonIdle reg) (hreg' : NewtonIdle reg') (dts : List K) (hdt : ∀ dt ∈ dts, FomRegular name Df dt) (t0 : K) (x0 : n → K) :
    (driveObj (stdStep name (asISystem (defaultRhsJac S F) s0)) (Model.Nonlinear.newtonSolve env' cfg) dts t0 [x0] x0 mem' reg').map (shown (lift S)) =
      (driveObj (stdStep name sys) (Model.Nonlinear.newtonSolve env cfg) dts t0 [lift S x0] (lift S x0) mem reg).map (shown id) := by
  have hB : S.basisᵀ * S.basis = 1 := hS
  have hB' : S.basis * S.basisᵀ = 1 := mul_eq_one_comm.1 hB
  have hdet : IsUnit S.basis.det := (Matrix.isUnit_iff_isUnit_det _).1 ⟨⟨S.basis, S.basisᵀ, hB', hB⟩, rfl⟩
  have hA : (S.basisᵀ)ᵀ * S.basisᵀ = 1 := by rw [Matrix.transpose_transpose]; exact hB'
  symm
  refine driveObj_moved (FomRegular name Df) (lift S) (fun _ => True) (fun _ => True) _ _ (textbook name sys) (textbook name (asISystem (defaultRhsJac S F) s0)) _ _
    (refinesOn_true (std_refines name (ready_name name mem hmem) _)) (refinesOn_true (std_refines name (ready_name name mem hmem) _)) (textbook_ne name _ (odeIs_noTSF hsys hn)) _ _ (fine_newtonSolve env he cfg) (fine_newtonSolve env' he' cfg)
    (fun _ _ => trivial) (fun _ _ => trivial) (fun a b => NewtonIdle a ∧ NewtonIdle b) ?_ dts hdt t0 x0 [] mem mem' reg reg' (ready_inv name _ mem hmem t0 _) (ready_inv name _ mem' hmem' t0 _) ⟨hreg, hreg'⟩
  intro rg rg' y prev t dt hd hr r r'
  have hwt := textbook_wellTyped name _ (odeIs_wellTyped hsys) ((y :: prev).map (lift S)) t dt
  have hwt' := textbook_wellTyped name _ (galerkin_wellTyped S F s0) (y :: prev) t dt
  have hsame := C99_newton env env' cfg S.basisᵀ S.basis (shift S) (by rw [Matrix.det_transpose]; exact hdet) hdet _ _
    (project_square S (textbook name sys ((y :: prev).map (lift S)) t dt) (textbook name (asISystem (defaultRhsJac S F) s0) (y :: prev) t dt)
      (fun x w => by rw [odeIs_textbook hsys]; exact galerkin_textbook hF S hS s0 name (y :: prev) t dt x w))
    (.inr (euclidean_orthogonal hA hM.1 hM'.1 hM.2 hM'.2))
    (by
      have h1 := euclidean_orthogonal hA hM.1 hM'.1 hM.2 hM'.2
      have h2 := euclidean_orthogonal hA hN.1 hN'.1 hN.2 hN'.2
      have h3 : ∀ c, env'.normN c = env.normN (S.basis *ᵥ c) := fun c => (euclidean_orthogonal hB hN'.1 hN.1 hN'.2 hN.2 c).symm
      generalize cfg.stop = stp
      cases stp <;> simp only [SameMeasure] <;> first | exact h3 | exact h1 | exact h2)
    hlin hlin' (textbook_regular name _ dt (fun y t v J h => hd y t J (odeIs_eval hsys y t v J h)) _ t) { rg with x := lift S y } { rg' with x := y } (hr.1 _) (hr.2 y) rfl
  unfold runNewton at hsame
  rw [toF_sysOf _ hwt, toF_sysOf _ hwt'] at hsame
  exact ⟨hsame, newtonIdle_run env cfg _ hwt rg _ hr.1, newtonIdle_run env' cfg _ hwt' rg' y hr.2⟩

/-- the user's system with mass matrix computes `f`, the mass matrix `Mm` and the Jacobian `Df` -/
def OdeIsMM (sys : IMMSystem K (n → K) (Matrix n n K) (Matrix n n K)) (f : (n → K) → K → Except Exc (n → K)) (Df Mm : (n → K) → K → Except Exc (Matrix n n K)) : Prop :=
  ∀ y t w, (sys.eval y t w).mapError Prod.fst = do
    let v ← f y t
    let A ← Mm y t
    let J ← if w then (Df y t).map some else pure none
    pure (A, v, J)

theorem fomSystemMM_is (f : (n → K) → K → Except Exc (n → K)) (Df Mm : (n → K) → K → Except Exc (Matrix n n K)) : OdeIsMM (fomSystemMM f Df Mm) f Df Mm := by
  intro y t w
  unfold fomSystemMM
  dsimp only
  rcases f y t with e | v
  · rfl
  rcases Mm y t with e | A
  · rfl
  cases w
  · rfl
  · rcases Df y t with e | D <;> rfl

theorem odeIsMM_textbook {sys : IMMSystem K (n → K) (Matrix n n K) (Matrix n n K)} {f : (n → K) → K → Except Exc (n → K)} {Df Mm : (n → K) → K → Except Exc (Matrix n n K)} (h : OdeIsMM sys f Df Mm) (name : Scheme) :
    textbookMM Matrix.mulVec id name sys = textbookMM Matrix.mulVec id name (fomSystemMM f Df Mm) := by
  have key : ∀ y t w, (∃ a, sys.eval y t w = .ok a ∧ (fomSystemMM f Df Mm).eval y t w = .ok a) ∨ (∃ e z z', sys.eval y t w = .error (e, z) ∧ (fomSystemMM f Df Mm).eval y t w = .error (e, z')) := by
    intro y t w
    have := (h y t w).trans (fomSystemMM_is f Df Mm y t w).symm
    revert this
    rcases sys.eval y t w with ⟨e, z⟩ | a <;> rcases (fomSystemMM f Df Mm).eval y t w with ⟨e', z'⟩ | a' <;> intro this <;> cases this
    · exact .inr ⟨_, _, _, rfl, rfl⟩
    · exact .inl ⟨_, rfl, rfl⟩
  funext hist t dt y w
  cases name <;> rcases hist with _ | ⟨a, _ | ⟨b, l⟩⟩ <;> simp only [textbookMM]
  all_goals
    rcases key y (t + dt) w with ⟨v, h1, h2⟩ | ⟨e, z, z', h1, h2⟩ <;> rw [h1, h2]

theorem odeIsMM_noTSF {sys : IMMSystem K (n → K) (Matrix n n K) (Matrix n n K)} {f : (n → K) → K → Except Exc (n → K)} {Df Mm : (n → K) → K → Except Exc (Matrix n n K)} (h : OdeIsMM sys f Df Mm) (hn : FomNoTSF f Df) (hn' : ∀ y t, Mm y t ≠ .error .timeStepFailure) : NoTSFMM sys := by
  intro y t w e junk he h0
  subst h0
  have := h y t w
  rw [he] at this
  revert this
  rcases hf : f y t with e | v
  · intro this; cases this; exact hn.1 y t hf
  rcases hA : Mm y t with e | A
  · intro this; cases this; exact hn' y t hA
  cases w
  · intro this; cases this
  · rcases hD : Df y t with e | D
    · intro this; cases this; exact hn.2 y t hD
    · intro this; cases this

theorem odeIsMM_eval {sys : IMMSystem K (n → K) (Matrix n n K) (Matrix n n K)} {f : (n → K) → K → Except Exc (n → K)} {Df Mm : (n → K) → K → Except Exc (Matrix n n K)} (h : OdeIsMM sys f Df Mm) (y : n → K) (t : K) (w : Bool) (A : Matrix n n K) (v : n → K) (j : Option (Matrix n n K))
    (he : sys.eval y t w = .ok (A, v, j)) : Mm y t = .ok A ∧ j.isSome = w ∧ ∀ D ∈ j, Df y t = .ok D := by
  have := h y t w
  rw [he] at this
  revert this
  rcases hf : f y t with e | v
  · intro this; cases this
  rcases hA : Mm y t with e | A
  · intro this; cases this
  cases w
  · intro this; cases this; exact ⟨rfl, rfl, by simp⟩
  · rcases hD : Df y t with e | D
    · intro this; cases this
    · intro this; cases this; exact ⟨rfl, rfl, by simp⟩

/-- the matrices `M - c df/dy` of the scheme are regular in steps of size `dt` -/
def FomRegularMM (name : Scheme) (Df Mm : (n → K) → K → Except Exc (Matrix n n K)) (dt : K) : Prop := ∀ y t A D, Mm y t = .ok A → Df y t = .ok D → ∀ c ∈ rhsFactors dt name, IsUnit (A - c • D).det

theorem odeIsMM_regular {sys : IMMSystem K (n → K) (Matrix n n K) (Matrix n n K)} {f : (n → K) → K → Except Exc (n → K)} {Df Mm : (n → K) → K → Except Exc (Matrix n n K)} (hs : OdeIsMM sys f Df Mm) (name : Scheme) (dt : K) (hreg : FomRegularMM name Df Mm dt) (hist : List (n → K)) (t : K) :
    ∀ x r J, (sysOf (textbookMM Matrix.mulVec id name sys hist t dt)).resJac x = .ok (r, J) → IsUnit J.det := by
  intro x r J h
  have h' : textbookMM Matrix.mulVec id name sys hist t dt x true = .ok (r, some J) := by
    simp only [sysOf] at h
    rcases ht : textbookMM Matrix.mulVec id name sys hist t dt x true with e | ⟨r', _ | j⟩
    · rw [ht] at h; cases h
    · rw [ht] at h; cases h
    · rw [ht] at h
      simp only [Except.ok.injEq, Prod.mk.injEq] at h
      rw [h.1, h.2]
  clear h
  unfold textbookMM at h'
  rcases he : sys.eval x (t + dt) true with ⟨e, junk⟩ | ⟨M, v, _ | D⟩
  · cases name <;> rcases hist with _ | ⟨yn, _ | ⟨ynm1, hist⟩⟩ <;> simp only [he, reduceCtorEq] at h'
  · cases (odeIsMM_eval hs _ _ _ _ _ _ he).2.1
  · obtain ⟨hA, -, hD⟩ := odeIsMM_eval hs _ _ _ _ _ _ he
    have hr := hreg _ _ _ _ hA (hD D rfl)
    cases name <;> rcases hist with _ | ⟨yn, _ | ⟨ynm1, hist⟩⟩ <;> simp only [he, reduceCtorEq] at h' <;> simp only [Option.map, id, Except.ok.injEq, Prod.mk.injEq, Option.some.injEq] at h' <;> rw [← h'.2] <;>
      exact hr _ (by simp [rhsFactors])

/-- **C103, implicit Galerkin with mass matrix.** The same with mass matrix (BDF1, BDF2) for any invertible basis, if the solver objects measure residuals and corrections alike (always so for orthonormal bases and Euclidean norms; a criterion on the correction with norms of the full-order states needs nothing about the basis). -/
theorem C103_galerkin_implicit_mass_matrix {F : Fom K n n n} {f : (n → K) → K → Except Exc (n → K)} {Df Mm : (n → K) → K → Except Exc (Matrix n n K)} (hF : FomIs F f Df Mm) (hn : FomNoTSF f Df) (hn' : ∀ y t, Mm y t ≠ .error .timeStepFailure)
    (sys : IMMSystem K (n → K) (Matrix n n K) (Matrix n n K)) (hsys : OdeIsMM sys f Df Mm) (S : Trial K n n) (hS : IsUnit S.basis.det) (s0 : GSt K n n q n) (name : Scheme) (mem mem' : SMem K (n → K) (n → K) (MMMem (n → K) (Matrix n n K))) (hmem : ReadyMM name mem) (hmem' : ReadyMM name mem')
    (env : Env K n n p L) (env' : Env K n n p' L') (he : ∀ A b s, (env.linJ A b s).stop? ≠ some (.exc .timeStepFailure)) (he' : ∀ A b s, (env'.linJ A b s).stop? ≠ some (.exc .timeStepFailure)) (hlin : SolvesRegular env.linJ) (hlin' : SolvesRegular env'.linJ)
    (cfg : Cfg K) (hupd : cfg.update = .Standard ∨ ∀ r, env'.normM (S.basisᵀ *ᵥ r) = env.normM r) (hcrit : SameMeasure S.basisᵀ S.basis env.normM env'.normM env.normN env'.normN cfg.stop) (reg : Reg K n n p L) (reg' : Reg K n n p' L') (hreg : NewtonIdle reg) (hreg' : NewtonIdle reg')
    (dts : List K) (hdt : ∀ dt ∈ dts, FomRegularMM name Df Mm dt) (t0 : K) (x0 : n → K) :
    (driveObj (mmStep Matrix.mulVec id name (asIMMSystem (defaultMMRhsJac S F) s0)) (Model.Nonlinear.newtonSolve env' cfg) dts t0 [x0] x0 mem' reg').map (shown (lift S)) =
      (driveObj (mmStep Matrix.mulVec id name sys) (Model.Nonlinear.newtonSolve env cfg) dts t0 [lift S x0] (lift S x0) mem reg).map (shown id) := by
  have hname := massReady_name name mem hmem
  symm
  refine driveObj_moved (FomRegularMM name Df Mm) (lift S) (fun _ => True) (fun _ => True) _ _ (textbookMM Matrix.mulVec id name sys) (textbookMM Matrix.mulVec id name (asIMMSystem (defaultMMRhsJac S F) s0)) _ _
    (refinesOn_true (mm_refines Matrix.mulVec id name hname _)) (refinesOn_true (mm_refines Matrix.mulVec id name hname _)) (textbookMM_ne Matrix.mulVec id name _ (odeIsMM_noTSF hsys hn hn')) _ _ (fine_newtonSolve env he cfg) (fine_newtonSolve env' he' cfg)
    (fun _ _ => trivial) (fun _ _ => trivial) (fun a b => NewtonIdle a ∧ NewtonIdle b) ?_ dts hdt t0 x0 [] mem mem' reg reg' (readyMM_inv name mem hmem t0 _) (readyMM_inv name mem' hmem' t0 _) ⟨hreg, hreg'⟩
  intro rg rg' y prev t dt hd hr r r'
  have hwt := textbookMM_wellTyped Matrix.mulVec id name _ (fun y t w M f j h => (odeIsMM_eval hsys y t w M f j h).2.1) ((y :: prev).map (lift S)) t dt
  have hwt' := textbookMM_wellTyped Matrix.mulVec id name _ (galerkin_wellTypedMM S F s0) (y :: prev) t dt
  have hsame := C99_newton env env' cfg S.basisᵀ S.basis (shift S) (by rw [Matrix.det_transpose]; exact hS) hS _ _
    (project_square S (textbookMM Matrix.mulVec id name sys ((y :: prev).map (lift S)) t dt) (textbookMM Matrix.mulVec id name (asIMMSystem (defaultMMRhsJac S F) s0) (y :: prev) t dt)
      (fun x w => by rw [odeIsMM_textbook hsys]; exact galerkin_textbook_mm hF S s0 name (y :: prev) t dt x w))
    hupd hcrit hlin hlin' (odeIsMM_regular hsys name dt hd _ t) { rg with x := lift S y } { rg' with x := y } (hr.1 _) (hr.2 y) rfl
  unfold runNewton at hsame
  rw [toF_sysOf _ hwt, toF_sysOf _ hwt'] at hsame
  exact ⟨hsame, newtonIdle_run env cfg _ hwt rg _ hr.1, newtonIdle_run env' cfg _ hwt' rg' y hr.2⟩

/-- **C103, explicit Galerkin.** The same for explicit steppers of all schemes and the default Galerkin problem: the observed full-order states and times are those of the full-order run. -/
theorem C103_galerkin_explicit {F : Fom K n n n} {f : (n → K) → K → n → K} {Df Mm : (n → K) → K → Except Exc (Matrix n n K)} (hF : FomIs F (fun y t => .ok (f y t)) Df Mm) (S : Trial K n n) (hS : Orthonormal S) (s0 : GSt K n n q n) (scheme : Scheme) (hsch : scheme.isExplicit = true)
    (pol : Int → K → K → K) (start : K) (N : Nat) (hN : (N : Int) < int32Max) (x0 : n → K) (mem mem' : EMem K (n → K)) (hlen : mem.1.length = numRhs scheme) (hlen' : mem'.1.length = numRhs scheme) :
    ∃ a b, run 0 pol (asStepper (asSystem (defaultRhs S F) s0) scheme dummyObserver) N start x0 mem = .ok () a ∧
      run 0 pol (asStepper (fomAsSystem F) scheme dummyObserver) N start (lift S x0) mem' = .ok () b ∧
      b.y = lift S a.y ∧ observations b.log = (observations a.log).map (fun o => (o.1, o.2.1, lift S o.2.2)) :=
  C51_exact_on_invariant_subspace hF S hS (fun x t => ⟨S.basisᵀ *ᵥ f (lift S x) t, by rw [Matrix.mulVec_mulVec, mul_eq_one_comm.1 (show S.basisᵀ * S.basis = 1 from hS), Matrix.one_mulVec]⟩) s0 scheme hsch pol start N hN x0 mem hlen mem' hlen'

/-! ### LSPG -/

/-- the LSPG equations are the equations of the full-order scheme in other coordinates, if the basis is square -/
theorem lspg_square (S : Trial K n n) (name : Scheme) (hname : name = .BDF1 ∨ name = .BDF2) {f : (n → K) → K → Except Exc (n → K)} {Df : (n → K) → K → Except Exc (Matrix n n K)} (hv : ∀ y t, f y t ≠ .error .velocityFailureUnrecoverable) (hv' : ∀ y t, Df y t ≠ .error .velocityFailureUnrecoverable)
    (y : n → K) (prev : List (n → K)) (t dt : K) : SameSystem 1 S.basis (shift S) (sysOf (textbook name (fomSystem f Df) ((y :: prev).map (lift S)) t dt)) (sysOf (lspg name S f Df (y :: prev) t dt)) := by
  constructor
  · intro x
    simp only [sysOf, C52_is_the_full_order_scheme S name hname f Df y prev t dt x _ (hv _ _) (hv' _ _), lift_eq_chart]
    rcases textbook name (fomSystem f Df) ((y :: prev).map (chart S.basis (shift S))) t dt (chart S.basis (shift S) x) true with e | ⟨r, _ | J⟩
    · rfl
    · rfl
    · simp only [Except.map, Option.map, Matrix.one_mulVec, Matrix.one_mul]
  · intro x
    simp only [sysOf, C52_is_the_full_order_scheme S name hname f Df y prev t dt x _ (hv _ _) (hv' _ _), lift_eq_chart]
    rcases textbook name (fomSystem f Df) ((y :: prev).map (chart S.basis (shift S))) t dt (chart S.basis (shift S) x) false with e | ⟨r, J⟩
    · rfl
    · simp only [Except.map, Matrix.one_mulVec]

/-- The full-order model and LSPG on the whole space, both with Gauss-Newton objects. -/
theorem C103_lspg_gauss_newton {F : Fom K n n n} {f : (n → K) → K → Except Exc (n → K)} {Df Mm : (n → K) → K → Except Exc (Matrix n n K)} (hF : FomIs F f Df Mm) (hn : FomNoTSF f Df) (hv : ∀ y t, f y t ≠ .error .velocityFailureUnrecoverable) (hv' : ∀ y t, Df y t ≠ .error .velocityFailureUnrecoverable)
    (sys : ISystem K (n → K) (Matrix n n K)) (hsys : OdeIs sys f Df) (S : Trial K n n) (hS : IsUnit S.basis.det) (name : Scheme) (hname : name = .BDF1 ∨ name = .BDF2) (mem : SMem K (n → K) (n → K) PMem) (hmem : Ready name mem) (mem' : SMem K (n → K) (n → K) (LMem K n n n)) (hmem' : LspgReady name mem')
    (env : Env K n n p L) (env' : Env K n n p' L') (he : InnerHonest env .gn) (he' : InnerHonest env' .gn) (hlin : SolvesRegular env.lin) (hlin' : SolvesRegular env'.lin) (hM : env'.normM = env.normM)
    (cfg : Cfg K) (h1 : 1 ≤ cfg.maxIters) (hcrit : SameMeasure (1 : Matrix n n K) S.basis env.normM env'.normM env.normN env'.normN cfg.stop) (reg : Reg K n n p L) (reg' : Reg K n n p' L') (hreg : LsIdle reg) (hreg' : LsIdle reg')
    (dts : List K) (hdt : ∀ dt ∈ dts, FomRegular name Df dt) (t0 : K) (x0 : n → K) :
    (driveObj (stepWith name (defaultPolicy S F)) (Model.Nonlinear.lsSolve env' cfg .gn) dts t0 [x0] x0 mem' reg').map (shown (lift S)) =
      (driveObj (stdStep name sys) (Model.Nonlinear.lsSolve env cfg .gn) dts t0 [lift S x0] (lift S x0) mem reg).map (shown id) := by
  symm
  obtain ⟨Inv', hr', hI'⟩ := policy_lawful name hname _ _ _ _ ((lspgPolicy_refines name hname S _ _ (assembleDefault_ok hF S) (mem'.pol.data.getD 1 0)).congrF (fun y prev t dt x w => equations_lspg name hname S f Df y prev t dt x w)) mem' hmem'.1 t0 x0
      (good_start _ S _ mem'.pol hmem'.2.1 (by rcases hname with rfl | rfl <;> simp [numStates]) hmem'.2.2)
  refine driveObj_moved (FomRegular name Df) (lift S) (fun _ => True) Asks _ _ (textbook name sys) (lspg name S f Df) _ Inv'
    (refinesOn_true (std_refines name (ready_name name mem hmem) _)) hr' (textbook_ne name _ (odeIs_noTSF hsys hn)) _ _ (fine_lsSolve env cfg _ he) (fine_lsSolve env' cfg _ he')
    (fun _ _ => trivial) (asks_solverOf _ (busy_lsSolve env' cfg _ h1)) (fun a b => LsIdle a ∧ LsIdle b) ?_ dts hdt t0 x0 [] mem mem' reg reg' (ready_inv name _ mem hmem t0 _) hI' ⟨hreg, hreg'⟩
  intro rg rg' y prev t dt hd hr r r'
  have hwt := textbook_wellTyped name _ (odeIs_wellTyped hsys) ((y :: prev).map (lift S)) t dt
  have hwt' := lspg_wellTyped name S f Df (y :: prev) t dt
  have hsq := lspg_square S name hname hv hv' y prev t dt
  rw [← odeIs_textbook hsys] at hsq
  have hsame := C99_gauss_newton env env' cfg 1 S.basis (shift S) (by simp) hS _ _ hsq (fun r => by rw [Matrix.one_mulVec, hM]) hcrit hlin hlin'
    (fun x r J h => by
      have := textbook_regular name _ dt (fun y t v J h => hd y t J (odeIs_eval hsys y t v J h)) _ t x r J h
      rw [Matrix.det_mul, Matrix.det_transpose]; exact this.mul this)
    { rg with x := lift S y } { rg' with x := y } (hr.1 _) (hr.2 y) rfl
  unfold runLs at hsame
  rw [toF_sysOf _ hwt, toF_sysOf _ hwt'] at hsame
  exact ⟨hsame, lsIdle_run env cfg _ _ hwt rg _ hr.1, lsIdle_run env' cfg _ _ hwt' rg' y hr.2⟩

/-- a Newton object does not use the linear solver for normal equations -/
theorem newtonSolve_lin (env : Env K n n p L) (lin : Matrix n n K → (n → K) → Prog ((n → K) × L) Unit) (cfg : Cfg K) : Model.Nonlinear.newtonSolve { env with lin := lin } cfg = Model.Nonlinear.newtonSolve env cfg := by
  have h : ∀ mf upd k i, Model.Nonlinear.newtonLoop { env with lin := lin } cfg mf upd k i = Model.Nonlinear.newtonLoop env cfg mf upd k i := by
    intro mf upd k
    induction k with
    | zero => intro i; rfl
    | succ k ih =>
      intro i
      unfold Model.Nonlinear.newtonLoop
      simp only [ih]
      rfl
  unfold Model.Nonlinear.newtonSolve
  simp only [h]

/-- a linear solver -/
noncomputable def exactSolver (A : Matrix n n K) (b : n → K) : Prog ((n → K) × L) Unit := fun s => .ok () (A⁻¹ *ᵥ b, s.2)

theorem exactSolver_regular : SolvesRegular (K := K) (n := n) (L := L) exactSolver := fun A b c l hA => ⟨_, _, rfl, by rw [Matrix.mulVec_mulVec, Matrix.mul_nonsing_inv A hA, Matrix.one_mulVec]⟩

/-- **C103, LSPG.** An LSPG problem whose trial space is the whole space (any invertible basis, any reference state) with a Gauss-Newton object, and the full-order model itself with a Newton object, with the same norm of residuals and matching options (a criterion about the residual; or about the correction, if the norm of
    reduced states is the norm of the full-order states they stand for), by BDF1 or BDF2 from the same state: both runs go through the same full-order states at the same times, accept and fail in the same steps in the same way, and evaluate the full-order model at the same states.  (`VelocityFailureUnrecoverable` of the
    full-order model is excepted: LSPG does not translate it, see C65.) -/
theorem C103_lspg {F : Fom K n n n} {f : (n → K) → K → Except Exc (n → K)} {Df Mm : (n → K) → K → Except Exc (Matrix n n K)} (hF : FomIs F f Df Mm) (hn : FomNoTSF f Df) (hv : ∀ y t, f y t ≠ .error .velocityFailureUnrecoverable) (hv' : ∀ y t, Df y t ≠ .error .velocityFailureUnrecoverable)
    (sys : ISystem K (n → K) (Matrix n n K)) (hsys : OdeIs sys f Df) (S : Trial K n n) (hS : IsUnit S.basis.det) (name : Scheme) (hname : name = .BDF1 ∨ name = .BDF2) (mem : SMem K (n → K) (n → K) PMem) (hmem : Ready name mem) (mem' : SMem K (n → K) (n → K) (LMem K n n n)) (hmem' : LspgReady name mem')
    (env : Env K n n p L) (env' : Env K n n p' L') (he : ∀ A b s, (env.linJ A b s).stop? ≠ some (.exc .timeStepFailure)) (he' : InnerHonest env' .gn) (hlin : SolvesRegular env.linJ) (hlin' : SolvesRegular env'.lin) (hM : env'.normM = env.normM) (hnn : ∀ r, 0 ≤ env.normM r)
    (cfg cfg' : Cfg K) (hcfg : Matching cfg cfg') (h1 : 1 ≤ cfg.maxIters) (hroot : rootCriterion cfg.stop = true) (hcrit : SameMeasure (1 : Matrix n n K) S.basis env.normM env'.normM env.normN env'.normN cfg.stop)
    (reg : Reg K n n p L) (reg' : Reg K n n p' L') (hreg : NewtonIdle reg) (hreg' : LsIdle reg') (dts : List K) (hdt : ∀ dt ∈ dts, FomRegular name Df dt) (t0 : K) (x0 : n → K) :
    (driveObj (stepWith name (defaultPolicy S F)) (Model.Nonlinear.lsSolve env' cfg' .gn) dts t0 [x0] x0 mem' reg').map (shown (lift S)) =
      (driveObj (stdStep name sys) (Model.Nonlinear.newtonSolve env cfg) dts t0 [lift S x0] (lift S x0) mem reg).map (shown id) := by
  let own : Reg K n n p L := { reg with diag := Model.Nonlinear.newContainer Model.Nonlinear.leastSquaresDiagnostics }
  have hown : LsIdle own := fun _ => .created _ rfl
  rw [C103_lspg_gauss_newton hF hn hv hv' sys hsys S hS name hname mem hmem mem' hmem' { env with lin := exactSolver } env' (by intro A b s; simp [exactSolver]) he' exactSolver_regular hlin' hM cfg' (by rw [hcfg.1]; exact h1) (by rw [hcfg.2.1]; exact hcrit) own reg' hown hreg' dts hdt t0 x0,
    ← newtonSolve_lin env exactSolver cfg]
  rw [C98_implicit_runs name sys (odeIs_noTSF hsys hn) (odeIs_wellTyped hsys) mem mem hmem hmem { env with lin := exactSolver } he (by intro A b s; simp [exactSolver]) cfg cfg' hcfg hroot hlin exactSolver_regular hnn reg own hreg hown dts
    (fun dt hd y t v J h => hdt dt hd y t J (odeIs_eval hsys y t v J h)) t0 (lift S x0)]
end
end Pressio.Props
