import Verif.Props.Coordinates
import Verif.Props.MassMatrixNewton

/-
  C99 for Galerkin problems, explicit and implicit, with and without mass matrix.
-/
namespace Pressio.Props
set_option autoImplicit false
set_option linter.unusedSectionVars false
open Pressio Matrix
open Pressio.Model.Nonlinear (Env Cfg Reg StopCrit Update Tag Ans SP)
open Pressio.Spec.Nonlinear Pressio.Spec.SolverAlike Pressio.Spec.Coordinates
open Pressio.Lemmas.Nonlinear Pressio.Lemmas.SolverAlike Pressio.Lemmas.Coordinates
open Pressio.Model.Implicit Pressio.Spec.Implicit Pressio.Lemmas.Implicit Pressio.Spec.SolverRun Pressio.Lemmas.SolverTree Pressio.Lemmas.SolverRun
open Pressio.Model.Explicit (Scheme System numRhs asStepper dummyObserver)
open Pressio.Model.ExplicitMM (MMSystem LinSolve asStepperMM numX)
open Pressio.Model.Galerkin Pressio.Spec.Galerkin
open Pressio.Spec.Explicit Pressio.Spec.ExplicitMM Pressio.Spec.Run Pressio.Lemmas.Run Pressio.Spec.AdvanceTarget

section
variable {K m n q p p' L L' : Type} [Field K] [LinearOrder K] [IsStrictOrderedRing K] [Fintype m] [DecidableEq m] [Fintype n] [DecidableEq n] [Fintype q] [Fintype p] [Fintype p']

/-- two orthonormal bases of one space: the change of coordinates is orthogonal -/
theorem chart_orthogonal {S S' : Trial K m n} {B : Matrix n n K} {a : n → K} (h : SameSpace S S' B a) (hS : Orthonormal S) (hS' : Orthonormal S') : Bᵀ * B = 1 ∧ B * Bᵀ = 1 := by
  have hb := sameSpace_basis h
  have h1 : Bᵀ * B = 1 := by
    have e : S'.basisᵀ * S'.basis = 1 := hS'
    have e0 : S.basisᵀ * S.basis = 1 := hS
    rw [hb, Matrix.transpose_mul] at e
    calc Bᵀ * B = Bᵀ * (S.basisᵀ * S.basis) * B := by rw [e0, Matrix.mul_one]
      _ = Bᵀ * S.basisᵀ * (S.basis * B) := by simp only [Matrix.mul_assoc]
      _ = 1 := e
  exact ⟨h1, mul_eq_one_comm.1 h1⟩

/-! ### Implicit -/

/-- projections of the same FOM equations onto two descriptions of one trial space -/
theorem project_moved {S S' : Trial K m n} {B : Matrix n n K} {a : n → K} (h : SameSpace S S' B a) (T : (m → K) → Bool → Except Exc (Ans K m m)) (F F' : (n → K) → Bool → Except Exc (Ans K n n))
    (hF : ∀ x w, F x w = (T (lift S x) w).map (project S)) (hF' : ∀ x w, F' x w = (T (lift S' x) w).map (project S')) : SameSystem Bᵀ B a (sysOf F) (sysOf F') := by
  have hb := sameSpace_basis h
  constructor
  · intro x
    simp only [sysOf, hF, hF', h.2 x]
    rcases T (lift S (chart B a x)) true with e | ⟨r, _ | J⟩
    · rfl
    · rfl
    · simp only [Except.map, project, Option.map, hb, Matrix.transpose_mul, Matrix.mulVec_mulVec, Matrix.mul_assoc]
  · intro x
    simp only [sysOf, hF, hF', h.2 x]
    rcases T (lift S (chart B a x)) false with e | ⟨r, j⟩
    · rfl
    · simp only [Except.map, project, hb, Matrix.transpose_mul, Matrix.mulVec_mulVec]

/-- the matrices `1 - c Phiᵀ (df/dy) Phi` of the scheme are regular in steps of size `dt` -/
def GalerkinRegular (name : Scheme) (S : Trial K m n) (Df : (m → K) → K → Except Exc (Matrix m m K)) (dt : K) : Prop :=
  ∀ y t D, Df y t = .ok D → ∀ c ∈ rhsFactors dt name, IsUnit (1 - c • (S.basisᵀ * D * S.basis)).det

theorem galerkin_wellTyped (S : Trial K m n) (F : Fom K m m n) (s0 : GSt K m m q n) : WellTypedRhs (asISystem (defaultRhsJac S F) s0) := by
  intro x t w v j h
  unfold asISystem at h
  simp only at h
  split at h
  · cases h; cases w <;> rfl
  · cases h

theorem galerkin_wellTypedMM (S : Trial K m n) (F : Fom K m m n) (s0 : GSt K m m q n) : WellTypedMM (asIMMSystem (defaultMMRhsJac S F) s0) := by
  intro x t w M v j h
  unfold asIMMSystem at h
  simp only at h
  split at h
  · cases h; cases w <;> rfl
  · cases h

theorem galerkin_regular {F : Fom K m m n} {f : (m → K) → K → Except Exc (m → K)} {Df Mm : (m → K) → K → Except Exc (Matrix m m K)} (hF : FomIs F f Df Mm) (S : Trial K m n) (s0 : GSt K m m q n) (name : Scheme) (dt : K)
    (hreg : GalerkinRegular name S Df dt) : ∀ y t v J, (asISystem (defaultRhsJac S F) s0).eval y t true = .ok (v, some J) → ∀ c ∈ rhsFactors dt name, IsUnit (1 - c • J).det := by
  intro y t v J h c hc
  have hg := galerkin_eval hF S s0 y t true
  rw [h] at hg
  simp only [fomSystem, if_true] at hg
  rcases hf : f (lift S y) t with e | w
  · rw [hf] at hg; simp [Except.map, Except.mapError] at hg
  rcases hD : Df (lift S y) t with e | D
  · rw [hf, hD] at hg; simp [Except.map, Except.mapError] at hg
  rw [hf, hD] at hg
  simp only [Except.map, Except.mapError, project, Option.map, Except.ok.injEq, Prod.mk.injEq, Option.some.injEq] at hg
  rw [hg.2]
  exact hreg _ _ _ hD c hc

/-- the Euclidean norm is not affected by an orthogonal matrix -/
theorem euclidean_orthogonal {A : Matrix n n K} (hA : Aᵀ * A = 1) {N N' : (n → K) → K} (hN : Euclidean N) (hN' : Euclidean N') (h0 : ∀ r, 0 ≤ N r) (h0' : ∀ r, 0 ≤ N' r) (r : n → K) : N' (A *ᵥ r) = N r := by
  have h : N' (A *ᵥ r) ^ 2 = N r ^ 2 := by
    rw [hN', hN, Matrix.dotProduct_mulVec, ← Matrix.mulVec_transpose, Matrix.mulVec_mulVec, hA, Matrix.one_mulVec]
  exact (pow_left_inj₀ (h0' _) (h0 _) two_ne_zero).1 h

/-- **C99, implicit Galerkin.** Two default Galerkin problems for the same FOM whose trial spaces contain the same states, both with orthonormal bases, each with its own Newton object with Euclidean norms and the same options, from the same initial FOM state: the two runs (BDF1, BDF2,
    CrankNicolson) go through the same FOM states, accept and fail in the same steps in the same way, and evaluate the FOM at the same states; for every option and every list of step sizes with which the matrices of the steps are regular; whatever the objects did before. -/
theorem C99_galerkin_implicit {F : Fom K m m n} {f : (m → K) → K → Except Exc (m → K)} {Df Mm : (m → K) → K → Except Exc (Matrix m m K)} (hF : FomIs F f Df Mm) (hn : FomNoTSF f Df)
    (S S' : Trial K m n) (B : Matrix n n K) (a : n → K) (hS : SameSpace S S' B a) (ho : Orthonormal S) (ho' : Orthonormal S') (s0 s0' : GSt K m m q n) (name : Scheme) (mem mem' : SMem K (n → K) (n → K) PMem) (hmem : Ready name mem) (hmem' : Ready name mem')
    (env : Env K n n p L) (env' : Env K n n p' L') (he : ∀ A b s, (env.linJ A b s).stop? ≠ some (.exc .timeStepFailure)) (he' : ∀ A b s, (env'.linJ A b s).stop? ≠ some (.exc .timeStepFailure)) (hlin : SolvesRegular env.linJ) (hlin' : SolvesRegular env'.linJ)
    (hM : Euclidean env.normM ∧ ∀ r, 0 ≤ env.normM r) (hM' : Euclidean env'.normM ∧ ∀ r, 0 ≤ env'.normM r) (hN : Euclidean env.normN ∧ ∀ r, 0 ≤ env.normN r) (hN' : Euclidean env'.normN ∧ ∀ r, 0 ≤ env'.normN r)
    (cfg : Cfg K) (reg : Reg K n n p L) (reg' : Reg K n n p' L') (hreg : NewtonIdle reg) (hreg' : NewtonIdle reg')
    (dts : List K) (hdt : ∀ dt ∈ dts, GalerkinRegular name S Df dt) (t0 : K) (x0 x0' : n → K) (hx0 : lift S x0 = lift S' x0') :
    (driveObj (stdStep name (asISystem (defaultRhsJac S F) s0)) (Model.Nonlinear.newtonSolve env cfg) dts t0 [x0] x0 mem reg).map (shown (lift S)) =
      (driveObj (stdStep name (asISystem (defaultRhsJac S' F) s0')) (Model.Nonlinear.newtonSolve env' cfg) dts t0 [x0'] x0' mem' reg').map (shown (lift S')) := by
  obtain rfl : x0 = chart B a x0' := by
    have h : lift S x0 = lift S (chart B a x0') := hx0.trans (hS.2 x0')
    have h2 := project_lift S ho x0
    rw [h, project_lift S ho] at h2
    exact (add_right_cancel h2).symm
  obtain ⟨hB, hB'⟩ := chart_orthogonal hS ho ho'
  have hA : (Bᵀ)ᵀ * Bᵀ = 1 := by rw [Matrix.transpose_transpose]; exact hB'
  apply shown_lift hS
  refine driveObj_moved (GalerkinRegular name S Df) (chart B a) (fun _ => True) (fun _ => True) _ _ (textbook name (asISystem (defaultRhsJac S F) s0)) (textbook name (asISystem (defaultRhsJac S' F) s0')) _ _
    (refinesOn_true (std_refines name (ready_name name mem hmem) _)) (refinesOn_true (std_refines name (ready_name name mem hmem) _)) (textbook_ne name _ (galerkin_noTSF hF hn S s0)) _ _ (fine_newtonSolve env he cfg) (fine_newtonSolve env' he' cfg)
    (fun _ _ => trivial) (fun _ _ => trivial) (fun a b => NewtonIdle a ∧ NewtonIdle b) ?_ dts hdt t0 x0' [] mem mem' reg reg' (ready_inv name _ mem hmem t0 _) (ready_inv name _ mem' hmem' t0 _) ⟨hreg, hreg'⟩
  intro rg rg' y prev t dt hd hr r r'
  have hwt := textbook_wellTyped name _ (galerkin_wellTyped S F s0) ((y :: prev).map (chart B a)) t dt
  have hwt' := textbook_wellTyped name _ (galerkin_wellTyped S' F s0') (y :: prev) t dt
  have hl : ((y :: prev).map (chart B a)).map (lift S) = (y :: prev).map (lift S') := by
    rw [List.map_map]; exact List.map_congr_left fun x _ => (hS.2 x).symm
  have hsame := C99_newton env env' cfg Bᵀ B a (by rw [Matrix.det_transpose]; exact hS.1) hS.1 _ _
    (project_moved hS (textbook name (fomSystem f Df) ((y :: prev).map (lift S')) t dt) (textbook name (asISystem (defaultRhsJac S F) s0) ((y :: prev).map (chart B a)) t dt) (textbook name (asISystem (defaultRhsJac S' F) s0') (y :: prev) t dt)
      (fun x w => by rw [galerkin_textbook hF S ho, hl]) (fun x w => galerkin_textbook hF S' ho' s0' name (y :: prev) t dt x w))
    (.inr (euclidean_orthogonal hA hM.1 hM'.1 hM.2 hM'.2))
    (by
      have h1 := euclidean_orthogonal hA hM.1 hM'.1 hM.2 hM'.2
      have h2 := euclidean_orthogonal hA hN.1 hN'.1 hN.2 hN'.2
      have h3 : ∀ c, env'.normN c = env.normN (B *ᵥ c) := fun c => (euclidean_orthogonal hB hN'.1 hN.1 hN'.2 hN.2 c).symm
      generalize cfg.stop = stp
      cases stp <;> simp only [SameMeasure] <;> first | exact h3 | exact h1 | exact h2)
    hlin hlin' (textbook_regular name _ dt (galerkin_regular hF S s0 name dt hd) _ t) { rg with x := chart B a y } { rg' with x := y } (hr.1 _) (hr.2 y) rfl
  unfold runNewton at hsame
  rw [toF_sysOf _ hwt, toF_sysOf _ hwt'] at hsame
  exact ⟨hsame, newtonIdle_run env cfg _ hwt rg _ hr.1, newtonIdle_run env' cfg _ hwt' rg' y hr.2⟩

/-- the matrices `Phiᵀ M Phi - c Phiᵀ (df/dy) Phi` of the scheme are regular in steps of size `dt` -/
def GalerkinRegularMM (name : Scheme) (S : Trial K m n) (Df Mm : (m → K) → K → Except Exc (Matrix m m K)) (dt : K) : Prop :=
  ∀ y t A D, Mm y t = .ok A → Df y t = .ok D → ∀ c ∈ rhsFactors dt name, IsUnit (S.basisᵀ * A * S.basis - c • (S.basisᵀ * D * S.basis)).det

theorem galerkin_regularMM {F : Fom K m m n} {f : (m → K) → K → Except Exc (m → K)} {Df Mm : (m → K) → K → Except Exc (Matrix m m K)} (hF : FomIs F f Df Mm) (S : Trial K m n) (s0 : GSt K m m q n) (name : Scheme) (hname : name = .BDF1 ∨ name = .BDF2) (dt : K)
    (hreg : GalerkinRegularMM name S Df Mm dt) (hist : List (n → K)) (t : K) :
    ∀ x r J, (sysOf (textbookMM Matrix.mulVec id name (asIMMSystem (defaultMMRhsJac S F) s0) hist t dt)).resJac x = .ok (r, J) → IsUnit J.det := by
  intro x r J h
  have h' : textbookMM Matrix.mulVec id name (asIMMSystem (defaultMMRhsJac S F) s0) hist t dt x true = .ok (r, some J) := by
    simp only [sysOf] at h
    rcases ht : textbookMM Matrix.mulVec id name (asIMMSystem (defaultMMRhsJac S F) s0) hist t dt x true with e | ⟨r', _ | j⟩
    · rw [ht] at h; cases h
    · rw [ht] at h; cases h
    · rw [ht] at h
      simp only [Except.ok.injEq, Prod.mk.injEq] at h
      rw [h.1, h.2]
  clear h
  have hg := galerkin_eval_mm hF S s0 x (t + dt) true
  generalize (asIMMSystem (defaultMMRhsJac S F) s0) = G at h' hg
  rcases he : G.eval x (t + dt) true with ⟨e, junk⟩ | ⟨M, v, j⟩
  · unfold textbookMM at h'
    rcases hname with rfl | rfl <;> rcases hist with _ | ⟨yn, _ | ⟨ynm1, hist⟩⟩ <;> simp only [he, reduceCtorEq] at h'
  · rw [he] at hg
    simp only [fomSystemMM, if_true] at hg
    rcases hf : f (lift S x) (t + dt) with e | w
    · rw [hf] at hg; simp [Except.map, Except.mapError] at hg
    rcases hA : Mm (lift S x) (t + dt) with e | A
    · rw [hf, hA] at hg; simp [Except.map, Except.mapError] at hg
    rcases hD : Df (lift S x) (t + dt) with e | D
    · rw [hf, hA, hD] at hg; simp [Except.map, Except.mapError] at hg
    rw [hf, hA, hD] at hg
    simp only [Except.map, Except.mapError, project, Option.map, Except.ok.injEq, Prod.mk.injEq] at hg
    obtain ⟨rfl, rfl, rfl⟩ := hg
    have hr := hreg _ _ _ _ hA hD
    unfold textbookMM at h'
    rcases hname with rfl | rfl <;> rcases hist with _ | ⟨yn, _ | ⟨ynm1, hist⟩⟩ <;> simp only [he, reduceCtorEq] at h' <;> simp only [Option.map, id, Except.ok.injEq, Prod.mk.injEq, Option.some.injEq] at h' <;> rw [← h'.2] <;>
      exact hr _ (by simp [rhsFactors])

/-- **C99, implicit Galerkin with mass matrix.** The same for problems with mass matrix (BDF1, BDF2), for any two bases of the space, orthonormal or not, for every option whose measures are the same in both coordinates. -/
theorem C99_galerkin_implicit_mass_matrix {F : Fom K m m n} {f : (m → K) → K → Except Exc (m → K)} {Df Mm : (m → K) → K → Except Exc (Matrix m m K)} (hF : FomIs F f Df Mm) (hn : FomNoTSF f Df) (hn' : ∀ y t, Mm y t ≠ .error .timeStepFailure)
    (S S' : Trial K m n) (B : Matrix n n K) (a : n → K) (hS : SameSpace S S' B a) (hinj : Function.Injective S.basis.mulVec) (s0 s0' : GSt K m m q n) (name : Scheme) (mem mem' : SMem K (n → K) (n → K) (MMMem (n → K) (Matrix n n K))) (hmem : ReadyMM name mem) (hmem' : ReadyMM name mem')
    (env : Env K n n p L) (env' : Env K n n p' L') (he : ∀ A b s, (env.linJ A b s).stop? ≠ some (.exc .timeStepFailure)) (he' : ∀ A b s, (env'.linJ A b s).stop? ≠ some (.exc .timeStepFailure)) (hlin : SolvesRegular env.linJ) (hlin' : SolvesRegular env'.linJ)
    (cfg : Cfg K) (hupd : cfg.update = .Standard ∨ ∀ r, env'.normM (Bᵀ *ᵥ r) = env.normM r) (hcrit : SameMeasure Bᵀ B env.normM env'.normM env.normN env'.normN cfg.stop) (reg : Reg K n n p L) (reg' : Reg K n n p' L') (hreg : NewtonIdle reg) (hreg' : NewtonIdle reg')
    (dts : List K) (hdt : ∀ dt ∈ dts, GalerkinRegularMM name S Df Mm dt) (t0 : K) (x0 x0' : n → K) (hx0 : lift S x0 = lift S' x0') :
    (driveObj (mmStep Matrix.mulVec id name (asIMMSystem (defaultMMRhsJac S F) s0)) (Model.Nonlinear.newtonSolve env cfg) dts t0 [x0] x0 mem reg).map (shown (lift S)) =
      (driveObj (mmStep Matrix.mulVec id name (asIMMSystem (defaultMMRhsJac S' F) s0')) (Model.Nonlinear.newtonSolve env' cfg) dts t0 [x0'] x0' mem' reg').map (shown (lift S')) := by
  obtain rfl : x0 = chart B a x0' := hinj (add_right_cancel (hx0.trans (hS.2 x0')))
  have hname := massReady_name name mem hmem
  apply shown_lift hS
  refine driveObj_moved (GalerkinRegularMM name S Df Mm) (chart B a) (fun _ => True) (fun _ => True) _ _ (textbookMM Matrix.mulVec id name (asIMMSystem (defaultMMRhsJac S F) s0)) (textbookMM Matrix.mulVec id name (asIMMSystem (defaultMMRhsJac S' F) s0')) _ _
    (refinesOn_true (mm_refines Matrix.mulVec id name hname _)) (refinesOn_true (mm_refines Matrix.mulVec id name hname _)) (textbookMM_ne Matrix.mulVec id name _ (galerkin_noTSFMM hF hn hn' S s0)) _ _ (fine_newtonSolve env he cfg) (fine_newtonSolve env' he' cfg)
    (fun _ _ => trivial) (fun _ _ => trivial) (fun a b => NewtonIdle a ∧ NewtonIdle b) ?_ dts hdt t0 x0' [] mem mem' reg reg' (readyMM_inv name mem hmem t0 _) (readyMM_inv name mem' hmem' t0 _) ⟨hreg, hreg'⟩
  intro rg rg' y prev t dt hd hr r r'
  have hwt := textbookMM_wellTyped Matrix.mulVec id name _ (galerkin_wellTypedMM S F s0) ((y :: prev).map (chart B a)) t dt
  have hwt' := textbookMM_wellTyped Matrix.mulVec id name _ (galerkin_wellTypedMM S' F s0') (y :: prev) t dt
  have hl : ((y :: prev).map (chart B a)).map (lift S) = (y :: prev).map (lift S') := by
    rw [List.map_map]; exact List.map_congr_left fun x _ => (hS.2 x).symm
  have hsame := C99_newton env env' cfg Bᵀ B a (by rw [Matrix.det_transpose]; exact hS.1) hS.1 _ _
    (project_moved hS (textbookMM Matrix.mulVec id name (fomSystemMM f Df Mm) ((y :: prev).map (lift S')) t dt) (textbookMM Matrix.mulVec id name (asIMMSystem (defaultMMRhsJac S F) s0) ((y :: prev).map (chart B a)) t dt)
      (textbookMM Matrix.mulVec id name (asIMMSystem (defaultMMRhsJac S' F) s0') (y :: prev) t dt)
      (fun x w => by rw [galerkin_textbook_mm hF S, hl]) (fun x w => galerkin_textbook_mm hF S' s0' name (y :: prev) t dt x w))
    hupd hcrit hlin hlin' (galerkin_regularMM hF S s0 name hname dt hd _ t) { rg with x := chart B a y } { rg' with x := y } (hr.1 _) (hr.2 y) rfl
  unfold runNewton at hsame
  rw [toF_sysOf _ hwt, toF_sysOf _ hwt'] at hsame
  exact ⟨hsame, newtonIdle_run env cfg _ hwt rg _ hr.1, newtonIdle_run env' cfg _ hwt' rg' y hr.2⟩

/-! ### Explicit -/

/-- **C99, explicit Galerkin.** Two explicit Galerkin problems on orthonormal bases of the same space observe, for every explicit scheme, step-size policy and number of steps, the same FOM states at the same times, and end in the same FOM state. -/
theorem C99_galerkin_explicit {F : Fom K m m n} {f : (m → K) → K → m → K} {Df Mm : (m → K) → K → Except Exc (Matrix m m K)} (hF : FomIs F (fun y t => .ok (f y t)) Df Mm)
    (S S' : Trial K m n) (B : Matrix n n K) (a : n → K) (hS : SameSpace S S' B a) (ho : Orthonormal S) (ho' : Orthonormal S') (s0 s0' : GSt K m m q n) (scheme : Scheme) (hsch : scheme.isExplicit = true)
    (pol : Int → K → K → K) (start : K) (N : Nat) (hN : (N : Int) < int32Max) (x0 x0' : n → K) (hx0 : lift S x0 = lift S' x0')
    (mem mem' : EMem K (n → K)) (hlen : mem.1.length = numRhs scheme) (hlen' : mem'.1.length = numRhs scheme) :
    ∃ r r', run 0 pol (asStepper (asSystem (defaultRhs S F) s0) scheme dummyObserver) N start x0 mem = .ok () r ∧
      run 0 pol (asStepper (asSystem (defaultRhs S' F) s0') scheme dummyObserver) N start x0' mem' = .ok () r' ∧
      lift S r.y = lift S' r'.y ∧ (observations r.log).map (fun o => (o.1, o.2.1, lift S o.2.2)) = (observations r'.log).map (fun o => (o.1, o.2.1, lift S' o.2.2)) := by
  obtain rfl : x0 = chart B a x0' := by
    have h : lift S x0 = lift S (chart B a x0') := hx0.trans (hS.2 x0')
    have h2 := project_lift S ho x0
    rw [h, project_lift S ho] at h2
    exact (add_right_cancel h2).symm
  obtain ⟨-, hB⟩ := chart_orthogonal hS ho ho'
  obtain ⟨r', r, h1, h2, h3, h4⟩ := run_lift (Matrix.mulVecLin B) a (fun x t => S.basisᵀ.mulVec (f (lift S x) t)) (fun x t => S'.basisᵀ.mulVec (f (lift S' x) t))
    (fun x t => by
      rw [hS.2 x, sameSpace_basis hS, Matrix.transpose_mul, Matrix.mulVecLin_apply, Matrix.mulVecLin_apply, Matrix.mulVec_mulVec, ← Matrix.mul_assoc, hB, Matrix.one_mul]; rfl)
    (asSystem (defaultRhs S F) s0) (galerkin_computes hF S s0) (asSystem (defaultRhs S' F) s0') (galerkin_computes hF S' s0') scheme hsch pol start N hN x0' mem' hlen' mem hlen
  refine ⟨r, r', h2, h1, ?_, ?_⟩
  · rw [h3, hS.2]; rfl
  · rw [h4, List.map_map]
    exact List.map_congr_left fun o _ => by simp only [Function.comp, hS.2]; rfl

/-- **C99, explicit Galerkin with mass matrix.** The same with mass matrix, for any two bases of the space, where the reduced mass matrices are regular and the linear solvers solve `M x = f`. -/
theorem C99_galerkin_explicit_mass_matrix {F : Fom K m m n} {f : (m → K) → K → m → K} {M : (m → K) → K → Matrix m m K} {Df : (m → K) → K → Except Exc (Matrix m m K)} (hF : FomIs F (fun y t => .ok (f y t)) Df (fun y t => .ok (M y t)))
    (S S' : Trial K m n) (B : Matrix n n K) (a : n → K) (hS : SameSpace S S' B a) (hinj : Function.Injective S.basis.mulVec) (hred : ∀ x t, IsUnit (S.basisᵀ * (M (lift S x) t * S.basis)).det)
    (ls ls' : LinSolve (n → K) (Matrix n n K)) (hls : SolvesMxf Matrix.mulVec ls) (hls' : SolvesMxf Matrix.mulVec ls') (s0 s0' : GSt K m m q n) (scheme : Scheme) (hsch : scheme.isExplicit = true)
    (pol : Int → K → K → K) (start : K) (N : Nat) (hN : (N : Int) < int32Max) (x0 x0' : n → K) (hx0 : lift S x0 = lift S' x0')
    (mem mem' : MMem K (n → K) (Matrix n n K)) (hlen : mem.2.1.length = numX scheme) (hlen' : mem'.2.1.length = numX scheme) :
    ∃ r r', run 0 pol (asStepperMM (asMMSystem (defaultMMRhs S F) s0) ls scheme dummyObserver) N start x0 mem = .ok () r ∧
      run 0 pol (asStepperMM (asMMSystem (defaultMMRhs S' F) s0') ls' scheme dummyObserver) N start x0' mem' = .ok () r' ∧
      lift S r.y = lift S' r'.y ∧ (observations r.log).map (fun o => (o.1, o.2.1, lift S o.2.2)) = (observations r'.log).map (fun o => (o.1, o.2.1, lift S' o.2.2)) := by
  obtain rfl : x0 = chart B a x0' := hinj (add_right_cancel (hx0.trans (hS.2 x0')))
  have hb := sameSpace_basis hS
  have hbij : ∀ A : Matrix n n K, IsUnit A.det → Function.Bijective A.mulVec := fun A hA =>
    ⟨Matrix.mulVec_injective_iff_isUnit.2 ((Matrix.isUnit_iff_isUnit_det A).2 hA), Matrix.mulVec_surjective_iff_isUnit.2 ((Matrix.isUnit_iff_isUnit_det A).2 hA)⟩
  have hmat : ∀ x t, S'.basisᵀ * (M (lift S' x) t * S'.basis) = Bᵀ * (S.basisᵀ * (M (lift S (chart B a x)) t * S.basis)) * B := fun x t => by
    rw [hS.2 x, hb, Matrix.transpose_mul]; simp only [Matrix.mul_assoc]
  have hred' : ∀ x t, IsUnit (S'.basisᵀ * (M (lift S' x) t * S'.basis)).det := fun x t => by
    rw [hmat, Matrix.det_mul, Matrix.det_mul, Matrix.det_transpose]; exact (hS.1.mul (hred _ t)).mul hS.1
  choose g hg using fun x t => (hbij _ (hred x t)).2 (S.basisᵀ.mulVec (f (lift S x) t))
  choose g' hg' using fun x t => (hbij _ (hred' x t)).2 (S'.basisᵀ.mulVec (f (lift S' x) t))
  have e1 : ∀ x t, g (chart B a x) t = B *ᵥ g' x t := fun x t => by
    have h := hg' x t
    rw [hmat, hS.2 x, hb, Matrix.transpose_mul, ← Matrix.mulVec_mulVec _ Bᵀ, ← hg (chart B a x) t, ← Matrix.mulVec_mulVec, ← Matrix.mulVec_mulVec] at h
    have hBt : IsUnit (Bᵀ).det := by rw [Matrix.det_transpose]; exact hS.1
    exact ((hbij _ (hred _ t)).1 ((hbij _ hBt).1 h)).symm
  let sg : System K (n → K) := ⟨fun x t _ => .ok () (g x t)⟩
  let sg' : System K (n → K) := ⟨fun y t _ => .ok () (g' y t)⟩
  let e : EMem K (n → K) := (List.replicate (numRhs scheme) 0, 0, [])
  obtain ⟨b, b', b1, b2, b3, b4⟩ := C17_mass_matrix_runs Matrix.mulVec _ ls _ _ g (galerkin_computes_mm hF S s0) hls (fun x t => hbij _ (hred x t)) hg scheme hsch sg (fun _ _ _ => rfl) pol start N hN (chart B a x0') mem hlen e (by simp [e])
  obtain ⟨c, c', c1, c2, c3, c4⟩ := C17_mass_matrix_runs Matrix.mulVec _ ls' _ _ g' (galerkin_computes_mm hF S' s0') hls' (fun x t => hbij _ (hred' x t)) hg' scheme hsch sg' (fun _ _ _ => rfl) pol start N hN x0' mem' hlen' e (by simp [e])
  obtain ⟨r', r, h1, h2, h3, h4⟩ := run_lift (Matrix.mulVecLin B) a g g' e1 sg (fun _ _ _ => rfl) sg' (fun _ _ _ => rfl) scheme hsch pol start N hN x0' e (by simp [e]) e (by simp [e])
  rw [c2] at h1; cases h1
  rw [show Matrix.mulVecLin B x0' + a = chart B a x0' from rfl, b2] at h2; cases h2
  refine ⟨b, c, b1, c1, ?_, ?_⟩
  · rw [b3, h3, c3, hS.2]; rfl
  · rw [b4, h4, c4, List.map_map]
    exact List.map_congr_left fun o _ => by simp only [Function.comp, hS.2]; rfl

end
end Pressio.Props
