import Verif.Props.CollateralBasis
import Verif.Props.InvariantSpaceSteady

/-
  C110: on an invariant trial space, a code for a sample mesh reproduces the runs of the full-order model.
-/
namespace Pressio.Props
set_option autoImplicit false
set_option linter.unusedSectionVars false
open Pressio Matrix
open Pressio.Model.Advance Pressio.Spec.AdvanceTarget Pressio.Spec.AdvanceDrive Pressio.Spec.CustomSchemes Pressio.Spec.Units
open Pressio.Model.Nonlinear (Env Cfg Reg StopCrit Update Tag Ans SP)
open Pressio.Spec.Nonlinear Pressio.Spec.SolverAlike Pressio.Spec.Sampling Pressio.Spec.Coordinates Pressio.Spec.InvariantSpace
open Pressio.Lemmas.Nonlinear Pressio.Lemmas.SolverAlike Pressio.Lemmas.Coordinates
open Pressio.Model.Implicit Pressio.Spec.Implicit Pressio.Lemmas.Implicit Pressio.Spec.SolverRun Pressio.Lemmas.SolverTree Pressio.Lemmas.SolverRun
open Pressio.Model.Explicit (Scheme System numRhs asStepper dummyObserver)
open Pressio.Model.Galerkin Pressio.Spec.Galerkin Pressio.Spec.Run Pressio.Spec.SteadySolve
open Pressio.Spec.Explicit Pressio.Lemmas.Run Pressio.Model.SteadySolve Pressio.Spec.CollateralBasis

section
variable {K m s q r n p p' L L' M : Type} [Field K] [LinearOrder K] [IsStrictOrderedRing K] [Fintype m] [DecidableEq m] [Fintype s] [DecidableEq s] [Fintype q] [DecidableEq q] [Fintype r] [Fintype n] [DecidableEq n] [Fintype p] [Fintype p']

/-- **C110, explicit schemes.** The right-hand side of a full-order model is, on the trial space, in the range of the basis (any basis, any reference state). A code for a sample mesh evaluates the same right-hand side at the points of the sample mesh. The hyper-reduction operator is a matrix `W` that recovers reduced coordinates from the sampled entries of the
    basis. The hyper-reduced Galerkin run, which never touches the full mesh, and the run of the full-order model: the latter observes, at the same times, the reconstructions of the states of the former. For each explicit scheme, step-size policy and number of steps, whatever the buffers contain. -/
theorem C110_explicit (P : Matrix s m K) (E : Matrix q s K) {F : Fom K m m n} {f : (m → K) → K → m → K} {Df Mm : (m → K) → K → Except Exc (Matrix m m K)} (hF : FomIs F (fun y t => .ok (f y t)) Df Mm)
    {F' : Fom K s q n} {f' : (s → K) → K → q → K} {Df' Mm' : (s → K) → K → Except Exc (Matrix q s K)} (hF' : FomIs F' (fun y t => .ok (f' y t)) Df' Mm') (hs : ∀ y t, f' (P *ᵥ y) t = (E * P) *ᵥ f y t) (S : Trial K m n) (W : Matrix n q K) (hW : Recovers (E * P) S.basis W)
    (hinv : ∀ x t, ∃ z, f (lift S x) t = S.basis *ᵥ z) {H : HypRed K q n} (hH : HypIs H (fun _ v => W *ᵥ v) (fun _ B => W * B)) (s0' : GSt K s q r n)
    (scheme : Scheme) (hsch : scheme.isExplicit = true) (pol : Int → K → K → K) (start : K) (N : Nat) (hN : (N : Int) < int32Max) (x0 : n → K) (mem : EMem K (m → K)) (mem' : EMem K (n → K)) (hlen : mem.1.length = numRhs scheme) (hlen' : mem'.1.length = numRhs scheme) :
    ∃ a b, run 0 pol (asStepper (asSystem (hypredRhs (onStencil P S) F' H) s0') scheme dummyObserver) N start x0 mem' = .ok () a ∧
      run 0 pol (asStepper (fomAsSystem F) scheme dummyObserver) N start (lift S x0) mem = .ok () b ∧ b.y = lift S a.y ∧ observations b.log = (observations a.log).map (fun o => (o.1, o.2.1, lift S o.2.2)) := by
  have h2 : Computes (asSystem (hypredRhs (onStencil P S) F' H) s0') (fun x t => W *ᵥ ((E * P) *ᵥ f (lift S x) t)) := by
    intro x t b
    obtain ⟨s, hs', hv'⟩ := C49_hypred_rhs hF' hH (onStencil P S) x t { s0' with r := b }
    simp only [Prod.mk.injEq] at hv'
    unfold asSystem
    simp only [hs', hv'.1, lift_onStencil, hs]
  refine run_lift (Matrix.mulVecLin S.basis) (if S.isAffine then S.translation else 0) f _ ?_ (fomAsSystem F) (fom_computes hF) _ h2 scheme hsch pol start N hN x0 mem' hlen' mem hlen
  intro x t
  rw [← lift_eq]
  obtain ⟨z, hz⟩ := hinv x t
  rw [hz, Matrix.mulVec_mulVec _ (E * P), Matrix.mulVec_mulVec, hW, Matrix.one_mulVec]
  rfl

/-- on an orthonormal basis, recovering coordinates is reconstructing and projecting -/
theorem orthonormal_reconstructs {S : Trial K m n} (hS : Orthonormal S) {W : Matrix n q K} {H : HypRed K q n} (hH : HypIs H (fun _ v => W *ᵥ v) (fun _ B => W * B)) : Reconstructs H S S.basis W := by
  have hB : S.basisᵀ * S.basis = 1 := hS
  unfold Reconstructs
  rw [hB, Matrix.one_mul]
  exact hH

/-- runs that show the same states show the same reconstructions of them -/
theorem shown_reread {A A' Z : Type} (φ : (n → K) → Z) {l : List (Record K (n → K) A)} {l' : List (Record K (n → K) A')} (h : l.map (shown id) = l'.map (shown id)) : l.map (shown φ) = l'.map (shown φ) := by
  let re : K × K × Option Stop × List (n → K) × (n → K) × List ((n → K) × Bool) → K × K × Option Stop × List Z × Z × List (Z × Bool) := fun a => (a.1, a.2.1, a.2.2.1, a.2.2.2.1.map φ, φ a.2.2.2.2.1, a.2.2.2.2.2.map (fun q => (φ q.1, q.2)))
  have e : ∀ {B : Type} (l : List (Record K (n → K) B)), l.map (shown φ) = (l.map (shown id)).map re := fun l => by
    rw [List.map_map]
    exact List.map_congr_left (fun r _ => by simp [re, shown, List.map_map, Function.comp_def])
  rw [e, e, h]

/-- **C110, implicit schemes.** With an orthonormal basis, and Newton objects with Euclidean norms and the same options, the same holds for implicit steppers (BDF1, BDF2, CrankNicolson): the hyper-reduced problem of the sample-mesh code and the full-order model go through the same full-order states at the same times, accept and fail in the same steps in the same way.
    The codes may throw. -/
theorem C110_implicit (P : Matrix s m K) (E : Matrix q s K) {F : Fom K m m n} {f : (m → K) → K → Except Exc (m → K)} {Df Mm : (m → K) → K → Except Exc (Matrix m m K)} (hF : FomIs F f Df Mm) (hn : FomNoTSF f Df) (sys : ISystem K (m → K) (Matrix m m K)) (hsys : OdeIs sys f Df)
    {F' : Fom K s q n} {f' : (s → K) → K → Except Exc (q → K)} {Df' Mm' : (s → K) → K → Except Exc (Matrix q s K)} (hF' : FomIs F' f' Df' Mm') (hs : Samples P E f Df f' Df') (S : Trial K m n) (hS : Orthonormal S) (hI : InvariantSpace S f Df) (W : Matrix n q K) (hW : Recovers (E * P) S.basis W)
    {H : HypRed K q n} (hH : HypIs H (fun _ v => W *ᵥ v) (fun _ B => W * B)) (s0 : GSt K s q r n) (name : Scheme) (mem : SMem K (m → K) (m → K) PMem) (mem' : SMem K (n → K) (n → K) PMem) (hmem : Ready name mem) (hmem' : Ready name mem')
    (env : Env K m m p L) (env' : Env K n n p' L') (he : ∀ A b s, (env.linJ A b s).stop? ≠ some (.exc .timeStepFailure)) (he' : ∀ A b s, (env'.linJ A b s).stop? ≠ some (.exc .timeStepFailure)) (hlin : SolvesRegular env.linJ) (hlin' : SolvesRegular env'.linJ)
    (hM : Euclidean env.normM ∧ ∀ r, 0 ≤ env.normM r) (hM' : Euclidean env'.normM ∧ ∀ r, 0 ≤ env'.normM r) (hN : Euclidean env.normN ∧ ∀ r, 0 ≤ env.normN r) (hN' : Euclidean env'.normN ∧ ∀ r, 0 ≤ env'.normN r)
    (cfg : Cfg K) (reg : Reg K m m p L) (reg' : Reg K n n p' L') (hreg : NewtonIdle reg) (hreg' : NewtonIdle reg') (dts : List K) (hdt : ∀ dt ∈ dts, RegularOn S name Df dt) (t0 : K) (x0 : n → K) :
    (driveObj (stdStep name (asISystem (hypredRhsJac (onStencil P S) F' H) s0)) (Model.Nonlinear.newtonSolve env' cfg) dts t0 [x0] x0 mem' reg').map (shown (lift S)) =
      (driveObj (stdStep name sys) (Model.Nonlinear.newtonSolve env cfg) dts t0 [lift S x0] (lift S x0) mem reg).map (shown id) := by
  have h1 := C104_galerkin_implicit (q := n) hF hn sys hsys S hS hI ⟨0, 0, 0, 0, 0, 0, 0, 0, 0, 0, 0⟩ name mem mem' hmem hmem' env env' he he' hlin hlin' hM hM' hN hN' cfg reg reg' hreg hreg' dts hdt t0 x0
  have h2 := C108_galerkin_implicit (r := r) (r' := n) P E hF hn hF' hs S S.basis W hW ⟨hI.1, hI.2⟩ (orthonormal_reconstructs hS hH) ⟨0, 0, 0, 0, 0, 0, 0, 0, 0, 0, 0⟩ s0 name mem' mem' hmem' hmem' (Model.Nonlinear.newtonSolve env' cfg) (fine_newtonSolve env' he' cfg) reg' dts t0 x0
  rw [shown_reread (lift S) h2, h1]

/-- **C110, steady problems.** The same for a steady problem: Newton on the full-order problem and Newton on the hyper-reduced problem of the sample-mesh code end in the same way, at the same full-order state, after evaluations at the same full-order states. -/
theorem C110_steady (P : Matrix s m K) (E : Matrix q s K) {F : SteadyFom K m m n} {f : (m → K) → m → K} {Df : (m → K) → Matrix m m K} (hF : SteadyIs F (fun y => .ok (f y)) (fun y => .ok (Df y))) (ans : (m → K) → Bool → Prog M (Ans K m m)) (hans : Serves ans f Df)
    {F' : SteadyFom K s q n} {f' : (s → K) → Except Exc (q → K)} {Df' : (s → K) → Except Exc (Matrix q s K)} (hF' : SteadyIs F' f' Df') (hs : Samples P E (fun y _ => .ok (f y)) (fun y _ => .ok (Df y)) (fun y _ => f' y) (fun y _ => Df' y))
    (S : Trial K m n) (hS : Orthonormal S) (hI : InvariantResidual S f Df) (hreg : ∀ x, IsUnit (Df (lift S x)).det) (W : Matrix n q K) (hW : Recovers (E * P) S.basis W) {H : HypRed K q n} (hH : HypIs H (fun _ v => W *ᵥ v) (fun _ B => W * B))
    (env : Env K m m p L) (env' : Env K n n p' L') (he : ∀ A b s, (env.linJ A b s).stop? ≠ some (.exc .timeStepFailure)) (he' : ∀ A b s, (env'.linJ A b s).stop? ≠ some (.exc .timeStepFailure)) (hlin : SolvesRegular env.linJ) (hlin' : SolvesRegular env'.linJ)
    (hM : Euclidean env.normM ∧ ∀ r, 0 ≤ env.normM r) (hM' : Euclidean env'.normM ∧ ∀ r, 0 ≤ env'.normM r) (hN : Euclidean env.normN ∧ ∀ r, 0 ≤ env.normN r) (hN' : Euclidean env'.normN ∧ ∀ r, 0 ≤ env'.normN r)
    (cfg : Cfg K) (reg : Reg K m m p L) (reg' : Reg K n n p' L') (hidle : NewtonIdle reg) (hidle' : NewtonIdle reg') (x0 : n → K) (mem : M) (mem' : GSt K s q r n) :
    SameSteady (lift S) (solveSteady (Model.Nonlinear.newtonSolve env cfg) reg ans (lift S x0) mem) (solveSteady (Model.Nonlinear.newtonSolve env' cfg) reg' (galerkinEval (steadyHypredResidualJac (onStencil P S) F' H)) x0 mem') := by
  obtain ⟨e1, e2, e3⟩ := C104_steady_galerkin (q := n) hF ans hans S hS hI hreg env env' he he' hlin hlin' hM hM' hN hN' cfg reg reg' hidle hidle' x0 mem ⟨0, 0, 0, 0, 0, 0, 0, 0, 0, 0, 0⟩
  have h := C108_steady_galerkin (r := r) (r' := n) (p := p') P E hF hF' hs S S.basis W hW ⟨fun x _ v h => by cases h; exact (hI x).1, fun x _ D h => by cases h; exact (hI x).2⟩ (orthonormal_reconstructs hS hH) (Model.Nonlinear.newtonSolve env' cfg) reg' x0 ⟨0, 0, 0, 0, 0, 0, 0, 0, 0, 0, 0⟩ mem'
  simp only [solved, Prod.mk.injEq] at h
  obtain ⟨a1, a2, a3⟩ := h
  exact ⟨e1.trans a1.symm, e2.trans (congrArg _ a2.symm), e3.trans (by rw [a3])⟩
end

/-! The two cells of C104, side by side with no flux through the outer walls, each driven by the other: the sample mesh is cell 0, the stencil mesh has both cells. -/

noncomputable def cellZero : Matrix (Fin 1) (Fin 2) ℝ := !![1, 0]
noncomputable def cellsSampled : Fom ℝ (Fin 2) (Fin 1) (Fin 1) where
  rhs := fun y t _ => .ok ![t - y 0 ^ 3 + (y 1 - y 0)]
  applyJac := fun y B _ _ => .ok ((!![-3 * y 0 ^ 2 - 1, 1] : Matrix (Fin 1) (Fin 2) ℝ) * B)
  applyMM := fun _ B _ _ => .ok (cellZero * B)
theorem cellsSampled_is : FomIs cellsSampled (fun y t => .ok ![t - y 0 ^ 3 + (y 1 - y 0)]) (fun y _ => .ok !![-3 * y 0 ^ 2 - 1, 1]) (fun _ _ => .ok cellZero) := ⟨fun _ _ _ => rfl, fun _ _ _ _ => rfl, fun _ _ _ _ => rfl⟩
theorem cells_samples : Samples 1 cellZero cells cellsJac (fun y t => .ok ![t - y 0 ^ 3 + (y 1 - y 0)]) (fun y _ => .ok !![-3 * y 0 ^ 2 - 1, 1]) where
  values := fun y t => congrArg Except.ok (by rw [Matrix.mul_one, Matrix.one_mulVec]; ext i; fin_cases i; simp [cellZero, Matrix.one_mulVec, Matrix.mulVec, dotProduct, Fin.sum_univ_two])
  rows := fun y t => congrArg Except.ok (by rw [Matrix.mul_one, Matrix.one_mulVec]; beta_reduce; rw [Matrix.mul_one]; ext i j; fin_cases i; fin_cases j <;> simp [cellZero, Matrix.mul_apply, Fin.sum_univ_two])
/-- the coordinate of a vector in the range of the basis `(c, c)` is its entry in cell 0, divided by `c` -/
noncomputable def cellW (c : ℝ) : Matrix (Fin 1) (Fin 1) ℝ := !![1 / c]
noncomputable def cellHyp (c : ℝ) : HypRed ℝ (Fin 1) (Fin 1) := ⟨fun v _ _ => .ok (cellW c *ᵥ v), fun B _ _ => .ok (cellW c * B)⟩
theorem cellHyp_is (c : ℝ) : HypIs (cellHyp c) (fun _ v => cellW c *ᵥ v) (fun _ B => cellW c * B) := ⟨fun _ _ _ => rfl, fun _ _ _ => rfl⟩
theorem cell_recovers (c : ℝ) (hc : c ≠ 0) : Recovers (cellZero * (1 : Matrix (Fin 2) (Fin 2) ℝ)) (inStep c).basis (cellW c) := by
  unfold Recovers
  rw [Matrix.mul_one]
  ext i j; fin_cases i; fin_cases j
  simp [cellZero, cellW, inStep, Matrix.mul_apply, Fin.sum_univ_two, hc]
noncomputable def gstCell : GSt ℝ (Fin 2) (Fin 1) (Fin 1) (Fin 1) := ⟨![3, 4], 0, 0, 0, 0, 0, 0, 0, 0, 0, 0⟩

example := C110_explicit (1 : Matrix (Fin 2) (Fin 2) ℝ) cellZero (f := fun y t => ![t - y 0 ^ 3 + (y 1 - y 0), t - y 1 ^ 3 + (y 0 - y 1)]) (f' := fun y t => ![t - y 0 ^ 3 + (y 1 - y 0)]) cells_is cellsSampled_is
  (fun y t => by have := cells_samples.values y t; simpa [cells, Except.map] using this) (inStep 3) (cellW 3) (cell_recovers 3 (by norm_num)) (fun x t => (cells_invariant 3 (by norm_num)).1 x t _ rfl) (cellHyp_is 3) gstCell
  .RungeKutta4 rfl (fun _ _ _ => 1/4) 0 5 (by decide) ![1] ([0, 0, 0, 0], 0, []) ([![3], 0, ![1], 0], 0, []) rfl rfl

example := C110_implicit (1 : Matrix (Fin 2) (Fin 2) ℝ) cellZero cells_is cells_noTSF _ (fomSystem_is _ _) cellsSampled_is cells_samples (inStep (Real.sqrt (1/2))) inStep_orthonormal (cells_invariant _ (by positivity)) (cellW _) (cell_recovers _ (by positivity)) (cellHyp_is _) gstCell .CrankNicolson memCN memCN1
  (by simp [Ready, memCN, freshPMem]) (by simp [Ready, memCN1, freshPMem]) envInv env1 (by simp [envInv]) (by simp [env1]) envInv_solves inverts realNorms realNorms1 realNorms realNorms1
  ⟨10, .WhenAbsolutel2NormOfCorrectionBelowTolerance, 1/100, .BacktrackStrictlyDecreasingObjective, none⟩ regInv (regOf (Fin 1) Model.Nonlinear.newtonDiagnostics) (fun _ => .created _ rfl) (fun _ => .created _ rfl)
  [1, 1/2, 3] (fun dt h _ t D hD => cells_regular .CrankNicolson (.inr (.inr rfl)) dt (positive_steps dt h) _ t D hD) 0 ![1]

noncomputable def cellRest : SteadyFom ℝ (Fin 2) (Fin 1) (Fin 1) where
  residual := fun y _ => .ok ![1 - 2 * y 0 - y 0 ^ 3 + y 1]
  residualAndJac := fun y B w J => .ok (![1 - 2 * y 0 - y 0 ^ 3 + y 1], if w then (!![-3 * y 0 ^ 2 - 2, 1] : Matrix (Fin 1) (Fin 2) ℝ) * B else J.2)
  jacAction := fun _ _ b => .ok b
theorem cellRest_is : SteadyIs cellRest (fun y => .ok ![1 - 2 * y 0 - y 0 ^ 3 + y 1]) (fun y => .ok !![-3 * y 0 ^ 2 - 2, 1]) := ⟨fun _ _ => rfl, fun _ _ _ => rfl, fun _ _ _ => rfl⟩
theorem cellRest_samples : Samples 1 cellZero (fun y _ => .ok (restF y)) (fun y _ => .ok (restJ y)) (fun y _ => .ok ![1 - 2 * y 0 - y 0 ^ 3 + y 1]) (fun y _ => .ok !![-3 * y 0 ^ 2 - 2, 1]) where
  values := fun y t => congrArg Except.ok (by rw [Matrix.mul_one, Matrix.one_mulVec]; ext i; fin_cases i; simp [restF, cellZero, Matrix.mulVec, dotProduct, Fin.sum_univ_two])
  rows := fun y t => congrArg Except.ok (by rw [Matrix.mul_one, Matrix.one_mulVec]; beta_reduce; rw [Matrix.mul_one]; ext i j; fin_cases i; fin_cases j <;> simp [restJ, cellZero, Matrix.mul_apply, Fin.sum_univ_two])

example := C110_steady (1 : Matrix (Fin 2) (Fin 2) ℝ) cellZero restFom_is restEval restEval_serves cellRest_is cellRest_samples (inStep (Real.sqrt (1/2))) inStep_orthonormal (rest_invariant _ (by positivity)) (fun _ => rest_regular _) (cellW _) (cell_recovers _ (by positivity)) (cellHyp_is _) envInv env1 (by simp [envInv]) (by simp [env1]) envInv_solves inverts
  realNorms realNorms1 realNorms realNorms1 ⟨10, .WhenAbsolutel2NormOfCorrectionBelowTolerance, 1/100, .BacktrackStrictlyDecreasingObjective, none⟩ regInv (regOf (Fin 1) Model.Nonlinear.newtonDiagnostics) (fun _ => .created _ rfl) (fun _ => .created _ rfl) ![1] () gstCell
end Pressio.Props
