import Verif.Props.Superposition
import Verif.Props.MassSolved

/-
  C111 for implicit schemes with a mass matrix.
-/
namespace Pressio.Props
set_option autoImplicit false
set_option linter.unusedSectionVars false
open Pressio Matrix
open Pressio.Model.Nonlinear (Env Cfg Reg StopCrit Update Ans SP)
open Pressio.Spec.Nonlinear Pressio.Spec.SolverAlike Pressio.Spec.Coordinates
open Pressio.Model.Implicit Pressio.Spec.Implicit Pressio.Spec.SolverRun
open Pressio.Model.Explicit (Scheme)

section
variable {n p L : Type} [Fintype n] [DecidableEq n] [Fintype p]

/-- the equation solved for the time derivative -/
theorem forced_solved (M A : ℝ → Matrix n n ℝ) (b : ℝ → n → ℝ) :
    OdeIs (odeSystem (forcedRhs (fun t => (M t)⁻¹ * A t) (fun t => (M t)⁻¹ *ᵥ b t)) (fun _ t => (M t)⁻¹ * A t)) (solvedRhs M (fun y t => .ok (forcedRhs A b y t))) (solvedJac M (fun _ t => .ok (A t))) := by
  intro y t w
  cases w <;> simp [odeSystem, forcedRhs, solvedRhs, solvedJac, Except.map, Except.mapError, bind, Except.bind, pure, Except.pure, Matrix.mulVec_add, Matrix.mulVec_mulVec]

/-- **C111, superposition, implicit schemes with a mass matrix.** On problems `M(t) y' = A(t) y + b(t)` with invertible `M(t)`, with BDF1 or BDF2, a Newton object that takes full steps, whose linear solver solves regular systems, and that does not stop early (norm of the correction, tolerance 0), matrices `M - c A` of the scheme regular:
    the run from the combination of two initial states under the combination of two forcings goes through the combinations of the states of the two runs, all steps accepted. -/
theorem C111_superposition_mass_implicit (name : Scheme) (M A : ℝ → Matrix n n ℝ) (hM : ∀ t, IsUnit (M t).det) (b c : ℝ → n → ℝ) (α β : ℝ) (sys1 sys2 sys3 : IMMSystem ℝ (n → ℝ) (Matrix n n ℝ) (Matrix n n ℝ))
    (hs1 : OdeIsMM sys1 (fun y t => .ok (A t *ᵥ y + b t)) (fun _ t => .ok (A t)) (fun _ t => .ok (M t))) (hs2 : OdeIsMM sys2 (fun y t => .ok (A t *ᵥ y + c t)) (fun _ t => .ok (A t)) (fun _ t => .ok (M t)))
    (hs3 : OdeIsMM sys3 (fun y t => .ok (A t *ᵥ y + (α • b t + β • c t))) (fun _ t => .ok (A t)) (fun _ t => .ok (M t)))
    (mem1 mem2 mem3 : SMem ℝ (n → ℝ) (n → ℝ) (MMMem (n → ℝ) (Matrix n n ℝ))) (hm1 : ReadyMM name mem1) (hm2 : ReadyMM name mem2) (hm3 : ReadyMM name mem3)
    (env : Env ℝ n n p L) (hN : ∀ r, 0 ≤ env.normN r) (he : ∀ A b s, (env.linJ A b s).stop? ≠ some (.exc .timeStepFailure)) (hlin : SolvesRegular env.linJ) (cfg : Cfg ℝ)
    (hcrit : cfg.stop = .WhenAbsolutel2NormOfCorrectionBelowTolerance) (htol : cfg.tol = 0) (hupd : cfg.update = .Standard) (hmax : cfg.maxIters < int32Max) (hit : 1 ≤ cfg.maxIters)
    (reg1 reg2 reg3 : Reg ℝ n n p L) (hr1 : NewtonIdle reg1) (hr2 : NewtonIdle reg2) (hr3 : NewtonIdle reg3) (dts : List ℝ) (hreg : ∀ h ∈ dts, ∀ t, ∀ c ∈ rhsFactors h name, IsUnit (M t - c • A t).det) (t0 : ℝ) (y0 z0 : n → ℝ) :
    let R := fun sys (y0 : n → ℝ) mem reg => driveObj (mmStep Matrix.mulVec id name sys) (Model.Nonlinear.newtonSolve env cfg) dts t0 [y0] y0 mem reg
    (∀ r ∈ R sys1 y0 mem1 reg1, r.stop = none) ∧ (R sys1 y0 mem1 reg1).length = dts.length ∧ (R sys2 z0 mem2 reg2).length = dts.length ∧
    (R sys3 (α • y0 + β • z0) mem3 reg3).map (fun r => (r.t, r.dt, r.stop, r.y)) = List.zipWith (fun r s => (r.t, r.dt, r.stop, α • r.y + β • s.y)) (R sys1 y0 mem1 reg1) (R sys2 z0 mem2 reg2) := by
  intro R
  let env' : Env ℝ n n p L := { env with normM := fun _ => 0, linJ := fun B d s => .ok () (B⁻¹ *ᵥ d, s.2) }
  obtain ⟨mem, hmem⟩ : ∃ mem : SMem ℝ (n → ℝ) (n → ℝ) PMem, Ready name mem := by
    rcases massReady_name name mem1 hm1 with rfl | rfl
    · exact ⟨⟨0, 0, 0, 0, [0], [], freshPMem⟩, rfl⟩
    · exact ⟨⟨0, 0, 0, 0, [0, 0], [], freshPMem⟩, rfl⟩
  have hfac : ∀ h ∈ dts, FomRegularMM name (fun _ t => .ok (A t)) (fun _ t => .ok (M t)) h := by
    intro h hh y t B D hB hD c hc
    cases hB; cases hD
    exact hreg h hh t c hc
  have conv : ∀ (b : ℝ → n → ℝ) sys (_ : OdeIsMM sys (fun y t => .ok (A t *ᵥ y + b t)) (fun _ t => .ok (A t)) (fun _ t => .ok (M t))) y0 memM (_ : ReadyMM name memM) reg (_ : NewtonIdle reg),
      (R sys y0 memM reg).map (shown id) = (driveObj (stdStep name (odeSystem (forcedRhs (fun t => (M t)⁻¹ * A t) (fun t => (M t)⁻¹ *ᵥ b t)) (fun _ t => (M t)⁻¹ * A t))) (Model.Nonlinear.newtonSolve env' cfg) dts t0 [y0] y0 mem reg).map (shown id) := by
    intro b sys hs y0 memM hmM reg hr
    exact C105_implicit (f := fun y t => .ok (forcedRhs A b y t)) (Df := fun _ t => .ok (A t)) ⟨fun _ _ => by simp, fun _ _ => by simp⟩ M hM sys hs _ (forced_solved M A b) name mem memM hmem hmM env' env (fun _ _ _ => by simp [env', Res.stop?]) he
      (fun B d c l hB => ⟨_, _, rfl, by rw [Matrix.mulVec_mulVec, Matrix.mul_nonsing_inv _ hB, Matrix.one_mulVec]⟩) hlin cfg (.inl hupd) (fun t => by rw [hcrit]; intro c; simp [env']) reg reg hr hr dts hfac t0 y0
  have hsol : ∀ h ∈ dts, ∀ t, ∀ c ∈ rhsFactors h name, ∀ d, (1 - c • ((M t)⁻¹ * A t)) *ᵥ ((1 - c • ((M t)⁻¹ * A t))⁻¹ *ᵥ d) = d := by
    intro h hh t c hc d
    have e : 1 - c • ((M t)⁻¹ * A t) = (M t)⁻¹ * (M t - c • A t) := by rw [Matrix.mul_sub, Matrix.nonsing_inv_mul _ (hM t), Matrix.mul_smul]
    have hu : IsUnit (1 - c • ((M t)⁻¹ * A t)).det := by
      rw [e, Matrix.det_mul]
      exact (Matrix.isUnit_nonsing_inv_det _ (hM t)).mul (hreg h hh t c hc)
    rw [Matrix.mulVec_mulVec, Matrix.mul_nonsing_inv _ hu, Matrix.one_mulVec]
  obtain ⟨o1, o2, o3, o4⟩ := C111_superposition_implicit name (fun t => (M t)⁻¹ * A t) (fun t => (M t)⁻¹ *ᵥ b t) (fun t => (M t)⁻¹ *ᵥ c t) α β mem mem mem hmem hmem hmem env' (fun _ => le_rfl) hN cfg (fun B d => B⁻¹ *ᵥ d) id (fun _ _ _ _ => rfl) (.inr hcrit) htol hupd hmax hit
    reg1 reg2 reg3 hr1 hr2 hr3 dts hsol t0 y0 z0
  have v1 := conv b sys1 hs1 y0 mem1 hm1 reg1 hr1
  have v2 := conv c sys2 hs2 z0 mem2 hm2 reg2 hr2
  have v3 := conv (fun t => α • b t + β • c t) sys3 hs3 (α • y0 + β • z0) mem3 hm3 reg3 hr3
  simp only [Matrix.mulVec_add, Matrix.mulVec_smul] at v3
  have pick : ∀ {l l' : List (Record ℝ (n → ℝ) (Ans ℝ n n))}, l.map (shown id) = l'.map (shown id) → l.map (fun r => (r.t, r.dt, r.stop, r.y)) = l'.map (fun r => (r.t, r.dt, r.stop, r.y)) := fun {l l'} e => by
    have := congrArg (List.map (fun x : ℝ × ℝ × Option Stop × List (n → ℝ) × (n → ℝ) × List ((n → ℝ) × Bool) => (x.1, x.2.1, x.2.2.1, x.2.2.2.2.1))) e
    rw [List.map_map, List.map_map] at this
    exact this
  have zip : ∀ l l' : List (Record ℝ (n → ℝ) (Ans ℝ n n)), List.zipWith (fun r s => (r.t, r.dt, r.stop, α • r.y + β • s.y)) l l' =
      List.zipWith (fun x x' => (x.1, x.2.1, x.2.2.1, α • x.2.2.2 + β • x'.2.2.2)) (l.map (fun r => (r.t, r.dt, r.stop, r.y))) (l'.map (fun r => (r.t, r.dt, r.stop, r.y))) := fun l l' => by rw [List.zipWith_map]
  refine ⟨?_, ?_, ?_, ?_⟩
  · intro r hr
    have h1 : (r.t, r.dt, r.stop, r.y) ∈ (R sys1 y0 mem1 reg1).map (fun r => (r.t, r.dt, r.stop, r.y)) := List.mem_map.2 ⟨r, hr, rfl⟩
    rw [pick v1] at h1
    obtain ⟨s, hs, e⟩ := List.mem_map.1 h1
    simp only [Prod.mk.injEq] at e
    rw [← e.2.2.1]
    exact o1 s hs
  · have := congrArg List.length v1
    rw [List.length_map, List.length_map] at this
    exact this.trans o2
  · have := congrArg List.length v2
    rw [List.length_map, List.length_map] at this
    exact this.trans o3
  · rw [zip, pick v1, pick v2, pick v3, ← zip]
    exact o4
end
section Examples
/-- a stable matrix, and the mass matrix `growing`, which changes in time -/
def chainMat : Matrix (Fin 2) (Fin 2) ℝ := !![-1, 0; 0, -3]
theorem growing_chain (h : ℝ) (hh : 0 ≤ h) (t c : ℝ) (hc : c ∈ rhsFactors h .BDF2) : IsUnit (growing t - c • chainMat).det := by
  have h0 : 0 ≤ c := by simp [rhsFactors] at hc; rcases hc with rfl | rfl <;> linarith
  apply isUnit_iff_ne_zero.2
  rw [Matrix.det_fin_two]
  simp only [growing, chainMat, Matrix.sub_apply, Matrix.smul_apply, Matrix.of_apply, Matrix.cons_val', Matrix.cons_val_zero, Matrix.cons_val_one, Matrix.cons_val_fin_one, smul_eq_mul]
  have : 0 < (1 + t ^ 2 - c * -1) * (2 - c * -3) := by
    have := sq_nonneg t
    apply mul_pos <;> linarith
  linarith

noncomputable def cfgZero : Cfg ℝ := ⟨10, .WhenAbsolutel2NormOfCorrectionBelowTolerance, 0, .Standard, none⟩

example (dts : List ℝ) (hdt : ∀ h ∈ dts, 0 ≤ h) := C111_superposition_mass_implicit .BDF2 growing (fun _ => chainMat) growing_regular (fun t => ![1, t]) (fun t => ![t ^ 2, 0]) 2 (-3) _ _ _ (fomSystemMM_is _ _ _) (fomSystemMM_is _ _ _) (fomSystemMM_is _ _ _) memMMR memMMR memMMR rfl rfl rfl
  envInv (fun _ => Real.sqrt_nonneg _) (by simp [envInv]) envInv_solves cfgZero rfl rfl rfl (by decide) (by decide) regInv regInv regInv (fun _ => .created _ rfl) (fun _ => .created _ rfl) (fun _ => .created _ rfl) dts (fun h hm t c hc => growing_chain h (hdt h hm) t c hc) 0 ![1, -1] ![0, 4]
end Examples
end Pressio.Props
