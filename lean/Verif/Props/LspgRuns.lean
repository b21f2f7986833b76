import Verif.Lemmas.LspgRuns
import Verif.Props.GaussNewtonSemiLocal
import Verif.Props.LspgError
import Verif.Props.AdvanceImplicit
import Mathlib.Analysis.SpecialFunctions.Trigonometric.Bounds
import Mathlib.Analysis.SpecialFunctions.Trigonometric.Deriv

/-
  C93: unsteady LSPG on nonlinear full-order models, solved by Gauss-Newton: with steps small enough, every step ends at a minimiser of its residual, up to the tolerance, and the reconstructed states follow the solution of the
  full-order model.
-/
namespace Pressio.Props
set_option autoImplicit false
set_option linter.unusedSectionVars false
open Pressio Matrix Pressio.Model.Galerkin Pressio.Model.Lspg Pressio.Spec.Galerkin Pressio.Spec.Lspg Pressio.Model.Implicit Pressio.Lemmas.Implicit Pressio.Spec.Implicit Pressio.Spec.LspgRuns Pressio.Lemmas.LspgRuns
open Pressio.Spec.SolverRun Pressio.Lemmas.SolverRun Pressio.Lemmas.SolverTree Pressio.Spec.NewtonConvergence Pressio.Spec.GaussNewtonConvergence
open Pressio.Lemmas.Lspg (stepWith)
open Pressio.Model.Explicit (Scheme)
open Pressio.Model.Nonlinear (Env Cfg Reg Ans SP StopCrit Update Tag leastSquaresDiagnostics)
open Pressio.Spec.Nonlinear
open Pressio.Spec.Reduced (eu)
open Pressio.Model.Advance Pressio.Spec.AdvanceTarget Pressio.Spec.AdvanceDrive Pressio.Lemmas.AdvanceDrive
open scoped InnerProductSpace

section
variable {E m n p L : Type} [NormedAddCommGroup E] [InnerProductSpace ℝ E] [Fintype m] [DecidableEq m] [Fintype n] [DecidableEq n] [Fintype p]

/-- the times of the attempts -/
theorem driveObj_next {S m' : Type} [Fintype m'] (step : ((n → ℝ) → SolveTree (n → ℝ) (Ans ℝ m' n)) → ℝ → ℝ → Int → Prog (SolveSt (n → ℝ) S (Ans ℝ m' n)) Unit) (solve : SP ℝ m' n p L Unit) (dts : List ℝ) (hd : ∀ h ∈ dts, 0 ≤ h) :
    ∀ (t : ℝ) (hist : List (n → ℝ)) (y : n → ℝ) (mem : S) (reg : Reg ℝ m' n p L) (pre post) (r : Record ℝ (n → ℝ) (Ans ℝ m' n)), driveObj step solve dts t hist y mem reg = pre ++ r :: post →
      timeAfter t pre + r.dt ≤ t + dts.sum ∧ pre.length < dts.length := by
  induction dts with
  | nil => intro t hist y mem reg pre post r e; simp [driveObj] at e
  | cons dt rest ih =>
    intro t hist y mem reg pre post r e
    have h0 := hd dt (by simp)
    have hr : ∀ h ∈ rest, 0 ≤ h := fun h hh => hd h (by simp [hh])
    have hs : 0 ≤ rest.sum := List.sum_nonneg hr
    cases pre with
    | nil =>
      have hdt : r.dt = dt := by
        simp only [driveObj] at e
        split at e <;> (simp only [List.nil_append, List.cons.injEq] at e; rw [← e.1])
      simp only [timeAfter, List.filter_nil, List.foldl_nil, List.sum_cons, List.length_nil, List.length_cons, hdt]
      exact ⟨by linarith, by omega⟩
    | cons q pre =>
      simp only [driveObj] at e
      split at e
      · simp only [List.cons_append, List.cons.injEq] at e
        obtain ⟨a, b⟩ := ih hr _ _ _ _ _ pre post r e.2
        have ht : timeAfter t (q :: pre) = timeAfter (t + dt) pre := by rw [← e.1]; simp [timeAfter]
        rw [ht]
        simp only [List.sum_cons, List.length_cons]
        exact ⟨by linarith, by omega⟩
      · simp only [List.cons_append, List.cons.injEq] at e
        obtain ⟨a, b⟩ := ih hr _ _ _ _ _ pre post r e.2
        have ht : timeAfter t (q :: pre) = timeAfter t pre := by rw [← e.1]; simp [timeAfter]
        rw [ht]
        simp only [List.sum_cons, List.length_cons]
        exact ⟨by linarith, by omega⟩
      · simp only [List.cons_append, List.cons.injEq] at e
        have := (List.append_eq_nil_iff.1 e.2.symm).2
        simp at this

/-- the run, with the facts that the proofs of the theorems below share -/
theorem lspg_run_core {F : Fom ℝ m m n} {f : (m → ℝ) → ℝ → m → ℝ} {Df : (m → ℝ) → ℝ → Matrix m m ℝ} {Mm : (m → ℝ) → ℝ → Except Exc (Matrix m m ℝ)} (hF : FomIs F (fun y t => .ok (f y t)) (fun y t => .ok (Df y t)) Mm)
    (S : Trial ℝ m n) (name : Scheme) (hname : name = .BDF1 ∨ name = .BDF2) (mem : SMem ℝ (n → ℝ) (n → ℝ) (LMem ℝ m m n)) (hmem : LspgReady name mem) (ι : (m → ℝ) →ₗ[ℝ] E)
    (env : Env ℝ m n p L) (cfg : Cfg ℝ) (tag : Tag) (he : InnerHonest env tag) (k N : Nat) (h σ R t0 T b B Lf γ Fb : ℝ) (hcfg : PlainGaussNewton cfg) (hconv : Converging ι env cfg tag k (2 * b) (2 * B))
    (x0 : n → ℝ) (H : TameOnTrial ι S f Df x0 R t0 T b B Lf γ Fb) (room : RoomFor cfg N k h σ R b B Lf γ Fb) (reg : Reg ℝ m n p L) (hreg : LsIdle reg)
    (dts : List ℝ) (hN : dts.length ≤ N) (hdt : ∀ d ∈ dts, 0 ≤ d ∧ d ≤ h) (hT : t0 + dts.sum ≤ T) (pre post : List (Record ℝ (n → ℝ) (Ans ℝ m n))) :
    driveObj (stepWith name (defaultPolicy S F)) (Model.Nonlinear.lsSolve env cfg tag) dts t0 [x0] x0 mem reg = pre ++ post →
    (∀ q ∈ pre, q.stop = none) ∧ (∃ xn older, accepted x0 pre = xn :: older ∧ ‖eu n (xn - x0)‖ ≤ pre.length * (16 / 3 * b * σ + accuracy cfg b) ∧
      ∀ xo ∈ older.head?, ‖ι (S.basis *ᵥ (xn - xo))‖ ≤ 16 / 7 * σ + B * accuracy cfg b) ∧
    ∀ r post', post = r :: post' → ∃ xn older, accepted x0 pre = xn :: older ∧ r.t = timeAfter t0 pre ∧ r.t + r.dt ∈ Set.Icc t0 T ∧ 0 ≤ r.dt ∧ r.dt ≤ h ∧ r.stop = none ∧ r.queries.length ≤ k + 1 ∧
      ‖eu n (r.y - x0)‖ ≤ (pre.length + 1) * (16 / 3 * b * σ + accuracy cfg b) ∧ ‖ι (S.basis *ᵥ (r.y - xn))‖ ≤ 16 / 7 * σ + B * accuracy cfg b ∧
      ∃ x', ‖eu n (x' - xn)‖ ≤ 16 / 3 * b * σ ∧ (∀ z, ‖eu n (z - xn)‖ ≤ 16 * b * σ → ‖ι (lspgRes name S f (xn :: older) r.t r.dt x')‖ ≤ ‖ι (lspgRes name S f (xn :: older) r.t r.dt z)‖) ∧
        (∀ v, ⟪ι (lspgRes name S f (xn :: older) r.t r.dt x'), ι (lspgJac name S Df (xn :: older) r.t r.dt x' *ᵥ v)⟫_ℝ = 0) ∧ ‖eu n (x' - x0)‖ ≤ R ∧ ‖eu n (r.y - x0)‖ ≤ R ∧
        ‖eu n (r.y - x')‖ ≤ accuracy cfg b ∧ ‖ι (lspgRes name S f (xn :: older) r.t r.dt r.y)‖ ≤ ‖ι (lspgRes name S f (xn :: older) r.t r.dt x')‖ + 9 / 8 * B * accuracy cfg b := by
  set run := driveObj (stepWith name (defaultPolicy S F)) (Model.Nonlinear.lsSolve env cfg tag) dts t0 [x0] x0 mem reg with hrun
  have hd0 : ∀ d ∈ dts, 0 ≤ d := fun d hd => (hdt d hd).1
  -- the statement on the records, given the one on the states
  have step : ∀ (pre : List (Record ℝ (n → ℝ) (Ans ℝ m n))) r post', run = pre ++ r :: post' → ∀ xn older, accepted x0 pre = xn :: older → ‖eu n (xn - x0)‖ ≤ pre.length * (16 / 3 * b * σ + accuracy cfg b) →
      (∀ xo ∈ older.head?, ‖ι (S.basis *ᵥ (xn - xo))‖ ≤ 16 / 7 * σ + B * accuracy cfg b) →
      r.t = timeAfter t0 pre ∧ r.t + r.dt ∈ Set.Icc t0 T ∧ 0 ≤ r.dt ∧ r.dt ≤ h ∧ r.stop = none ∧ r.queries.length ≤ k + 1 ∧
      ‖eu n (r.y - x0)‖ ≤ (pre.length + 1) * (16 / 3 * b * σ + accuracy cfg b) ∧ ‖ι (S.basis *ᵥ (r.y - xn))‖ ≤ 16 / 7 * σ + B * accuracy cfg b ∧
      ∃ x', ‖eu n (x' - xn)‖ ≤ 16 / 3 * b * σ ∧ (∀ z, ‖eu n (z - xn)‖ ≤ 16 * b * σ → ‖ι (lspgRes name S f (xn :: older) r.t r.dt x')‖ ≤ ‖ι (lspgRes name S f (xn :: older) r.t r.dt z)‖) ∧
        (∀ v, ⟪ι (lspgRes name S f (xn :: older) r.t r.dt x'), ι (lspgJac name S Df (xn :: older) r.t r.dt x' *ᵥ v)⟫_ℝ = 0) ∧ ‖eu n (x' - x0)‖ ≤ R ∧ ‖eu n (r.y - x0)‖ ≤ R ∧
        ‖eu n (r.y - x')‖ ≤ accuracy cfg b ∧ ‖ι (lspgRes name S f (xn :: older) r.t r.dt r.y)‖ ≤ ‖ι (lspgRes name S f (xn :: older) r.t r.dt x')‖ + 9 / 8 * B * accuracy cfg b := by
    intro pre r post' e xn older hacc hx hD
    obtain ⟨xn', older', s, h2, -, h4, h5, h6, h7, h8, h9, h10⟩ := C67_run_is_least_squares_solves hF ⟨fun _ _ => by simp, fun _ _ => by simp⟩ S name hname mem hmem env cfg tag he
      (by have := room.iters; omega) reg hreg dts t0 x0 pre post' r e
    rw [hacc] at h2
    obtain ⟨rfl, rfl⟩ : xn = xn' ∧ older = older' := by simpa using h2
    rw [sysOf_lspg] at h8 h9 h10
    obtain ⟨q1, q2⟩ := driveObj_next _ _ dts hd0 t0 [x0] x0 mem reg pre post' r e
    have q3 := (driveObj_prefix _ _ dts hd0 t0 [x0] x0 mem reg pre (r :: post') e).1
    have q4 := hdt _ h5
    have ht : r.t + r.dt ∈ Set.Icc t0 T := by rw [h4]; exact ⟨by linarith [q4.1], by linarith⟩
    obtain ⟨g1, ⟨q, g2, g2'⟩, -, g3, g4, g5⟩ := one_step H env cfg tag k hcfg hconv N h σ room name hname xn older r.t r.dt q4.1 q4.2 ht pre.length (by omega) hx hD s h6 h7
    rw [g1] at h9 h10
    have hy : r.y = (runLs env cfg (Sys.ofFun (lspgRes name S f (xn :: older) r.t r.dt) (lspgJac name S Df (xn :: older) r.t r.dt)) tag s).state.x := by simpa using h10
    rw [g2] at h8
    rw [hy]
    exact ⟨h4, ht, q4.1, q4.2, h9, by rw [← List.append_cancel_left h8]; exact g2', g3, g4, g5⟩
  intro e
  have states : ∀ (pre : List (Record ℝ (n → ℝ) (Ans ℝ m n))) post, run = pre ++ post → (∀ q ∈ pre, q.stop = none) ∧ (∃ xn older, accepted x0 pre = xn :: older ∧ ‖eu n (xn - x0)‖ ≤ pre.length * (16 / 3 * b * σ + accuracy cfg b) ∧
      ∀ xo ∈ older.head?, ‖ι (S.basis *ᵥ (xn - xo))‖ ≤ 16 / 7 * σ + B * accuracy cfg b) := by
    intro pre
    induction pre using List.reverseRecOn with
    | nil => exact fun post _ => ⟨by simp, x0, [], rfl, by simp, by simp⟩
    | append_singleton pre r ih =>
      intro post e
      rw [List.append_assoc, List.singleton_append] at e
      obtain ⟨h1, xn, older, h2, h3, h4⟩ := ih _ e
      obtain ⟨-, -, -, -, s1, -, s2, s3, -⟩ := step pre r post e xn older h2 h3 h4
      refine ⟨fun q hq => ?_, r.y, xn :: older, by rw [accepted_snoc, s1, h2]; rfl, ?_, ?_⟩
      · rcases List.mem_append.1 hq with h | h
        · exact h1 q h
        · rw [List.mem_singleton.1 h]; exact s1
      · rw [List.length_append, List.length_singleton]; push_cast; exact s2
      · intro xo hxo
        obtain rfl : xn = xo := by simpa using hxo
        exact s3
  obtain ⟨h1, xn, older, h2, h3, h4⟩ := states pre post e
  exact ⟨h1, ⟨xn, older, h2, h3, h4⟩, fun r post' hp => ⟨xn, older, h2, step pre r post' (by rw [e, hp]) xn older h2 h3 h4⟩⟩

/-- Gauss-Newton with normal equations converges from small residuals -/
theorem converging_gn {ι : (m → ℝ) →ₗ[ℝ] E} {env : Env ℝ m n p L} {tag : Tag} {sol : Matrix n n ℝ → (n → ℝ) → n → ℝ} {tick : L → L} (hS : NormalEquations ι env tag sol tick) (cfg : Cfg ℝ)
    (hcfg : PlainGaussNewton cfg) (k : Nat) (hk : (k : Int) < cfg.maxIters) (β Λ : ℝ) (hβ : 0 < β) (hΛ : 0 ≤ Λ) : Converging ι env cfg tag k β Λ :=
  fun r J s γ σ hs hγ hσ hjac hinv hbound hlip hsmall hen =>
    C86_from_small_residual ι env hS.normM hS.normN tag hS.method hS.minimises cfg r J sol tick hS.lin hS.exact hcfg.upd hcfg.max s hs β Λ γ σ hβ hΛ hγ hσ hjac hinv hbound hlip hsmall
      (fun a => by rcases hcfg.crit with h | h <;> rw [h] <;> trivial) (fun h => by rcases hcfg.crit with h' | h' <;> rw [h'] at h <;> cases h) k hk hen

theorem converging_qr {env : Env ℝ m n p L} {fact : Matrix m n ℝ → L} {qt : Matrix m n ℝ → (m → ℝ) → n → ℝ} {back : Matrix m n ℝ → (n → ℝ) → n → ℝ} (hQ : QrObject env fact qt back) (cfg : Cfg ℝ)
    (hcfg : PlainGaussNewton cfg) (k : Nat) (hk : (k : Int) < cfg.maxIters) (β Λ : ℝ) (hβ : 0 < β) (hΛ : 0 ≤ Λ) : Converging (eu m) env cfg .gnQr k β Λ :=
  fun r J s γ σ hs hγ hσ hjac hinv hbound hlip hsmall hen =>
    C86_qr_from_small_residual env hQ.normM hQ.normN cfg r J fact qt back hQ.thin hQ.apply hQ.solve hQ.factors hcfg.upd hcfg.max s hs β Λ γ σ hβ hΛ hγ hσ hjac hinv hbound hlip hsmall
      (fun a => by rcases hcfg.crit with h | h <;> rw [h] <;> trivial) (fun h => by rcases hcfg.crit with h' | h' <;> rw [h'] at h <;> cases h) k hk hen

theorem honest_gn {ι : (m → ℝ) →ₗ[ℝ] E} {env : Env ℝ m n p L} {tag : Tag} {sol : Matrix n n ℝ → (n → ℝ) → n → ℝ} {tick : L → L} (hS : NormalEquations ι env tag sol tick) : InnerHonest env tag := by
  rcases hS.method with rfl | rfl | rfl <;> (rintro A b ⟨c, l⟩; rw [hS.lin]; simp)

theorem run_of_core {F : Fom ℝ m m n} {f : (m → ℝ) → ℝ → m → ℝ} {Df : (m → ℝ) → ℝ → Matrix m m ℝ} {Mm : (m → ℝ) → ℝ → Except Exc (Matrix m m ℝ)} (hF : FomIs F (fun y t => .ok (f y t)) (fun y t => .ok (Df y t)) Mm)
    (S : Trial ℝ m n) (name : Scheme) (hname : name = .BDF1 ∨ name = .BDF2) (mem : SMem ℝ (n → ℝ) (n → ℝ) (LMem ℝ m m n)) (hmem : LspgReady name mem) (ι : (m → ℝ) →ₗ[ℝ] E)
    (env : Env ℝ m n p L) (cfg : Cfg ℝ) (tag : Tag) (he : InnerHonest env tag) (k N : Nat) (h σ R t0 T b B Lf γ Fb : ℝ) (hcfg : PlainGaussNewton cfg) (hconv : Converging ι env cfg tag k (2 * b) (2 * B))
    (x0 : n → ℝ) (H : TameOnTrial ι S f Df x0 R t0 T b B Lf γ Fb) (room : RoomFor cfg N k h σ R b B Lf γ Fb) (reg : Reg ℝ m n p L) (hreg : LsIdle reg)
    (dts : List ℝ) (hN : dts.length ≤ N) (hdt : ∀ d ∈ dts, 0 ≤ d ∧ d ≤ h) (hT : t0 + dts.sum ≤ T) :
    let run := driveObj (stepWith name (defaultPolicy S F)) (Model.Nonlinear.lsSolve env cfg tag) dts t0 [x0] x0 mem reg
    run.map (·.dt) = dts ∧ ∀ pre r post, run = pre ++ r :: post → ∃ xn older, accepted x0 pre = xn :: older ∧ r.t = timeAfter t0 pre ∧ r.stop = none ∧ r.queries.length ≤ k + 1 ∧
      ‖eu n (r.y - x0)‖ ≤ (pre.length + 1) * (16 / 3 * b * σ + accuracy cfg b) ∧ ConvergedStep ι cfg (lspgRes name S f (xn :: older) r.t r.dt) σ b B xn r.y := by
  intro run
  have core := lspg_run_core hF S name hname mem hmem ι env cfg tag he k N h σ R t0 T b B Lf γ Fb hcfg hconv x0 H room reg hreg dts hN hdt hT
  refine ⟨driveObj_all _ _ dts t0 [x0] x0 mem reg (core run [] (by rw [List.append_nil])).1, fun pre r post e => ?_⟩
  obtain ⟨xn, older, h1, h2, -, -, -, h3, h4, h5, -, x', g1, g2, -, -, -, g3, g4⟩ := (core pre _ e).2.2 r post rfl
  exact ⟨xn, older, h1, h2, h3, h4, h5, x', g1, g2, g3, g4⟩

/-- **C93.** Default unsteady LSPG, BDF1 or BDF2, with one Gauss-Newton solver object for all steps; the full-order model well-behaved on a ball of reduced states with room for the run.  All steps are taken, each with at most
    `k + 1` evaluations; and each accepted state is, up to the tolerance, a minimiser of the time-discrete residual of its step over all the reduced states in a ball around the last accepted state. -/
theorem C93_run {F : Fom ℝ m m n} {f : (m → ℝ) → ℝ → m → ℝ} {Df : (m → ℝ) → ℝ → Matrix m m ℝ} {Mm : (m → ℝ) → ℝ → Except Exc (Matrix m m ℝ)} (hF : FomIs F (fun y t => .ok (f y t)) (fun y t => .ok (Df y t)) Mm)
    (S : Trial ℝ m n) (name : Scheme) (hname : name = .BDF1 ∨ name = .BDF2) (mem : SMem ℝ (n → ℝ) (n → ℝ) (LMem ℝ m m n)) (hmem : LspgReady name mem) (ι : (m → ℝ) →ₗ[ℝ] E)
    (env : Env ℝ m n p L) (tag : Tag) (sol : Matrix n n ℝ → (n → ℝ) → n → ℝ) (tick : L → L) (hS : NormalEquations ι env tag sol tick) (cfg : Cfg ℝ) (hcfg : PlainGaussNewton cfg) (reg : Reg ℝ m n p L) (hreg : LsIdle reg)
    (k N : Nat) (h σ R t0 T b B Lf γ Fb : ℝ) (x0 : n → ℝ) (H : TameOnTrial ι S f Df x0 R t0 T b B Lf γ Fb) (room : RoomFor cfg N k h σ R b B Lf γ Fb)
    (dts : List ℝ) (hN : dts.length ≤ N) (hdt : ∀ d ∈ dts, 0 ≤ d ∧ d ≤ h) (hT : t0 + dts.sum ≤ T) :
    let run := driveObj (stepWith name (defaultPolicy S F)) (Model.Nonlinear.lsSolve env cfg tag) dts t0 [x0] x0 mem reg
    run.map (·.dt) = dts ∧ ∀ pre r post, run = pre ++ r :: post → ∃ xn older, accepted x0 pre = xn :: older ∧ r.t = timeAfter t0 pre ∧ r.stop = none ∧ r.queries.length ≤ k + 1 ∧
      ‖eu n (r.y - x0)‖ ≤ (pre.length + 1) * (16 / 3 * b * σ + accuracy cfg b) ∧ ConvergedStep ι cfg (lspgRes name S f (xn :: older) r.t r.dt) σ b B xn r.y :=
  have hb := H.b0
  have hB := H.B0
  run_of_core hF S name hname mem hmem ι env cfg tag (honest_gn hS) k N h σ R t0 T b B Lf γ Fb hcfg (converging_gn hS cfg hcfg k room.iters _ _ (by positivity) (by positivity)) x0 H room reg hreg dts hN hdt hT

/-- **C93, QR.** The same with the QR variant. -/
theorem C93_qr_run {F : Fom ℝ m m n} {f : (m → ℝ) → ℝ → m → ℝ} {Df : (m → ℝ) → ℝ → Matrix m m ℝ} {Mm : (m → ℝ) → ℝ → Except Exc (Matrix m m ℝ)} (hF : FomIs F (fun y t => .ok (f y t)) (fun y t => .ok (Df y t)) Mm)
    (S : Trial ℝ m n) (name : Scheme) (hname : name = .BDF1 ∨ name = .BDF2) (mem : SMem ℝ (n → ℝ) (n → ℝ) (LMem ℝ m m n)) (hmem : LspgReady name mem)
    (env : Env ℝ m n p L) (fact : Matrix m n ℝ → L) (qt : Matrix m n ℝ → (m → ℝ) → n → ℝ) (back : Matrix m n ℝ → (n → ℝ) → n → ℝ) (hQ : QrObject env fact qt back) (he : InnerHonest env .gnQr)
    (cfg : Cfg ℝ) (hcfg : PlainGaussNewton cfg) (reg : Reg ℝ m n p L) (hreg : LsIdle reg)
    (k N : Nat) (h σ R t0 T b B Lf γ Fb : ℝ) (x0 : n → ℝ) (H : TameOnTrial (eu m) S f Df x0 R t0 T b B Lf γ Fb) (room : RoomFor cfg N k h σ R b B Lf γ Fb)
    (dts : List ℝ) (hN : dts.length ≤ N) (hdt : ∀ d ∈ dts, 0 ≤ d ∧ d ≤ h) (hT : t0 + dts.sum ≤ T) :
    let run := driveObj (stepWith name (defaultPolicy S F)) (Model.Nonlinear.lsSolve env cfg .gnQr) dts t0 [x0] x0 mem reg
    run.map (·.dt) = dts ∧ ∀ pre r post, run = pre ++ r :: post → ∃ xn older, accepted x0 pre = xn :: older ∧ r.t = timeAfter t0 pre ∧ r.stop = none ∧ r.queries.length ≤ k + 1 ∧
      ‖eu n (r.y - x0)‖ ≤ (pre.length + 1) * (16 / 3 * b * σ + accuracy cfg b) ∧ ConvergedStep (eu m) cfg (lspgRes name S f (xn :: older) r.t r.dt) σ b B xn r.y :=
  have hb := H.b0
  have hB := H.B0
  run_of_core hF S name hname mem hmem (eu m) env cfg .gnQr he k N h σ R t0 T b B Lf γ Fb hcfg (converging_qr hQ cfg hcfg k room.iters _ _ (by positivity) (by positivity)) x0 H room reg hreg dts hN hdt hT

/-- **C93, residuals.** If, moreover, the right-hand side is nowhere further than `δ` from the range of the basis, then the accepted steps leave full-order residuals of at most `9/8 B accuracy + dt 9/7 δ`. -/
theorem C93_leaves_residuals {F : Fom ℝ m m n} {f : (m → ℝ) → ℝ → m → ℝ} {Df : (m → ℝ) → ℝ → Matrix m m ℝ} {Mm : (m → ℝ) → ℝ → Except Exc (Matrix m m ℝ)} (hF : FomIs F (fun y t => .ok (f y t)) (fun y t => .ok (Df y t)) Mm)
    (S : Trial ℝ m n) (name : Scheme) (hname : name = .BDF1 ∨ name = .BDF2) (mem : SMem ℝ (n → ℝ) (n → ℝ) (LMem ℝ m m n)) (hmem : LspgReady name mem) (ι : (m → ℝ) →ₗ[ℝ] E)
    (env : Env ℝ m n p L) (tag : Tag) (sol : Matrix n n ℝ → (n → ℝ) → n → ℝ) (tick : L → L) (hS : NormalEquations ι env tag sol tick) (cfg : Cfg ℝ) (hcfg : PlainGaussNewton cfg) (reg : Reg ℝ m n p L) (hreg : LsIdle reg)
    (k N : Nat) (h σ R t0 T b B Lf γ Fb : ℝ) (x0 : n → ℝ) (H : TameOnTrial ι S f Df x0 R t0 T b B Lf γ Fb) (room : RoomFor cfg N k h σ R b B Lf γ Fb) (δ : ℝ) (hδ : DefectAtMost ι S f x0 R t0 T δ)
    (dts : List ℝ) (hN : dts.length ≤ N) (hdt : ∀ d ∈ dts, 0 ≤ d ∧ d ≤ h) (hT : t0 + dts.sum ≤ T) :
    LeavesResiduals ι (9 / 8 * B * accuracy cfg b) (9 / 7 * δ) name S f (driveObj (stepWith name (defaultPolicy S F)) (Model.Nonlinear.lsSolve env cfg tag) dts t0 [x0] x0 mem reg) x0 := by
  have hb := H.b0
  have hB := H.B0
  have hL := H.L0
  have core := lspg_run_core hF S name hname mem hmem ι env cfg tag (honest_gn hS) k N h σ R t0 T b B Lf γ Fb hcfg (converging_gn hS cfg hcfg k room.iters _ _ (by positivity) (by positivity)) x0 H room reg hreg dts hN hdt hT
  intro pre post r e hr
  obtain ⟨xn, older, h1, -, h2, h3, h4, -, -, -, -, x', -, -, g3, g4, -, -, g7⟩ := (core pre _ e).2.2 r post rfl
  rw [h1]
  have := small_at_stationary H name hname δ hδ xn older r.t r.dt h3 (le_trans (by gcongr) room.first) h2 x' g4 g3
  linarith

/-- the steps of these runs -/
theorem lspg_stepsIn {F : Fom ℝ m m n} {f : (m → ℝ) → ℝ → m → ℝ} {Df : (m → ℝ) → ℝ → Matrix m m ℝ} {Mm : (m → ℝ) → ℝ → Except Exc (Matrix m m ℝ)} (hF : FomIs F (fun y t => .ok (f y t)) (fun y t => .ok (Df y t)) Mm)
    (S : Trial ℝ m n) (name : Scheme) (hname : name = .BDF1 ∨ name = .BDF2) (mem : SMem ℝ (n → ℝ) (n → ℝ) (LMem ℝ m m n)) (hmem : LspgReady name mem) (ι : (m → ℝ) →ₗ[ℝ] E)
    (env : Env ℝ m n p L) (tag : Tag) (sol : Matrix n n ℝ → (n → ℝ) → n → ℝ) (tick : L → L) (hS : NormalEquations ι env tag sol tick) (cfg : Cfg ℝ) (hcfg : PlainGaussNewton cfg) (reg : Reg ℝ m n p L) (hreg : LsIdle reg)
    (k N : Nat) (h σ R t0 T b B Lf γ Fb : ℝ) (x0 : n → ℝ) (H : TameOnTrial ι S f Df x0 R t0 T b B Lf γ Fb) (room : RoomFor cfg N k h σ R b B Lf γ Fb)
    (dts : List ℝ) (hN : dts.length ≤ N) (hdt : ∀ d ∈ dts, 0 ≤ d ∧ d ≤ h) (hT : t0 + dts.sum ≤ T) (P : ℝ → Prop) (hP : ∀ d ∈ dts, P d) :
    let run := driveObj (stepWith name (defaultPolicy S F)) (Model.Nonlinear.lsSolve env cfg tag) dts t0 [x0] x0 mem reg
    (∀ r ∈ run, r.stop = none) ∧ StepsIn P T run ∧ ∀ pre post r, run = pre ++ r :: post → r.t = timeAfter t0 pre := by
  have hb := H.b0
  have hB := H.B0
  have core := lspg_run_core hF S name hname mem hmem ι env cfg tag (honest_gn hS) k N h σ R t0 T b B Lf γ Fb hcfg (converging_gn hS cfg hcfg k room.iters _ _ (by positivity) (by positivity)) x0 H room reg hreg dts hN hdt hT
  intro run
  refine ⟨(core run [] (by rw [List.append_nil])).1, fun r hr _ => ?_, fun pre post r e => ?_⟩
  · obtain ⟨pre, post, e⟩ := List.append_of_mem hr
    obtain ⟨xn, older, -, -, h2, h3, -⟩ := (core pre _ e).2.2 r post rfl
    exact ⟨hP _ (driveObj_dts _ _ dts t0 [x0] x0 mem reg r hr), h3, h2.2⟩
  · obtain ⟨xn, older, -, h2, -⟩ := (core pre _ e).2.2 r post rfl
    exact h2

/-- **C93, BDF1, Lipschitz full-order model**: a priori error.  All steps are taken, and the reconstructed states differ from the exact solution of the full-order model by the initial error, the distance `δ` of the right-hand side
    to the range of the basis, the first-order error of the scheme, and the tolerance, times a factor that depends on the Lipschitz constant and the time only. -/
theorem C93_bdf1 {F : Fom ℝ m m n} {f : (m → ℝ) → ℝ → m → ℝ} {Df : (m → ℝ) → ℝ → Matrix m m ℝ} {Mm : (m → ℝ) → ℝ → Except Exc (Matrix m m ℝ)} (hF : FomIs F (fun y t => .ok (f y t)) (fun y t => .ok (Df y t)) Mm)
    (S : Trial ℝ m n) (mem : SMem ℝ (n → ℝ) (n → ℝ) (LMem ℝ m m n)) (hmem : LspgReady .BDF1 mem) (ι : (m → ℝ) →ₗ[ℝ] E)
    (env : Env ℝ m n p L) (tag : Tag) (sol : Matrix n n ℝ → (n → ℝ) → n → ℝ) (tick : L → L) (hS : NormalEquations ι env tag sol tick) (cfg : Cfg ℝ) (hcfg : PlainGaussNewton cfg) (reg : Reg ℝ m n p L) (hreg : LsIdle reg)
    (k N : Nat) (h σ R t0 T b B Lf γ Fb : ℝ) (hh : 0 ≤ h) (x0 : n → ℝ) (H : TameOnTrial ι S f Df x0 R t0 T b B Lf γ Fb) (room : RoomFor cfg N k h σ R b B Lf γ Fb) (δ : ℝ) (hδ0 : 0 ≤ δ) (hδ : DefectAtMost ι S f x0 R t0 T δ)
    (dts : List ℝ) (hN : dts.length ≤ N) (hdt : ∀ d ∈ dts, 0 ≤ d ∧ d ≤ h) (hT : t0 + dts.sum ≤ T)
    (Lip : ℝ) (hL : 0 ≤ Lip) (hHL : h * Lip ≤ 1 / 2) (hlip : ∀ y z t, ‖ι (f y t) - ι (f z t)‖ ≤ Lip * ‖ι y - ι z‖) (ψ : ℝ → m → ℝ) (M : ℝ) (hM0 : 0 ≤ M) (hψ : SolvesIn ι f ψ t0 T) (hM : Smooth1In ι f ψ M t0 T) :
    let run := driveObj (stepWith .BDF1 (defaultPolicy S F)) (Model.Nonlinear.lsSolve env cfg tag) dts t0 [x0] x0 mem reg
    (∀ r ∈ run, r.stop = none) ∧ ∀ pre post, run = pre ++ post → ∃ x l, accepted x0 pre = x :: l ∧
      ‖ι (lift S x) - ι (ψ (timeAfter t0 pre))‖ ≤ Real.exp (2 * Lip * (timeAfter t0 pre - t0)) *
        (‖ι (lift S x0) - ι (ψ t0)‖ + (l.length * (9 / 8 * B * accuracy cfg b) + (timeAfter t0 pre - t0) * (9 / 7 * δ + M * h / 2))) := by
  intro run
  have hB := H.B0
  have ha := accuracy_nonneg cfg hcfg b room.tol0
  obtain ⟨s1, s2, s3⟩ := lspg_stepsIn hF S .BDF1 (.inl rfl) mem hmem ι env tag sol tick hS cfg hcfg reg hreg k N h σ R t0 T b B Lf γ Fb x0 H room dts hN hdt hT (fun d => d ≤ h) (fun d hd => (hdt d hd).2)
  have hR := C93_leaves_residuals hF S .BDF1 (.inl rfl) mem hmem ι env tag sol tick hS cfg hcfg reg hreg k N h σ R t0 T b B Lf γ Fb x0 H room δ hδ dts hN hdt hT
  exact ⟨s1, bound_of_lifted S x0 t0 _ (fun y k t => ‖ι y - ι (ψ t)‖ ≤ Real.exp (2 * Lip * (t - t0)) * (‖ι (lift S x0) - ι (ψ t0)‖ + (k * (9 / 8 * B * accuracy cfg b) + (t - t0) * (9 / 7 * δ + M * h / 2))))
    (residuals_bdf1_lipschitz ι _ _ f _ t0 (lift S x0) (lspg_residuals ι _ _ (by positivity) .BDF1 (.inl rfl) S f _ t0 x0 s3 hR) (by positivity) h T (stepsIn_lift S _ T _ s2) Lip hL hHL hlip ψ M hM0 hh hψ hM)⟩

/-- **C93, BDF1, monotone full-order model**: the same without growth. -/
theorem C93_bdf1_monotone {F : Fom ℝ m m n} {f : (m → ℝ) → ℝ → m → ℝ} {Df : (m → ℝ) → ℝ → Matrix m m ℝ} {Mm : (m → ℝ) → ℝ → Except Exc (Matrix m m ℝ)} (hF : FomIs F (fun y t => .ok (f y t)) (fun y t => .ok (Df y t)) Mm)
    (S : Trial ℝ m n) (mem : SMem ℝ (n → ℝ) (n → ℝ) (LMem ℝ m m n)) (hmem : LspgReady .BDF1 mem) (ι : (m → ℝ) →ₗ[ℝ] E)
    (env : Env ℝ m n p L) (tag : Tag) (sol : Matrix n n ℝ → (n → ℝ) → n → ℝ) (tick : L → L) (hS : NormalEquations ι env tag sol tick) (cfg : Cfg ℝ) (hcfg : PlainGaussNewton cfg) (reg : Reg ℝ m n p L) (hreg : LsIdle reg)
    (k N : Nat) (h σ R t0 T b B Lf γ Fb : ℝ) (hh : 0 ≤ h) (x0 : n → ℝ) (H : TameOnTrial ι S f Df x0 R t0 T b B Lf γ Fb) (room : RoomFor cfg N k h σ R b B Lf γ Fb) (δ : ℝ) (hδ0 : 0 ≤ δ) (hδ : DefectAtMost ι S f x0 R t0 T δ)
    (dts : List ℝ) (hN : dts.length ≤ N) (hdt : ∀ d ∈ dts, 0 ≤ d ∧ d ≤ h) (hT : t0 + dts.sum ≤ T)
    (hmono : ∀ y z t, ⟪ι (f y t) - ι (f z t), ι y - ι z⟫_ℝ ≤ 0) (ψ : ℝ → m → ℝ) (M : ℝ) (hM0 : 0 ≤ M) (hψ : SolvesIn ι f ψ t0 T) (hM : Smooth1In ι f ψ M t0 T) :
    let run := driveObj (stepWith .BDF1 (defaultPolicy S F)) (Model.Nonlinear.lsSolve env cfg tag) dts t0 [x0] x0 mem reg
    (∀ r ∈ run, r.stop = none) ∧ ∀ pre post, run = pre ++ post → ∃ x l, accepted x0 pre = x :: l ∧
      ‖ι (lift S x) - ι (ψ (timeAfter t0 pre))‖ ≤ ‖ι (lift S x0) - ι (ψ t0)‖ + (l.length * (9 / 8 * B * accuracy cfg b) + (timeAfter t0 pre - t0) * (9 / 7 * δ + M * h / 2)) := by
  intro run
  have hB := H.B0
  have ha := accuracy_nonneg cfg hcfg b room.tol0
  obtain ⟨s1, s2, s3⟩ := lspg_stepsIn hF S .BDF1 (.inl rfl) mem hmem ι env tag sol tick hS cfg hcfg reg hreg k N h σ R t0 T b B Lf γ Fb x0 H room dts hN hdt hT (fun d => d ≤ h) (fun d hd => (hdt d hd).2)
  have hR := C93_leaves_residuals hF S .BDF1 (.inl rfl) mem hmem ι env tag sol tick hS cfg hcfg reg hreg k N h σ R t0 T b B Lf γ Fb x0 H room δ hδ dts hN hdt hT
  exact ⟨s1, bound_of_lifted S x0 t0 _ (fun y k t => ‖ι y - ι (ψ t)‖ ≤ ‖ι (lift S x0) - ι (ψ t0)‖ + (k * (9 / 8 * B * accuracy cfg b) + (t - t0) * (9 / 7 * δ + M * h / 2)))
    (residuals_bdf1_monotone ι _ _ f _ t0 (lift S x0) (lspg_residuals ι _ _ (by positivity) .BDF1 (.inl rfl) S f _ t0 x0 s3 hR) (by positivity) h T (stepsIn_lift S _ T _ s2) hmono ψ M hM0 hh hψ hM)⟩

/-- **C93, BDF2, Lipschitz full-order model, constant steps**: second order up to the distance of the right-hand side to the range of the basis and the tolerance. -/
theorem C93_bdf2 {F : Fom ℝ m m n} {f : (m → ℝ) → ℝ → m → ℝ} {Df : (m → ℝ) → ℝ → Matrix m m ℝ} {Mm : (m → ℝ) → ℝ → Except Exc (Matrix m m ℝ)} (hF : FomIs F (fun y t => .ok (f y t)) (fun y t => .ok (Df y t)) Mm)
    (S : Trial ℝ m n) (mem : SMem ℝ (n → ℝ) (n → ℝ) (LMem ℝ m m n)) (hmem : LspgReady .BDF2 mem) (ι : (m → ℝ) →ₗ[ℝ] E)
    (env : Env ℝ m n p L) (tag : Tag) (sol : Matrix n n ℝ → (n → ℝ) → n → ℝ) (tick : L → L) (hS : NormalEquations ι env tag sol tick) (cfg : Cfg ℝ) (hcfg : PlainGaussNewton cfg) (reg : Reg ℝ m n p L) (hreg : LsIdle reg)
    (k N : Nat) (h σ R t0 T b B Lf γ Fb : ℝ) (hh : 0 ≤ h) (x0 : n → ℝ) (H : TameOnTrial ι S f Df x0 R t0 T b B Lf γ Fb) (room : RoomFor cfg N k h σ R b B Lf γ Fb) (δ : ℝ) (hδ0 : 0 ≤ δ) (hδ : DefectAtMost ι S f x0 R t0 T δ)
    (hT : t0 + N * h ≤ T)
    (Lip : ℝ) (hL : 0 ≤ Lip) (hHL : 6 * (h * Lip) ≤ 1 / 2) (hlip : ∀ y z t, ‖ι (f y t) - ι (f z t)‖ ≤ Lip * ‖ι y - ι z‖) (ψ : ℝ → m → ℝ) (ψ2 : ℝ → E) (M2 M3 : ℝ) (hM20 : 0 ≤ M2) (hM30 : 0 ≤ M3)
    (hψ : SolvesIn ι f ψ t0 T) (hM : Smooth2In ι f ψ ψ2 M2 M3 t0 T) :
    let run := driveObj (stepWith .BDF2 (defaultPolicy S F)) (Model.Nonlinear.lsSolve env cfg tag) (List.replicate N h) t0 [x0] x0 mem reg
    (∀ r ∈ run, r.stop = none) ∧ ∀ pre post, run = pre ++ post → ∃ x l, accepted x0 pre = x :: l ∧
      ‖ι (lift S x) - ι (ψ (timeAfter t0 pre))‖ ≤ Real.exp (12 * Lip * (timeAfter t0 pre - t0)) *
        (Real.sqrt 2 * ‖ι (lift S x0) - ι (ψ t0)‖ + 3 * M2 * h ^ 2 + 6 * (l.length * (9 / 8 * B * accuracy cfg b)) + (timeAfter t0 pre - t0) * (6 * (9 / 7 * δ) + 4 * M3 * h ^ 2)) := by
  intro run
  have hB := H.B0
  have ha := accuracy_nonneg cfg hcfg b room.tol0
  have hdt : ∀ d ∈ List.replicate N h, 0 ≤ d ∧ d ≤ h := fun d hd => by rw [List.eq_of_mem_replicate hd]; exact ⟨hh, le_rfl⟩
  have hT' : t0 + (List.replicate N h).sum ≤ T := by simpa using hT
  have hN : (List.replicate N h).length ≤ N := by simp
  obtain ⟨s1, s2, s3⟩ := lspg_stepsIn hF S .BDF2 (.inr rfl) mem hmem ι env tag sol tick hS cfg hcfg reg hreg k N h σ R t0 T b B Lf γ Fb x0 H room _ hN hdt hT' (fun d => d = h) (fun d hd => List.eq_of_mem_replicate hd)
  have hR := C93_leaves_residuals hF S .BDF2 (.inr rfl) mem hmem ι env tag sol tick hS cfg hcfg reg hreg k N h σ R t0 T b B Lf γ Fb x0 H room δ hδ _ hN hdt hT'
  exact ⟨s1, bound_of_lifted S x0 t0 _ (fun y k t => ‖ι y - ι (ψ t)‖ ≤ Real.exp (12 * Lip * (t - t0)) *
      (Real.sqrt 2 * ‖ι (lift S x0) - ι (ψ t0)‖ + 3 * M2 * h ^ 2 + 6 * (k * (9 / 8 * B * accuracy cfg b)) + (t - t0) * (6 * (9 / 7 * δ) + 4 * M3 * h ^ 2)))
    (residuals_bdf2_lipschitz ι _ _ f _ t0 (lift S x0) (lspg_residuals ι _ _ (by positivity) .BDF2 (.inr rfl) S f _ t0 x0 s3 hR) (by positivity) h T (stepsIn_lift S _ T _ s2) Lip hL hHL hlip ψ ψ2 M2 M3 hM20 hM30 hψ hM)⟩

/-- **C93, advance_to_target_point**: with a policy that sets sizes between `δt` and `h`, the call returns near the target, and each observed reduced state reconstructs to a state near the exact solution of the full-order model at the
    observed time. -/
theorem C93_target {U : Type} {F : Fom ℝ m m n} {f : (m → ℝ) → ℝ → m → ℝ} {Df : (m → ℝ) → ℝ → Matrix m m ℝ} {Mm : (m → ℝ) → ℝ → Except Exc (Matrix m m ℝ)}
    (hF : FomIs F (fun y t => .ok (f y t)) (fun y t => .ok (Df y t)) Mm)
    (S : Trial ℝ m n) (mem : SMem ℝ (n → ℝ) (n → ℝ) (LMem ℝ m m n)) (hmem : LspgReady .BDF1 mem) (ι : (m → ℝ) →ₗ[ℝ] E)
    (env : Env ℝ m n p L) (tag : Tag) (sol : Matrix n n ℝ → (n → ℝ) → n → ℝ) (tick : L → L) (hS : NormalEquations ι env tag sol tick) (cfg : Cfg ℝ) (hcfg : PlainGaussNewton cfg) (reg : Reg ℝ m n p L) (hreg : LsIdle reg)
    (rec : Bool) (eps δt h : ℝ) (heps : 0 ≤ eps) (hδt : 0 < δt) (hh : 0 ≤ h) (pol3 : Int → ℝ → ℝ → Prog U ℝ) (pol5 : Int → ℝ → DtVars ℝ → Prog U (DtVars ℝ)) (obs : Int → ℝ → (n → ℝ) → Prog U Unit)
    (hpol : Obliging pol3 pol5 rec (fun d => δt ≤ d ∧ d ≤ h)) (hobs : Patient obs) (t0 final : ℝ) (hlt : t0 < final) (N fuel : Nat) (hN : final - t0 ≤ N * δt) (hN' : (N : Int) < int32Max) (hfuel : N ≤ fuel) (u : U)
    (k : Nat) (σ R b B Lf γ Fb : ℝ) (x0 : n → ℝ) (H : TameOnTrial ι S f Df x0 R t0 (final + h) b B Lf γ Fb) (room : RoomFor cfg N k h σ R b B Lf γ Fb) (δ : ℝ) (hδ0 : 0 ≤ δ) (hδ : DefectAtMost ι S f x0 R t0 (final + h) δ)
    (Lip : ℝ) (hL : 0 ≤ Lip) (hHL : h * Lip ≤ 1 / 2) (hlip : ∀ y z t, ‖ι (f y t) - ι (f z t)‖ ≤ Lip * ‖ι y - ι z‖) (ψ : ℝ → m → ℝ) (M : ℝ) (hM0 : 0 ≤ M) (hψ : SolvesIn ι f ψ t0 (final + h)) (hM : Smooth1In ι f ψ M t0 (final + h)) :
    let r := advanceT rec eps (userObjects (objStepper (stepWith .BDF1 (defaultPolicy S F)) (Model.Nonlinear.lsSolve env cfg tag)) pol3 pol5 obs) fuel t0 final ⟨((mem, reg), u), x0, []⟩
    (∃ t, r = .ok t r.state ∧ final - eps ≤ t ∧ t ≤ final + h) ∧ (observations r.state.log).length ≤ N + 1 ∧ (observations r.state.log).getLast?.map (·.2.2) = some r.state.y ∧
      ∀ i t x, (i, t, x) ∈ observations r.state.log → ‖ι (lift S x) - ι (ψ t)‖ ≤ Real.exp (2 * Lip * (t - t0)) *
        (‖ι (lift S x0) - ι (ψ t0)‖ + (i * (9 / 8 * B * accuracy cfg b) + (t - t0) * (9 / 7 * δ + M * h / 2))) := by
  have g := C92_target_returns rec eps δt h heps hδt (stepWith .BDF1 (defaultPolicy S F)) (Model.Nonlinear.lsSolve env cfg tag) pol3 pol5 obs hpol hobs t0 final hlt N fuel hN hN' hfuel x0 mem reg u
    (fun l t => ∃ x l', l = x :: l' ∧ ‖ι (lift S x) - ι (ψ t)‖ ≤ Real.exp (2 * Lip * (t - t0)) *
        (‖ι (lift S x0) - ι (ψ t0)‖ + (l'.length * (9 / 8 * B * accuracy cfg b) + (t - t0) * (9 / 7 * δ + M * h / 2)))) (fun dts g0 g1 g2 =>
      C93_bdf1 hF S mem hmem ι env tag sol tick hS cfg hcfg reg hreg k N h σ R t0 (final + h) b B Lf γ Fb hh x0 H room δ hδ0 hδ dts g0 (fun d hd => ⟨hδt.le.trans (g1 d hd).1, (g1 d hd).2⟩) g2 Lip hL hHL hlip ψ M hM0 hψ hM)
  refine ⟨g.1, g.2.1, g.2.2.1, fun i t x he => ?_⟩
  obtain ⟨l, ⟨x', l', e, hb⟩, hl⟩ := g.2.2.2 i t x he
  cases e
  rw [← hl]
  exact_mod_cast hb

/-- **C93, advance_n_steps** with a constant size, BDF2: the call returns after the requested number of steps, and each observed reduced state reconstructs to a state near the exact solution, to second order. -/
theorem C93_n_steps {U : Type} {F : Fom ℝ m m n} {f : (m → ℝ) → ℝ → m → ℝ} {Df : (m → ℝ) → ℝ → Matrix m m ℝ} {Mm : (m → ℝ) → ℝ → Except Exc (Matrix m m ℝ)}
    (hF : FomIs F (fun y t => .ok (f y t)) (fun y t => .ok (Df y t)) Mm)
    (S : Trial ℝ m n) (mem : SMem ℝ (n → ℝ) (n → ℝ) (LMem ℝ m m n)) (hmem : LspgReady .BDF2 mem) (ι : (m → ℝ) →ₗ[ℝ] E)
    (env : Env ℝ m n p L) (tag : Tag) (sol : Matrix n n ℝ → (n → ℝ) → n → ℝ) (tick : L → L) (hS : NormalEquations ι env tag sol tick) (cfg : Cfg ℝ) (hcfg : PlainGaussNewton cfg) (reg : Reg ℝ m n p L) (hreg : LsIdle reg)
    (zero h : ℝ) (hh : 0 ≤ h) (pol3 : Int → ℝ → ℝ → Prog U ℝ) (pol5 : Int → ℝ → DtVars ℝ → Prog U (DtVars ℝ)) (obs : Int → ℝ → (n → ℝ) → Prog U Unit)
    (hpol : Obliging pol3 pol5 false (fun d => d = h)) (hobs : Patient obs) (N : Nat) (hN : (N : Int) < int32Max) (t0 : ℝ) (u : U)
    (k : Nat) (σ R b B Lf γ Fb : ℝ) (x0 : n → ℝ) (H : TameOnTrial ι S f Df x0 R t0 (t0 + N * h) b B Lf γ Fb) (room : RoomFor cfg N k h σ R b B Lf γ Fb) (δ : ℝ) (hδ0 : 0 ≤ δ) (hδ : DefectAtMost ι S f x0 R t0 (t0 + N * h) δ)
    (Lip : ℝ) (hL : 0 ≤ Lip) (hHL : 6 * (h * Lip) ≤ 1 / 2) (hlip : ∀ y z t, ‖ι (f y t) - ι (f z t)‖ ≤ Lip * ‖ι y - ι z‖) (ψ : ℝ → m → ℝ) (ψ2 : ℝ → E) (M2 M3 : ℝ) (hM20 : 0 ≤ M2) (hM30 : 0 ≤ M3)
    (hψ : SolvesIn ι f ψ t0 (t0 + N * h)) (hM : Smooth2In ι f ψ ψ2 M2 M3 t0 (t0 + N * h)) :
    let r := advanceN zero (userObjects (objStepper (stepWith .BDF2 (defaultPolicy S F)) (Model.Nonlinear.lsSolve env cfg tag)) pol3 pol5 obs) N t0 ⟨((mem, reg), u), x0, []⟩
    r.stop? = none ∧ (observations r.state.log).length = (N : Int) + 1 ∧ (observations r.state.log).getLast?.map (·.2.2) = some r.state.y ∧
      ∀ i t x, (i, t, x) ∈ observations r.state.log → ‖ι (lift S x) - ι (ψ t)‖ ≤ Real.exp (12 * Lip * (t - t0)) *
        (Real.sqrt 2 * ‖ι (lift S x0) - ι (ψ t0)‖ + 3 * M2 * h ^ 2 + 6 * (i * (9 / 8 * B * accuracy cfg b)) + (t - t0) * (6 * (9 / 7 * δ) + 4 * M3 * h ^ 2)) := by
  have g := C92_n_steps_returns zero (stepWith .BDF2 (defaultPolicy S F)) (Model.Nonlinear.lsSolve env cfg tag) pol3 pol5 obs _ hpol hobs N (by omega) hN t0 x0 mem reg u
    (fun l t => ∃ x l', l = x :: l' ∧ ‖ι (lift S x) - ι (ψ t)‖ ≤ Real.exp (12 * Lip * (t - t0)) *
        (Real.sqrt 2 * ‖ι (lift S x0) - ι (ψ t0)‖ + 3 * M2 * h ^ 2 + 6 * (l'.length * (9 / 8 * B * accuracy cfg b)) + (t - t0) * (6 * (9 / 7 * δ) + 4 * M3 * h ^ 2))) (fun dts g0 g1 => by
      have e : dts = List.replicate dts.length h := List.eq_replicate_iff.2 ⟨rfl, g1⟩
      have g0' : dts.length ≤ N := by simpa using g0
      rw [e]
      have hle : (dts.length : ℝ) * h ≤ N * h := by gcongr
      have ha := accuracy_nonneg cfg hcfg b room.tol0
      have hb := H.b0
      have hσ : 0 ≤ σ := by have := H.F0; have := H.B0; exact le_trans (by positivity) room.start
      exact C93_bdf2 hF S mem hmem ι env tag sol tick hS cfg hcfg reg hreg k dts.length h σ R t0 (t0 + N * h) b B Lf γ Fb hh x0 H
        { room with reach := le_trans (by gcongr) room.reach } δ hδ0 hδ (by linarith) Lip hL hHL hlip ψ ψ2 M2 M3 hM20 hM30 hψ hM)
  refine ⟨g.1, g.2.1, g.2.2.1, fun i t x he => ?_⟩
  obtain ⟨l, ⟨x', l', e, hb⟩, hl⟩ := g.2.2.2 i t x he
  cases e
  rw [← hl]
  exact_mod_cast hb

end

section Examples

/-- a full-order model that follows a moving target: nonlinear and monotone -/
noncomputable def chaseF (y : Fin 2 → ℝ) (t : ℝ) : Fin 2 → ℝ := ![1 - (y 0 - t) - Real.sin (y 0 - t) / 2, 1 / 10]
noncomputable def chaseD (y : Fin 2 → ℝ) (t : ℝ) : Matrix (Fin 2) (Fin 2) ℝ := !![- 1 - Real.cos (y 0 - t) / 2, 0; 0, 0]

noncomputable def chaseR : Fom ℝ (Fin 2) (Fin 2) Unit where
  rhs := fun y t _ => .ok (chaseF y t)
  applyJac := fun y B t _ => .ok (chaseD y t * B)
  applyMM := fun _ B _ _ => .ok ((1 : Matrix (Fin 2) (Fin 2) ℝ) * B)

theorem chaseR_is : FomIs chaseR (fun y t => .ok (chaseF y t)) (fun y t => .ok (chaseD y t)) (fun _ _ => .ok 1) where
  rhs := fun _ _ _ => rfl
  jac := fun _ _ _ _ => rfl
  mm := fun _ _ _ _ => rfl

theorem firstR_mulVec (v : Unit → ℝ) : firstR.basis *ᵥ v = ![v (), 0] := by
  funext i; fin_cases i <;> simp [firstR, Matrix.mulVec, dotProduct]

theorem firstR_isometry (v : Unit → ℝ) : ‖eu (Fin 2) (firstR.basis *ᵥ v)‖ = ‖eu Unit v‖ := by
  rw [firstR_mulVec, eu_unit]
  exact le_antisymm (eu_two_le _ _ _ (abs_nonneg _) (by rw [sq_abs]; simp)) (le_eu_two _ _ _ (abs_nonneg _) (by rw [sq_abs]; simp))

theorem chase_mulVec (x v : Unit → ℝ) (t : ℝ) : chaseD (lift firstR x) t *ᵥ (firstR.basis *ᵥ v) = ![(- 1 - Real.cos (x () - t) / 2) * v (), 0] := by
  rw [firstR_mulVec, firstR_lift]
  funext i; fin_cases i <;> simp [chaseD, Matrix.mulVec, dotProduct, Fin.sum_univ_two]

theorem sin_lip (a b : ℝ) : |Real.sin a - Real.sin b| ≤ |a - b| := by
  have h := Real.abs_sin_sub_sin_le a b
  exact h

theorem cos_lip (a b : ℝ) : |Real.cos a - Real.cos b| ≤ |a - b| := by
  have h := Real.abs_cos_sub_cos_le a b
  exact h

theorem chase_tame : TameOnTrial (eu (Fin 2)) firstR chaseF chaseD 0 (1 / 2) 0 (1 / 100) 1 1 (3 / 2) (1 / 2) 2 where
  indep := fun v => by rw [firstR_isometry, one_mul]
  bounded := fun v => by rw [firstR_isometry, one_mul]
  jac := by
    intro t _ x _
    refine hasFDerivAt_pi'' fun i => ?_
    have h0 : HasFDerivAt (fun y : Fin 2 → ℝ => y 0 - t) (ContinuousLinearMap.proj (R := ℝ) (φ := fun _ : Fin 2 => ℝ) 0) (lift firstR x) := (hasFDerivAt_apply 0 _).sub_const t
    fin_cases i
    · have := (h0.const_sub 1).sub ((HasFDerivAt.sin h0).mul_const (1 / 2))
      refine (this.congr_fderiv ?_).congr_of_eventuallyEq (Filter.Eventually.of_forall fun y => ?_)
      · ext v
        simp [chaseD, Matrix.mulVec, dotProduct, Fin.sum_univ_two]
        ring
      · simp [chaseF]; ring
    · have : HasFDerivAt (fun _ : Fin 2 → ℝ => (1 / 10 : ℝ)) (0 : (Fin 2 → ℝ) →L[ℝ] ℝ) (lift firstR x) := hasFDerivAt_const _ _
      refine (this.congr_fderiv ?_).congr_of_eventuallyEq (Filter.Eventually.of_forall fun y => ?_)
      · ext v
        simp [chaseD, Matrix.mulVec, dotProduct, Fin.sum_univ_two]
      · simp [chaseF]
  first := by
    intro t _ x _ v
    rw [chase_mulVec, firstR_isometry, eu_unit]
    refine eu_two_le _ _ _ (by positivity) ?_
    have h1 := Real.cos_le_one (x () - t)
    have h2 := Real.neg_one_le_cos (x () - t)
    rw [mul_pow, mul_pow, sq_abs]
    nlinarith [mul_le_mul_of_nonneg_right (show (- 1 - Real.cos (x () - t) / 2) ^ 2 ≤ (3 / 2) ^ 2 by nlinarith) (sq_nonneg (v ()))]
  second := by
    intro t _ x z _ _ v
    have e : chaseD (lift firstR x) t *ᵥ (firstR.basis *ᵥ v) - chaseD (lift firstR z) t *ᵥ (firstR.basis *ᵥ v) = ![(Real.cos (z () - t) - Real.cos (x () - t)) / 2 * v (), 0] := by
      rw [chase_mulVec, chase_mulVec]; funext i; fin_cases i <;> simp; ring
    rw [e, eu_unit, eu_unit]
    refine eu_two_le _ _ _ (by positivity) ?_
    have h : (Real.cos (z () - t) - Real.cos (x () - t)) ^ 2 ≤ (x () - z ()) ^ 2 := sq_le_sq.2 ((cos_lip _ _).trans (by rw [show z () - t - (x () - t) = -(x () - z ()) by ring, abs_neg]))
    simp only [Pi.sub_apply, mul_pow, sq_abs]
    nlinarith [mul_le_mul_of_nonneg_right h (sq_nonneg (v ()))]
  size := by
    intro t ht x hx
    rw [firstR_lift]
    rw [eu_unit, sub_zero] at hx
    have h1 := abs_le.1 hx
    have h2 := ht.1
    have h3 := ht.2
    have h4 := sin_lip (x () - t) 0
    rw [Real.sin_zero, sub_zero, sub_zero] at h4
    have h5 : |x () - t| ≤ 51 / 100 := abs_le.2 ⟨by linarith, by linarith⟩
    have h6 := abs_le.1 (h4.trans h5)
    have h7 := abs_le.1 h5
    refine eu_two_le _ _ _ (by norm_num) ?_
    simp only [Matrix.cons_val_zero]
    nlinarith
  b0 := by norm_num
  B0 := by norm_num
  L0 := by norm_num
  γ0 := by norm_num
  F0 := by norm_num

theorem chase_defect : DefectAtMost (eu (Fin 2)) firstR chaseF 0 (1 / 2) 0 (1 / 100) (1 / 10) := by
  intro t _ x _
  refine ⟨fun _ => chaseF (lift firstR x) t 0, ?_⟩
  have e : chaseF (lift firstR x) t - firstR.basis *ᵥ (fun _ => chaseF (lift firstR x) t 0) = ![0, 1 / 10] := by
    rw [firstR_mulVec]; funext i; fin_cases i <;> simp [chaseF]
  rw [e]
  exact eu_two_le _ _ _ (by norm_num) (by norm_num)

/-- the default criterion with its default tolerance -/
noncomputable def cfgC : Cfg ℝ := ⟨100, .WhenAbsolutel2NormOfCorrectionBelowTolerance, 1 / 10 ^ 6, .Standard, none⟩

theorem cfgC_plain : PlainGaussNewton cfgC := ⟨.inl rfl, rfl, by simp [cfgC, int32Max]⟩

theorem envF_normal : NormalEquations (eu (Fin 2)) envF .gn (fun A b _ => b () / A () ()) id :=
  ⟨.inl rfl, C86_minimises_plain envF (fun _ => rfl) .gn (.inl rfl), fun _ => rfl, fun _ => rfl, fun _ _ _ _ => rfl, envF_exact⟩

theorem envQ_qr : QrObject envQ id (fun A v _ => (∑ i, A i () * v i) / colLen A) (fun A b _ => b () / colLen A) :=
  ⟨fun _ => rfl, fun _ => rfl, fun _ _ => rfl, fun _ _ _ => rfl, fun _ _ _ => rfl, envQ_exact⟩

/-- room for ten steps of at most 1/1000: at most 20 updates each -/
theorem chase_room : RoomFor cfgC 10 19 (1 / 1000) (61 / 10000) (1 / 2) 1 1 (3 / 2) (1 / 2) 2 := by
  constructor <;> norm_num [cfgC, accuracy, fitError, Enough]

example (dts : List ℝ) (hN : dts.length ≤ 10) (hdt : ∀ d ∈ dts, 0 ≤ d ∧ d ≤ 1 / 1000) (hT : 0 + dts.sum ≤ 1 / 100) :=
  C93_run chaseR_is firstR .BDF1 (.inl rfl) lspgL lspgL_ready (eu (Fin 2)) envF .gn _ id envF_normal cfgC cfgC_plain regF (fun _ => .created _ rfl) 19 10 (1 / 1000) (61 / 10000) (1 / 2) 0 (1 / 100) 1 1 (3 / 2) (1 / 2) 2 0 chase_tame chase_room
    dts hN hdt hT
example (dts : List ℝ) (hN : dts.length ≤ 10) (hdt : ∀ d ∈ dts, 0 ≤ d ∧ d ≤ 1 / 1000) (hT : 0 + dts.sum ≤ 1 / 100) :=
  C93_qr_run chaseR_is firstR .BDF2 (.inr rfl) lspgL2 lspgL2_ready envQ _ _ _ envQ_qr (by simp [InnerHonest, envQ]) cfgC cfgC_plain regQ (fun _ => .created _ rfl) 19 10 (1 / 1000) (61 / 10000) (1 / 2) 0 (1 / 100) 1 1 (3 / 2) (1 / 2) 2 0 chase_tame
    chase_room dts hN hdt hT
example (dts : List ℝ) (hN : dts.length ≤ 10) (hdt : ∀ d ∈ dts, 0 ≤ d ∧ d ≤ 1 / 1000) (hT : 0 + dts.sum ≤ 1 / 100) :=
  C93_leaves_residuals chaseR_is firstR .BDF2 (.inr rfl) lspgL2 lspgL2_ready (eu (Fin 2)) envF .gn _ id envF_normal cfgC cfgC_plain regF (fun _ => .created _ rfl) 19 10 (1 / 1000) (61 / 10000) (1 / 2) 0 (1 / 100) 1 1 (3 / 2) (1 / 2) 2 0
    chase_tame chase_room (1 / 10) chase_defect dts hN hdt hT

noncomputable def chaseExact (t : ℝ) : Fin 2 → ℝ := ![t, t / 10]

theorem chaseExact_rhs (t : ℝ) : chaseF (chaseExact t) t = ![1, 1 / 10] := by
  funext i; fin_cases i <;> simp [chaseF, chaseExact]

theorem chase_solves (T : ℝ) : SolvesIn (eu (Fin 2)) chaseF chaseExact 0 T := by
  intro s _
  rw [chaseExact_rhs]
  have h2 : (fun t => eu (Fin 2) (chaseExact t)) = fun t => t • eu (Fin 2) ![1, 1 / 10] := by
    funext t
    rw [← map_smul]
    congr 1
    funext i; fin_cases i <;> simp [chaseExact]; ring
  rw [h2]
  exact ((hasDerivAt_id s).smul_const _).congr_deriv (one_smul _ _)

theorem chase_smooth (T : ℝ) : Smooth1In (eu (Fin 2)) chaseF chaseExact 0 0 T := by
  intro s _ u _
  rw [chaseExact_rhs, chaseExact_rhs]; simp

theorem chase_smooth2 (T : ℝ) : Smooth2In (eu (Fin 2)) chaseF chaseExact (fun _ => 0) 0 0 0 T := by
  refine ⟨fun s _ => ⟨?_, by simp⟩, fun s _ u _ => by simp⟩
  simp only [chaseExact_rhs]
  exact hasDerivAt_const _ _

theorem chase_sub (y z : Fin 2 → ℝ) (t : ℝ) : chaseF y t - chaseF z t = ![-(y 0 - z 0) - (Real.sin (y 0 - t) - Real.sin (z 0 - t)) / 2, 0] := by
  funext i; fin_cases i <;> simp [chaseF]; ring

theorem chase_lip (y z : Fin 2 → ℝ) (t : ℝ) : ‖eu (Fin 2) (chaseF y t) - eu (Fin 2) (chaseF z t)‖ ≤ 3 / 2 * ‖eu (Fin 2) y - eu (Fin 2) z‖ := by
  rw [← map_sub, ← map_sub, chase_sub]
  have h1 : |y 0 - z 0| ≤ ‖eu (Fin 2) (y - z)‖ := by
    rw [show y - z = ![y 0 - z 0, y 1 - z 1] by funext i; fin_cases i <;> simp]
    exact le_eu_two _ _ _ (abs_nonneg _) (by rw [sq_abs]; nlinarith [sq_nonneg (y 1 - z 1)])
  have h2 := sin_lip (y 0 - t) (z 0 - t)
  rw [show y 0 - t - (z 0 - t) = y 0 - z 0 by ring] at h2
  refine (eu_two_le _ _ (3 / 2 * |y 0 - z 0|) (by positivity) ?_).trans (by gcongr)
  have h3 : |-(y 0 - z 0) - (Real.sin (y 0 - t) - Real.sin (z 0 - t)) / 2| ≤ 3 / 2 * |y 0 - z 0| := by
    refine (abs_sub _ _).trans ?_
    rw [abs_neg, abs_div, abs_of_pos (show (0:ℝ) < 2 by norm_num)]
    linarith
  have := pow_le_pow_left₀ (abs_nonneg _) h3 2
  rw [sq_abs] at this
  linarith

theorem chase_monotone (y z : Fin 2 → ℝ) (t : ℝ) : ⟪eu (Fin 2) (chaseF y t) - eu (Fin 2) (chaseF z t), eu (Fin 2) y - eu (Fin 2) z⟫_ℝ ≤ 0 := by
  rw [← map_sub, ← map_sub, Lemmas.GaussNewtonConvergence.eu_in, chase_sub]
  have h2 := sin_lip (y 0 - t) (z 0 - t)
  rw [show y 0 - t - (z 0 - t) = y 0 - z 0 by ring] at h2
  have h3 : |(Real.sin (y 0 - t) - Real.sin (z 0 - t)) * (y 0 - z 0)| ≤ (y 0 - z 0) ^ 2 := by
    rw [abs_mul, ← sq_abs (y 0 - z 0), sq]
    gcongr
  have h4 := (abs_le.1 h3).1
  simp [dotProduct, Fin.sum_univ_two]
  nlinarith [sq_nonneg (y 0 - z 0)]

example (dts : List ℝ) (hN : dts.length ≤ 10) (hdt : ∀ d ∈ dts, 0 ≤ d ∧ d ≤ 1 / 1000) (hT : 0 + dts.sum ≤ 1 / 100) :=
  C93_bdf1 chaseR_is firstR lspgL lspgL_ready (eu (Fin 2)) envF .gn _ id envF_normal cfgC cfgC_plain regF (fun _ => .created _ rfl) 19 10 (1 / 1000) (61 / 10000) (1 / 2) 0 (1 / 100) 1 1 (3 / 2) (1 / 2) 2 (by norm_num) 0 chase_tame chase_room
    (1 / 10) (by norm_num) chase_defect dts hN hdt hT (3 / 2) (by norm_num) (by norm_num) chase_lip chaseExact 0 le_rfl (chase_solves _) (chase_smooth _)
example (dts : List ℝ) (hN : dts.length ≤ 10) (hdt : ∀ d ∈ dts, 0 ≤ d ∧ d ≤ 1 / 1000) (hT : 0 + dts.sum ≤ 1 / 100) :=
  C93_bdf1_monotone chaseR_is firstR lspgL lspgL_ready (eu (Fin 2)) envF .gn _ id envF_normal cfgC cfgC_plain regF (fun _ => .created _ rfl) 19 10 (1 / 1000) (61 / 10000) (1 / 2) 0 (1 / 100) 1 1 (3 / 2) (1 / 2) 2 (by norm_num) 0 chase_tame
    chase_room (1 / 10) (by norm_num) chase_defect dts hN hdt hT chase_monotone chaseExact 0 le_rfl (chase_solves _) (chase_smooth _)
example :=
  C93_bdf2 chaseR_is firstR lspgL2 lspgL2_ready (eu (Fin 2)) envF .gn _ id envF_normal cfgC cfgC_plain regF (fun _ => .created _ rfl) 19 10 (1 / 1000) (61 / 10000) (1 / 2) 0 (1 / 100) 1 1 (3 / 2) (1 / 2) 2 (by norm_num) 0 chase_tame chase_room
    (1 / 10) (by norm_num) chase_defect (by norm_num) (3 / 2) (by norm_num) (by norm_num) chase_lip chaseExact _ 0 0 le_rfl le_rfl (chase_solves _) (chase_smooth2 _)

noncomputable def thousandth3 : Int → ℝ → ℝ → Prog Unit ℝ := fun _ _ _ => pure (1 / 1000)
noncomputable def thousandth5 : Int → ℝ → DtVars ℝ → Prog Unit (DtVars ℝ) := fun _ _ _ => pure ⟨1 / 1000, 1 / 10000, 2⟩

/-- nine steps to 9/1000, with and without recovery -/
example (rec : Bool) := C93_target chaseR_is firstR lspgL lspgL_ready (eu (Fin 2)) envF .gn _ id envF_normal cfgC cfgC_plain regF (fun _ => .created _ rfl) rec 0 (1 / 1000) (1 / 1000) le_rfl (by norm_num) (by norm_num) thousandth3 thousandth5 silent
  (by cases rec
      · simp only [Obliging, Bool.false_eq_true, if_false]
        exact fun i t d u => ⟨1 / 1000, u, rfl, le_rfl, le_rfl⟩
      · simp only [Obliging, if_true]
        exact fun i t d u => ⟨⟨1 / 1000, 1 / 10000, 2⟩, u, rfl, ⟨le_rfl, le_rfl⟩, by norm_num, by norm_num⟩) silent_patient 0 (9 / 1000) (by norm_num) 10 100 (by norm_num) (by norm_num [int32Max]) (by norm_num) ()
  19 (61 / 10000) (1 / 2) 1 1 (3 / 2) (1 / 2) 2 0 (by norm_num; exact chase_tame) chase_room (1 / 10) (by norm_num) (by norm_num; exact chase_defect) (3 / 2) (by norm_num) (by norm_num) chase_lip chaseExact 0 le_rfl (chase_solves _) (chase_smooth _)
example := C93_n_steps chaseR_is firstR lspgL2 lspgL2_ready (eu (Fin 2)) envF .gn _ id envF_normal cfgC cfgC_plain regF (fun _ => .created _ rfl) 0 (1 / 1000) (by norm_num) thousandth3 thousandth5 silent
  (by simp only [Obliging, Bool.false_eq_true, if_false]
      exact fun i t d u => ⟨1 / 1000, u, rfl, rfl⟩) silent_patient 10 (by norm_num [int32Max]) 0 ()
  19 (61 / 10000) (1 / 2) 1 1 (3 / 2) (1 / 2) 2 0 (by norm_num; exact chase_tame) chase_room (1 / 10) (by norm_num) (by norm_num; exact chase_defect) (3 / 2) (by norm_num) (by norm_num) chase_lip chaseExact _ 0 0 le_rfl le_rfl (chase_solves _)
  (chase_smooth2 _)

end Examples

end Pressio.Props
