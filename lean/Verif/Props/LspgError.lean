import Verif.Props.GalerkinStability
import Verif.Props.LspgGaussNewton

/-
  C82: stability of LSPG runs and their error against the exact solution of the full-order model.
-/
namespace Pressio.Props
set_option autoImplicit false
set_option linter.unusedSectionVars false
open Pressio Matrix Pressio.Model.Galerkin Pressio.Spec.Galerkin Pressio.Model.Implicit Pressio.Spec.Implicit Pressio.Lemmas.Implicit Pressio.Spec.Reduced Pressio.Model.Lspg Pressio.Spec.Lspg
open Pressio.Spec.SolverRun Pressio.Lemmas.SolverRun Pressio.Lemmas.SolverTree
open Pressio.Lemmas.Lspg (good_start numStates lspgPolicy_refines assembleDefault_ok equations_lspg stepWith)
open Pressio.Model.Explicit (Scheme)
open Pressio.Model.Nonlinear (Env Cfg Reg Ans SP StopCrit Update Tag leastSquaresDiagnostics)
open Pressio.Spec.Nonlinear

section
variable {E m n A : Type} [NormedAddCommGroup E] [InnerProductSpace ℝ E] [Fintype m] [Fintype n]
local notation "⟪" x ", " y "⟫" => @inner ℝ _ _ x y

/-- the LSPG residual is the full-order residual of the scheme at the lifted states -/
theorem lspgRes_residualOf (name : Scheme) (hname : name = .BDF1 ∨ name = .BDF2) (S : Trial ℝ m n) (f : (m → ℝ) → ℝ → m → ℝ) (xn : n → ℝ) (older : List (n → ℝ)) (t dt : ℝ) (x : n → ℝ) :
    lspgRes name S f (xn :: older) t dt x = residualOf name f ((xn :: older).map (lift S)) t dt (lift S x) := by
  rcases hname with rfl | rfl
  · rfl
  · cases older <;> rfl

/-- the full-order residuals that the accepted steps of a reduced run leave are at most `tol + dt ε` -/
def LeavesResiduals (ι : (m → ℝ) →ₗ[ℝ] E) (tol ε : ℝ) (name : Scheme) (S : Trial ℝ m n) (f : (m → ℝ) → ℝ → m → ℝ) (rs : List (Record ℝ (n → ℝ) A)) (x0 : n → ℝ) : Prop :=
  ∀ pre post r, rs = pre ++ r :: post → r.stop = none → ‖ι (lspgRes name S f (accepted x0 pre) r.t r.dt r.y)‖ ≤ tol + r.dt * ε

theorem accepted_cons {Y B : Type} (y0 : Y) (rs : List (Record ℝ Y B)) : ∃ y l, accepted y0 rs = y :: l := by
  unfold accepted
  cases h : (rs.filter (fun r => r.stop.isNone)).reverse with
  | nil => exact ⟨y0, [], by simp [← List.map_reverse, h]⟩
  | cons a l => exact ⟨a.y, l.map (fun r => r.y) ++ [y0], by simp [← List.map_reverse, h]⟩

theorem lspg_residuals (ι : (m → ℝ) →ₗ[ℝ] E) (tol ε : ℝ) (htol : 0 ≤ tol) (name : Scheme) (hname : name = .BDF1 ∨ name = .BDF2) (S : Trial ℝ m n) (f : (m → ℝ) → ℝ → m → ℝ) (rs : List (Record ℝ (n → ℝ) A)) (t0 : ℝ)
    (x0 : n → ℝ) (ht : ∀ pre post r, rs = pre ++ r :: post → r.t = timeAfter t0 pre) (hR : LeavesResiduals ι tol ε name S f rs x0) :
    ResidualRun (A := Unit) ι tol ε name f (rs.map (liftRecord S)) t0 (lift S x0) := by
  have split : ∀ {pre post : List (Record ℝ (m → ℝ) Unit)} {r}, rs.map (liftRecord S) = pre ++ r :: post →
      ∃ pre' post' r', rs = pre' ++ r' :: post' ∧ pre = pre'.map (liftRecord S) ∧ r = liftRecord S r' := by
    intro pre post r h
    obtain ⟨l1, l2, e1, e2, e3⟩ := List.map_eq_append_iff.1 h
    obtain ⟨r', l3, f1, f2, f3⟩ := List.map_eq_cons_iff.1 e3
    exact ⟨l1, l3, r', by rw [e1, f1], e2.symm, f2.symm⟩
  refine ⟨fun {pre post r} h hr => ?_, fun {pre post r} h => ?_, fun _ _ => htol⟩
  · obtain ⟨pre', post', r', e1, rfl, rfl⟩ := split h
    obtain ⟨xn, older, ha⟩ := accepted_cons x0 pre'
    have := hR pre' post' r' e1 hr
    rw [ht pre' post' r' e1, ha, lspgRes_residualOf name hname] at this
    rw [accepted_lift, timeAfter_lift, ha]
    exact this
  · obtain ⟨pre', post', r', e1, rfl, rfl⟩ := split h
    rw [timeAfter_lift]; exact ht _ _ _ e1

end

section
variable {E m n : Type} [NormedAddCommGroup E] [InnerProductSpace ℝ E] [Fintype m] [Fintype n]
local notation "⟪" x ", " y "⟫" => @inner ℝ _ _ x y

/-- a run of an LSPG problem with BDF1 or BDF2, each attempt with any solver that only fails as a solver may and evaluates what it is given -/
structure LspgRun (name : Scheme) (S : Trial ℝ m n) (F : Fom ℝ m m n) (f : (m → ℝ) → ℝ → m → ℝ) (mem : SMem ℝ (n → ℝ) (n → ℝ) (LMem ℝ m m n))
    (atts : List (Attempt ℝ (n → ℝ) ((m → ℝ) × Option (Matrix m n ℝ)))) : Prop where
  scheme : name = .BDF1 ∨ name = .BDF2
  fom : ∃ Df Mm, FomIs F (fun y t => .ok (f y t)) Df Mm ∧ ∀ y t, Df y t ≠ .error .timeStepFailure
  ready : LspgReady name mem
  honest : ∀ a ∈ atts, ∀ y, Honest (a.solver y)
  asks : ∀ a ∈ atts, ∀ y, Asks (a.solver y)

theorem LspgRun.time {name : Scheme} {S : Trial ℝ m n} {F : Fom ℝ m m n} {f : (m → ℝ) → ℝ → m → ℝ} {mem : SMem ℝ (n → ℝ) (n → ℝ) (LMem ℝ m m n)} {atts : List (Attempt ℝ (n → ℝ) ((m → ℝ) × Option (Matrix m n ℝ)))}
    (R : LspgRun name S F f mem atts) (t0 : ℝ) (x0 : n → ℝ) : ∀ pre post r, drive (stepWith name (defaultPolicy S F)) atts t0 [x0] x0 mem = pre ++ r :: post → r.t = timeAfter t0 pre := by
  obtain ⟨Df, Mm, hF, hn⟩ := R.fom
  intro pre post r e
  exact (C52_every_evaluation hF ⟨fun _ _ => by simp, hn⟩ S name R.scheme mem R.ready atts R.honest R.asks t0 x0 pre post r e).2.1

/-- The residual is that of the last evaluation, if the solver ended with an evaluation at its result. -/
theorem C82_residual_of_last_evaluation {name : Scheme} {S : Trial ℝ m n} {F : Fom ℝ m m n} {f : (m → ℝ) → ℝ → m → ℝ} {mem : SMem ℝ (n → ℝ) (n → ℝ) (LMem ℝ m m n)}
    {atts : List (Attempt ℝ (n → ℝ) ((m → ℝ) × Option (Matrix m n ℝ)))} (R : LspgRun name S F f mem atts) (t0 : ℝ) (x0 : n → ℝ) (ι : (m → ℝ) →ₗ[ℝ] E) (tol ε : ℝ)
    (h : ∀ r ∈ drive (stepWith name (defaultPolicy S F)) atts t0 [x0] x0 mem, r.stop = none → ∃ q ∈ r.queries, q.x = r.y ∧ ∃ v j, q.ans = .ok (v, j) ∧ ‖ι v‖ ≤ tol + r.dt * ε) :
    LeavesResiduals ι tol ε name S f (drive (stepWith name (defaultPolicy S F)) atts t0 [x0] x0 mem) x0 := by
  obtain ⟨Df, Mm, hF, hn⟩ := R.fom
  intro pre post r e hr
  obtain ⟨-, h2, h3⟩ := C52_every_evaluation hF ⟨fun _ _ => by simp, hn⟩ S name R.scheme mem R.ready atts R.honest R.asks t0 x0 pre post r e
  obtain ⟨q, hq, hx, v, j, hv, hb⟩ := h r (by rw [e]; simp) hr
  have := h3 q hq
  rw [hv, hx] at this
  have hv' : v = lspgRes name S f (accepted x0 pre) (timeAfter t0 pre) r.dt r.y := by
    simp only [lspg] at this
    cases hw : q.wantJ <;> rw [hw] at this
    · simp only [Bool.false_eq_true, if_false] at this
      exact (Prod.mk.inj (Except.ok.inj this)).1
    · simp only [if_true] at this
      cases hD : Df (lift S r.y) (timeAfter t0 pre + r.dt) <;> rw [hD] at this
      · cases this
      · exact (Prod.mk.inj (Except.ok.inj this)).1
  rw [h2, ← hv']
  exact hb

/-- **C82, BDF1, dissipative full-order model**: the reconstructed states stay bounded, for steps of any size: by the initial norm plus the residuals left. -/
theorem C82_bdf1_dissipative (ι : (m → ℝ) →ₗ[ℝ] E) (S : Trial ℝ m n) (F : Fom ℝ m m n) (f : (m → ℝ) → ℝ → m → ℝ) (mem : SMem ℝ (n → ℝ) (n → ℝ) (LMem ℝ m m n)) (atts : List (Attempt ℝ (n → ℝ) ((m → ℝ) × Option (Matrix m n ℝ)))) (t0 : ℝ) (x0 : n → ℝ) (R : LspgRun .BDF1 S F f mem atts) (tol ε : ℝ) (htol : 0 ≤ tol) (hε : 0 ≤ ε)
    (hR : LeavesResiduals ι tol ε .BDF1 S f (drive (stepWith .BDF1 (defaultPolicy S F)) atts t0 [x0] x0 mem) x0) (hdt : ∀ r ∈ drive (stepWith .BDF1 (defaultPolicy S F)) atts t0 [x0] x0 mem, 0 ≤ r.dt)
    (hdiss : ∀ y t, ⟪ι (f y t), ι y⟫ ≤ 0) :
    ∀ pre post, drive (stepWith .BDF1 (defaultPolicy S F)) atts t0 [x0] x0 mem = pre ++ post → ∃ x l, accepted x0 pre = x :: l ∧
      ‖ι (lift S x)‖ ≤ ‖ι (lift S x0)‖ + (l.length * tol + (timeAfter t0 pre - t0) * ε) :=
  bound_of_lifted S x0 t0 _ (fun y k t => ‖ι y‖ ≤ ‖ι (lift S x0)‖ + (k * tol + (t - t0) * ε))
    (residuals_bdf1 ι tol ε f _ t0 (lift S x0) (lspg_residuals ι tol ε htol .BDF1 R.scheme S f _ t0 x0 (R.time t0 x0) hR) hε (fun r hr => by obtain ⟨r', h1, rfl⟩ := List.mem_map.1 hr; exact hdt r' h1) hdiss)

/-- **C82, BDF2, dissipative full-order model.** -/
theorem C82_bdf2_dissipative (ι : (m → ℝ) →ₗ[ℝ] E) (S : Trial ℝ m n) (F : Fom ℝ m m n) (f : (m → ℝ) → ℝ → m → ℝ) (mem : SMem ℝ (n → ℝ) (n → ℝ) (LMem ℝ m m n)) (atts : List (Attempt ℝ (n → ℝ) ((m → ℝ) × Option (Matrix m n ℝ)))) (t0 : ℝ) (x0 : n → ℝ) (R : LspgRun .BDF2 S F f mem atts) (tol ε : ℝ) (htol : 0 ≤ tol) (hε : 0 ≤ ε)
    (hR : LeavesResiduals ι tol ε .BDF2 S f (drive (stepWith .BDF2 (defaultPolicy S F)) atts t0 [x0] x0 mem) x0) (hdt : ∀ r ∈ drive (stepWith .BDF2 (defaultPolicy S F)) atts t0 [x0] x0 mem, 0 ≤ r.dt)
    (hdiss : ∀ y t, ⟪ι (f y t), ι y⟫ ≤ 0) :
    ∀ pre post, drive (stepWith .BDF2 (defaultPolicy S F)) atts t0 [x0] x0 mem = pre ++ post → ∃ x l, accepted x0 pre = x :: l ∧
      ‖ι (lift S x)‖ ≤ Real.sqrt 2 * ‖ι (lift S x0)‖ + 6 * (l.length * tol + (timeAfter t0 pre - t0) * ε) :=
  bound_of_lifted S x0 t0 _ (fun y k t => ‖ι y‖ ≤ Real.sqrt 2 * ‖ι (lift S x0)‖ + 6 * (k * tol + (t - t0) * ε))
    (residuals_bdf2 ι tol ε f _ t0 (lift S x0) (lspg_residuals ι tol ε htol .BDF2 R.scheme S f _ t0 x0 (R.time t0 x0) hR) hε (fun r hr => by obtain ⟨r', h1, rfl⟩ := List.mem_map.1 hr; exact hdt r' h1) hdiss)

/-- **C82, BDF1, monotone full-order model.** The reconstructed states differ from the exact solution of the full-order model by at most the initial error, the residuals left by the steps, and the first-order error of the scheme. -/
theorem C82_bdf1_monotone (ι : (m → ℝ) →ₗ[ℝ] E) (S : Trial ℝ m n) (F : Fom ℝ m m n) (f : (m → ℝ) → ℝ → m → ℝ) (mem : SMem ℝ (n → ℝ) (n → ℝ) (LMem ℝ m m n)) (atts : List (Attempt ℝ (n → ℝ) ((m → ℝ) × Option (Matrix m n ℝ)))) (t0 : ℝ) (x0 : n → ℝ) (R : LspgRun .BDF1 S F f mem atts) (tol ε : ℝ) (htol : 0 ≤ tol) (hε : 0 ≤ ε)
    (hR : LeavesResiduals ι tol ε .BDF1 S f (drive (stepWith .BDF1 (defaultPolicy S F)) atts t0 [x0] x0 mem) x0) (H T : ℝ) (hS : StepsIn (fun h => h ≤ H) T (drive (stepWith .BDF1 (defaultPolicy S F)) atts t0 [x0] x0 mem))
    (hmono : ∀ y z t, ⟪ι (f y t) - ι (f z t), ι y - ι z⟫ ≤ 0) (ψ : ℝ → m → ℝ) (M : ℝ) (hM0 : 0 ≤ M) (hH : 0 ≤ H) (hψ : SolvesIn ι f ψ t0 T) (hM : Smooth1In ι f ψ M t0 T) :
    ∀ pre post, drive (stepWith .BDF1 (defaultPolicy S F)) atts t0 [x0] x0 mem = pre ++ post → ∃ x l, accepted x0 pre = x :: l ∧
      ‖ι (lift S x) - ι (ψ (timeAfter t0 pre))‖ ≤ ‖ι (lift S x0) - ι (ψ t0)‖ + (l.length * tol + (timeAfter t0 pre - t0) * (ε + M * H / 2)) :=
  bound_of_lifted S x0 t0 _ (fun y k t => ‖ι y - ι (ψ (t))‖ ≤ ‖ι (lift S x0) - ι (ψ t0)‖ + (k * tol + (t - t0) * (ε + M * H / 2)))
    (residuals_bdf1_monotone ι tol ε f _ t0 (lift S x0) (lspg_residuals ι tol ε htol .BDF1 R.scheme S f _ t0 x0 (R.time t0 x0) hR) hε H T (stepsIn_lift S _ T _ hS) hmono ψ M hM0 hH hψ hM)

/-- **C82, BDF2, monotone full-order model, constant steps**: second order up to the residuals left. -/
theorem C82_bdf2_monotone (ι : (m → ℝ) →ₗ[ℝ] E) (S : Trial ℝ m n) (F : Fom ℝ m m n) (f : (m → ℝ) → ℝ → m → ℝ) (mem : SMem ℝ (n → ℝ) (n → ℝ) (LMem ℝ m m n)) (atts : List (Attempt ℝ (n → ℝ) ((m → ℝ) × Option (Matrix m n ℝ)))) (t0 : ℝ) (x0 : n → ℝ) (R : LspgRun .BDF2 S F f mem atts) (tol ε : ℝ) (htol : 0 ≤ tol) (hε : 0 ≤ ε)
    (hR : LeavesResiduals ι tol ε .BDF2 S f (drive (stepWith .BDF2 (defaultPolicy S F)) atts t0 [x0] x0 mem) x0) (η T : ℝ) (hS : StepsIn (fun h => h = η) T (drive (stepWith .BDF2 (defaultPolicy S F)) atts t0 [x0] x0 mem))
    (hmono : ∀ y z t, ⟪ι (f y t) - ι (f z t), ι y - ι z⟫ ≤ 0) (ψ : ℝ → m → ℝ) (ψ2 : ℝ → E) (M2 M3 : ℝ) (hM20 : 0 ≤ M2) (hM30 : 0 ≤ M3) (hψ : SolvesIn ι f ψ t0 T) (hM : Smooth2In ι f ψ ψ2 M2 M3 t0 T) :
    ∀ pre post, drive (stepWith .BDF2 (defaultPolicy S F)) atts t0 [x0] x0 mem = pre ++ post → ∃ x l, accepted x0 pre = x :: l ∧
      ‖ι (lift S x) - ι (ψ (timeAfter t0 pre))‖ ≤ Real.sqrt 2 * ‖ι (lift S x0) - ι (ψ t0)‖ + 3 * M2 * η ^ 2 + 6 * (l.length * tol) + (timeAfter t0 pre - t0) * (6 * ε + 4 * M3 * η ^ 2) :=
  bound_of_lifted S x0 t0 _ (fun y k t => ‖ι y - ι (ψ (t))‖ ≤ Real.sqrt 2 * ‖ι (lift S x0) - ι (ψ t0)‖ + 3 * M2 * η ^ 2 + 6 * (k * tol) + (t - t0) * (6 * ε + 4 * M3 * η ^ 2))
    (residuals_bdf2_monotone ι tol ε f _ t0 (lift S x0) (lspg_residuals ι tol ε htol .BDF2 R.scheme S f _ t0 x0 (R.time t0 x0) hR) hε η T (stepsIn_lift S _ T _ hS) hmono ψ ψ2 M2 M3 hM20 hM30 hψ hM)

/-- **C82, BDF1, Lipschitz full-order model.** -/
theorem C82_bdf1_lipschitz (ι : (m → ℝ) →ₗ[ℝ] E) (S : Trial ℝ m n) (F : Fom ℝ m m n) (f : (m → ℝ) → ℝ → m → ℝ) (mem : SMem ℝ (n → ℝ) (n → ℝ) (LMem ℝ m m n)) (atts : List (Attempt ℝ (n → ℝ) ((m → ℝ) × Option (Matrix m n ℝ)))) (t0 : ℝ) (x0 : n → ℝ) (R : LspgRun .BDF1 S F f mem atts) (tol ε : ℝ) (htol : 0 ≤ tol) (hε : 0 ≤ ε)
    (hR : LeavesResiduals ι tol ε .BDF1 S f (drive (stepWith .BDF1 (defaultPolicy S F)) atts t0 [x0] x0 mem) x0) (H T : ℝ) (hS : StepsIn (fun h => h ≤ H) T (drive (stepWith .BDF1 (defaultPolicy S F)) atts t0 [x0] x0 mem))
    (L : ℝ) (hL : 0 ≤ L) (hHL : H * L ≤ 1 / 2) (hlip : ∀ y z t, ‖ι (f y t) - ι (f z t)‖ ≤ L * ‖ι y - ι z‖) (ψ : ℝ → m → ℝ) (M : ℝ) (hM0 : 0 ≤ M) (hH : 0 ≤ H) (hψ : SolvesIn ι f ψ t0 T) (hM : Smooth1In ι f ψ M t0 T) :
    ∀ pre post, drive (stepWith .BDF1 (defaultPolicy S F)) atts t0 [x0] x0 mem = pre ++ post → ∃ x l, accepted x0 pre = x :: l ∧
      ‖ι (lift S x) - ι (ψ (timeAfter t0 pre))‖ ≤ Real.exp (2 * L * (timeAfter t0 pre - t0)) * (‖ι (lift S x0) - ι (ψ t0)‖ + (l.length * tol + (timeAfter t0 pre - t0) * (ε + M * H / 2))) :=
  bound_of_lifted S x0 t0 _ (fun y k t => ‖ι y - ι (ψ (t))‖ ≤ Real.exp (2 * L * (t - t0)) * (‖ι (lift S x0) - ι (ψ t0)‖ + (k * tol + (t - t0) * (ε + M * H / 2))))
    (residuals_bdf1_lipschitz ι tol ε f _ t0 (lift S x0) (lspg_residuals ι tol ε htol .BDF1 R.scheme S f _ t0 x0 (R.time t0 x0) hR) hε H T (stepsIn_lift S _ T _ hS) L hL hHL hlip ψ M hM0 hH hψ hM)

/-- **C82, BDF2, Lipschitz full-order model, constant steps**: second order up to the residuals left. -/
theorem C82_bdf2_lipschitz (ι : (m → ℝ) →ₗ[ℝ] E) (S : Trial ℝ m n) (F : Fom ℝ m m n) (f : (m → ℝ) → ℝ → m → ℝ) (mem : SMem ℝ (n → ℝ) (n → ℝ) (LMem ℝ m m n)) (atts : List (Attempt ℝ (n → ℝ) ((m → ℝ) × Option (Matrix m n ℝ)))) (t0 : ℝ) (x0 : n → ℝ) (R : LspgRun .BDF2 S F f mem atts) (tol ε : ℝ) (htol : 0 ≤ tol) (hε : 0 ≤ ε)
    (hR : LeavesResiduals ι tol ε .BDF2 S f (drive (stepWith .BDF2 (defaultPolicy S F)) atts t0 [x0] x0 mem) x0) (η T : ℝ) (hS : StepsIn (fun h => h = η) T (drive (stepWith .BDF2 (defaultPolicy S F)) atts t0 [x0] x0 mem))
    (L : ℝ) (hL : 0 ≤ L) (hHL : 6 * (η * L) ≤ 1 / 2) (hlip : ∀ y z t, ‖ι (f y t) - ι (f z t)‖ ≤ L * ‖ι y - ι z‖) (ψ : ℝ → m → ℝ) (ψ2 : ℝ → E) (M2 M3 : ℝ) (hM20 : 0 ≤ M2) (hM30 : 0 ≤ M3)
    (hψ : SolvesIn ι f ψ t0 T) (hM : Smooth2In ι f ψ ψ2 M2 M3 t0 T) :
    ∀ pre post, drive (stepWith .BDF2 (defaultPolicy S F)) atts t0 [x0] x0 mem = pre ++ post → ∃ x l, accepted x0 pre = x :: l ∧
      ‖ι (lift S x) - ι (ψ (timeAfter t0 pre))‖ ≤ Real.exp (12 * L * (timeAfter t0 pre - t0)) * (Real.sqrt 2 * ‖ι (lift S x0) - ι (ψ t0)‖ + 3 * M2 * η ^ 2 + 6 * (l.length * tol) + (timeAfter t0 pre - t0) * (6 * ε + 4 * M3 * η ^ 2)) :=
  bound_of_lifted S x0 t0 _ (fun y k t => ‖ι y - ι (ψ (t))‖ ≤ Real.exp (12 * L * (t - t0)) * (Real.sqrt 2 * ‖ι (lift S x0) - ι (ψ t0)‖ + 3 * M2 * η ^ 2 + 6 * (k * tol) + (t - t0) * (6 * ε + 4 * M3 * η ^ 2)))
    (residuals_bdf2_lipschitz ι tol ε f _ t0 (lift S x0) (lspg_residuals ι tol ε htol .BDF2 R.scheme S f _ t0 x0 (R.time t0 x0) hR) hε η T (stepsIn_lift S _ T _ hS) L hL hHL hlip ψ ψ2 M2 M3 hM20 hM30 hψ hM)

end

/-! ### Gauss-Newton on linear full-order models -/
section
variable {m n P L : Type} [Fintype m] [Fintype n] [DecidableEq n] [Fintype P]
local notation "⟪" x ", " y "⟫" => @inner ℝ _ _ x y

/-- minimising `‖g s - y‖` over the multiples of `g` at `s = 1` -/
theorem minimal_norm_le (g y : m → ℝ) (h : ∀ s : ℝ, (g - y) ⬝ᵥ (g - y) ≤ (s • g - y) ⬝ᵥ (s • g - y)) : ‖eu m g‖ ≤ ‖eu m y‖ := by
  have e : ∀ s : ℝ, (s • g - y) ⬝ᵥ (s • g - y) = s ^ 2 * (g ⬝ᵥ g) - 2 * s * (g ⬝ᵥ y) + y ⬝ᵥ y := by
    intro s
    simp only [sub_dotProduct, dotProduct_sub, smul_dotProduct, dotProduct_smul, smul_eq_mul, dotProduct_comm y g]
    ring
  have e1 : (g - y) ⬝ᵥ (g - y) = g ⬝ᵥ g - 2 * (g ⬝ᵥ y) + y ⬝ᵥ y := by
    have := e 1
    rw [one_smul] at this
    rw [this]; ring
  have ha : 0 ≤ g ⬝ᵥ g := by rw [← eu_norm_mul]; exact mul_self_nonneg _
  rcases ha.eq_or_lt with h0 | h0
  · have : ‖eu m g‖ = 0 := by
      have := eu_norm_mul g
      rw [← h0] at this
      simpa using this
    rw [this]; exact norm_nonneg _
  · have hs := h (g ⬝ᵥ y / g ⬝ᵥ g)
    rw [e1, e] at hs
    have hq : (g ⬝ᵥ g - g ⬝ᵥ y) ^ 2 ≤ 0 := by
      have h1 : (g ⬝ᵥ y / g ⬝ᵥ g) ^ 2 * (g ⬝ᵥ g) - 2 * (g ⬝ᵥ y / g ⬝ᵥ g) * (g ⬝ᵥ y) = - ((g ⬝ᵥ y) ^ 2 / (g ⬝ᵥ g)) := by
        field_simp; ring
      have h2 : g ⬝ᵥ g - 2 * (g ⬝ᵥ y) ≤ - ((g ⬝ᵥ y) ^ 2 / (g ⬝ᵥ g)) := by linarith
      have h3 := mul_le_mul_of_nonneg_right h2 ha
      rw [neg_mul, div_mul_cancel₀ _ h0.ne'] at h3
      nlinarith
    have hab : g ⬝ᵥ g = g ⬝ᵥ y := by
      have := pow_eq_zero_iff (n := 2) (by norm_num) |>.1 (le_antisymm hq (sq_nonneg _))
      linarith
    have h1 : ‖eu m g‖ * ‖eu m g‖ ≤ ‖eu m g‖ * ‖eu m y‖ := by
      rw [eu_norm_mul, hab, ← eu_inner]; exact real_inner_le_norm _ _
    have h2 : 0 < ‖eu m g‖ := by
      rcases (norm_nonneg (eu m g)).eq_or_lt with h | h
      · have := eu_norm_mul g
        rw [← h] at this
        simp at this
        linarith
      · exact h
    exact le_of_mul_le_mul_left h1 h2

/-- **C82, BDF1 with Gauss-Newton on a linear dissipative full-order model** `y' = A(t) y`, trial subspace without shift, any basis (not only orthonormal ones): the norm of the reconstructed state never increases, for steps
    of any size, whatever the stopping criterion and its tolerance, and every attempt is accepted. -/
theorem C82_gauss_newton_contraction {F : Fom ℝ m m n} {A : ℝ → Matrix m m ℝ} {Mm : (m → ℝ) → ℝ → Except Exc (Matrix m m ℝ)} (hF : FomIs F (fun y t => .ok (A t *ᵥ y)) (fun _ t => .ok (A t)) Mm)
    (hdiss : ∀ t y, (A t *ᵥ y) ⬝ᵥ y ≤ 0) (S : Trial ℝ m n) (haff : S.isAffine = false) (mem : SMem ℝ (n → ℝ) (n → ℝ) (LMem ℝ m m n)) (hmem : LspgReady .BDF1 mem)
    (env : Env ℝ m n P L) (cfg : Cfg ℝ) (sol : Matrix n n ℝ → (n → ℝ) → n → ℝ) (tick : L → L) (hlin : ∀ A b c l, env.lin A b (c, l) = .ok () (sol A b, tick l)) (hupd : cfg.update = .Standard) (hmax : cfg.maxIters < int32Max)
    (h1 : 1 ≤ cfg.maxIters) (reg : Reg ℝ m n P L) (hreg : LsIdle reg) (dts : List ℝ) (hdt : ∀ h ∈ dts, 0 ≤ h) (t0 : ℝ) (x0 : n → ℝ)
    (hsol : ∀ h ∈ dts, ∀ t, let G := S.basis - h • (A t * S.basis); ∀ d, (Gᵀ * G) *ᵥ sol (Gᵀ * G) d = d) :
    ∀ pre post r, driveObj (stepWith .BDF1 (defaultPolicy S F)) (Model.Nonlinear.lsSolve env cfg .gn) dts t0 [x0] x0 mem reg = pre ++ r :: post →
      r.stop = none ∧ ∃ xn older, accepted x0 pre = xn :: older ∧ ‖eu m (lift S r.y)‖ ≤ ‖eu m (lift S xn)‖ := by
  intro pre post r e
  have hlin0 : ∀ x, lift S x = S.basis *ᵥ x := fun x => by simp [lift, haff]
  have hr : r.dt ∈ dts := driveObj_dts _ _ dts t0 [x0] x0 mem reg r (by rw [e]; simp)
  obtain ⟨g1, xn, older, g2, g3, g4⟩ := C67_linear_fom (b := fun _ => 0) (by simpa using hF) S .BDF1 (.inl rfl) mem hmem env cfg sol tick hlin hupd hmax h1 reg hreg dts t0 x0 pre post r e (hsol r.dt hr _)
  refine ⟨g1, xn, older, g2, ?_⟩
  rcases g4 with g4 | ⟨g4, -⟩
  · -- `G z = Phi z - dt A Phi z`
    have hres : ∀ z, lspgRes .BDF1 S (fun y t => A t *ᵥ y + 0) (xn :: older) r.t r.dt z = (S.basis *ᵥ z - r.dt • (A (r.t + r.dt) *ᵥ (S.basis *ᵥ z))) - lift S xn := by
      intro z
      simp only [lspgRes, combination, coef, List.map_cons, hlin0, add_zero]
      abel
    have hmin : ‖eu m (S.basis *ᵥ r.y - r.dt • (A (r.t + r.dt) *ᵥ (S.basis *ᵥ r.y)))‖ ≤ ‖eu m (lift S xn)‖ := by
      refine minimal_norm_le _ _ (fun s => ?_)
      have := g4 (s • r.y)
      rw [hres, hres] at this
      rw [Matrix.mulVec_smul, Matrix.mulVec_smul, smul_comm r.dt s, ← smul_sub] at this
      exact this
    refine le_trans ?_ hmin
    rw [hlin0]
    set y := S.basis *ᵥ r.y with hy
    have hi : ‖eu m y‖ * ‖eu m y‖ ≤ ‖eu m (y - r.dt • (A (r.t + r.dt) *ᵥ y))‖ * ‖eu m y‖ := by
      refine le_trans ?_ (real_inner_le_norm _ _)
      rw [eu_norm_mul, eu_inner, sub_dotProduct, smul_dotProduct, smul_eq_mul]
      have := mul_nonpos_of_nonneg_of_nonpos (hdt _ hr) (hdiss (r.t + r.dt) y)
      linarith
    rcases (norm_nonneg (eu m y)).eq_or_lt with h0 | h0
    · rw [← h0]; exact norm_nonneg _
    · exact le_of_mul_le_mul_right hi h0
  · rw [g4]

/-- hence at every point of the run the norm is at most the initial one -/
theorem C82_gauss_newton_stable {F : Fom ℝ m m n} {A : ℝ → Matrix m m ℝ} {Mm : (m → ℝ) → ℝ → Except Exc (Matrix m m ℝ)} (hF : FomIs F (fun y t => .ok (A t *ᵥ y)) (fun _ t => .ok (A t)) Mm)
    (hdiss : ∀ t y, (A t *ᵥ y) ⬝ᵥ y ≤ 0) (S : Trial ℝ m n) (haff : S.isAffine = false) (mem : SMem ℝ (n → ℝ) (n → ℝ) (LMem ℝ m m n)) (hmem : LspgReady .BDF1 mem)
    (env : Env ℝ m n P L) (cfg : Cfg ℝ) (sol : Matrix n n ℝ → (n → ℝ) → n → ℝ) (tick : L → L) (hlin : ∀ A b c l, env.lin A b (c, l) = .ok () (sol A b, tick l)) (hupd : cfg.update = .Standard) (hmax : cfg.maxIters < int32Max)
    (h1 : 1 ≤ cfg.maxIters) (reg : Reg ℝ m n P L) (hreg : LsIdle reg) (dts : List ℝ) (hdt : ∀ h ∈ dts, 0 ≤ h) (t0 : ℝ) (x0 : n → ℝ)
    (hsol : ∀ h ∈ dts, ∀ t, let G := S.basis - h • (A t * S.basis); ∀ d, (Gᵀ * G) *ᵥ sol (Gᵀ * G) d = d) :
    ∀ pre post, driveObj (stepWith .BDF1 (defaultPolicy S F)) (Model.Nonlinear.lsSolve env cfg .gn) dts t0 [x0] x0 mem reg = pre ++ post → ∃ x l, accepted x0 pre = x :: l ∧ l.length = pre.length ∧ ‖eu m (lift S x)‖ ≤ ‖eu m (lift S x0)‖ := by
  have key := C82_gauss_newton_contraction hF hdiss S haff mem hmem env cfg sol tick hlin hupd hmax h1 reg hreg dts hdt t0 x0 hsol
  intro pre
  induction pre using List.reverseRecOn with
  | nil => intro post _; exact ⟨x0, [], rfl, rfl, le_rfl⟩
  | append_singleton pre r ih =>
    intro post e
    have e' : driveObj (stepWith .BDF1 (defaultPolicy S F)) (Model.Nonlinear.lsSolve env cfg .gn) dts t0 [x0] x0 mem reg = pre ++ r :: post := by rw [e]; simp
    obtain ⟨h2, xn, older, h3, h4⟩ := key pre post r e'
    obtain ⟨x, l, h5, h6, h7⟩ := ih (r :: post) e'
    rw [h5] at h3
    obtain ⟨rfl, rfl⟩ := List.cons.inj h3
    refine ⟨r.y, x :: l, ?_, by simp [h6], h4.trans h7⟩
    rw [accepted_snoc, if_pos (by rw [h2]; rfl), h5]

/-- **C82, Gauss-Newton on a linear full-order model** `y' = A(t) y + b(t)` (any trial space, affine or not), with a criterion that is never met at the initial guess: every accepted state leaves a full-order residual no larger than that of any
    other reduced state. -/
theorem C82_gauss_newton_leaves_best {F : Fom ℝ m m n} {A : ℝ → Matrix m m ℝ} {b : ℝ → m → ℝ} {Mm : (m → ℝ) → ℝ → Except Exc (Matrix m m ℝ)} (hF : FomIs F (fun y t => .ok (A t *ᵥ y + b t)) (fun _ t => .ok (A t)) Mm)
    (name : Scheme) (hname : name = .BDF1 ∨ name = .BDF2) (S : Trial ℝ m n) (mem : SMem ℝ (n → ℝ) (n → ℝ) (LMem ℝ m m n)) (hmem : LspgReady name mem)
    (env : Env ℝ m n P L) (cfg : Cfg ℝ) (sol : Matrix n n ℝ → (n → ℝ) → n → ℝ) (tick : L → L) (hlin : ∀ A b c l, env.lin A b (c, l) = .ok () (sol A b, tick l)) (hupd : cfg.update = .Standard) (hmax : cfg.maxIters < int32Max)
    (h1 : 1 ≤ cfg.maxIters) (reg : Reg ℝ m n P L) (hreg : LsIdle reg) (dts : List ℝ) (t0 : ℝ) (x0 : n → ℝ) (hfirst : ∀ nrm : Norms ℝ, lsMet cfg nrm nrm 0 = false)
    (hsol : ∀ h ∈ dts, ∀ t, ∀ c ∈ [h, 2 / 3 * h], let G := S.basis - c • (A t * S.basis); ∀ d, (Gᵀ * G) *ᵥ sol (Gᵀ * G) d = d) :
    ∀ pre post r, driveObj (stepWith name (defaultPolicy S F)) (Model.Nonlinear.lsSolve env cfg .gn) dts t0 [x0] x0 mem reg = pre ++ r :: post →
      r.stop = none ∧ r.t = timeAfter t0 pre ∧ ∀ z, ‖eu m (lspgRes name S (fun y t => A t *ᵥ y + b t) (accepted x0 pre) r.t r.dt r.y)‖ ≤ ‖eu m (lspgRes name S (fun y t => A t *ᵥ y + b t) (accepted x0 pre) r.t r.dt z)‖ := by
  intro pre post r e
  have hr : r.dt ∈ dts := driveObj_dts _ _ dts t0 [x0] x0 mem reg r (by rw [e]; simp)
  obtain ⟨xn, older, ha⟩ := accepted_cons x0 pre
  have hc : coef name (accepted x0 pre) r.dt ∈ [r.dt, 2 / 3 * r.dt] := by
    rw [ha]
    rcases hname with rfl | rfl
    · simp [coef]
    · cases older <;> simp [coef]
  obtain ⟨g1, xn', older', g2, g3, g4⟩ := C67_linear_fom hF S name hname mem hmem env cfg sol tick hlin hupd hmax h1 reg hreg dts t0 x0 pre post r e (hsol r.dt hr _ _ hc)
  refine ⟨g1, g3, fun z => ?_⟩
  rcases g4 with g4 | ⟨-, g4⟩
  · rw [g2]
    refine (mul_self_le_mul_self_iff (norm_nonneg _) (norm_nonneg _)).2 ?_
    rw [eu_norm_mul, eu_norm_mul]
    exact g4 z
  · rw [hfirst] at g4
    cases g4

/-- the criteria that are never met at the initial guess: a number of iterations of at least two, and relative criteria with tolerance at most one -/
theorem never_met_at_start (cfg : Cfg ℝ) (h : (cfg.stop = .AfterMaxIters ∧ 2 ≤ cfg.maxIters) ∨
      (cfg.stop ∈ [StopCrit.WhenRelativel2NormOfResidualBelowTolerance, .WhenRelativel2NormOfCorrectionBelowTolerance, .WhenRelativel2NormOfGradientBelowTolerance, .WhenRelativeObjectiveBelowTolerance] ∧ cfg.tol ≤ 1)) (nrm : Norms ℝ) :
    lsMet cfg nrm nrm 0 = false := by
  have hq : ∀ v : ℝ, cfg.tol ≤ 1 → (Model.Nonlinear.fdiv v v).lt cfg.tol = false := by
    intro v ht
    unfold Model.Nonlinear.fdiv
    split
    · rename_i h0
      simp [h0, Model.Nonlinear.Quot'.lt]
    · rename_i h0
      rw [div_self h0]
      simp only [Model.Nonlinear.Quot'.lt, decide_eq_false_iff_not, not_lt]
      exact ht
  rcases h with ⟨h1, h2⟩ | ⟨h1, h2⟩
  · simp only [lsMet, h1, if_true, decide_eq_false_iff_not]
    omega
  · simp only [List.mem_cons, List.not_mem_nil, or_false] at h1
    rcases h1 with h1 | h1 | h1 | h1 <;> simp [lsMet, h1, below, hq _ h2]

/-- **C82, error of Gauss-Newton LSPG runs with BDF1** on a linear dissipative full-order model: if in every step some reduced state leaves a full-order residual of at most `tol + dt ε`, the reconstructed states
    differ from the exact solution of the full-order model by at most the initial error plus `tol` for every step plus the elapsed time times `ε` plus the first-order error of the scheme. -/
theorem C82_gauss_newton_error {F : Fom ℝ m m n} {A : ℝ → Matrix m m ℝ} {b : ℝ → m → ℝ} {Mm : (m → ℝ) → ℝ → Except Exc (Matrix m m ℝ)} (hF : FomIs F (fun y t => .ok (A t *ᵥ y + b t)) (fun _ t => .ok (A t)) Mm)
    (hdiss : ∀ t y, (A t *ᵥ y) ⬝ᵥ y ≤ 0) (S : Trial ℝ m n) (mem : SMem ℝ (n → ℝ) (n → ℝ) (LMem ℝ m m n)) (hmem : LspgReady .BDF1 mem)
    (env : Env ℝ m n P L) (cfg : Cfg ℝ) (sol : Matrix n n ℝ → (n → ℝ) → n → ℝ) (tick : L → L) (hlin : ∀ A b c l, env.lin A b (c, l) = .ok () (sol A b, tick l)) (hupd : cfg.update = .Standard) (hmax : cfg.maxIters < int32Max)
    (h1 : 1 ≤ cfg.maxIters) (reg : Reg ℝ m n P L) (hreg : LsIdle reg) (dts : List ℝ) (t0 : ℝ) (x0 : n → ℝ) (hfirst : ∀ nrm : Norms ℝ, lsMet cfg nrm nrm 0 = false)
    (hsol : ∀ h ∈ dts, ∀ t, ∀ c ∈ [h, 2 / 3 * h], let G := S.basis - c • (A t * S.basis); ∀ d, (Gᵀ * G) *ᵥ sol (Gᵀ * G) d = d) (tol ε : ℝ) (htol : 0 ≤ tol) (hε : 0 ≤ ε)
    (hbest : ∀ pre post r, driveObj (stepWith .BDF1 (defaultPolicy S F)) (Model.Nonlinear.lsSolve env cfg .gn) dts t0 [x0] x0 mem reg = pre ++ r :: post →
      ∃ z, ‖eu m (lspgRes .BDF1 S (fun y t => A t *ᵥ y + b t) (accepted x0 pre) r.t r.dt z)‖ ≤ tol + r.dt * ε)
    (H T : ℝ) (hS : StepsIn (fun h => h ≤ H) T (driveObj (stepWith .BDF1 (defaultPolicy S F)) (Model.Nonlinear.lsSolve env cfg .gn) dts t0 [x0] x0 mem reg)) (ψ : ℝ → m → ℝ) (M : ℝ) (hM0 : 0 ≤ M) (hH : 0 ≤ H)
    (hψ : SolvesIn (eu m) (fun y t => A t *ᵥ y + b t) ψ t0 T) (hM : Smooth1In (eu m) (fun y t => A t *ᵥ y + b t) ψ M t0 T) :
    ∀ pre post, driveObj (stepWith .BDF1 (defaultPolicy S F)) (Model.Nonlinear.lsSolve env cfg .gn) dts t0 [x0] x0 mem reg = pre ++ post → ∃ x l, accepted x0 pre = x :: l ∧
      ‖eu m (lift S x) - eu m (ψ (timeAfter t0 pre))‖ ≤ ‖eu m (lift S x0) - eu m (ψ t0)‖ + (l.length * tol + (timeAfter t0 pre - t0) * (ε + M * H / 2)) := by
  have key := C82_gauss_newton_leaves_best hF .BDF1 (.inl rfl) S mem hmem env cfg sol tick hlin hupd hmax h1 reg hreg dts t0 x0 hfirst hsol
  refine bound_of_lifted S x0 t0 _ (fun y k t => ‖eu m y - eu m (ψ t)‖ ≤ ‖eu m (lift S x0) - eu m (ψ t0)‖ + (k * tol + (t - t0) * (ε + M * H / 2)))
    (residuals_bdf1_monotone (eu m) tol ε (fun y t => A t *ᵥ y + b t) _ t0 (lift S x0) (lspg_residuals (eu m) tol ε htol .BDF1 (.inl rfl) S _ _ t0 x0 (fun pre post r e => (key pre post r e).2.1) ?_) hε H T (stepsIn_lift S _ T _ hS) ?_ ψ M hM0 hH hψ hM)
  · intro pre post r e hr
    obtain ⟨z, hz⟩ := hbest pre post r e
    exact ((key pre post r e).2.2 z).trans hz
  · intro y z t
    rw [← map_sub, ← map_sub, eu_inner, add_sub_add_right_eq_sub, ← Matrix.mulVec_sub]
    exact hdiss t _

/-- Runs with a least-squares solver object (any method and options) are runs of the kind the theorems above are about. -/
theorem C82_solver_object_runs {F : Fom ℝ m m n} {f : (m → ℝ) → ℝ → m → ℝ} {Df Mm : (m → ℝ) → ℝ → Except Exc (Matrix m m ℝ)} (hF : FomIs F (fun y t => .ok (f y t)) Df Mm) (hn : ∀ y t, Df y t ≠ .error .timeStepFailure)
    (name : Scheme) (hname : name = .BDF1 ∨ name = .BDF2) (S : Trial ℝ m n) (mem : SMem ℝ (n → ℝ) (n → ℝ) (LMem ℝ m m n)) (hmem : LspgReady name mem)
    (env : Env ℝ m n P L) (cfg : Cfg ℝ) (tag : Tag) (he : InnerHonest env tag) (h1 : 1 ≤ cfg.maxIters) (reg : Reg ℝ m n P L) (hreg : LsIdle reg) (dts : List ℝ) (t0 : ℝ) (x0 : n → ℝ) :
    ∃ atts, LspgRun name S F f mem atts ∧ atts.map (·.dt) = dts ∧
      driveObj (stepWith name (defaultPolicy S F)) (Model.Nonlinear.lsSolve env cfg tag) dts t0 [x0] x0 mem reg = drive (stepWith name (defaultPolicy S F)) atts t0 [x0] x0 mem := by
  have hs := fine_lsSolve env cfg tag he
  have hb := busy_lsSolve env cfg tag h1
  have hno : FomNoTSF (fun y t => .ok (f y t)) Df := ⟨fun _ _ => by simp, hn⟩
  have hrun := hmem
  obtain ⟨hm1, hm2, hm3⟩ := hmem
  have hpol := (lspgPolicy_refines name hname S _ _ (assembleDefault_ok hF S) (mem.pol.data.getD 1 0)).congrF (fun y prev t dt x w => equations_lspg name hname S (fun y t => .ok (f y t)) Df y prev t dt x w)
  have hgood := good_start (numStates name) S x0 mem.pol hm2 (by rcases hname with rfl | rfl <;> simp [numStates]) hm3
  suffices h : ∃ atts : List (Attempt ℝ (n → ℝ) ((m → ℝ) × Option (Matrix m n ℝ))), (∀ a ∈ atts, ∃ reg, LsIdle reg ∧ a.solver = solverOf (Model.Nonlinear.lsSolve env cfg tag) reg) ∧ atts.map (·.dt) = dts ∧
      driveObj (stepWith name (defaultPolicy S F)) (Model.Nonlinear.lsSolve env cfg tag) dts t0 [x0] x0 mem reg = drive (stepWith name (defaultPolicy S F)) atts t0 [x0] x0 mem by
    obtain ⟨atts, ha, hd, e⟩ := h
    refine ⟨atts, ⟨hname, ⟨Df, Mm, hF, hn⟩, hrun, ?_, ?_⟩, hd, e⟩
    · intro a haa y
      obtain ⟨rg, -, hs'⟩ := ha a haa
      rw [hs']; exact honest_solverOf _ hs rg y
    · intro a haa y
      obtain ⟨rg, -, hs'⟩ := ha a haa
      rw [hs']; exact asks_solverOf _ hb rg y
  have hQ : ∀ (reg : Reg ℝ m n P L) (y : n → ℝ) hist t dt, LsIdle reg → LsIdle (SM.run (lspg name S (fun y t => .ok (f y t)) Df hist t dt) (Model.Nonlinear.lsSolve env cfg tag) { reg with x := y }).state :=
    fun reg y hist t dt hl => lsIdle_run env cfg tag _ (lspg_wellTyped name S _ Df hist t dt) reg y hl
  rcases hname with rfl | rfl
  · exact driveObj_eq_drive Asks _ _ _ (refinesOn_asks (refines_bdf1_asked _ _ _ _ hpol)) (lspg_ne hno .BDF1 S) _ hs (asks_solverOf _ hb) LsIdle hQ dts t0 x0 [] mem reg ⟨hm1, hgood⟩ hreg
  · obtain ⟨a, b, hab⟩ := List.length_eq_two.1 hm1
    exact driveObj_eq_drive Asks _ _ _ (refinesOn_asks (refines_bdf2_asked _ _ _ _ hpol)) (lspg_ne hno .BDF2 S) _ hs (asks_solverOf _ hb) LsIdle hQ dts t0 x0 [] mem reg ⟨⟨a, b, hab, by simp⟩, hgood⟩ hreg

end

/-! ### Concrete runs -/
section Examples

/-- user objects for one unknown and two equations -/
noncomputable def envL : Env ℝ (Fin 2) Unit Unit Unit where
  normM := fun v => ‖eu (Fin 2) v‖
  normN := fun v => |v ()|
  lin := fun A b (_, l) => .ok () (fun _ => b () / A () (), l)
  linJ := fun _ _ s => .ok () s
  applyJac := fun _ _ r => r
  krylov := fun _ _ c => .ok () c
  qrThin := fun _ l => .ok () l
  qrApplyQT := fun _ s => .ok () s
  qrSolve := fun b (_, l) => .ok () (b, l)
  wR := id
  wJ := id
  cwR := fun _ _ => 0
  cwJ := fun _ _ => 0
  createState := 0

/-- a new Gauss-Newton object -/
noncomputable def regL : Reg ℝ (Fin 2) Unit Unit Unit where
  x := 0
  trial := 7
  c := 7
  r := 7
  J := fun _ _ => 7
  g := 7
  H := 7
  H0 := 7
  damp := 7
  Wr := 7
  WJ := fun _ _ => 7
  cWr := 7
  cWJ := 7
  QTr := 7
  nu := 7
  cDiagH := 7
  lin := ()
  diag := Model.Nonlinear.newContainer leastSquaresDiagnostics
  files := []
  log := []

/-- the default criterion (norm of the correction) with this tolerance, ten iterations -/
noncomputable def cfgL (tol : ℝ) : Cfg ℝ := ⟨10, .WhenAbsolutel2NormOfCorrectionBelowTolerance, tol, .Standard, none⟩

/-- a new LSPG problem with BDF1 -/
noncomputable def lspgL : SMem ℝ (Unit → ℝ) (Unit → ℝ) (LMem ℝ (Fin 2) (Fin 2) Unit) := ⟨0, 0, 0, 0, [0], [], ⟨[0, 0], -1, 7, 7, fun _ _ => 7⟩⟩

theorem lspgL_ready : LspgReady .BDF1 lspgL := by
  simp [LspgReady, lspgL, Lemmas.Lspg.Sized, Lemmas.Lspg.numStates]

/-- a basis that is not normalised -/
noncomputable def longR : Trial ℝ (Fin 2) Unit := ⟨Matrix.of fun i _ => ![3, 4] i, 7, false⟩

theorem rotR_linear (c : ℝ) : FomIs (rotR c) (fun y _ => .ok ((!![-c, 1; -1, -c] : Matrix (Fin 2) (Fin 2) ℝ) *ᵥ y)) (fun _ _ => .ok !![-c, 1; -1, -c]) (fun _ _ => .ok 1) := by
  have h := rotR_is c
  have e : (fun (y : Fin 2 → ℝ) (_ : ℝ) => (Except.ok ((!![-c, 1; -1, -c] : Matrix (Fin 2) (Fin 2) ℝ) *ᵥ y) : Except Exc (Fin 2 → ℝ))) = fun y _ => .ok ![y 1 - c * y 0, - y 0 - c * y 1] := by
    funext y t
    congr 1
    funext i
    fin_cases i <;> simp [Matrix.mulVec, dotProduct, Fin.sum_univ_two] <;> ring
  rw [e]
  exact h

/-- C82 for the damped rotation (any damping `c ≥ 0`): any number of steps of any sizes, any tolerance -/
example (c : ℝ) (hc : 0 ≤ c) (tol : ℝ) (dts : List ℝ) (hdt : ∀ h ∈ dts, 0 ≤ h) (x0 : Unit → ℝ) :=
  C82_gauss_newton_stable (rotR_linear c) (fun _ y => by
      have := rotR_dissipative c y
      have h2 : 0 ≤ y ⬝ᵥ y := Finset.sum_nonneg (fun i _ => mul_self_nonneg _)
      have e : ((!![-c, 1; -1, -c] : Matrix (Fin 2) (Fin 2) ℝ) *ᵥ y) = ![y 1 - c * y 0, - y 0 - c * y 1] := by
        funext i
        fin_cases i <;> simp [Matrix.mulVec, dotProduct, Fin.sum_univ_two] <;> ring
      rw [e, this]
      nlinarith) longR rfl lspgL lspgL_ready envL (cfgL tol) (fun A b _ => b () / A () ()) id (fun _ _ _ _ => rfl) rfl (by simp [cfgL, int32Max]) (by simp [cfgL]) regL (fun _ => .created _ rfl) dts hdt 0 x0
    (by
      intro h hh t G d
      have h0 := hdt h hh
      have hG : (Gᵀ * G) () () = (3 - h * (-c * 3 + 4)) ^ 2 + (4 - h * (-3 - c * 4)) ^ 2 := by
        simp [G, longR, Matrix.mul_apply, Matrix.transpose_apply, Fin.sum_univ_two, Matrix.vecHead, Matrix.vecTail]
        ring
      have hpos : 0 < (Gᵀ * G) () () := by
        rw [hG]
        have : 0 < 4 - h * (-3 - c * 4) := by nlinarith [mul_nonneg h0 hc]
        positivity
      funext u
      simp only [Matrix.mulVec, dotProduct, Finset.univ_unique, Finset.sum_singleton]
      rw [show (default : Unit) = () from rfl, mul_div_cancel₀ _ hpos.ne'])

noncomputable def cfgRel (tol : ℝ) : Cfg ℝ := ⟨10, .WhenRelativel2NormOfGradientBelowTolerance, tol, .Standard, none⟩

theorem sag_linear : (fun (y : Fin 2 → ℝ) (t : ℝ) => (fun _ => -1 : ℝ → Matrix (Fin 2) (Fin 2) ℝ) t *ᵥ y + (fun _ => ![0, 1/10] : ℝ → Fin 2 → ℝ) t) = sagF := by
  funext y t i
  fin_cases i <;> simp [sagF, Matrix.neg_mulVec] <;> ring

theorem sagR_linear : FomIs sagR (fun y t => .ok ((fun _ => -1 : ℝ → Matrix (Fin 2) (Fin 2) ℝ) t *ᵥ y + (fun _ => ![0, 1/10] : ℝ → Fin 2 → ℝ) t)) (fun _ t => .ok ((fun _ => -1 : ℝ → Matrix (Fin 2) (Fin 2) ℝ) t)) (fun _ _ => .ok 1) := by
  have := sagR_is
  rw [← sag_linear] at this
  exact this

/-- the normal equations of every step are solved -/
theorem sag_normal (h c : ℝ) (h0 : 0 ≤ h) (hc : c ∈ [h, 2 / 3 * h]) (d : Unit → ℝ) :
    let G := firstR.basis - c • ((-1 : Matrix (Fin 2) (Fin 2) ℝ) * firstR.basis)
    (Gᵀ * G) *ᵥ (fun _ => d () / (Gᵀ * G) () ()) = d := by
  intro G
  have hc0 : 0 ≤ c := by
    simp only [List.mem_cons, List.not_mem_nil, or_false] at hc
    rcases hc with rfl | rfl <;> positivity
  have hG : (Gᵀ * G) () () = (1 + c) ^ 2 := by
    simp [G, firstR, Matrix.mul_apply, Matrix.transpose_apply, Fin.sum_univ_two]
    ring
  have hpos : (Gᵀ * G) () () ≠ 0 := by rw [hG]; positivity
  funext u
  simp only [Matrix.mulVec, dotProduct, Finset.univ_unique, Finset.sum_singleton]
  rw [show (default : Unit) = () from rfl, mul_div_cancel₀ _ hpos]

/-- some reduced state leaves the residual `dt / 10` -/
theorem sag_some (t dt : ℝ) (h0 : 0 ≤ dt) (xn : Unit → ℝ) (older : List (Unit → ℝ)) :
    ∃ z, ‖eu (Fin 2) (lspgRes .BDF1 firstR sagF (xn :: older) t dt z)‖ ≤ 0 + dt * (1/10) := by
  refine ⟨fun _ => xn () / (1 + dt), le_of_eq ?_⟩
  have e1 : lspgRes .BDF1 firstR sagF (xn :: older) t dt (fun _ => xn () / (1 + dt)) = dt • ![0, -1/10] := by
    have : (1:ℝ) + dt ≠ 0 := by positivity
    funext i
    fin_cases i
    · simp [lspgRes, combination, coef, firstR_lift, sagF]
      field_simp
      ring
    · simp [lspgRes, combination, coef, firstR_lift, sagF]
      ring
  rw [e1, map_smul, norm_smul, Real.norm_of_nonneg h0]
  have := eu_norm_mul (![0, -1/10] : Fin 2 → ℝ)
  rw [show (![0, -1/10] : Fin 2 → ℝ) ⬝ᵥ ![0, -1/10] = (1/10) * (1/10) by simp [dotProduct, Fin.sum_univ_two]; norm_num] at this
  rw [(mul_self_inj_of_nonneg (norm_nonneg _) (by norm_num)).1 this]
  ring

/-- C82 for `y' = (-y_0, 1/10 - y_1)` reduced to its first component: against the exact solution, all step sizes; the criterion is relative -/
example (tol : ℝ) (htol : tol ≤ 1) (H : ℝ) (dts : List ℝ) (hdt : ∀ h ∈ dts, 0 ≤ h ∧ h ≤ H) (hH : 0 ≤ H) :
    let run := driveObj (stepWith .BDF1 (defaultPolicy firstR sagR)) (Model.Nonlinear.lsSolve envL (cfgRel tol) .gn) dts 0 [fun _ => 1] (fun _ => 1) lspgL regL
    ∀ pre post, run = pre ++ post → ∃ x l, accepted (fun _ => 1) pre = x :: l ∧
      ‖eu (Fin 2) (lift firstR x) - eu (Fin 2) (sagExact (timeAfter 0 pre))‖ ≤ ‖eu (Fin 2) (lift firstR fun _ => 1) - eu (Fin 2) (sagExact 0)‖ + (l.length * 0 + (timeAfter 0 pre - 0) * (1/10 + ‖eu (Fin 2) ![1, -1/10]‖ * H / 2)) := by
  intro run
  obtain ⟨T, hT⟩ := exists_end run
  have hd : ∀ r ∈ run, r.dt ∈ dts := driveObj_dts _ _ dts 0 _ _ _ _
  have hnn : ∀ v : Fin 2 → ℝ, 0 ≤ v ⬝ᵥ v := fun v => Finset.sum_nonneg (fun i _ => mul_self_nonneg _)
  refine C82_gauss_newton_error sagR_linear (fun t y => by rw [Matrix.neg_mulVec, Matrix.one_mulVec, neg_dotProduct]; linarith [hnn y]) firstR lspgL lspgL_ready envL (cfgRel tol) (fun A b _ => b () / A () ()) id (fun _ _ _ _ => rfl) rfl
    (by simp [cfgRel, int32Max]) (by simp [cfgRel]) regL (fun _ => .created _ rfl) dts 0 (fun _ => 1) (never_met_at_start (cfgRel tol) (.inr ⟨by simp [cfgRel], htol⟩))
    (fun h hh t c hc d => sag_normal h c (hdt h hh).1 hc d) 0 (1/10) le_rfl (by norm_num) ?_ H T ?_ sagExact _ (norm_nonneg _) hH
    (by rw [sag_linear]; exact sag_solves T) (by rw [sag_linear]; exact sag_smooth T)
  · intro pre post r e
    have h0 := (hdt _ (hd r (by rw [show run = _ from e]; simp))).1
    obtain ⟨xn, older, ha⟩ := accepted_cons (fun _ : Unit => (1:ℝ)) pre
    rw [sag_linear, ha]
    exact sag_some r.t r.dt h0 xn older
  · intro r hr _
    exact ⟨(hdt _ (hd r hr)).2, (hdt _ (hd r hr)).1, hT r hr⟩

/-- the hypotheses of the theorems about runs with any solver are met, with the same bounds, for every list of nonnegative step sizes -/
example (tol : ℝ) (htol : tol ≤ 1) (dts : List ℝ) (hdt : ∀ h ∈ dts, 0 ≤ h) :
    ∃ atts, LspgRun .BDF1 firstR sagR sagF lspgL atts ∧ atts.map (·.dt) = dts ∧
      LeavesResiduals (eu (Fin 2)) 0 (1/10) .BDF1 firstR sagF (drive (stepWith .BDF1 (defaultPolicy firstR sagR)) atts 0 [fun _ => 1] (fun _ => 1) lspgL) (fun _ => 1) := by
  obtain ⟨atts, h1, h2, e⟩ := C82_solver_object_runs sagR_is (fun _ _ => by simp) .BDF1 (.inl rfl) firstR lspgL lspgL_ready envL (cfgRel tol) .gn (by intro A b c; simp [envL]) (by simp [cfgRel]) regL (fun _ => .created _ rfl) dts 0 (fun _ => 1)
  refine ⟨atts, h1, h2, ?_⟩
  rw [← e]
  intro pre post r e hr
  obtain ⟨xn, older, ha⟩ := accepted_cons (fun _ : Unit => (1:ℝ)) pre
  have key := (C82_gauss_newton_leaves_best sagR_linear .BDF1 (.inl rfl) firstR lspgL lspgL_ready envL (cfgRel tol) (fun A b _ => b () / A () ()) id (fun _ _ _ _ => rfl) rfl
    (by simp [cfgRel, int32Max]) (by simp [cfgRel]) regL (fun _ => .created _ rfl) dts 0 (fun _ => 1) (never_met_at_start (cfgRel tol) (.inr ⟨by simp [cfgRel], htol⟩))
    (fun h hh t c hc d => sag_normal h c (hdt h hh) hc d) pre post r e).2.2
  rw [sag_linear] at key
  obtain ⟨z, hz⟩ := sag_some r.t r.dt (hdt _ (driveObj_dts _ _ dts 0 _ _ _ _ r (by rw [e]; simp))) xn older
  rw [← ha] at hz
  exact (key z).trans hz

/-! The theorems about runs with any solver, on runs with this solver object, BDF1 and BDF2 -/

/-- the same full-order dynamics without the constant, reduced to the line `(x, 1/10)` -/
noncomputable def shiftR : Trial ℝ (Fin 2) Unit := ⟨firstR.basis, ![0, 1/10], true⟩
noncomputable def minusFom : Fom ℝ (Fin 2) (Fin 2) Unit := ⟨fun y _ _ => .ok (-y), fun _ B _ _ => .ok (-B), fun _ B _ _ => .ok B⟩
noncomputable def minusF : (Fin 2 → ℝ) → ℝ → Fin 2 → ℝ := fun y _ => -y
theorem minus_is : FomIs minusFom (fun y t => .ok (minusF y t)) (fun _ _ => .ok (-1)) (fun _ _ => .ok 1) where
  rhs := fun _ _ _ => rfl
  jac := fun _ _ _ _ => by simp [minusFom, Except.map, Except.mapError]
  mm := fun _ _ _ _ => by simp [minusFom, Except.map, Except.mapError]
theorem minus_linear : (fun (y : Fin 2 → ℝ) (t : ℝ) => (fun _ => -1 : ℝ → Matrix (Fin 2) (Fin 2) ℝ) t *ᵥ y + (fun _ => 0 : ℝ → Fin 2 → ℝ) t) = minusF := by
  funext y t; simp [minusF, Matrix.neg_mulVec]
theorem shiftR_lift (x : Unit → ℝ) : lift shiftR x = ![x (), 1/10] := by
  funext i; fin_cases i <;> simp [lift, shiftR, firstR, Matrix.mulVec, dotProduct]

theorem lspgRes_some (name : Scheme) (hname : name = .BDF1 ∨ name = .BDF2) (S : Trial ℝ (Fin 2) Unit) (f : (Fin 2 → ℝ) → ℝ → Fin 2 → ℝ) (a b : ℝ) (hS : ∀ x, lift S x = ![x (), a]) (hf : ∀ y t, f y t = ![-y 0, b - y 1]) (hab : |b - a| = 1 / 10)
    (t dt : ℝ) (h0 : 0 ≤ dt) (xn : Unit → ℝ) (older : List (Unit → ℝ)) : ∃ z, ‖eu (Fin 2) (lspgRes name S f (xn :: older) t dt z)‖ ≤ 0 + dt * (1/10) := by
  have key : ∀ c, 0 ≤ c → c ≤ dt → ‖eu (Fin 2) ![0, -(c * (b - a))]‖ ≤ 0 + dt * (1/10) := by
    intro c hc hcd
    have h1 := eu_norm_mul (![0, -(c * (b - a))] : Fin 2 → ℝ)
    rw [show (![0, -(c * (b - a))] : Fin 2 → ℝ) ⬝ᵥ ![0, -(c * (b - a))] = (c * |b - a|) * (c * |b - a|) by
      simp only [dotProduct, Fin.sum_univ_two, Matrix.cons_val_zero, Matrix.cons_val_one, mul_zero, zero_add]
      rw [show c * |b - a| * (c * |b - a|) = c * c * (|b - a| * |b - a|) by ring, abs_mul_abs_self]; ring, hab] at h1
    rw [(mul_self_inj_of_nonneg (norm_nonneg _) (by positivity)).1 h1, zero_add]
    exact mul_le_mul_of_nonneg_right hcd (by norm_num)
  have hp : (1:ℝ) + dt ≠ 0 := by positivity
  have hp2 : (1:ℝ) + 2/3 * dt ≠ 0 := by positivity
  rcases hname with rfl | rfl
  · refine ⟨fun _ => xn () / (1 + dt), ?_⟩
    rw [show lspgRes .BDF1 S f (xn :: older) t dt (fun _ => xn () / (1 + dt)) = ![0, -(dt * (b - a))] by
      funext i
      fin_cases i
      · simp [lspgRes, combination, coef, hS, hf]; field_simp; ring
      · simp [lspgRes, combination, coef, hS, hf]]
    exact key dt h0 le_rfl
  · cases older with
    | nil =>
      refine ⟨fun _ => xn () / (1 + dt), ?_⟩
      rw [show lspgRes .BDF2 S f [xn] t dt (fun _ => xn () / (1 + dt)) = ![0, -(dt * (b - a))] by
        funext i
        fin_cases i
        · simp [lspgRes, combination, coef, hS, hf]; field_simp; ring
        · simp [lspgRes, combination, coef, hS, hf]]
      exact key dt h0 le_rfl
    | cons xm older =>
      refine ⟨fun _ => (4/3 * xn () - 1/3 * xm ()) / (1 + 2/3 * dt), ?_⟩
      rw [show lspgRes .BDF2 S f (xn :: xm :: older) t dt (fun _ => (4/3 * xn () - 1/3 * xm ()) / (1 + 2/3 * dt)) = ![0, -(2/3 * dt * (b - a))] by
        funext i
        fin_cases i
        · simp [lspgRes, combination, coef, hS, hf]; field_simp; ring
        · simp [lspgRes, combination, coef, hS, hf]; ring]
      exact key _ (by positivity) (by linarith)

noncomputable def lspgL2 : SMem ℝ (Unit → ℝ) (Unit → ℝ) (LMem ℝ (Fin 2) (Fin 2) Unit) := ⟨0, 0, 0, 0, [0, 0], [], ⟨[0, 0, 0], -1, 7, 7, fun _ _ => 7⟩⟩
theorem lspgL2_ready : LspgReady .BDF2 lspgL2 := by simp [LspgReady, lspgL2, Lemmas.Lspg.Sized, Lemmas.Lspg.numStates]

structure LspgExample (name : Scheme) (S : Trial ℝ (Fin 2) Unit) (F : Fom ℝ (Fin 2) (Fin 2) Unit) (f : (Fin 2 → ℝ) → ℝ → Fin 2 → ℝ) (mem : SMem ℝ (Unit → ℝ) (Unit → ℝ) (LMem ℝ (Fin 2) (Fin 2) Unit)) (P : ℝ → Prop) (dts : List ℝ) where
  atts : List (Attempt ℝ (Unit → ℝ) ((Fin 2 → ℝ) × Option (Matrix (Fin 2) Unit ℝ)))
  T : ℝ
  sizes : atts.map (·.dt) = dts
  run : LspgRun name S F f mem atts
  leaves : LeavesResiduals (eu (Fin 2)) 0 (1/10) name S f (drive (stepWith name (defaultPolicy S F)) atts 0 [fun _ => 1] (fun _ => 1) mem) (fun _ => 1)
  nonneg : ∀ r ∈ drive (stepWith name (defaultPolicy S F)) atts 0 [fun _ => 1] (fun _ => 1) mem, 0 ≤ r.dt
  steps : StepsIn P T (drive (stepWith name (defaultPolicy S F)) atts 0 [fun _ => 1] (fun _ => 1) mem)

theorem lspgExample (name : Scheme) (hname : name = .BDF1 ∨ name = .BDF2) (S : Trial ℝ (Fin 2) Unit) (hB : S.basis = firstR.basis) (F : Fom ℝ (Fin 2) (Fin 2) Unit) (c : Fin 2 → ℝ)
    (f : (Fin 2 → ℝ) → ℝ → Fin 2 → ℝ) (hf : (fun (y : Fin 2 → ℝ) (t : ℝ) => (fun _ => -1 : ℝ → Matrix (Fin 2) (Fin 2) ℝ) t *ᵥ y + (fun _ => c : ℝ → Fin 2 → ℝ) t) = f)
    (hF : FomIs F (fun y t => .ok (f y t)) (fun _ _ => .ok (-1)) (fun _ _ => .ok 1)) (mem : SMem ℝ (Unit → ℝ) (Unit → ℝ) (LMem ℝ (Fin 2) (Fin 2) Unit)) (hmem : LspgReady name mem)
    (hsome : ∀ (t dt : ℝ), 0 ≤ dt → ∀ (xn : Unit → ℝ) (older : List (Unit → ℝ)), ∃ z, ‖eu (Fin 2) (lspgRes name S f (xn :: older) t dt z)‖ ≤ 0 + dt * (1/10))
    (tol : ℝ) (htol : tol ≤ 1) (P : ℝ → Prop) (dts : List ℝ) (hdt : ∀ h ∈ dts, P h ∧ 0 ≤ h) : Nonempty (LspgExample name S F f mem P dts) := by
  obtain ⟨atts, h1, h2, e⟩ := C82_solver_object_runs hF (fun _ _ => by simp) name hname S mem hmem envL (cfgRel tol) .gn (by intro A b c; simp [envL]) (by simp [cfgRel]) regL (fun _ => .created _ rfl) dts 0 (fun _ => 1)
  have hd : ∀ r ∈ drive (stepWith name (defaultPolicy S F)) atts 0 [fun _ => 1] (fun _ => 1) mem, r.dt ∈ dts := by
    rw [← e]; exact driveObj_dts _ _ dts 0 _ _ _ _
  obtain ⟨T, hT⟩ := exists_end (drive (stepWith name (defaultPolicy S F)) atts 0 [fun _ => 1] (fun _ => 1) mem)
  refine ⟨⟨atts, T, h2, h1, ?_, fun r hr => (hdt _ (hd r hr)).2, fun r hr _ => ⟨(hdt _ (hd r hr)).1, (hdt _ (hd r hr)).2, hT r hr⟩⟩⟩
  intro pre post r e' hr
  have hmem' : r ∈ drive (stepWith name (defaultPolicy S F)) atts 0 [fun _ => 1] (fun _ => 1) mem := by rw [e']; simp
  obtain ⟨xn, older, ha⟩ := accepted_cons (fun _ : Unit => (1:ℝ)) pre
  subst hf
  have key := (C82_gauss_newton_leaves_best hF name hname S mem hmem envL (cfgRel tol) (fun A b _ => b () / A () ()) id (fun _ _ _ _ => rfl) rfl
    (by simp [cfgRel, int32Max]) (by simp [cfgRel]) regL (fun _ => .created _ rfl) dts 0 (fun _ => 1) (never_met_at_start (cfgRel tol) (.inr ⟨by simp [cfgRel], htol⟩))
    (fun h hh t c hc d => by rw [hB]; exact sag_normal h c (hdt h hh).2 hc d) pre post r (e.trans e')).2.2
  obtain ⟨z, hz⟩ := hsome r.t r.dt (hdt _ (hd r hmem')).2 xn older
  rw [← ha] at hz
  exact (key z).trans hz

noncomputable def sagLspg (name : Scheme) (hname : name = .BDF1 ∨ name = .BDF2) (mem : SMem ℝ (Unit → ℝ) (Unit → ℝ) (LMem ℝ (Fin 2) (Fin 2) Unit)) (hmem : LspgReady name mem) (P : ℝ → Prop) (dts : List ℝ) (hdt : ∀ h ∈ dts, P h ∧ 0 ≤ h) :
    LspgExample name firstR sagR sagF mem P dts :=
  Classical.choice (lspgExample name hname firstR rfl sagR ![0, 1/10] sagF sag_linear sagR_is mem hmem
    (lspgRes_some name hname firstR sagF 0 (1/10) firstR_lift (fun y t => by funext i; fin_cases i <;> simp [sagF]) (by norm_num)) (1/2) (by norm_num) P dts hdt)
noncomputable def shiftLspg (name : Scheme) (hname : name = .BDF1 ∨ name = .BDF2) (mem : SMem ℝ (Unit → ℝ) (Unit → ℝ) (LMem ℝ (Fin 2) (Fin 2) Unit)) (hmem : LspgReady name mem) (P : ℝ → Prop) (dts : List ℝ) (hdt : ∀ h ∈ dts, P h ∧ 0 ≤ h) :
    LspgExample name shiftR minusFom minusF mem P dts :=
  Classical.choice (lspgExample name hname shiftR rfl minusFom 0 minusF minus_linear minus_is mem hmem
    (lspgRes_some name hname shiftR minusF (1/10) 0 shiftR_lift (fun y t => by funext i; fin_cases i <;> simp [minusF]) (by norm_num)) (1/2) (by norm_num) P dts hdt)
theorem minus_dissipative (y : Fin 2 → ℝ) (t : ℝ) : @inner ℝ _ _ (eu (Fin 2) (minusF y t)) (eu (Fin 2) y) ≤ 0 := by
  unfold minusF
  rw [map_neg, inner_neg_left, real_inner_self_eq_norm_mul_norm]
  nlinarith [norm_nonneg (eu (Fin 2) y)]

example (dts : List ℝ) (hdt : ∀ h ∈ dts, True ∧ 0 ≤ h) :=
  let R := shiftLspg .BDF1 (.inl rfl) lspgL lspgL_ready (fun _ => True) dts hdt
  C82_bdf1_dissipative (eu (Fin 2)) shiftR minusFom minusF lspgL R.atts 0 (fun _ => 1) R.run 0 (1/10) le_rfl (by norm_num) R.leaves R.nonneg minus_dissipative
example (dts : List ℝ) (hdt : ∀ h ∈ dts, True ∧ 0 ≤ h) :=
  let R := shiftLspg .BDF2 (.inr rfl) lspgL2 lspgL2_ready (fun _ => True) dts hdt
  C82_bdf2_dissipative (eu (Fin 2)) shiftR minusFom minusF lspgL2 R.atts 0 (fun _ => 1) R.run 0 (1/10) le_rfl (by norm_num) R.leaves R.nonneg minus_dissipative
example (dts : List ℝ) (hdt : ∀ h ∈ dts, h ≤ 2 ∧ 0 ≤ h) :=
  let R := sagLspg .BDF1 (.inl rfl) lspgL lspgL_ready (· ≤ 2) dts hdt
  C82_bdf1_monotone (eu (Fin 2)) firstR sagR sagF lspgL R.atts 0 (fun _ => 1) R.run 0 (1/10) le_rfl (by norm_num) R.leaves 2 R.T R.steps sag_monotone sagExact _ (norm_nonneg _) (by norm_num) (sag_solves R.T) (sag_smooth R.T)
example (dts : List ℝ) (hdt : ∀ h ∈ dts, h = 2 ∧ 0 ≤ h) :=
  let R := sagLspg .BDF2 (.inr rfl) lspgL2 lspgL2_ready (· = 2) dts hdt
  C82_bdf2_monotone (eu (Fin 2)) firstR sagR sagF lspgL2 R.atts 0 (fun _ => 1) R.run 0 (1/10) le_rfl (by norm_num) R.leaves 2 R.T R.steps sag_monotone sagExact _ _ _ (norm_nonneg _) (norm_nonneg _) (sag_solves R.T) (sag_smooth2 R.T)
example (dts : List ℝ) (hdt : ∀ h ∈ dts, h ≤ 1/2 ∧ 0 ≤ h) :=
  let R := sagLspg .BDF1 (.inl rfl) lspgL lspgL_ready (· ≤ 1/2) dts hdt
  C82_bdf1_lipschitz (eu (Fin 2)) firstR sagR sagF lspgL R.atts 0 (fun _ => 1) R.run 0 (1/10) le_rfl (by norm_num) R.leaves (1/2) R.T R.steps 1 (by norm_num) (by norm_num) sag_lip sagExact _ (norm_nonneg _) (by norm_num) (sag_solves R.T) (sag_smooth R.T)
example (dts : List ℝ) (hdt : ∀ h ∈ dts, h = 1/12 ∧ 0 ≤ h) :=
  let R := sagLspg .BDF2 (.inr rfl) lspgL2 lspgL2_ready (· = 1/12) dts hdt
  C82_bdf2_lipschitz (eu (Fin 2)) firstR sagR sagF lspgL2 R.atts 0 (fun _ => 1) R.run 0 (1/10) le_rfl (by norm_num) R.leaves (1/12) R.T R.steps 1 (by norm_num) (by norm_num) sag_lip sagExact _ _ _ (norm_nonneg _) (norm_nonneg _) (sag_solves R.T) (sag_smooth2 R.T)

/-- a solver that evaluates where it expects the solution and accepts it if the residual is small there -/
noncomputable def sagGuess (h : ℝ) : (Unit → ℝ) → SolveTree (Unit → ℝ) ((Fin 2 → ℝ) × Option (Matrix (Fin 2) Unit ℝ)) := fun y =>
  .ask (fun _ => y () / (1 + h)) false (fun a => match a with
    | .ok (r, _) => if ‖eu (Fin 2) r‖ ≤ 0 + h * (1/10) then .ret (fun _ => y () / (1 + h)) else .stop (.exc .nonlinearSolveFailure) y
    | .error e => .stop (.exc e) y)
theorem sagGuess_run (hs : List ℝ) : LspgRun .BDF1 firstR sagR sagF lspgL (hs.map (fun h => ⟨h, sagGuess h⟩)) := by
  refine ⟨.inl rfl, ⟨_, _, sagR_is, fun _ _ => by simp⟩, lspgL_ready, ?_, ?_⟩
  · intro a ha y
    obtain ⟨h, -, rfl⟩ := List.mem_map.1 ha
    intro a ha
    rcases a with e | ⟨r, j⟩
    · simpa [Honest] using ha e rfl
    · simp only; split_ifs <;> simp [Honest]
  · intro a ha y
    obtain ⟨h, -, rfl⟩ := List.mem_map.1 ha
    trivial
theorem sagGuess_small (hs : List ℝ) (t0 : ℝ) (x0 : Unit → ℝ) :
    ∀ r ∈ drive (stepWith .BDF1 (defaultPolicy firstR sagR)) (hs.map (fun h => ⟨h, sagGuess h⟩)) t0 [x0] x0 lspgL, r.stop = none →
      ∃ q ∈ r.queries, q.x = r.y ∧ ∃ v j, q.ans = .ok (v, j) ∧ ‖eu (Fin 2) v‖ ≤ 0 + r.dt * (1/10) := by
  intro r hr hst
  rw [C52_run_is_ideal sagR_is ⟨fun _ _ => by simp, fun _ _ => by simp⟩ firstR .BDF1 (.inl rfl) lspgL lspgL_ready _ (sagGuess_run hs).honest (sagGuess_run hs).asks] at hr
  obtain ⟨a, ha, yn, pv, e1, e2, e3, e4, e5⟩ := ideal_record _ _ _ _ _ r hr
  obtain ⟨h, -, rfl⟩ := List.mem_map.1 ha
  simp only at e2 e3 e4 e5
  rw [e4] at hst
  obtain ⟨v, hv⟩ : ∃ v, lspg .BDF1 firstR (fun y t => .ok (sagF y t)) (fun _ _ => .ok (-1)) r.hist r.t r.dt (fun _ => yn () / (1 + h)) false = .ok (v, none) := ⟨_, rfl⟩
  by_cases hn : ‖eu (Fin 2) v‖ ≤ 0 + h * (1/10)
  · have ho : outcome (lspg .BDF1 firstR (fun y t => .ok (sagF y t)) (fun _ _ => .ok (-1)) r.hist r.t r.dt) (sagGuess h yn) = ⟨none, fun _ => yn () / (1 + h), [⟨fun _ => yn () / (1 + h), false, .ok (v, none)⟩]⟩ := by
      simp only [sagGuess, outcome, hv, if_pos hn]
    rw [ho] at e3 e5
    refine ⟨⟨_, false, .ok (v, none)⟩, by rw [e3]; exact List.mem_singleton.2 rfl, e5.symm, v, none, rfl, ?_⟩
    rw [e2]; exact hn
  · exfalso
    have ho : (outcome (lspg .BDF1 firstR (fun y t => .ok (sagF y t)) (fun _ _ => .ok (-1)) r.hist r.t r.dt) (sagGuess h yn)).stop = some (.exc .nonlinearSolveFailure) := by
      simp only [sagGuess, outcome, hv, if_neg hn]
    rw [ho] at hst
    simp at hst
example (hs : List ℝ) (t0 : ℝ) (x0 : Unit → ℝ) := C82_residual_of_last_evaluation (sagGuess_run hs) t0 x0 (eu (Fin 2)) 0 (1/10) (sagGuess_small hs t0 x0)


theorem minus_matrix : FomIs minusFom (fun y t => .ok ((fun _ => -1 : ℝ → Matrix (Fin 2) (Fin 2) ℝ) t *ᵥ y)) (fun _ t => .ok ((fun _ => -1 : ℝ → Matrix (Fin 2) (Fin 2) ℝ) t)) (fun _ _ => .ok 1) := by
  have : (fun (y : Fin 2 → ℝ) (t : ℝ) => (Except.ok ((fun _ => -1 : ℝ → Matrix (Fin 2) (Fin 2) ℝ) t *ᵥ y) : Except Exc (Fin 2 → ℝ))) = fun y t => .ok (minusF y t) := by
    funext y t; simp [minusF, Matrix.neg_mulVec]
  rw [this]; exact minus_is
example (dts : List ℝ) (hdt : ∀ h ∈ dts, 0 ≤ h) (x0 : Unit → ℝ) := C82_gauss_newton_contraction minus_matrix (fun _ y => by
    rw [Matrix.neg_mulVec, Matrix.one_mulVec, neg_dotProduct]
    have : 0 ≤ y ⬝ᵥ y := Finset.sum_nonneg (fun i _ => mul_self_nonneg _)
    linarith) firstR rfl lspgL lspgL_ready envL (cfgRel (1/2)) (fun A b _ => b () / A () ()) id (fun _ _ _ _ => rfl) rfl (by simp [cfgRel, int32Max]) (by simp [cfgRel]) regL (fun _ => .created _ rfl) dts hdt 0 x0
  (fun h hh t d => sag_normal h h (hdt h hh) (by simp) d)


end Examples
end Pressio.Props
