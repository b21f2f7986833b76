import Verif.Spec.LspgRuns
import Verif.Lemmas.GaussNewtonSemiLocal
import Verif.Props.LspgGaussNewton
import Verif.Props.ImplicitNewtonRuns

/-
  Time steps of LSPG whose least-squares problems Gauss-Newton solves.
-/
namespace Pressio.Lemmas.LspgRuns
set_option autoImplicit false
set_option linter.unusedSectionVars false
open Pressio Matrix Pressio.Model.Galerkin Pressio.Spec.Galerkin Pressio.Model.Implicit Pressio.Spec.Implicit Pressio.Spec.Lspg Pressio.Spec.LspgRuns Pressio.Spec.NewtonConvergence Pressio.Spec.GaussNewtonConvergence
open Pressio.Model.Nonlinear Pressio.Spec.Nonlinear Pressio.Lemmas.GaussNewtonConvergence Pressio.Lemmas.GaussNewtonSemiLocal Pressio.Spec.SolverRun Pressio.Props
open Pressio.Spec.Reduced (eu)
open Pressio.Model.Explicit (Scheme)
open scoped InnerProductSpace

variable {E m n p L : Type} [NormedAddCommGroup E] [InnerProductSpace ℝ E] [Fintype m] [DecidableEq m] [Fintype n] [DecidableEq n] [Fintype p]

/-- what the theorems on Gauss-Newton from a small residual promise, with the constants `β`, `Λ` and `k` updates -/
def Converging (ι : (m → ℝ) →ₗ[ℝ] E) (env : Env ℝ m n p L) (cfg : Cfg ℝ) (tag : Tag) (k : Nat) (β Λ : ℝ) : Prop :=
  ∀ (r : (n → ℝ) → m → ℝ) (J : (n → ℝ) → Matrix m n ℝ) (s : Reg ℝ m n p L) (γ σ : ℝ), LsObj s → 0 ≤ γ → ‖ι (r s.x)‖ ≤ σ →
    (∀ x, ‖eu n (x - s.x)‖ ≤ 8 * β * σ → IsJacobian r J x) → (∀ x, ‖eu n (x - s.x)‖ ≤ 8 * β * σ → ∀ v, ‖eu n v‖ ≤ β * ‖ι (J x *ᵥ v)‖) →
    (∀ x, ‖eu n (x - s.x)‖ ≤ 8 * β * σ → ∀ v, ‖ι (J x *ᵥ v)‖ ≤ Λ * ‖eu n v‖) →
    (∀ x y, ‖eu n (x - s.x)‖ ≤ 8 * β * σ → ‖eu n (y - s.x)‖ ≤ 8 * β * σ → ∀ v, ‖ι (J x *ᵥ v - J y *ᵥ v)‖ ≤ γ * ‖eu n (x - y)‖ * ‖eu n v‖) →
    16 * β ^ 2 * γ * σ ≤ 1 → Enough cfg.stop cfg.tol β Λ (4 * β * σ) ((1 / 2) ^ k) →
    ∃ x', ‖eu n (x' - s.x)‖ ≤ 8 / 3 * β * σ ∧ (∀ z, ‖eu n (z - s.x)‖ ≤ 8 * β * σ → ‖ι (r x')‖ ≤ ‖ι (r z)‖) ∧ (∀ v, ⟪ι (r x'), ι (J x' *ᵥ v)⟫_ℝ = 0) ∧
      ConvergesTo ι cfg r J x' β Λ γ k s (runLs env cfg (Sys.ofFun r J) tag s)

theorem lift_add (S : Trial ℝ m n) (x v : n → ℝ) : lift S (x + v) = lift S x + S.basis *ᵥ v := by
  simp only [lift, Matrix.mulVec_add]; abel

theorem combination_eq (name : Scheme) (hname : name = .BDF1 ∨ name = .BDF2) (y0 : m → ℝ) (hist : List (m → ℝ)) : ∃ w, ∀ y, combination name y (y0 :: hist) = y - w := by
  rcases hname with rfl | rfl
  · exact ⟨y0, fun y => rfl⟩
  · cases hist with
    | nil => exact ⟨y0, fun y => rfl⟩
    | cons a l => exact ⟨((4:ℝ) / 3) • y0 - ((1:ℝ) / 3) • a, fun y => by simp only [combination]; abel⟩

theorem res_eq (name : Scheme) (hname : name = .BDF1 ∨ name = .BDF2) (S : Trial ℝ m n) (f : (m → ℝ) → ℝ → m → ℝ) (xn : n → ℝ) (older : List (n → ℝ)) (t dt : ℝ) :
    ∃ w, ∀ x, lspgRes name S f (xn :: older) t dt x = lift S x - w - coef name (xn :: older) dt • f (lift S x) (t + dt) := by
  obtain ⟨w, hw⟩ := combination_eq name hname (lift S xn) (older.map (lift S))
  exact ⟨w, fun x => by rw [lspgRes, List.map_cons, hw]⟩

theorem coef_mem (name : Scheme) (hname : name = .BDF1 ∨ name = .BDF2) {V : Type} (hist : List V) (dt : ℝ) (h0 : 0 ≤ dt) : 0 ≤ coef name hist dt ∧ coef name hist dt ≤ dt := by
  rcases hname with rfl | rfl
  · exact ⟨h0, le_rfl⟩
  · match hist with
    | [] => exact ⟨h0, le_rfl⟩
    | [_] => exact ⟨h0, le_rfl⟩
    | _ :: _ :: _ => simp only [coef]; exact ⟨by positivity, by linarith⟩

theorem jac_mulVec (name : Scheme) (S : Trial ℝ m n) (Df : (m → ℝ) → ℝ → Matrix m m ℝ) (hist : List (n → ℝ)) (t dt : ℝ) (x v : n → ℝ) :
    lspgJac name S Df hist t dt x *ᵥ v = S.basis *ᵥ v - coef name hist dt • (Df (lift S x) (t + dt) *ᵥ (S.basis *ᵥ v)) := by
  rw [lspgJac, Matrix.sub_mulVec, Matrix.smul_mulVec, Matrix.mulVec_mulVec]

theorem lspg_isJacobian (name : Scheme) (hname : name = .BDF1 ∨ name = .BDF2) (S : Trial ℝ m n) (f : (m → ℝ) → ℝ → m → ℝ) (Df : (m → ℝ) → ℝ → Matrix m m ℝ) (xn : n → ℝ) (older : List (n → ℝ)) (t dt : ℝ) (x : n → ℝ)
    (h : IsJacobian (fun y => f y (t + dt)) (fun y => Df y (t + dt)) (lift S x)) : IsJacobian (lspgRes name S f (xn :: older) t dt) (lspgJac name S Df (xn :: older) t dt) x := by
  obtain ⟨w, hw⟩ := res_eq name hname S f xn older t dt
  rw [show lspgRes name S f (xn :: older) t dt = fun x => lift S x - w - coef name (xn :: older) dt • f (lift S x) (t + dt) from funext hw]
  unfold IsJacobian at *
  have hl : HasFDerivAt (lift S) (Matrix.toLin' S.basis).toContinuousLinearMap x := by
    have := (Matrix.toLin' S.basis).toContinuousLinearMap.hasFDerivAt (x := x)
    have := this.add_const (if S.isAffine then S.translation else 0)
    exact this
  have h1 := (hl.sub_const w).sub ((h.comp x hl).const_smul (coef name (xn :: older) dt))
  refine h1.congr_fderiv ?_
  ext v : 1
  simp [jac_mulVec]

/-- the right-hand side between two points of the trial space -/
theorem rhs_diff {ι : (m → ℝ) →ₗ[ℝ] E} {S : Trial ℝ m n} {f : (m → ℝ) → ℝ → m → ℝ} {Df : (m → ℝ) → ℝ → Matrix m m ℝ} {x0 : n → ℝ} {R t0 T b B Lf γ F : ℝ} (H : TameOnTrial ι S f Df x0 R t0 T b B Lf γ F)
    (t : ℝ) (ht : t ∈ Set.Icc t0 T) (x z : n → ℝ) (hx : ‖eu n (x - x0)‖ ≤ R) (hz : ‖eu n (z - x0)‖ ≤ R) : ‖ι (f (lift S x) t - f (lift S z) t)‖ ≤ Lf * ‖ι (S.basis *ᵥ (x - z))‖ := by
  set v := x - z with hv
  have hxv : x = z + v := by rw [hv]; abel
  have hseg : ∀ s ∈ Set.Icc (0:ℝ) 1, ‖eu n (z + s • v - x0)‖ ≤ R := fun s hs => ball_segment x0 z v R s hs hz (by rw [← hxv]; exact hx)
  have hd : ∀ s ∈ Set.Icc (0:ℝ) 1, HasDerivWithinAt (fun s : ℝ => ι (f (lift S z + s • (S.basis *ᵥ v)) t)) (ι (Df (lift S (z + s • v)) t *ᵥ (S.basis *ᵥ v))) (Set.Icc 0 1) s := by
    intro s hs
    have e : lift S (z + s • v) = lift S z + s • (S.basis *ᵥ v) := by rw [lift_add, Matrix.mulVec_smul]
    have hj := H.jac t ht _ (hseg s hs)
    rw [e] at hj ⊢
    exact (along_line (ι := ι) (r := fun y => f y t) (J := fun y => Df y t) (lift S z) (S.basis *ᵥ v) s hj).hasDerivWithinAt
  have := norm_image_sub_le_of_norm_deriv_le_segment_01' hd (C := Lf * ‖ι (S.basis *ᵥ v)‖) (fun s hs => H.first t ht _ (hseg s ⟨hs.1, hs.2.le⟩) v)
  simp only [one_smul, zero_smul, add_zero] at this
  rw [map_sub, hxv, lift_add]
  exact this

/-- the residual between two points -/
theorem res_diff {ι : (m → ℝ) →ₗ[ℝ] E} {S : Trial ℝ m n} {f : (m → ℝ) → ℝ → m → ℝ} {Df : (m → ℝ) → ℝ → Matrix m m ℝ} {x0 : n → ℝ} {R t0 T b B Lf γ F : ℝ} (H : TameOnTrial ι S f Df x0 R t0 T b B Lf γ F)
    (name : Scheme) (hname : name = .BDF1 ∨ name = .BDF2) (xn : n → ℝ) (older : List (n → ℝ)) (t dt : ℝ) (h0 : 0 ≤ dt) (hL : dt * Lf ≤ 1 / 8) (ht : t + dt ∈ Set.Icc t0 T) (x z : n → ℝ)
    (hx : ‖eu n (x - x0)‖ ≤ R) (hz : ‖eu n (z - x0)‖ ≤ R) :
    ‖ι (lspgRes name S f (xn :: older) t dt x) - ι (lspgRes name S f (xn :: older) t dt z) - ι (S.basis *ᵥ (x - z))‖ ≤ 1 / 8 * ‖ι (S.basis *ᵥ (x - z))‖ := by
  obtain ⟨w, hw⟩ := res_eq name hname S f xn older t dt
  obtain ⟨c0, c1⟩ := coef_mem name hname (xn :: older) dt h0
  have e : lspgRes name S f (xn :: older) t dt x - lspgRes name S f (xn :: older) t dt z - S.basis *ᵥ (x - z) = -(coef name (xn :: older) dt • (f (lift S x) (t + dt) - f (lift S z) (t + dt))) := by
    rw [hw, hw]
    have : lift S x = lift S z + S.basis *ᵥ (x - z) := by rw [← lift_add, add_sub_cancel]
    rw [smul_sub]
    have h2 : S.basis *ᵥ (x - z) = lift S x - lift S z := by rw [this]; abel
    rw [h2]; abel
  rw [← map_sub, ← map_sub, e, map_neg, norm_neg, map_smul, norm_smul, Real.norm_eq_abs, abs_of_nonneg c0]
  have h1 := rhs_diff H (t + dt) ht x z hx hz
  have hn : 0 ≤ ‖ι (S.basis *ᵥ (x - z))‖ := norm_nonneg _
  calc coef name (xn :: older) dt * ‖ι (f (lift S x) (t + dt) - f (lift S z) (t + dt))‖ ≤ dt * (Lf * ‖ι (S.basis *ᵥ (x - z))‖) := by gcongr
    _ = dt * Lf * ‖ι (S.basis *ᵥ (x - z))‖ := by ring
    _ ≤ _ := by gcongr

/-- the residual at the last accepted state -/
theorem res_start {ι : (m → ℝ) →ₗ[ℝ] E} {S : Trial ℝ m n} {f : (m → ℝ) → ℝ → m → ℝ} {Df : (m → ℝ) → ℝ → Matrix m m ℝ} {x0 : n → ℝ} {R t0 T b B Lf γ F : ℝ} (H : TameOnTrial ι S f Df x0 R t0 T b B Lf γ F)
    (name : Scheme) (hname : name = .BDF1 ∨ name = .BDF2) (xn : n → ℝ) (older : List (n → ℝ)) (t dt h D : ℝ) (h0 : 0 ≤ dt) (hh : dt ≤ h) (ht : t + dt ∈ Set.Icc t0 T)
    (hx : ‖eu n (xn - x0)‖ ≤ R) (hD : ∀ xo ∈ older.head?, ‖ι (S.basis *ᵥ (xn - xo))‖ ≤ D) :
    ‖ι (lspgRes name S f (xn :: older) t dt xn)‖ ≤ h * F ∨ ‖ι (lspgRes name S f (xn :: older) t dt xn)‖ ≤ 1 / 3 * D + 2 / 3 * (h * F) := by
  have hF := H.size _ ht xn hx
  have hF0 := H.F0
  have key : dt * ‖ι (f (lift S xn) (t + dt))‖ ≤ h * F := by gcongr; linarith
  have plain : ‖ι (lift S xn - lift S xn - dt • f (lift S xn) (t + dt))‖ ≤ h * F := by
    rw [sub_self, zero_sub, map_neg, norm_neg, map_smul, norm_smul, Real.norm_eq_abs, abs_of_nonneg h0]
    exact key
  rcases hname with rfl | rfl
  · exact .inl plain
  · cases older with
    | nil => exact .inl plain
    | cons xo l =>
      right
      have hd := hD xo (by simp)
      have e : lspgRes .BDF2 S f (xn :: xo :: l) t dt xn = -(((1:ℝ) / 3) • (S.basis *ᵥ (xn - xo))) - ((2:ℝ) / 3 * dt) • f (lift S xn) (t + dt) := by
        have h2 : S.basis *ᵥ (xn - xo) = lift S xn - lift S xo := by
          have : lift S xn = lift S xo + S.basis *ᵥ (xn - xo) := by rw [← lift_add, add_sub_cancel]
          rw [this]; abel
        rw [h2]
        simp only [lspgRes, combination, coef, List.map_cons]
        ext i
        simp; ring
      rw [e, map_sub, map_neg, map_smul, map_smul]
      refine (norm_sub_le _ _).trans ?_
      rw [norm_neg, norm_smul, norm_smul, Real.norm_eq_abs, Real.norm_eq_abs, abs_of_nonneg (by norm_num), abs_of_nonneg (by positivity)]
      nlinarith

theorem accuracy_eq (cfg : Cfg ℝ) (hc : PlainGaussNewton cfg) (b Λ e0 : ℝ) : fitError cfg.stop cfg.tol (2 * b) Λ e0 = accuracy cfg b := by
  rcases hc.crit with h | h <;> simp only [accuracy, h, fitError]

theorem accuracy_nonneg (cfg : Cfg ℝ) (hc : PlainGaussNewton cfg) (b : ℝ) (h0 : 0 ≤ cfg.tol) : 0 ≤ accuracy cfg b := by
  rcases hc.crit with h | h <;> simp only [accuracy, h, fitError] <;> positivity

/-- one time step -/
theorem one_step {ι : (m → ℝ) →ₗ[ℝ] E} {S : Trial ℝ m n} {f : (m → ℝ) → ℝ → m → ℝ} {Df : (m → ℝ) → ℝ → Matrix m m ℝ} {x0 : n → ℝ} {R t0 T b B Lf γ F : ℝ} (H : TameOnTrial ι S f Df x0 R t0 T b B Lf γ F)
    (env : Env ℝ m n p L) (cfg : Cfg ℝ) (tag : Tag) (k : Nat) (hcfg : PlainGaussNewton cfg) (hconv : Converging ι env cfg tag k (2 * b) (2 * B)) (N : Nat) (h σ : ℝ) (room : RoomFor cfg N k h σ R b B Lf γ F)
    (name : Scheme) (hname : name = .BDF1 ∨ name = .BDF2) (xn : n → ℝ) (older : List (n → ℝ)) (t dt : ℝ) (h0 : 0 ≤ dt) (hh : dt ≤ h) (ht : t + dt ∈ Set.Icc t0 T) (j : Nat) (hj : j ≤ N)
    (hx : ‖eu n (xn - x0)‖ ≤ j * (16 / 3 * b * σ + accuracy cfg b)) (hD : ∀ xo ∈ older.head?, ‖ι (S.basis *ᵥ (xn - xo))‖ ≤ 16 / 7 * σ + B * accuracy cfg b) (s : Reg ℝ m n p L) (hs : LsObj s) (hsx : s.x = xn) :
    let res := runLs env cfg (Sys.ofFun (lspgRes name S f (xn :: older) t dt) (lspgJac name S Df (xn :: older) t dt)) tag s
    res.stop? = none ∧ (∃ q, res.state.log = s.log ++ q ∧ q.length ≤ k + 1) ∧ ‖ι (lspgRes name S f (xn :: older) t dt xn)‖ ≤ σ ∧
    ‖eu n (res.state.x - x0)‖ ≤ (j + 1) * (16 / 3 * b * σ + accuracy cfg b) ∧ ‖ι (S.basis *ᵥ (res.state.x - xn))‖ ≤ 16 / 7 * σ + B * accuracy cfg b ∧
    ∃ x', ‖eu n (x' - xn)‖ ≤ 16 / 3 * b * σ ∧ (∀ z, ‖eu n (z - xn)‖ ≤ 16 * b * σ → ‖ι (lspgRes name S f (xn :: older) t dt x')‖ ≤ ‖ι (lspgRes name S f (xn :: older) t dt z)‖) ∧
      (∀ v, ⟪ι (lspgRes name S f (xn :: older) t dt x'), ι (lspgJac name S Df (xn :: older) t dt x' *ᵥ v)⟫_ℝ = 0) ∧ ‖eu n (x' - x0)‖ ≤ R ∧ ‖eu n (res.state.x - x0)‖ ≤ R ∧
      ‖eu n (res.state.x - x')‖ ≤ accuracy cfg b ∧ ‖ι (lspgRes name S f (xn :: older) t dt res.state.x)‖ ≤ ‖ι (lspgRes name S f (xn :: older) t dt x')‖ + 9 / 8 * B * accuracy cfg b := by
  intro res
  have hb := H.b0
  have hB := H.B0
  have hF := H.F0
  have hγ := H.γ0
  have hL0 := H.L0
  have ha := accuracy_nonneg cfg hcfg b room.tol0
  set a := accuracy cfg b with hadef
  have hh0 : 0 ≤ h := h0.trans hh
  have hBa : 0 ≤ B * a := by positivity
  have hhF : 0 ≤ h * F := by positivity
  have hσ0 : 0 ≤ σ := by have := room.start; nlinarith
  have hbσ : 0 ≤ b * σ := by positivity
  have hL : dt * Lf ≤ 1 / 8 := le_trans (by gcongr) room.first
  have hjN : (j : ℝ) * (16 / 3 * b * σ + a) ≤ N * (16 / 3 * b * σ + a) := by gcongr
  have hball : ∀ x, ‖eu n (x - xn)‖ ≤ 16 * b * σ → ‖eu n (x - x0)‖ ≤ R := by
    intro x hxx
    have e : x - x0 = (x - xn) + (xn - x0) := by abel
    rw [e, map_add]
    refine (norm_add_le _ _).trans ?_
    have := room.reach
    linarith
  have hxnR : ‖eu n (xn - x0)‖ ≤ R := hball xn (by rw [sub_self, map_zero, norm_zero]; nlinarith)
  have hstart : ‖ι (lspgRes name S f (xn :: older) t dt xn)‖ ≤ σ := by
    have := room.start
    rcases res_start H name hname xn older t dt h (16 / 7 * σ + B * a) h0 hh ht hxnR hD with h1 | h1
    · nlinarith
    · nlinarith
  obtain ⟨c0, c1⟩ := coef_mem name hname (xn :: older) dt h0
  set c := coef name (xn :: older) dt with hc
  have hcL : c * Lf ≤ 1 / 8 := le_trans (by gcongr) hL
  have h8 : 8 * (2 * b) * σ = 16 * b * σ := by ring
  obtain ⟨x', g1, g2, g3, g4⟩ := hconv (lspgRes name S f (xn :: older) t dt) (lspgJac name S Df (xn :: older) t dt) s (h * γ) σ hs (by positivity) (by rw [hsx]; exact hstart)
    (fun x hxx => lspg_isJacobian name hname S f Df xn older t dt x (H.jac _ ht x (hball x (by rw [hsx, h8] at hxx; exact hxx))))
    (fun x hxx v => by
      rw [hsx, h8] at hxx
      rw [jac_mulVec, map_sub, map_smul]
      have h1 := H.first _ ht x (hball x hxx) v
      have h2 := norm_sub_norm_le (ι (S.basis *ᵥ v)) (c • ι (Df (lift S x) (t + dt) *ᵥ (S.basis *ᵥ v)))
      rw [norm_smul, Real.norm_eq_abs, abs_of_nonneg c0] at h2
      have h3 : c * ‖ι (Df (lift S x) (t + dt) *ᵥ (S.basis *ᵥ v))‖ ≤ 1 / 8 * ‖ι (S.basis *ᵥ v)‖ :=
        calc c * ‖ι (Df (lift S x) (t + dt) *ᵥ (S.basis *ᵥ v))‖ ≤ c * (Lf * ‖ι (S.basis *ᵥ v)‖) := by gcongr
          _ = c * Lf * ‖ι (S.basis *ᵥ v)‖ := by ring
          _ ≤ _ := by gcongr
      have h4 := H.indep v
      have h5 : 0 ≤ ‖ι (S.basis *ᵥ v)‖ := norm_nonneg _
      have h6 : b * ‖ι (S.basis *ᵥ v)‖ ≤ b * (2 * ‖ι (S.basis *ᵥ v) - c • ι (Df (lift S x) (t + dt) *ᵥ (S.basis *ᵥ v))‖) := by gcongr; linarith
      linarith)
    (fun x hxx v => by
      rw [hsx, h8] at hxx
      rw [jac_mulVec, map_sub, map_smul]
      have h1 := H.first _ ht x (hball x hxx) v
      have h2 := norm_sub_le (ι (S.basis *ᵥ v)) (c • ι (Df (lift S x) (t + dt) *ᵥ (S.basis *ᵥ v)))
      rw [norm_smul, Real.norm_eq_abs, abs_of_nonneg c0] at h2
      have h3 : c * ‖ι (Df (lift S x) (t + dt) *ᵥ (S.basis *ᵥ v))‖ ≤ 1 / 8 * ‖ι (S.basis *ᵥ v)‖ :=
        calc c * ‖ι (Df (lift S x) (t + dt) *ᵥ (S.basis *ᵥ v))‖ ≤ c * (Lf * ‖ι (S.basis *ᵥ v)‖) := by gcongr
          _ = c * Lf * ‖ι (S.basis *ᵥ v)‖ := by ring
          _ ≤ _ := by gcongr
      have h4 := H.bounded v
      have h5 : 0 ≤ ‖ι (S.basis *ᵥ v)‖ := norm_nonneg _
      linarith)
    (fun x y hxx hyy v => by
      rw [hsx, h8] at hxx hyy
      rw [jac_mulVec, jac_mulVec, sub_sub_sub_cancel_left, ← smul_sub, map_smul, norm_smul, Real.norm_eq_abs, abs_of_nonneg c0]
      have h1 := H.second _ ht y x (hball y hyy) (hball x hxx) v
      rw [← neg_sub x y, map_neg, norm_neg] at h1
      calc c * ‖ι (Df (lift S y) (t + dt) *ᵥ (S.basis *ᵥ v) - Df (lift S x) (t + dt) *ᵥ (S.basis *ᵥ v))‖ ≤ h * (γ * ‖eu n (x - y)‖ * ‖eu n v‖) := by gcongr; linarith
        _ = _ := by ring)
    (by have := room.second; linarith) (by have := room.enough; rwa [show 4 * (2 * b) * σ = 8 * b * σ by ring])
  rw [hsx, h8] at g2
  rw [hsx, show 8 / 3 * (2 * b) * σ = 16 / 3 * b * σ by ring] at g1
  obtain ⟨k1, -, k3, it, i, k4, -, k5, k6, k7, k8⟩ := g4
  rw [accuracy_eq cfg hcfg] at k3
  change res.stop? = none at k1
  change ‖eu n (res.state.x - x')‖ ≤ a at k3
  change res.state.x = it i at k7
  change res.state.log = _ at k8
  have k9 : ‖eu n (res.state.x - x')‖ ≤ 16 / 3 * b * σ := by
    have := (k5 i).trans (mul_le_of_le_one_right (norm_nonneg _) (reduction_le_one _ _))
    rw [k7]
    refine this.trans ?_
    rw [hsx, ← neg_sub, map_neg, norm_neg]
    exact g1
  have hxR : ‖eu n (x' - x0)‖ ≤ R := hball x' (by nlinarith)
  have hyn : ‖eu n (res.state.x - xn)‖ ≤ 16 * b * σ := by
    have e : res.state.x - xn = (res.state.x - x') + (x' - xn) := by abel
    rw [e, map_add]
    refine (norm_add_le _ _).trans ?_
    nlinarith
  have hyR := hball _ hyn
  have hb1 : ‖ι (S.basis *ᵥ (res.state.x - x'))‖ ≤ B * a := (H.bounded _).trans (by gcongr)
  refine ⟨k1, ⟨_, k8, by simp; omega⟩, hstart, ?_, ?_, x', g1, g2, g3, hxR, hyR, k3, ?_⟩
  · have e : res.state.x - x0 = (res.state.x - x') + (x' - xn) + (xn - x0) := by abel
    rw [e, map_add, map_add]
    refine (norm_add_le _ _).trans ?_
    have := norm_add_le (eu n (res.state.x - x')) (eu n (x' - xn))
    linarith
  · have e : res.state.x - xn = (x' - xn) + (res.state.x - x') := by abel
    rw [e, Matrix.mulVec_add, map_add]
    refine (norm_add_le _ _).trans (add_le_add ?_ hb1)
    have h1 := res_diff H name hname xn older t dt h0 hL ht x' xn hxR hxnR
    have h2 := g2 xn (by rw [sub_self, map_zero, norm_zero]; nlinarith)
    have h3 : ‖ι (S.basis *ᵥ (x' - xn))‖ ≤ ‖ι (lspgRes name S f (xn :: older) t dt x') - ι (lspgRes name S f (xn :: older) t dt xn)‖ + 1 / 8 * ‖ι (S.basis *ᵥ (x' - xn))‖ := by
      have e2 : ι (S.basis *ᵥ (x' - xn)) = (ι (lspgRes name S f (xn :: older) t dt x') - ι (lspgRes name S f (xn :: older) t dt xn)) -
        (ι (lspgRes name S f (xn :: older) t dt x') - ι (lspgRes name S f (xn :: older) t dt xn) - ι (S.basis *ᵥ (x' - xn))) := by abel
      have := norm_sub_le (ι (lspgRes name S f (xn :: older) t dt x') - ι (lspgRes name S f (xn :: older) t dt xn))
        (ι (lspgRes name S f (xn :: older) t dt x') - ι (lspgRes name S f (xn :: older) t dt xn) - ι (S.basis *ᵥ (x' - xn)))
      rw [← e2] at this
      linarith
    have h4 := norm_sub_le (ι (lspgRes name S f (xn :: older) t dt x')) (ι (lspgRes name S f (xn :: older) t dt xn))
    linarith
  · have h1 := res_diff H name hname xn older t dt h0 hL ht res.state.x x' hyR hxR
    have e2 : ι (lspgRes name S f (xn :: older) t dt res.state.x) = ι (lspgRes name S f (xn :: older) t dt x') + ι (S.basis *ᵥ (res.state.x - x')) +
      (ι (lspgRes name S f (xn :: older) t dt res.state.x) - ι (lspgRes name S f (xn :: older) t dt x') - ι (S.basis *ᵥ (res.state.x - x'))) := by abel
    rw [e2]
    refine (norm_add_le _ _).trans ?_
    have := norm_add_le (ι (lspgRes name S f (xn :: older) t dt x')) (ι (S.basis *ᵥ (res.state.x - x')))
    linarith

/-- A stationary point whose residual is `Phi u - c e`: the residual is at most of the size of `e`. -/
theorem small_at_stationary {ι : (m → ℝ) →ₗ[ℝ] E} {S : Trial ℝ m n} {f : (m → ℝ) → ℝ → m → ℝ} {Df : (m → ℝ) → ℝ → Matrix m m ℝ} {x0 : n → ℝ} {R t0 T b B Lf γ F : ℝ} (H : TameOnTrial ι S f Df x0 R t0 T b B Lf γ F)
    (name : Scheme) (hname : name = .BDF1 ∨ name = .BDF2) (δ : ℝ) (hδ : DefectAtMost ι S f x0 R t0 T δ) (xn : n → ℝ) (older : List (n → ℝ)) (t dt : ℝ) (h0 : 0 ≤ dt) (hL : dt * Lf ≤ 1 / 8) (ht : t + dt ∈ Set.Icc t0 T)
    (x : n → ℝ) (hx : ‖eu n (x - x0)‖ ≤ R) (hst : ∀ v, ⟪ι (lspgRes name S f (xn :: older) t dt x), ι (lspgJac name S Df (xn :: older) t dt x *ᵥ v)⟫_ℝ = 0) :
    ‖ι (lspgRes name S f (xn :: older) t dt x)‖ ≤ dt * (9 / 7 * δ) := by
  obtain ⟨c0, c1⟩ := coef_mem name hname (xn :: older) dt h0
  set c := coef name (xn :: older) dt with hc
  have hL0 := H.L0
  have hcL : c * Lf ≤ 1 / 8 := le_trans (by gcongr) hL
  obtain ⟨g, hg⟩ := hδ _ ht x hx
  set e := f (lift S x) (t + dt) - S.basis *ᵥ g with he
  have hδ0 : 0 ≤ δ := (norm_nonneg _).trans hg
  obtain ⟨u, hu⟩ : ∃ u, lspgRes name S f (xn :: older) t dt x = S.basis *ᵥ u - c • e := by
    have hcomb : ∃ w, combination name (lift S x) ((xn :: older).map (lift S)) = S.basis *ᵥ w := by
      have hd : ∀ z, lift S x - lift S z = S.basis *ᵥ (x - z) := fun z => by
        have : lift S x = lift S z + S.basis *ᵥ (x - z) := by rw [← lift_add, add_sub_cancel]
        rw [this]; abel
      rcases hname with rfl | rfl
      · exact ⟨x - xn, hd xn⟩
      · cases older with
        | nil => exact ⟨x - xn, hd xn⟩
        | cons xo l =>
          refine ⟨((4:ℝ) / 3) • (x - xn) - ((1:ℝ) / 3) • (x - xo), ?_⟩
          rw [Matrix.mulVec_sub, Matrix.mulVec_smul, Matrix.mulVec_smul, ← hd, ← hd]
          simp only [combination, List.map_cons]
          ext i; simp; ring
    obtain ⟨w, hw⟩ := hcomb
    refine ⟨w - c • g, ?_⟩
    rw [lspgRes, hw, Matrix.mulVec_sub, Matrix.mulVec_smul, he, smul_sub, ← hc]
    abel
  set r := ι (lspgRes name S f (xn :: older) t dt x) with hr
  have hru : r = ι (S.basis *ᵥ u) - c • ι e := by rw [hr, hu, map_sub, map_smul]
  have h1 := hst u
  rw [jac_mulVec, map_sub, map_smul, ← hc] at h1
  have hce : c * ‖ι e‖ ≤ dt * δ := by gcongr
  have hu2 : ‖ι (S.basis *ᵥ u)‖ ≤ ‖r‖ + dt * δ := by
    have e2 : ι (S.basis *ᵥ u) = r + c • ι e := by rw [hru]; abel
    rw [e2]
    refine (norm_add_le _ _).trans ?_
    rw [norm_smul, Real.norm_eq_abs, abs_of_nonneg c0]
    linarith
  have hd2 : c * ‖ι (Df (lift S x) (t + dt) *ᵥ (S.basis *ᵥ u))‖ ≤ 1 / 8 * (‖r‖ + dt * δ) :=
    calc c * ‖ι (Df (lift S x) (t + dt) *ᵥ (S.basis *ᵥ u))‖ ≤ c * (Lf * ‖ι (S.basis *ᵥ u)‖) := by gcongr; exact H.first _ ht x hx u
      _ = c * Lf * ‖ι (S.basis *ᵥ u)‖ := by ring
      _ ≤ _ := by gcongr
  have h2 : ‖r‖ * ‖r‖ = ⟪r, c • ι (Df (lift S x) (t + dt) *ᵥ (S.basis *ᵥ u)) - c • ι e⟫_ℝ := by
    rw [← real_inner_self_eq_norm_mul_norm]
    have e3 : c • ι (Df (lift S x) (t + dt) *ᵥ (S.basis *ᵥ u)) - c • ι e = r - (ι (S.basis *ᵥ u) - c • ι (Df (lift S x) (t + dt) *ᵥ (S.basis *ᵥ u))) := by rw [hru]; abel
    rw [e3, inner_sub_right r r, h1, sub_zero]
  have h3 : ‖r‖ * ‖r‖ ≤ ‖r‖ * (1 / 8 * (‖r‖ + dt * δ) + dt * δ) := by
    rw [h2]
    refine (real_inner_le_norm _ _).trans ?_
    gcongr
    refine (norm_sub_le _ _).trans ?_
    rw [norm_smul, norm_smul, Real.norm_eq_abs, abs_of_nonneg c0]
    linarith
  rcases (norm_nonneg r).eq_or_lt with h | h
  · rw [← h]; positivity
  · have := le_of_mul_le_mul_left h3 h
    linarith

end Pressio.Lemmas.LspgRuns
