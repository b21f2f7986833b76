import Verif.Spec.GaussNewtonConvergence
import Verif.Spec.Lspg

/-
  Full-order models for which Gauss-Newton is well-behaved in the time steps of unsteady LSPG.  Full-order vectors are measured by `‖ι y‖` (with weights: the weighted norm), reduced ones by the Euclidean norm.
-/
namespace Pressio.Spec.LspgRuns
set_option autoImplicit false
open Pressio Matrix Pressio.Model.Galerkin Pressio.Spec.Galerkin Pressio.Spec.NewtonConvergence Pressio.Spec.GaussNewtonConvergence Pressio.Model.Nonlinear Pressio.Spec.Nonlinear
open Pressio.Spec.Reduced (eu)

variable {E m n : Type} [NormedAddCommGroup E] [InnerProductSpace ℝ E] [Fintype m] [DecidableEq m] [Fintype n] [DecidableEq n]

/-- The columns of the basis are independent (`‖v‖ ≤ b ‖Phi v‖`) and bounded (`‖Phi v‖ ≤ B ‖v‖`).  At the reconstructions of the reduced states within the distance `R` of `x0`, between the times `t0` and `T`: `Df` is the
    Jacobian of `f`; on the range of the basis it is bounded by `Lf`, and it has, along the trial space, the Lipschitz constant `γ`; and `f` is bounded by `F`. -/
structure TameOnTrial (ι : (m → ℝ) →ₗ[ℝ] E) (S : Trial ℝ m n) (f : (m → ℝ) → ℝ → m → ℝ) (Df : (m → ℝ) → ℝ → Matrix m m ℝ) (x0 : n → ℝ) (R t0 T b B Lf γ F : ℝ) : Prop where
  indep : ∀ v, ‖eu n v‖ ≤ b * ‖ι (S.basis *ᵥ v)‖
  bounded : ∀ v, ‖ι (S.basis *ᵥ v)‖ ≤ B * ‖eu n v‖
  jac : ∀ t ∈ Set.Icc t0 T, ∀ x, ‖eu n (x - x0)‖ ≤ R → IsJacobian (fun y => f y t) (fun y => Df y t) (lift S x)
  first : ∀ t ∈ Set.Icc t0 T, ∀ x, ‖eu n (x - x0)‖ ≤ R → ∀ v, ‖ι (Df (lift S x) t *ᵥ (S.basis *ᵥ v))‖ ≤ Lf * ‖ι (S.basis *ᵥ v)‖
  second : ∀ t ∈ Set.Icc t0 T, ∀ x z, ‖eu n (x - x0)‖ ≤ R → ‖eu n (z - x0)‖ ≤ R → ∀ v,
    ‖ι (Df (lift S x) t *ᵥ (S.basis *ᵥ v) - Df (lift S z) t *ᵥ (S.basis *ᵥ v))‖ ≤ γ * ‖eu n (x - z)‖ * ‖eu n v‖
  size : ∀ t ∈ Set.Icc t0 T, ∀ x, ‖eu n (x - x0)‖ ≤ R → ‖ι (f (lift S x) t)‖ ≤ F
  b0 : 0 < b
  B0 : 0 ≤ B
  L0 : 0 ≤ Lf
  γ0 : 0 ≤ γ
  F0 : 0 ≤ F

/-- the right-hand side is nowhere further than `δ` from the range of the basis (on the states and times above) -/
def DefectAtMost (ι : (m → ℝ) →ₗ[ℝ] E) (S : Trial ℝ m n) (f : (m → ℝ) → ℝ → m → ℝ) (x0 : n → ℝ) (R t0 T δ : ℝ) : Prop :=
  ∀ t ∈ Set.Icc t0 T, ∀ x, ‖eu n (x - x0)‖ ≤ R → ∃ g, ‖ι (f (lift S x) t - S.basis *ᵥ g)‖ ≤ δ

/-- a least-squares solver with standard updates and one of the two absolute criteria that can recognise every minimiser: on the correction (the default) or on the gradient -/
structure PlainGaussNewton (cfg : Cfg ℝ) : Prop where
  crit : cfg.stop = .WhenAbsolutel2NormOfCorrectionBelowTolerance ∨ cfg.stop = .WhenAbsolutel2NormOfGradientBelowTolerance
  upd : cfg.update = .Standard
  max : cfg.maxIters < int32Max

/-- the user's solver object of a Gauss-Newton solver with normal equations (weighted or not) is exact on positive definite matrices (`sol`: its answer; `tick`: what a call does to the object), and the norms are Euclidean -/
structure NormalEquations {p L : Type} [Fintype p] (ι : (m → ℝ) →ₗ[ℝ] E) (env : Env ℝ m n p L) (tag : Tag) (sol : Matrix n n ℝ → (n → ℝ) → n → ℝ) (tick : L → L) : Prop where
  method : tag = .gn ∨ tag = .wgn ∨ tag = .cwgn
  minimises : Minimises env tag ι
  normM : ∀ v, env.normM v = ‖eu m v‖
  normN : ∀ v, env.normN v = ‖eu n v‖
  lin : ∀ A b c l, env.lin A b (c, l) = .ok () (sol A b, tick l)
  exact : ∀ A b, A.PosDef → A *ᵥ sol A b = b

/-- the user's QR object keeps the thin factorisation `A = Q R` of the last matrix it was given (`fact A`) and, when that matrix has full column rank, computes `Qᵀ v` and solves with `R`; the norms are Euclidean -/
structure QrObject {p L : Type} (env : Env ℝ m n p L) (fact : Matrix m n ℝ → L) (qt : Matrix m n ℝ → (m → ℝ) → n → ℝ) (back : Matrix m n ℝ → (n → ℝ) → n → ℝ) : Prop where
  normM : ∀ v, env.normM v = ‖eu m v‖
  normN : ∀ v, env.normN v = ‖eu n v‖
  thin : ∀ A l, env.qrThin A l = .ok () (fact A)
  apply : ∀ A v b, env.qrApplyQT v (b, fact A) = .ok () (qt A v, fact A)
  solve : ∀ A b c, env.qrSolve b (c, fact A) = .ok () (back A b, fact A)
  factors : ∀ A : Matrix m n ℝ, (∀ v, A *ᵥ v = 0 → v = 0) → ∃ (Q : Matrix m n ℝ) (R : Matrix n n ℝ), A = Q * R ∧ Qᵀ * Q = 1 ∧ (∀ v, qt A v = Qᵀ *ᵥ v) ∧ ∀ b, R *ᵥ back A b = b

/-- distance to the minimiser that the criterion guarantees in these steps -/
noncomputable def accuracy (cfg : Cfg ℝ) (b : ℝ) : ℝ := fitError cfg.stop cfg.tol (2 * b) 0 0

/-- Room for `N` steps of size at most `H`: `σ` bounds the residuals at the starting points of the steps.  The ball in which the full-order model is well-behaved contains all the points that the run can reach; the steps are small
    enough for the first and second derivatives; and `k` updates are enough for the tolerance. -/
structure RoomFor (cfg : Cfg ℝ) (N k : Nat) (H σ R b B Lf γ F : ℝ) : Prop where
  start : 3 * H * F + 3 / 2 * B * accuracy cfg b ≤ σ
  reach : N * (16 / 3 * b * σ + accuracy cfg b) + 16 * b * σ ≤ R
  first : H * Lf ≤ 1 / 8
  second : 64 * b ^ 2 * (H * γ) * σ ≤ 1
  tol0 : 0 ≤ cfg.tol
  iters : (k : Int) < cfg.maxIters
  enough : Enough cfg.stop cfg.tol (2 * b) (2 * B) (8 * b * σ) ((1 / 2) ^ k)

/-- What a converged time step is: from `xn` to `y`, in a problem with residual `res`, there is a minimiser `x'` of the residual over the reduced states within the distance `16 b σ` of `xn`; it is well inside that ball; `y` is
    as close to it as the criterion says, and leaves a residual which is hardly larger. -/
def ConvergedStep (ι : (m → ℝ) →ₗ[ℝ] E) (cfg : Cfg ℝ) (res : (n → ℝ) → m → ℝ) (σ b B : ℝ) (xn y : n → ℝ) : Prop :=
  ∃ x', ‖eu n (x' - xn)‖ ≤ 16 / 3 * b * σ ∧ (∀ z, ‖eu n (z - xn)‖ ≤ 16 * b * σ → ‖ι (res x')‖ ≤ ‖ι (res z)‖) ∧ ‖eu n (y - x')‖ ≤ accuracy cfg b ∧ ‖ι (res y)‖ ≤ ‖ι (res x')‖ + 9 / 8 * B * accuracy cfg b

end Pressio.Spec.LspgRuns
