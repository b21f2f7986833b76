import Verif.Props.LeastSquares
import Verif.Props.Newton
import Verif.Props.SolverMemory
import Verif.Spec.GaussNewtonConvergence

/-
  C87: solves that begin at a solution.
-/
namespace Pressio.Props
set_option autoImplicit false
set_option linter.unusedSectionVars false
open Pressio Matrix
open Pressio.Model.Nonlinear (Env Cfg Reg StopCrit Update Ans Tag fdiv Quot' leastSquaresDiagnostics newtonDiagnostics)
open Pressio.Spec.Nonlinear
open Pressio.Spec.GaussNewtonConvergence (relative)
open Pressio.Lemmas.Nonlinear

variable {K m n p L : Type} [Field K] [LinearOrder K] [IsStrictOrderedRing K] [Fintype m] [Fintype n] [Fintype p] [DecidableEq n]

/-- the quantity that a criterion looks at -/
def measured : StopCrit → Norms K → K
  | .WhenAbsolutel2NormOfCorrectionBelowTolerance, N | .WhenRelativel2NormOfCorrectionBelowTolerance, N => N.corr
  | .WhenAbsolutel2NormOfResidualBelowTolerance, N | .WhenRelativel2NormOfResidualBelowTolerance, N => N.resid
  | .WhenAbsolutel2NormOfGradientBelowTolerance, N | .WhenRelativel2NormOfGradientBelowTolerance, N => N.grad
  | .WhenAbsoluteObjectiveBelowTolerance, N | .WhenRelativeObjectiveBelowTolerance, N => N.obj
  | .AfterMaxIters, _ => 0

/-- **C44, quotients.**  A quotient is below (above) a tolerance as in IEEE arithmetic: with a zero denominator (positive zero) only infinities of that sign are, and 0/0 never is. -/
theorem C44_quotients (a b t : K) : ((fdiv a b).lt t = true ↔ b ≠ 0 ∧ a / b < t ∨ b = 0 ∧ a < 0) ∧ ((fdiv a b).gt t = true ↔ b ≠ 0 ∧ t < a / b ∨ b = 0 ∧ 0 < a) := by
  unfold fdiv
  by_cases hb : b = 0
  · rcases lt_trichotomy a 0 with ha | ha | ha
    · simp [hb, ha.ne, ha.not_gt, ha, Quot'.lt, Quot'.gt]
    · simp [hb, ha, Quot'.lt, Quot'.gt]
    · simp [hb, ha.ne', ha.not_gt, ha, Quot'.lt, Quot'.gt]
  · simp [hb, Quot'.lt, Quot'.gt]

/-- **C87.**  When the quantity of a relative criterion was zero in the first iteration, the criterion is never met, with any tolerance: the first relative value is 0/0, later ones are 0/0 or infinite. -/
theorem C87_zero_reference_is_never_met (stop : StopCrit) (hrel : relative stop = true) (tol : K) (ref now : Norms K) (h0 : measured stop ref = 0) (hn : 0 ≤ measured stop now) : below stop tol ref now = false := by
  have key : ∀ a b : K, b = 0 → 0 ≤ a → (fdiv a b).lt tol = false := fun a b hb ha => by
    rw [Bool.eq_false_iff, ne_eq, (C44_quotients a b tol).1]
    rintro (⟨h, -⟩ | ⟨-, h⟩)
    · exact h hb
    · exact absurd h (not_lt.2 ha)
  cases stop <;> simp only [relative, Bool.false_eq_true] at hrel <;> simp only [measured] at h0 hn <;> simp only [below] <;> exact key _ _ h0 hn

/-- an absolute criterion is met when its quantity is zero -/
theorem zero_meets_absolute (stop : StopCrit) (habs : relative stop = false) (hs : stop ≠ .AfterMaxIters) (tol : K) (ht : 0 < tol) (ref now : Norms K) (h0 : measured stop now = 0) : below stop tol ref now = true := by
  cases stop <;> simp only [relative, reduceCtorEq] at habs <;> simp only [measured] at h0 <;> simp only [below]
  all_goals first | exact absurd rfl hs | (rw [h0]; simpa using ht)

/-- **C87, Newton, absolute criteria.**  Started at a root (the linear solver answers 0 to a zero right-hand side): one evaluation, one linear solve, the state is returned unchanged, no termination file. -/
theorem C87_newton_absolute_partial (env : Env K m n p L) (hM : env.normM 0 = 0) (hN : env.normN 0 = 0) (cfg : Cfg K) (r : (n → K) → m → K) (J : (n → K) → Matrix m n K) (sol : Matrix m n K → (m → K) → n → K)
    (tick : L → L) (hlin : ∀ A b c l, env.linJ A b (c, l) = .ok () (sol A b, tick l)) (hcrit : rootCriterion cfg.stop = true) (habs : relative cfg.stop = false) (htol : 0 < cfg.tol)
    (hupd : cfg.update = .Standard) (hmax : cfg.maxIters < int32Max) (h1 : 1 ≤ cfg.maxIters) (s : Reg K m n p L) (hs : NewtonObj s) (hroot : r s.x = 0) (hsol : sol (J s.x) 0 = 0) :
    let res := runNewton env cfg (Sys.ofFun r J) s
    res.stop? = none ∧ res.state.x = s.x ∧ res.state.files = s.files ∧ res.state.lin = tick s.lin ∧ res.state.log = s.log ++ [⟨s.x, true, .ok (r s.x, some (J s.x))⟩] := by
  obtain ⟨g1, g2, -⟩ := C30_newton_iterates env cfg r J sol tick hlin hcrit hupd hmax s hs
  obtain ⟨f1, f2, f3, f4⟩ := g2 0 (by push_cast; omega) (zero_meets_absolute cfg.stop habs (by intro h; rw [h] at hcrit; cases hcrit) _ htol _ _ (by
    rcases hc : cfg.stop <;> rw [hc] at hcrit <;> simp only [rootCriterion, Bool.false_eq_true] at hcrit <;> simp only [measured, Function.iterate_zero, id, hroot, hsol, hM, hN, neg_zero])) (by simp)
  exact ⟨g1, f1, f4, f3, f2⟩

/-- **C87 is false for relative criteria: Newton.**  Started at a root, every system, linear solver and tolerance: all iterations up to the limit are made, all at the root; the termination file then says that there was no
    convergence. -/
theorem C87_newton_relative_refuted (env : Env K m n p L) (hM : env.normM 0 = 0) (hN : env.normN 0 = 0) (cfg : Cfg K) (r : (n → K) → m → K) (J : (n → K) → Matrix m n K) (sol : Matrix m n K → (m → K) → n → K)
    (tick : L → L) (hlin : ∀ A b c l, env.linJ A b (c, l) = .ok () (sol A b, tick l)) (hcrit : rootCriterion cfg.stop = true) (hrel : relative cfg.stop = true)
    (hupd : cfg.update = .Standard) (hmax : cfg.maxIters < int32Max) (h1 : 1 ≤ cfg.maxIters) (s : Reg K m n p L) (hs : NewtonObj s) (hroot : r s.x = 0) (hsol : sol (J s.x) 0 = 0) :
    let res := runNewton env cfg (Sys.ofFun r J) s
    res.stop? = none ∧ res.state.x = s.x ∧ res.state.files = s.files ++ ["reached maximum number of iterations before convergence"] ∧ res.state.lin = tick^[cfg.maxIters.toNat] s.lin ∧
    res.state.log = s.log ++ List.replicate cfg.maxIters.toNat ⟨s.x, true, .ok (r s.x, some (J s.x))⟩ := by
  intro res
  obtain ⟨g1, -, g3⟩ := C30_newton_iterates env cfg r J sol tick hlin hcrit hupd hmax s hs
  set N : (n → K) → n → K := fun x => x + -sol (J x) (r x) with hNd
  have hfix : ∀ k, N^[k] s.x = s.x := fun k => Function.iterate_fixed (by simp [hNd, hroot, hsol]) k
  obtain ⟨f1, f2, f3, f4⟩ := g3 (fun k _ => by
    beta_reduce
    rw [hfix k, C87_zero_reference_is_never_met cfg.stop hrel]
    · simp
    · rcases hc : cfg.stop <;> rw [hc] at hcrit <;> simp only [rootCriterion, Bool.false_eq_true] at hcrit <;> simp only [measured, hroot, hsol, hM, hN, neg_zero]
    · rcases hc : cfg.stop <;> rw [hc] at hcrit <;> simp only [rootCriterion, Bool.false_eq_true] at hcrit <;> simp only [measured, hroot, hsol, hM, hN, neg_zero, le_refl])
  rw [hfix] at f1
  rw [if_pos h1] at f4
  refine ⟨g1, f1, f4, f3, ?_⟩
  rw [show res.state.log = _ from f2]
  congr 1
  rw [List.eq_replicate_iff]
  refine ⟨by simp, fun q hq => ?_⟩
  simp only [List.mem_map, List.mem_range] at hq
  obtain ⟨a, -, rfl⟩ := hq
  rw [hfix]

/-- At `x` the quantity of the criterion vanishes: the correction and the gradient because `x` is stationary, the residual and the objective when it is a perfect fit. -/
def AtSolution (env : Env K m n p L) (tag : Tag) (r : m → K) (J : Matrix m n K) : StopCrit → Prop
  | .WhenAbsolutel2NormOfCorrectionBelowTolerance | .WhenRelativel2NormOfCorrectionBelowTolerance | .WhenAbsolutel2NormOfGradientBelowTolerance | .WhenRelativel2NormOfGradientBelowTolerance => gradOf env tag r J = 0
  | .WhenAbsolutel2NormOfResidualBelowTolerance | .WhenRelativel2NormOfResidualBelowTolerance => gradOf env tag r J = 0 ∧ env.normM r = 0
  | .WhenAbsoluteObjectiveBelowTolerance | .WhenRelativeObjectiveBelowTolerance => gradOf env tag r J = 0 ∧ objOf env tag r = 0
  | .AfterMaxIters => False

theorem AtSolution.grad {env : Env K m n p L} {tag : Tag} {r : m → K} {J : Matrix m n K} {stop : StopCrit} (h : AtSolution env tag r J stop) : gradOf env tag r J = 0 := by
  cases stop <;> simp only [AtSolution] at h <;> first | exact h | exact h.1

theorem AtSolution.measured {env : Env K m n p L} (hN : env.normN 0 = 0) {tag : Tag} {r : m → K} {J : Matrix m n K} {stop : StopCrit} (h : AtSolution env tag r J stop) :
    Pressio.Props.measured stop ⟨env.normM r, env.normN 0, env.normN (gradOf env tag r J), objOf env tag r⟩ = 0 := by
  have hg := h.grad
  cases stop <;> simp only [AtSolution] at h <;> simp only [Pressio.Props.measured, hN, hg] <;> exact h.2

/-- **C87, least squares, absolute criteria.** -/
theorem C87_least_squares_absolute_partial (env : Env K m n p L) (hN : env.normN 0 = 0) (cfg : Cfg K) (tag : Tag) (htag : tag = .gn ∨ tag = .wgn ∨ tag = .cwgn) (r : (n → K) → m → K) (J : (n → K) → Matrix m n K)
    (sol : Matrix n n K → (n → K) → n → K) (tick : L → L) (hlin : ∀ A b c l, env.lin A b (c, l) = .ok () (sol A b, tick l)) (habs : relative cfg.stop = false) (htol : 0 < cfg.tol)
    (hupd : cfg.update = .Standard) (hmax : cfg.maxIters < int32Max) (h1 : 1 ≤ cfg.maxIters) (s : Reg K m n p L) (hs : LsObj s) (hat : AtSolution env tag (r s.x) (J s.x) cfg.stop) (hsol : ∀ A, sol A 0 = 0) :
    let res := runLs env cfg (Sys.ofFun r J) tag s
    res.stop? = none ∧ res.state.x = s.x ∧ res.state.files = s.files ∧ res.state.lin = tick s.lin ∧ res.state.log = s.log ++ [⟨s.x, true, .ok (r s.x, some (J s.x))⟩] := by
  have hst : cfg.stop ≠ .AfterMaxIters := by intro h; rw [h] at hat; exact hat
  obtain ⟨g1, g2, g3, -⟩ := C36_least_squares_iterates env cfg tag htag r J sol tick hlin hupd hmax s hs
  obtain ⟨f1, f2, f3⟩ := g3 0 (by push_cast; omega) (by
    beta_reduce
    rw [lsMet, if_neg hst]
    have he : -sol (hessOf env tag (J s.x) s.damp) (gradOf env tag (r s.x) (J s.x)) = 0 := by rw [hat.grad, hsol, neg_zero]
    refine zero_meets_absolute cfg.stop habs hst _ htol _ _ ?_
    simp only [Function.iterate_zero, id]
    rw [he]
    exact hat.measured hN) (by simp)
  exact ⟨g1, f1, g2, f3, f2⟩

/-- **C87 is false for relative criteria: least squares.** -/
theorem C87_least_squares_relative_refuted (env : Env K m n p L) (hN : env.normN 0 = 0) (cfg : Cfg K) (tag : Tag) (htag : tag = .gn ∨ tag = .wgn ∨ tag = .cwgn) (r : (n → K) → m → K) (J : (n → K) → Matrix m n K)
    (sol : Matrix n n K → (n → K) → n → K) (tick : L → L) (hlin : ∀ A b c l, env.lin A b (c, l) = .ok () (sol A b, tick l)) (hrel : relative cfg.stop = true)
    (hupd : cfg.update = .Standard) (hmax : cfg.maxIters < int32Max) (s : Reg K m n p L) (hs : LsObj s) (hat : AtSolution env tag (r s.x) (J s.x) cfg.stop) (hsol : ∀ A, sol A 0 = 0) :
    let res := runLs env cfg (Sys.ofFun r J) tag s
    res.stop? = none ∧ res.state.x = s.x ∧ res.state.files = s.files ∧ res.state.lin = tick^[cfg.maxIters.toNat] s.lin ∧
    res.state.log = s.log ++ List.replicate cfg.maxIters.toNat ⟨s.x, true, .ok (r s.x, some (J s.x))⟩ := by
  intro res
  have hst : cfg.stop ≠ .AfterMaxIters := by intro h; rw [h] at hat; exact hat
  obtain ⟨g1, g2, -, g4⟩ := C36_least_squares_iterates env cfg tag htag r J sol tick hlin hupd hmax s hs
  set N : (n → K) → n → K := fun x => x + -sol (hessOf env tag (J x) s.damp) (gradOf env tag (r x) (J x)) with hNd
  have hfix : ∀ k, N^[k] s.x = s.x := fun k => Function.iterate_fixed (by simp [hNd, hat.grad, hsol]) k
  have hmeas := hat.measured hN
  obtain ⟨f1, f2, f3⟩ := g4 (fun k _ => by
    beta_reduce
    have he : -sol (hessOf env tag (J s.x) s.damp) (gradOf env tag (r s.x) (J s.x)) = 0 := by rw [hat.grad, hsol, neg_zero]
    rw [hfix k, he, lsMet, if_neg hst, C87_zero_reference_is_never_met cfg.stop hrel _ _ _ hmeas hmeas.ge]
    simp)
  rw [hfix] at f1
  refine ⟨g1, f1, g2, f3, ?_⟩
  rw [show res.state.log = _ from f2]
  congr 1
  rw [List.eq_replicate_iff]
  refine ⟨by simp, fun q hq => ?_⟩
  simp only [List.mem_map, List.mem_range] at hq
  obtain ⟨a, -, rfl⟩ := hq
  rw [hfix]

/-! ### Instances: `x² - 4` from 2 -/

def four (x : Unit → ℚ) : Unit → ℚ := v1 (x () ^ 2 - 4)
def fourJ (x : Unit → ℚ) : Matrix Unit Unit ℚ := m1 (2 * x ())

/-- the hypotheses are met -/
example := C87_newton_relative_refuted env1t (by decide) (by decide) (cfgN .WhenRelativel2NormOfResidualBelowTolerance (1/100) 100 .Standard) four fourJ (fun A b => v1 (b () / A () ())) (· + 1) (fun _ _ _ _ => rfl) rfl rfl rfl
  (by decide) (by decide) (reg1 newtonDiagnostics 2) (.created _ rfl) (by funext u; cases u; decide +kernel) (by funext u; cases u; decide +kernel)
example := C87_newton_absolute_partial env1t (by decide) (by decide) (cfgN .WhenAbsolutel2NormOfResidualBelowTolerance (1/100) 100 .Standard) four fourJ (fun A b => v1 (b () / A () ())) (· + 1) (fun _ _ _ _ => rfl) rfl rfl
  (by decide +kernel) rfl (by decide) (by decide) (reg1 newtonDiagnostics 2) (.created _ rfl) (by funext u; cases u; decide +kernel) (by funext u; cases u; decide +kernel)

/-- and what happens: 100 evaluations with the relative, one with the absolute criterion -/
example : let res := runNewton env1t (cfgN .WhenRelativel2NormOfResidualBelowTolerance (1/100) 100 .Standard) (Sys.ofFun four fourJ) (reg1 newtonDiagnostics 2)
    res.stop? = none ∧ res.state.log.length = 100 ∧ res.state.files = ["reached maximum number of iterations before convergence"] := by decide +kernel
example : let res := runNewton env1t (cfgN .WhenAbsolutel2NormOfResidualBelowTolerance (1/100) 100 .Standard) (Sys.ofFun four fourJ) (reg1 newtonDiagnostics 2)
    res.stop? = none ∧ res.state.log.length = 1 ∧ res.state.files = [] := by decide +kernel

def env1l : Env ℚ Unit Unit Unit ℚ := { env1 with lin := fun A b (_, l) => .ok () (v1 (b () / A () ()), l + 1) }
example := C87_least_squares_relative_refuted env1l (by decide) (cfgN .WhenRelativeObjectiveBelowTolerance (1/100) 100 .Standard) .gn (.inl rfl) four fourJ (fun A b => v1 (b () / A () ())) (· + 1) (fun _ _ _ _ => rfl) rfl rfl
  (by decide) (reg1 leastSquaresDiagnostics 2) (.created _ rfl) ⟨by funext u; cases u; decide +kernel, by decide +kernel⟩ (fun A => by funext u; simp [v1])
example := C87_least_squares_absolute_partial env1l (by decide) (cfgN .WhenAbsoluteObjectiveBelowTolerance (1/100) 100 .Standard) .gn (.inl rfl) four fourJ (fun A b => v1 (b () / A () ())) (· + 1) (fun _ _ _ _ => rfl) rfl (by decide +kernel) rfl
  (by decide) (by decide) (reg1 leastSquaresDiagnostics 2) (.created _ rfl) ⟨by funext u; cases u; decide +kernel, by decide +kernel⟩ (fun A => by funext u; simp [v1])

/-- a relative residual with reference 0: with Newton and the residual criterion -/
example := C87_zero_reference_is_never_met (K := ℚ) .WhenRelativel2NormOfResidualBelowTolerance rfl 1000 ⟨0, 1, 2, 0⟩ ⟨0, 1, 2, 0⟩ rfl (le_refl _)
example : (fdiv (1 : ℚ) 2).lt 1 = true ∧ (fdiv (1 : ℚ) 0).lt 1 = false ∧ (fdiv (0 : ℚ) 0).lt 1 = false ∧ (fdiv (1 : ℚ) 0).gt 1 = true := by decide +kernel
example := C44_quotients (1 : ℚ) 2 1

end Pressio.Props
