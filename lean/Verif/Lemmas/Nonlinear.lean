import Verif.Spec.Nonlinear
import Mathlib.Algebra.Order.Ring.Abs
import Mathlib.Tactic.NormNum
import Mathlib.Tactic.Ring

/-
  The solver objects refine the specification `Spec.Nonlinear.iterate`.
-/
namespace Pressio.Lemmas.Nonlinear
set_option autoImplicit false
open Pressio Matrix
open Pressio.Model.Nonlinear Pressio.Spec.Nonlinear
set_option linter.unusedSectionVars false

variable {K m n p L : Type}

/-- the part of the registry that the specification keeps -/
def absR (s : Reg K m n p L) : St K n L := ⟨s.x, s.c, s.QTr, s.lin, s.damp, s.nu⟩

theorem evalSys_J (sys : Sys K m n) (x : n → K) (s : Reg K m n p L) :
    SM.run sys.toF (evalSys x true) s = match sys.resJac x with
      | .ok (r, J) => .ok () { s with log := s.log ++ [sys.query x true], r := r, J := J }
      | .error e => .stop (.exc e) { s with log := s.log ++ [sys.query x true] } := by
  have hq : sys.query x true = ⟨x, true, sys.toF x true⟩ := rfl
  rw [hq]
  unfold evalSys
  simp only [SM.run_bind, SM.run_call, SM.run_lift, Prog.bind_run, Prog.pure_run, Prog.modify_run]
  have : sys.toF x true = (sys.resJac x).map (fun a => (a.1, some a.2)) := rfl
  rw [this]
  rcases sys.resJac x with e | ⟨r, J⟩ <;> rfl

theorem evalSys_r (sys : Sys K m n) (x : n → K) (s : Reg K m n p L) :
    SM.run sys.toF (evalSys x false) s = match sys.res x with
      | .ok r => .ok () { s with log := s.log ++ [sys.query x false], r := r }
      | .error e => .stop (.exc e) { s with log := s.log ++ [sys.query x false] } := by
  have hq : sys.query x false = ⟨x, false, sys.toF x false⟩ := rfl
  rw [hq]
  unfold evalSys
  simp only [SM.run_bind, SM.run_call, SM.run_lift, Prog.bind_run, Prog.pure_run, Prog.modify_run]
  have : sys.toF x false = (sys.res x).map (fun r => (r, none)) := rfl
  rw [this]
  rcases sys.res x with e | r <;> rfl

section
variable [Field K] [LinearOrder K] [Fintype m] [Fintype n] [Fintype p]

/-! ### objectives, operators, corrections -/

theorem objective_run (env : Env K m n p L) (sys : Sys K m n) (tag : Tag) (x : n → K) (s : Reg K m n p L) :
    ∃ r' W' cW', SM.run sys.toF (lsObjective env tag x) s =
      match objAt env sys tag x with
      | .ok v => .ok v { s with r := r', Wr := W', cWr := cW', log := s.log ++ [sys.query x false] }
      | .error e => .stop (.exc e) { s with r := r', Wr := W', cWr := cW', log := s.log ++ [sys.query x false] } := by
  unfold lsObjective
  simp only [SM.run_bind, SM.run_lift, Prog.bind_run, evalSys_r]
  unfold objAt
  rcases hr : sys.res x with e | r
  · exact ⟨s.r, s.Wr, s.cWr, rfl⟩
  · simp only [Except.map]
    cases tag
    · exact ⟨r, s.Wr, s.cWr, by simp [objectiveOfR, objOf, halfSumOfSquares, Prog.bind_run, div_eq_mul_inv]⟩
    · exact ⟨r, s.Wr, s.cWr, by simp [objectiveOfR, objOf, halfSumOfSquares, Prog.bind_run, div_eq_mul_inv]⟩
    · exact ⟨r, env.wR r, s.cWr, by simp [objectiveOfR, objOf, Prog.bind_run, div_eq_mul_inv]⟩
    · exact ⟨r, s.Wr, env.cwR r, by simp [objectiveOfR, objOf, Prog.bind_run, div_eq_mul_inv]⟩
    · exact ⟨r, s.Wr, s.cWr, by simp [objectiveOfR, objOf, halfSumOfSquares, Prog.bind_run, div_eq_mul_inv]⟩

theorem newtonObjective_run (env : Env K m n p L) (sys : Sys K m n) (x : n → K) (s : Reg K m n p L) :
    ∃ r' W' cW', SM.run sys.toF (newtonObjective env x) s =
      match (sys.res x).map env.normM with
      | .ok v => .ok v { s with r := r', Wr := W', cWr := cW', log := s.log ++ [sys.query x false] }
      | .error e => .stop (.exc e) { s with r := r', Wr := W', cWr := cW', log := s.log ++ [sys.query x false] } := by
  unfold newtonObjective
  simp only [SM.run_bind, SM.run_lift, SM.run_pure, Prog.bind_run, evalSys_r]
  rcases hr : sys.res x with e | r
  · exact ⟨s.r, s.Wr, s.cWr, rfl⟩
  · exact ⟨r, s.Wr, s.cWr, rfl⟩

/-- after `operators`: gradient, matrices and the returned objective -/
theorem operators_run [DecidableEq n] (env : Env K m n p L) (tag : Tag) (s : Reg K m n p L) :
    ∃ s', operators env tag s = .ok (objOf env tag s.r) s' ∧ absR s' = absR s ∧ s'.r = s.r ∧ s'.J = s.J ∧ s'.diag = s.diag ∧ s'.files = s.files ∧
      s'.log = s.log ∧ s'.g = gradOf env tag s.r s.J ∧ (tag ≠ .gnQr → s'.H = hessOf env tag s.J s.damp) ∧ (tag = .lm → s'.H0 = s.Jᵀ * s.J) := by
  cases tag
  · exact ⟨{ s with H := s.Jᵀ * s.J, g := s.Jᵀ *ᵥ s.r },
      by simp [operators, objOf, halfSumOfSquares, Prog.bind_run, div_eq_mul_inv], rfl, rfl, rfl, rfl, rfl, rfl, rfl, fun _ => rfl, by simp⟩
  · exact ⟨{ s with g := s.Jᵀ *ᵥ s.r },
      by simp [operators, objOf, halfSumOfSquares, Prog.bind_run, div_eq_mul_inv], rfl, rfl, rfl, rfl, rfl, rfl, rfl, by simp, by simp⟩
  · exact ⟨{ s with Wr := env.wR s.r, WJ := env.wJ s.J, H := s.Jᵀ * env.wJ s.J, g := s.Jᵀ *ᵥ env.wR s.r },
      by simp [operators, objOf, Prog.bind_run, div_eq_mul_inv], rfl, rfl, rfl, rfl, rfl, rfl, rfl, fun _ => rfl, by simp⟩
  · exact ⟨{ s with cWr := env.cwR s.r, cWJ := env.cwJ s.J, H := (env.cwJ s.J)ᵀ * env.cwJ s.J, g := (env.cwJ s.J)ᵀ *ᵥ env.cwR s.r },
      by simp [operators, objOf, Prog.bind_run, div_eq_mul_inv], rfl, rfl, rfl, rfl, rfl, rfl, rfl, fun _ => rfl, by simp⟩
  · refine ⟨{ s with H0 := s.Jᵀ * s.J, g := s.Jᵀ *ᵥ s.r,
                     H := Matrix.of (fun i j => if i = j then 1 * (s.Jᵀ * s.J) i j + s.damp * (s.Jᵀ * s.J) i j else (s.Jᵀ * s.J) i j) },
      by simp [operators, objOf, halfSumOfSquares, Prog.bind_run, div_eq_mul_inv], rfl, rfl, rfl, rfl, rfl, rfl, rfl, fun _ => ?_, fun _ => rfl⟩
    ext i j
    by_cases h : i = j
    · subst h; simp [hessOf, Matrix.diag]
    · simp [hessOf, h]

/-- `correction` is the specified inner solve -/
theorem correction_run [DecidableEq n] (env : Env K m n p L) (cfg : Cfg K) (sys : Sys K m n) (rule : Rule K) (tag : Tag) (s : Reg K m n p L) (d : K)
    (hg : s.g = gradOf env tag s.r s.J) (hH : tag ≠ .gnQr → s.H = hessOf env tag s.J d) :
    correction env tag s = match (lsProblem env cfg sys tag rule).corr s.x s.r s.J d (s.c, s.QTr, s.lin) with
      | .ok _ (c, b, l) => .ok () { s with c := c, QTr := b, lin := l }
      | .stop h (c, b, l) => .stop h { s with c := c, QTr := b, lin := l } := by
  cases tag
  case gnQr =>
    simp only [correction, Prog.bind_run, Prog.get_run, lsProblem, qrNegated, onLin, onQTr]
    rcases env.qrThin s.J s.lin with ⟨⟨⟩, l1⟩ | ⟨h, l1⟩
    · simp only []
      rcases env.qrApplyQT s.r (s.QTr, l1) with ⟨⟨⟩, b, l2⟩ | ⟨h, b, l2⟩
      · simp only [onC, negated]
        rcases env.qrSolve b (s.c, l2) with ⟨⟨⟩, c, l3⟩ | ⟨h, c, l3⟩
        · simp [negateC]
        · rfl
      · rfl
    · rfl
  all_goals
    simp only [correction, Prog.bind_run, Prog.get_run, lsProblem, onC, negated]
    rw [← hH (by simp), ← hg]
    rcases hx : env.lin s.H s.g (s.c, s.lin) with ⟨⟨⟩, c, l3⟩ | ⟨h, c, l3⟩
    · simp [negateC]
    · rfl

theorem newtonStep_run (env : Env K m n p L) (cfg : Cfg K) (sys : Sys K m n) (rule : RootRule K) (mf : Bool) (s : Reg K m n p L) (J : Matrix m n K) (d : K)
    (hJ : mf = false → s.J = J) :
    (if mf then krylovStep env else newtonStep env) s = match (newtonProblem env cfg sys mf rule).corr s.x s.r J d (s.c, s.QTr, s.lin) with
      | .ok _ (c, b, l) => .ok () { s with c := c, QTr := b, lin := l }
      | .stop h (c, b, l) => .stop h { s with c := c, QTr := b, lin := l } := by
  cases mf
  · rw [← hJ rfl]
    have e : (newtonProblem env cfg sys false rule).corr s.x s.r s.J d = negated (env.linJ s.J s.r) := rfl
    have e2 : (if false = true then krylovStep env else newtonStep env : Prog (Reg K m n p L) Unit) = newtonStep env := rfl
    rw [e, e2]
    simp only [newtonStep, Prog.bind_run, Prog.get_run, onC, negated]
    rcases hx : env.linJ s.J s.r (s.c, s.lin) with ⟨⟨⟩, c, l3⟩ | ⟨h, c, l3⟩
    · simp [negateC]
    · rfl
  · have e : (newtonProblem env cfg sys true rule).corr s.x s.r J d = krylovNegated env s.x s.r := rfl
    have e2 : (if true = true then krylovStep env else newtonStep env : Prog (Reg K m n p L) Unit) = krylovStep env := rfl
    rw [e, e2]
    simp only [krylovStep, onlyC, krylovNegated, Prog.bind_run, Prog.get_run, one_smul]
    rcases hx : env.krylov (fun operand out => out + env.applyJac s.x operand 0) s.r s.c with ⟨⟨⟩, c⟩ | ⟨h, c⟩
    · simp [negateC]
    · rfl

end
end Pressio.Lemmas.Nonlinear
