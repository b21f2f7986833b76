import Verif.Lemmas.Lspg
import Mathlib.Tactic.Module

/-
  The assembly of LSPG residuals and Jacobians.
-/
namespace Pressio.Lemmas.Lspg
set_option autoImplicit false
set_option linter.unusedSectionVars false
open Pressio Pressio.Model.Galerkin Pressio.Model.Lspg Pressio.Spec.Galerkin Pressio.Spec.Lspg Pressio.Model.Implicit Pressio.Lemmas.Implicit Pressio.Props
open Pressio.Model.Explicit (Scheme)
open scoped Matrix

variable {K m p q n : Type} [Field K] [Fintype m] [Fintype p] [Fintype q] [Fintype n]

def cOf (o : Option (m → K)) (dt : K) : K :=
  match o with
  | some _ => (2:K) / 3 * dt
  | none => dt
def combOf (y yn : m → K) (o : Option (m → K)) : m → K :=
  match o with
  | some z => y - ((4:K) / 3) • yn + ((1:K) / 3) • z
  | none => y - yn

/-- the assembled equations; `E` acts on vectors, `EM` on matrices of the stencil mesh -/
def assembled (E : (m → K) → (p → K)) (EM : Matrix m n K → Matrix p n K) (S : Trial K m n) (f : (m → K) → K → Except Exc (p → K)) (Df : (m → K) → K → Except Exc (Matrix p m K)) :
    (m → K) → (m → K) → Option (m → K) → K → K → Bool → Except Exc ((p → K) × Option (Matrix p n K)) := fun y yn o t dt w => do
  let v ← f y t
  let J ← if w then (Df y t).map (fun D => some (EM S.basis - cOf o dt • (D * S.basis))) else pure none
  pure (E (combOf y yn o) - cOf o dt • v, J)

variable {F : Fom K m p n} {f : (m → K) → K → Except Exc (p → K)} {Df Mm : (m → K) → K → Except Exc (Matrix p m K)}

theorem callR_ok (hF : FomIs F f Df Mm) (y : m → K) (t : K) (s : LMem K m p n) (v : p → K) (h : f y t = .ok v) : callR F y t s = .ok () { s with R := v } :=
  call_ok _ _ _ _ (h ▸ hF.rhs _ _) s
theorem callR_error (hF : FomIs F f Df Mm) (y : m → K) (t : K) (s : LMem K m p n) (e : Exc) (h : f y t = .error e) : ∃ j, callR F y t s = .stop (.exc e) { s with R := j } :=
  call_error (fun s : LMem K m p n => s.R) (fun s v => { s with R := v }) _ e (h ▸ hF.rhs y t) s
theorem callJ_ok (hF : FomIs F f Df Mm) (S : Trial K m n) (y : m → K) (t : K) (s : LMem K m p n) (D : Matrix p m K) (h : Df y t = .ok D) : callJ S F y t s = .ok () { s with J := D * S.basis } :=
  call_ok _ _ _ _ (by have := hF.jac y S.basis t; rw [h] at this; exact this) s
theorem callJ_error (hF : FomIs F f Df Mm) (S : Trial K m n) (y : m → K) (t : K) (s : LMem K m p n) (e : Exc) (h : Df y t = .error e) : ∃ j, callJ S F y t s = .stop (.exc e) { s with J := j } :=
  call_error (fun s : LMem K m p n => s.J) (fun s v => { s with J := v }) _ e (by have := hF.jac y S.basis t; rw [h] at this; exact this) s

theorem fomAt_run (tag : Slot) (s : LMem K m p n) (y : m → K) (h : mgrRead tag s.data = some y) : fomAt tag s = .ok y s := by
  unfold fomAt; rw [h]

theorem stop_bind {σ α β : Type} {a : Prog σ α} {rest : α → Prog σ β} {s s' : σ} {h : Stop} (e : a s = .stop h s') : (a >>= rest) s = .stop h s' := by
  rw [Prog.bind_run, e]

/-- the case distinction -/
theorem bdf_case (bdf2 : Bool) (tl : List (m → K)) (hb : bdf2 = true → ∃ z, tl = [z]) :
    ∃ o, (if bdf2 then tl.head? else none) = o ∧ ((bdf2 = true ∧ ∃ z, tl = [z] ∧ o = some z) ∨ (bdf2 = false ∧ o = none)) := by
  cases bdf2 with
  | true => obtain ⟨z, rfl⟩ := hb rfl; exact ⟨some z, rfl, Or.inl ⟨rfl, z, rfl, rfl⟩⟩
  | false => exact ⟨none, rfl, Or.inr ⟨rfl, rfl⟩⟩

theorem assembleDefault_ok {F : Fom K m m n} {f : (m → K) → K → Except Exc (m → K)} {Df Mm : (m → K) → K → Except Exc (Matrix m m K)} (hF : FomIs F f Df Mm) (S : Trial K m n) :
    Assembles (fun b t dt w => assembleDefault b S F t dt w) (assembled id id S f Df) := by
  intro y yn tl t dt w bdf2 s hd hb
  obtain ⟨o, ho, hcase⟩ := bdf_case bdf2 tl hb
  rw [ho]
  simp only [assembleDefault, assembled]
  rw [bind_ok (fomAt_run .nPlusOne s y (by simp [mgrRead, hd]))]
  rcases hv : f y t with e | v
  · obtain ⟨j, hj⟩ := callR_error hF y t s e hv
    rw [stop_bind (show defaultResidual bdf2 F y t dt s = _ from stop_bind hj)]
    exact ⟨{ s with R := j }, rfl, rfl, rfl⟩
  have hR : defaultResidual bdf2 F y t dt s = .ok () { s with R := combOf y yn o - cOf o dt • v } := by
    unfold defaultResidual
    rw [bind_ok (callR_ok hF y t s v hv)]
    rcases hcase with ⟨rfl, z, rfl, rfl⟩ | ⟨rfl, rfl⟩
    · simp only [if_true]
      rw [bind_ok (fomAt_run .n { s with R := v } yn (by simp [mgrRead, hd])), bind_ok (fomAt_run .nMinusOne { s with R := v } z (by simp [mgrRead, hd]))]
      simp only [Prog.modify]
      rw [resBDF2_eq]
      rfl
    · simp only [Bool.false_eq_true, if_false]
      rw [bind_ok (fomAt_run .n { s with R := v } yn (by simp [mgrRead, hd]))]
      simp only [Prog.modify]
      rw [resBDF1_eq]
      rfl
  rw [bind_ok hR, ok_bind]
  cases w with
  | false => exact ⟨{ s with R := combOf y yn o - cOf o dt • v }, rfl, rfl, rfl⟩
  | true =>
    simp only [defaultJacobian, if_true]
    rcases hD : Df y t with e | D
    · obtain ⟨j, hj⟩ := callJ_error hF S y t { s with R := combOf y yn o - cOf o dt • v } e hD
      rw [stop_bind (stop_bind hj)]
      exact ⟨{ s with R := combOf y yn o - cOf o dt • v, J := j }, rfl, rfl, rfl⟩
    · refine ⟨{ s with R := combOf y yn o - cOf o dt • v, J := S.basis - cOf o dt • (D * S.basis) }, rfl, rfl, ?_⟩
      rw [Prog.bind_run, bind_ok (callJ_ok hF S y t { s with R := combOf y yn o - cOf o dt • v } D hD)]
      have hJ : (if bdf2 = true then dt * (-2 / 3) else dt * -1) • (D * S.basis) + (1:K) • S.basis = S.basis - cOf o dt • (D * S.basis) := by
        rcases hcase with ⟨rfl, z, -, rfl⟩ | ⟨rfl, rfl⟩
        · have : dt * ((-2:K) / 3) = -(2 / 3 * dt) := by ring
          simp only [if_true, cOf, this]; module
        · simp only [Bool.false_eq_true, if_false, cOf]; module
      simp only [Prog.modify, hJ]
      rfl

theorem assembleHypred_ok (hF : FomIs F f Df Mm) (S : Trial K m n) (U : Updater K m p n) (E : Matrix p m K) (hU : UpdaterIs U E) :
    Assembles (fun b t dt w => assembleHypred U b S F t dt w) (assembled E.mulVec (fun B => E * B) S f Df) := by
  intro y yn tl t dt w bdf2 s hd hb
  obtain ⟨o, ho, hcase⟩ := bdf_case bdf2 tl hb
  rw [ho]
  simp only [assembleHypred, assembled]
  rw [bind_ok (fomAt_run .nPlusOne s y (by simp [mgrRead, hd]))]
  rcases hv : f y t with e | v
  · obtain ⟨j, hj⟩ := callR_error hF y t s e hv
    rw [stop_bind (show hypredResidual U bdf2 F y t dt s = _ from stop_bind hj)]
    exact ⟨{ s with R := j }, rfl, rfl, rfl⟩
  have hR : hypredResidual U bdf2 F y t dt s = .ok () { s with R := E.mulVec (combOf y yn o) - cOf o dt • v, helper := combOf y yn o } := by
    unfold hypredResidual
    rw [bind_ok (callR_ok hF y t s v hv)]
    rcases hcase with ⟨rfl, z, rfl, rfl⟩ | ⟨rfl, rfl⟩
    · simp only [if_true]
      rw [bind_ok (fomAt_run .n { s with R := v } yn (by simp [mgrRead, hd])), bind_ok (fomAt_run .nMinusOne { s with R := v } z (by simp [mgrRead, hd]))]
      have h1 : (0:K) • s.helper + (1:K) • y + ((-4:K) / 3) • yn + ((1:K) / 3) • z = combOf y yn (some z) := by
        simp only [combOf, neg_div]; module
      have h2 : ((-2:K) / 3) * dt = -(2 / 3 * dt) := by ring
      simp only [Prog.bind_run, Prog.modify, h1, hU.vec, h2, cOf]
      congr 2
      module
    · simp only [Bool.false_eq_true, if_false]
      rw [bind_ok (fomAt_run .n { s with R := v } yn (by simp [mgrRead, hd]))]
      have h1 : (0:K) • s.helper + (1:K) • y + (-1:K) • yn = combOf y yn none := by
        simp only [combOf]; module
      simp only [Prog.bind_run, Prog.modify, h1, hU.vec, cOf]
      congr 2
      module
  rw [bind_ok hR, ok_bind]
  cases w with
  | false => exact ⟨{ s with R := E.mulVec (combOf y yn o) - cOf o dt • v, helper := combOf y yn o }, rfl, rfl, rfl⟩
  | true =>
    simp only [hypredJacobian, if_true]
    rcases hD : Df y t with e | D
    · obtain ⟨j, hj⟩ := callJ_error hF S y t { s with R := E.mulVec (combOf y yn o) - cOf o dt • v, helper := combOf y yn o } e hD
      rw [stop_bind (stop_bind hj)]
      exact ⟨{ s with R := E.mulVec (combOf y yn o) - cOf o dt • v, helper := combOf y yn o, J := j }, rfl, rfl, rfl⟩
    · refine ⟨{ s with R := E.mulVec (combOf y yn o) - cOf o dt • v, helper := combOf y yn o, J := E * S.basis - cOf o dt • (D * S.basis) }, rfl, rfl, ?_⟩
      rw [Prog.bind_run, bind_ok (callJ_ok hF S y t { s with R := E.mulVec (combOf y yn o) - cOf o dt • v, helper := combOf y yn o } D hD)]
      have hJ : (if bdf2 = true then dt * (-2 / 3) else dt * -1) • (D * S.basis) + (1:K) • (E * S.basis) = E * S.basis - cOf o dt • (D * S.basis) := by
        rcases hcase with ⟨rfl, z, -, rfl⟩ | ⟨rfl, rfl⟩
        · have : dt * ((-2:K) / 3) = -(2 / 3 * dt) := by ring
          simp only [if_true, cOf, this]; module
        · simp only [Bool.false_eq_true, if_false, cOf]; module
      simp only [Prog.modify, hU.mat, hJ]
      rfl

/-! ### the equations are those of the specification -/

theorem equations_lspg (name : Scheme) (hname : name = .BDF1 ∨ name = .BDF2) (S : Trial K m n) (f : (m → K) → K → Except Exc (m → K)) (Df : (m → K) → K → Except Exc (Matrix m m K))
    (y : n → K) (prev : List (n → K)) (t dt : K) (x : n → K) (w : Bool) :
    equations name S (assembled id id S f Df) (y :: prev) t dt x w = lspg name S f Df (y :: prev) t dt x w := by
  rcases hname with rfl | rfl
  · rfl
  · cases prev <;> rfl

theorem equations_hypred (E : Matrix p m K) (name : Scheme) (hname : name = .BDF1 ∨ name = .BDF2) (S : Trial K m n) (f : (m → K) → K → Except Exc (p → K)) (Df : (m → K) → K → Except Exc (Matrix p m K))
    (y : n → K) (prev : List (n → K)) (t dt : K) (x : n → K) (w : Bool) :
    equations name S (assembled E.mulVec (fun B => E * B) S f Df) (y :: prev) t dt x w = hypredLspg E name S f Df (y :: prev) t dt x w := by
  rcases hname with rfl | rfl
  · rfl
  · cases prev <;> rfl

end Pressio.Lemmas.Lspg
