import Verif.Spec.Galerkin
import Verif.Props.Subspace
import Mathlib.Tactic.Abel
import Mathlib.Tactic.Ring
import Mathlib.Tactic.Module
import Mathlib.Data.Matrix.Basic
import Mathlib.Data.Fintype.Fin
import Mathlib.Analysis.Calculus.FDeriv.Comp
import Mathlib.Analysis.Calculus.FDeriv.Add
import Mathlib.Analysis.Calculus.FDeriv.Linear
import Mathlib.Topology.Algebra.Module.FiniteDimension
import Mathlib.Analysis.Normed.Module.FiniteDimension
import Mathlib.LinearAlgebra.Matrix.ToLin

/-
  Properties of the Galerkin systems: C49.
-/
namespace Pressio.Props
set_option autoImplicit false
open Pressio Pressio.Model.Galerkin Pressio.Spec.Galerkin
open scoped Matrix

set_option linter.unusedSectionVars false

section
variable {K m p q n : Type} [Field K] [Fintype m] [Fintype p] [Fintype q] [Fintype n]

/-! ### helpers -/

theorem trial_map_lift (S : Trial K m n) (x : n → K) (out : m → K) : S.map x out = lift S x := by
  unfold Trial.map Trial.mapNo lift
  split <;> simp

theorem call_ok {σ V : Type} (get : σ → V) (set : σ → V → σ) (c : Call V) (v : V) (h : Gives c (.ok v)) (s : σ) : call get set c s = .ok () (set s v) := by
  have := h (get s)
  unfold call
  rcases hc : c (get s) with ⟨e, j⟩ | w
  · rw [hc] at this; simp [Except.mapError] at this
  · rw [hc] at this; simp only [Except.mapError, Except.ok.injEq] at this; subst this; rfl

theorem call_error {σ V : Type} (get : σ → V) (set : σ → V → σ) (c : Call V) (e : Exc) (h : Gives c (.error e)) (s : σ) : ∃ j, call get set c s = .stop (.exc e) (set s j) := by
  have := h (get s)
  unfold call
  rcases hc : c (get s) with ⟨e', j⟩ | w
  · rw [hc] at this; simp only [Except.mapError, Except.error.injEq] at this; subst this; exact ⟨j, rfl⟩
  · rw [hc] at this; simp [Except.mapError] at this

/-- bind for `Ends`-like reasoning: the first call decides -/
theorem ends_bind_error {a : Prog (GSt K m p q n) Unit} {rest : Unit → Prog (GSt K m p q n) Unit} {s s' : GSt K m p q n} {e : Exc} (h : a s = .stop (.exc e) s') :
    Ends ((a >>= rest) s) (.error e) := ⟨s', by rw [Prog.bind_run, h]⟩

theorem bind_ok {σ α β : Type} {a : Prog σ α} {rest : α → Prog σ β} {s s' : σ} {v : α} (h : a s = .ok v s') : (a >>= rest) s = rest v s' := by
  rw [Prog.bind_run, h]

variable {F : Fom K m p n} {f : (m → K) → K → Except Exc (p → K)} {Df Mm : (m → K) → K → Except Exc (Matrix p m K)}

theorem rhs_ok (hF : FomIs F f Df Mm) (t : K) (s : GSt K m p q n) (v : p → K) (h : f s.fomState t = .ok v) : callRhs F t s = .ok () { s with fomRhs := v } :=
  call_ok _ _ _ _ (h ▸ hF.rhs _ _) s
theorem rhs_error (hF : FomIs F f Df Mm) (t : K) (s : GSt K m p q n) (e : Exc) (h : f s.fomState t = .error e) : ∃ s', callRhs F t s = .stop (.exc e) s' := by
  obtain ⟨j, hj⟩ := call_error (fun s : GSt K m p q n => s.fomRhs) (fun s v => { s with fomRhs := v }) _ e (h ▸ hF.rhs s.fomState t) s
  exact ⟨_, hj⟩
theorem jac_ok (hF : FomIs F f Df Mm) (S : Trial K m n) (t : K) (s : GSt K m p q n) (D : Matrix p m K) (h : Df s.fomState t = .ok D) :
    callJac S F t s = .ok () { s with fomJac := D * S.basis } :=
  call_ok _ _ _ _ (by have := hF.jac s.fomState S.basis t; rw [h] at this; exact this) s
theorem jac_error (hF : FomIs F f Df Mm) (S : Trial K m n) (t : K) (s : GSt K m p q n) (e : Exc) (h : Df s.fomState t = .error e) :
    ∃ s', callJac S F t s = .stop (.exc e) s' := by
  obtain ⟨j, hj⟩ := call_error (fun s : GSt K m p q n => s.fomJac) (fun s v => { s with fomJac := v }) _ e
    (by have := hF.jac s.fomState S.basis t; rw [h] at this; exact this) s
  exact ⟨_, hj⟩
theorem mm_ok (hF : FomIs F f Df Mm) (S : Trial K m n) (t : K) (s : GSt K m p q n) (D : Matrix p m K) (h : Mm s.fomState t = .ok D) :
    callMM S F t s = .ok () { s with fomMM := D * S.basis } :=
  call_ok _ _ _ _ (by have := hF.mm s.fomState S.basis t; rw [h] at this; exact this) s
theorem mm_error (hF : FomIs F f Df Mm) (S : Trial K m n) (t : K) (s : GSt K m p q n) (e : Exc) (h : Mm s.fomState t = .error e) :
    ∃ s', callMM S F t s = .stop (.exc e) s' := by
  obtain ⟨j, hj⟩ := call_error (fun s : GSt K m p q n => s.fomMM) (fun s v => { s with fomMM := v }) _ e
    (by have := hF.mm s.fomState S.basis t; rw [h] at this; exact this) s
  exact ⟨_, hj⟩

theorem mapState_run (S : Trial K m n) (x : n → K) (s : GSt K m p q n) : mapState S x s = .ok () { s with fomState := lift S x } := by
  show Res.ok () { s with fomState := S.map x s.fomState } = _
  rw [trial_map_lift]

theorem projRhs_run (S : Trial K m n) (s : GSt K m m q n) : projRhs S s = .ok () { s with r := S.basisᵀ.mulVec s.fomRhs } := by
  show Res.ok () _ = _
  simp
theorem projJac_run (S : Trial K m n) (s : GSt K m m q n) : projJac S s = .ok () { s with J := S.basisᵀ * s.fomJac } := by
  show Res.ok () _ = _
  simp
theorem projMM_run (S : Trial K m n) (s : GSt K m m q n) : projMM S s = .ok () { s with M := S.basisᵀ * s.fomMM } := by
  show Res.ok () _ = _
  simp

theorem ok_bind {α β : Type} (a : α) (g : α → Except Exc β) : (Except.ok a >>= g : Except Exc β) = g a := rfl
theorem error_bind {α β : Type} (e : Exc) (g : α → Except Exc β) : (Except.error e >>= g : Except Exc β) = .error e := rfl

/-! ### the systems -/

/-- C49, default, right-hand side only: from every state of the buffers, `Phi^T f(Phi x + s, t)`; exceptions of the FOM pass through. -/
theorem C49_default_rhs {F : Fom K m m n} {f : (m → K) → K → Except Exc (m → K)} {Df Mm : (m → K) → K → Except Exc (Matrix m m K)} (hF : FomIs F f Df Mm)
    (S : Trial K m n) (x : n → K) (t : K) (s : GSt K m m q n) :
    Ends (defaultRhs S F x t s) (reduced S f Df Mm S.basisᵀ.mulVec (fun B => S.basisᵀ * B) x t false false s.J s.M) := by
  unfold defaultRhs reduced
  rw [bind_ok (mapState_run S x s)]
  rcases h : f (lift S x) t with e | v
  · obtain ⟨s', h'⟩ := rhs_error hF t { s with fomState := lift S x } e h
    exact ends_bind_error h'
  · rw [bind_ok (rhs_ok hF t { s with fomState := lift S x } v h), projRhs_run]
    exact ⟨_, rfl, rfl⟩

/-- C49, default, with mass matrix -/
theorem C49_default_mass_matrix_rhs {F : Fom K m m n} {f : (m → K) → K → Except Exc (m → K)} {Df Mm : (m → K) → K → Except Exc (Matrix m m K)} (hF : FomIs F f Df Mm)
    (S : Trial K m n) (x : n → K) (t : K) (s : GSt K m m q n) :
    Ends (defaultMMRhs S F x t s) (reduced S f Df Mm S.basisᵀ.mulVec (fun B => S.basisᵀ * B) x t true false s.J s.M) := by
  unfold defaultMMRhs reduced
  rw [bind_ok (mapState_run S x s)]
  rcases h : f (lift S x) t with e | v
  · obtain ⟨s', h'⟩ := rhs_error hF t { s with fomState := lift S x } e h
    exact ends_bind_error h'
  rw [bind_ok (rhs_ok hF t { s with fomState := lift S x } v h), bind_ok (projRhs_run S _)]
  rcases h2 : Mm (lift S x) t with e | A
  · obtain ⟨s', h'⟩ := mm_error hF S t { s with fomState := lift S x, fomRhs := v, r := S.basisᵀ.mulVec v } e h2
    exact ends_bind_error h'
  rw [bind_ok (mm_ok hF S t _ A h2), projMM_run]
  exact ⟨_, rfl, rfl⟩

/-- C49, default, with Jacobian -/
theorem C49_default_rhs_jacobian {F : Fom K m m n} {f : (m → K) → K → Except Exc (m → K)} {Df Mm : (m → K) → K → Except Exc (Matrix m m K)} (hF : FomIs F f Df Mm)
    (S : Trial K m n) (x : n → K) (t : K) (w : Bool) (s : GSt K m m q n) :
    Ends (defaultRhsJac S F x t w s) (reduced S f Df Mm S.basisᵀ.mulVec (fun B => S.basisᵀ * B) x t false w s.J s.M) := by
  unfold defaultRhsJac reduced
  rw [bind_ok (mapState_run S x s)]
  rcases h : f (lift S x) t with e | v
  · obtain ⟨s', h'⟩ := rhs_error hF t { s with fomState := lift S x } e h
    exact ends_bind_error h'
  rw [bind_ok (rhs_ok hF t { s with fomState := lift S x } v h), bind_ok (projRhs_run S _)]
  cases w with
  | false => exact ⟨_, rfl, rfl⟩
  | true =>
    simp only [if_true]
    rcases h2 : Df (lift S x) t with e | A
    · obtain ⟨s', h'⟩ := jac_error hF S t { s with fomState := lift S x, fomRhs := v, r := S.basisᵀ.mulVec v } e h2
      exact ends_bind_error h'
    rw [bind_ok (jac_ok hF S t _ A h2), projJac_run]
    exact ⟨_, rfl, rfl⟩

/-- C49, default, with Jacobian and mass matrix -/
theorem C49_default_mass_matrix_rhs_jacobian {F : Fom K m m n} {f : (m → K) → K → Except Exc (m → K)} {Df Mm : (m → K) → K → Except Exc (Matrix m m K)} (hF : FomIs F f Df Mm)
    (S : Trial K m n) (x : n → K) (t : K) (w : Bool) (s : GSt K m m q n) :
    Ends (defaultMMRhsJac S F x t w s) (reduced S f Df Mm S.basisᵀ.mulVec (fun B => S.basisᵀ * B) x t true w s.J s.M) := by
  unfold defaultMMRhsJac reduced
  rw [bind_ok (mapState_run S x s)]
  rcases h : f (lift S x) t with e | v
  · obtain ⟨s', h'⟩ := rhs_error hF t { s with fomState := lift S x } e h
    exact ends_bind_error h'
  rw [bind_ok (rhs_ok hF t { s with fomState := lift S x } v h), bind_ok (projRhs_run S _)]
  rcases h3 : Mm (lift S x) t with e | M
  · obtain ⟨s', h'⟩ := mm_error hF S t { s with fomState := lift S x, fomRhs := v, r := S.basisᵀ.mulVec v } e h3
    exact ends_bind_error h'
  rw [bind_ok (mm_ok hF S t _ M h3), bind_ok (projMM_run S _)]
  cases w with
  | false => exact ⟨_, rfl, rfl⟩
  | true =>
    simp only [if_true]
    rcases h2 : Df (lift S x) t with e | A
    · obtain ⟨s', h'⟩ := jac_error hF S t { s with fomState := lift S x, fomRhs := v, r := S.basisᵀ.mulVec v, fomMM := M * S.basis, M := S.basisᵀ * (M * S.basis) } e h2
      exact ends_bind_error h'
    rw [bind_ok (jac_ok hF S t _ A h2), projJac_run]
    exact ⟨_, rfl, rfl⟩

variable {H : HypRed K p n} {hv : K → (p → K) → (n → K)} {hm : K → Matrix p n K → Matrix n n K}

theorem hypRhs_run (hH : HypIs H hv hm) (t : K) (s : GSt K m p q n) : hypRhs H t s = .ok () { s with r := hv t s.fomRhs } := by
  unfold hypRhs call; simp only [hH.vec]
theorem hypJac_run (hH : HypIs H hv hm) (t : K) (s : GSt K m p q n) : hypJac H t s = .ok () { s with J := hm t s.fomJac } := by
  unfold hypJac call; simp only [hH.mat]

/-- C49, hyper-reduced, right-hand side only -/
theorem C49_hypred_rhs (hF : FomIs F f Df Mm) (hH : HypIs H hv hm) (S : Trial K m n) (x : n → K) (t : K) (s : GSt K m p q n) :
    Ends (hypredRhs S F H x t s) (reduced S f Df Mm (hv t) (hm t) x t false false s.J s.M) := by
  unfold hypredRhs reduced
  rw [bind_ok (mapState_run S x s)]
  rcases h : f (lift S x) t with e | v
  · obtain ⟨s', h'⟩ := rhs_error hF t { s with fomState := lift S x } e h
    exact ends_bind_error h'
  rw [bind_ok (rhs_ok hF t { s with fomState := lift S x } v h), hypRhs_run hH]
  exact ⟨_, rfl, rfl⟩

/-- C49, hyper-reduced, with Jacobian -/
theorem C49_hypred_rhs_jacobian (hF : FomIs F f Df Mm) (hH : HypIs H hv hm) (S : Trial K m n) (x : n → K) (t : K) (w : Bool) (s : GSt K m p q n) :
    Ends (hypredRhsJac S F H x t w s) (reduced S f Df Mm (hv t) (hm t) x t false w s.J s.M) := by
  unfold hypredRhsJac reduced
  rw [bind_ok (mapState_run S x s)]
  rcases h : f (lift S x) t with e | v
  · obtain ⟨s', h'⟩ := rhs_error hF t { s with fomState := lift S x } e h
    exact ends_bind_error h'
  rw [bind_ok (rhs_ok hF t { s with fomState := lift S x } v h), bind_ok (hypRhs_run hH t _)]
  cases w with
  | false => exact ⟨_, rfl, rfl⟩
  | true =>
    simp only [if_true]
    rcases h2 : Df (lift S x) t with e | A
    · obtain ⟨s', h'⟩ := jac_error hF S t { s with fomState := lift S x, fomRhs := v, r := hv t v } e h2
      exact ends_bind_error h'
    rw [bind_ok (jac_ok hF S t _ A h2), hypJac_run hH]
    exact ⟨_, rfl, rfl⟩

variable {G : HypRed K q n} {gv : K → (q → K) → (n → K)} {gm : K → Matrix q n K → Matrix n n K} {Mk : Masker K p q n} {mv : (p → K) → (q → K)} {mm : Matrix p n K → Matrix q n K}

theorem maskRhs_run (hM : MaskIs Mk mv mm) (s : GSt K m p q n) : maskRhs Mk s = .ok () { s with masked := mv s.fomRhs } := by
  unfold maskRhs call; simp only [hM.vec]
theorem maskJac_run (hM : MaskIs Mk mv mm) (s : GSt K m p q n) : maskJac Mk s = .ok () { s with maskedJac := mm s.fomJac } := by
  unfold maskJac call; simp only [hM.mat]
theorem hypMaskedRhs_run (hG : HypIs G gv gm) (t : K) (s : GSt K m p q n) : hypMaskedRhs G t s = .ok () { s with r := gv t s.masked } := by
  unfold hypMaskedRhs call; simp only [hG.vec]
theorem hypMaskedJac_run (hG : HypIs G gv gm) (t : K) (s : GSt K m p q n) : hypMaskedJac G t s = .ok () { s with J := gm t s.maskedJac } := by
  unfold hypMaskedJac call; simp only [hG.mat]

/-- C49, masked, right-hand side only -/
theorem C49_masked_rhs (hF : FomIs F f Df Mm) (hM : MaskIs Mk mv mm) (hG : HypIs G gv gm) (S : Trial K m n) (x : n → K) (t : K) (s : GSt K m p q n) :
    Ends (maskedRhs S F Mk G x t s) (reduced S f Df Mm (fun v => gv t (mv v)) (fun B => gm t (mm B)) x t false false s.J s.M) := by
  unfold maskedRhs reduced
  rw [bind_ok (mapState_run S x s)]
  rcases h : f (lift S x) t with e | v
  · obtain ⟨s', h'⟩ := rhs_error hF t { s with fomState := lift S x } e h
    exact ends_bind_error h'
  rw [bind_ok (rhs_ok hF t { s with fomState := lift S x } v h), bind_ok (maskRhs_run hM _), hypMaskedRhs_run hG]
  exact ⟨_, rfl, rfl⟩

/-- C49, masked, with Jacobian -/
theorem C49_masked_rhs_jacobian (hF : FomIs F f Df Mm) (hM : MaskIs Mk mv mm) (hG : HypIs G gv gm) (S : Trial K m n) (x : n → K) (t : K) (w : Bool) (s : GSt K m p q n) :
    Ends (maskedRhsJac S F Mk G x t w s) (reduced S f Df Mm (fun v => gv t (mv v)) (fun B => gm t (mm B)) x t false w s.J s.M) := by
  unfold maskedRhsJac reduced
  rw [bind_ok (mapState_run S x s)]
  rcases h : f (lift S x) t with e | v
  · obtain ⟨s', h'⟩ := rhs_error hF t { s with fomState := lift S x } e h
    exact ends_bind_error h'
  rw [bind_ok (rhs_ok hF t { s with fomState := lift S x } v h), bind_ok (maskRhs_run hM _), bind_ok (hypMaskedRhs_run hG t _)]
  cases w with
  | false => exact ⟨_, rfl, rfl⟩
  | true =>
    simp only [if_true]
    rcases h2 : Df (lift S x) t with e | A
    · obtain ⟨s', h'⟩ := jac_error hF S t { s with fomState := lift S x, fomRhs := v, masked := mv v, r := gv t (mv v) } e h2
      exact ends_bind_error h'
    rw [bind_ok (jac_ok hF S t _ A h2), bind_ok (maskJac_run hM _), hypMaskedJac_run hG]
    exact ⟨_, rfl, rfl⟩

/-! ### steady -/

variable {Fs : SteadyFom K m p n} {fs : (m → K) → Except Exc (p → K)} {Ds : (m → K) → Except Exc (Matrix p m K)}

theorem residualJac_false (hF : SteadyIs Fs fs Ds) (S : Trial K m n) (s : GSt K m p q n) :
    (∀ v, fs s.fomState = .ok v → callResidualJac S Fs false s = .ok () { s with fomRhs := v }) ∧
    (∀ e, fs s.fomState = .error e → ∃ s', callResidualJac S Fs false s = .stop (.exc e) s') := by
  have h := hF.residualOnly s.fomState S.basis (s.fomRhs, s.fomJac)
  unfold callResidualJac call
  rcases hc : Fs.residualAndJac s.fomState S.basis false (s.fomRhs, s.fomJac) with ⟨e, j⟩ | ⟨v, B⟩
  · rw [hc] at h
    simp only [Except.map, Except.mapError] at h
    refine ⟨fun v hv => ?_, fun e' he => ?_⟩
    · rw [hv] at h; simp at h
    · rw [he] at h; simp only [Except.error.injEq] at h; subst h; exact ⟨_, rfl⟩
  · rw [hc] at h
    simp only [Except.map, Except.mapError] at h
    refine ⟨fun v' hv => ?_, fun e' he => ?_⟩
    · rw [hv] at h; simp only [Except.ok.injEq] at h; subst h; rfl
    · rw [he] at h; simp at h

theorem residualJac_true (hF : SteadyIs Fs fs Ds) (S : Trial K m n) (s : GSt K m p q n) :
    (∀ v D, fs s.fomState = .ok v → Ds s.fomState = .ok D → callResidualJac S Fs true s = .ok () { s with fomRhs := v, fomJac := D * S.basis }) ∧
    (∀ e, fs s.fomState = .error e → ∃ s', callResidualJac S Fs true s = .stop (.exc e) s') ∧
    (∀ v e, fs s.fomState = .ok v → Ds s.fomState = .error e → ∃ s', callResidualJac S Fs true s = .stop (.exc e) s') := by
  have h := hF.residualAndJac s.fomState S.basis
  refine ⟨fun v D h1 h2 => ?_, fun e h1 => ?_, fun v e h1 h2 => ?_⟩
  · rw [h1, h2] at h
    have := call_ok (fun s : GSt K m p q n => (s.fomRhs, s.fomJac)) (fun s v => { s with fomRhs := v.1, fomJac := if true then v.2 else s.fomJac }) _ _ h s
    exact this
  · rw [h1] at h
    obtain ⟨j, hj⟩ := call_error (fun s : GSt K m p q n => (s.fomRhs, s.fomJac)) (fun s v => { s with fomRhs := v.1, fomJac := if true then v.2 else s.fomJac }) _ e h s
    exact ⟨_, hj⟩
  · rw [h1, h2] at h
    obtain ⟨j, hj⟩ := call_error (fun s : GSt K m p q n => (s.fomRhs, s.fomJac)) (fun s v => { s with fomRhs := v.1, fomJac := if true then v.2 else s.fomJac }) _ e h s
    exact ⟨_, hj⟩

/-- C49, steady default, residual only -/
theorem C49_steady_residual {Fs : SteadyFom K m m n} {fs : (m → K) → Except Exc (m → K)} {Ds : (m → K) → Except Exc (Matrix m m K)} (hF : SteadyIs Fs fs Ds)
    (S : Trial K m n) (x : n → K) (s : GSt K m m q n) :
    Ends (steadyResidual S Fs x s) (reduced S (fun y _ => fs y) (fun y _ => Ds y) (fun y _ => Ds y) S.basisᵀ.mulVec (fun B => S.basisᵀ * B) x 0 false false s.J s.M) := by
  unfold steadyResidual reduced
  beta_reduce
  rw [bind_ok (mapState_run S x s)]
  rcases h : fs (lift S x) with e | v
  · obtain ⟨j, hj⟩ := call_error (fun s : GSt K m m q n => s.fomRhs) (fun s v => { s with fomRhs := v }) _ e (h ▸ hF.residual (lift S x)) { s with fomState := lift S x }
    exact ends_bind_error (a := callResidual Fs) hj
  · rw [bind_ok (a := callResidual Fs) (call_ok (fun s : GSt K m m q n => s.fomRhs) (fun s v => { s with fomRhs := v }) _ v (h ▸ hF.residual (lift S x)) { s with fomState := lift S x }), projRhs_run]
    exact ⟨_, rfl, rfl⟩

/-- C49, steady default, residual and Jacobian -/
theorem C49_steady_residual_jacobian {Fs : SteadyFom K m m n} {fs : (m → K) → Except Exc (m → K)} {Ds : (m → K) → Except Exc (Matrix m m K)} (hF : SteadyIs Fs fs Ds)
    (S : Trial K m n) (x : n → K) (w : Bool) (s : GSt K m m q n) :
    Ends (steadyResidualJac S Fs x w s) (reduced S (fun y _ => fs y) (fun y _ => Ds y) (fun y _ => Ds y) S.basisᵀ.mulVec (fun B => S.basisᵀ * B) x 0 false w s.J s.M) := by
  unfold steadyResidualJac reduced
  beta_reduce
  rw [bind_ok (mapState_run S x s)]
  cases w with
  | false =>
    have hr := residualJac_false hF S { s with fomState := lift S x }
    rcases h : fs (lift S x) with e | v
    · obtain ⟨s', h'⟩ := hr.2 e h
      exact ends_bind_error h'
    · rw [bind_ok (hr.1 v h), bind_ok (projRhs_run S _)]
      exact ⟨_, rfl, rfl⟩
  | true =>
    have hr := residualJac_true hF S { s with fomState := lift S x }
    rcases h : fs (lift S x) with e | v
    · obtain ⟨s', h'⟩ := hr.2.1 e h
      exact ends_bind_error h'
    rcases h2 : Ds (lift S x) with e | D
    · obtain ⟨s', h'⟩ := hr.2.2 v e h h2
      exact ends_bind_error h'
    rw [bind_ok (hr.1 v D h h2), bind_ok (projRhs_run S _), if_pos rfl, projJac_run]
    exact ⟨_, rfl, rfl⟩

/-- C49, steady default, matrix-free: `applyJacobian(x, v)` gives `J(x) v` with the `J(x)` that `residualAndJacobian` computes -/
theorem C49_steady_apply_jacobian {Fs : SteadyFom K m m n} {Ds : (m → K) → Except Exc (Matrix m m K)} (hF : JacActionIs Fs Ds)
    (S : Trial K m n) (x v : n → K) (s : GSt K m m q n) :
    Ends (steadyApplyJac S Fs x v s) ((Ds (lift S x)).map (fun D => ((S.basisᵀ * (D * S.basis)).mulVec v, s.J, s.M))) := by
  unfold steadyApplyJac
  rw [bind_ok (mapState_run S x s)]
  rw [bind_ok (Prog.modify_run _ _), bind_ok (Prog.modify_run _ _), bind_ok (Prog.modify_run _ _)]
  have hg := hF (lift S x) (S.mapNo v 0)
  have hv0 : S.mapNo v 0 = S.basis.mulVec v := by simp [Trial.mapNo]
  rcases h : Ds (lift S x) with e | D
  · rw [h] at hg
    obtain ⟨j, hj⟩ := call_error (fun s : GSt K m m q n => s.aux2) (fun s v => { s with aux2 := v }) _ e hg { s with fomState := lift S x, aux := S.mapNo v 0, aux2 := 0 }
    exact ends_bind_error (a := callJacAction Fs) hj
  · rw [h] at hg
    have hc : callJacAction Fs { s with fomState := lift S x, aux := S.mapNo v 0, aux2 := 0 } = .ok () { s with fomState := lift S x, aux := S.mapNo v 0, aux2 := D.mulVec (S.mapNo v 0) } :=
      call_ok (fun s : GSt K m m q n => s.aux2) (fun s v => { s with aux2 := v }) _ _ hg { s with fomState := lift S x, aux := S.mapNo v 0, aux2 := 0 }
    rw [bind_ok hc]
    refine ⟨_, rfl, ?_⟩
    simp [hv0, Matrix.mulVec_mulVec, Matrix.mul_assoc]

/-- C49, steady hyper-reduced -/
theorem C49_steady_hypred (hF : SteadyIs Fs fs Ds) (hH : HypIs H hv hm) (S : Trial K m n) (x : n → K) (w : Bool) (s : GSt K m p q n) :
    Ends (steadyHypredResidualJac S Fs H x w s) (reduced S (fun y _ => fs y) (fun y _ => Ds y) (fun y _ => Ds y) (hv 0) (hm 0) x 0 false w s.J s.M) := by
  unfold steadyHypredResidualJac reduced
  beta_reduce
  rw [bind_ok (mapState_run S x s)]
  cases w with
  | false =>
    have hr := residualJac_false hF S { s with fomState := lift S x }
    rcases h : fs (lift S x) with e | v
    · obtain ⟨s', h'⟩ := hr.2 e h
      exact ends_bind_error h'
    · rw [bind_ok (hr.1 v h), bind_ok (hypRhs_run hH 0 _)]
      exact ⟨_, rfl, rfl⟩
  | true =>
    have hr := residualJac_true hF S { s with fomState := lift S x }
    rcases h : fs (lift S x) with e | v
    · obtain ⟨s', h'⟩ := hr.2.1 e h
      exact ends_bind_error h'
    rcases h2 : Ds (lift S x) with e | D
    · obtain ⟨s', h'⟩ := hr.2.2 v e h h2
      exact ends_bind_error h'
    rw [bind_ok (hr.1 v D h h2), bind_ok (hypRhs_run hH 0 _), if_pos rfl, hypJac_run hH]
    exact ⟨_, rfl, rfl⟩

/-- C49, steady masked -/
theorem C49_steady_masked (hF : SteadyIs Fs fs Ds) (hM : MaskIs Mk mv mm) (hG : HypIs G gv gm) (S : Trial K m n) (x : n → K) (w : Bool) (s : GSt K m p q n) :
    Ends (steadyMaskedResidualJac S Fs Mk G x w s)
      (reduced S (fun y _ => fs y) (fun y _ => Ds y) (fun y _ => Ds y) (fun v => gv 0 (mv v)) (fun B => gm 0 (mm B)) x 0 false w s.J s.M) := by
  unfold steadyMaskedResidualJac reduced
  beta_reduce
  rw [bind_ok (mapState_run S x s)]
  cases w with
  | false =>
    have hr := residualJac_false hF S { s with fomState := lift S x }
    rcases h : fs (lift S x) with e | v
    · obtain ⟨s', h'⟩ := hr.2 e h
      exact ends_bind_error h'
    · rw [bind_ok (hr.1 v h), bind_ok (maskRhs_run hM _), bind_ok (hypMaskedRhs_run hG 0 _)]
      exact ⟨_, rfl, rfl⟩
  | true =>
    have hr := residualJac_true hF S { s with fomState := lift S x }
    rcases h : fs (lift S x) with e | v
    · obtain ⟨s', h'⟩ := hr.2.1 e h
      exact ends_bind_error h'
    rcases h2 : Ds (lift S x) with e | D
    · obtain ⟨s', h'⟩ := hr.2.2 v e h h2
      exact ends_bind_error h'
    rw [bind_ok (hr.1 v D h h2), bind_ok (maskRhs_run hM _), bind_ok (hypMaskedRhs_run hG 0 _), if_pos rfl, bind_ok (maskJac_run hM _), hypMaskedJac_run hG]
    exact ⟨_, rfl, rfl⟩

/-- C49, steady hyper-reduced: the other two members are not implemented and always throw -/
theorem C49_steady_hypred_missing (x v : n → K) (s : GSt K m p q n) :
    (steadyHypredResidual x s).stop? = some (.exc (.runtimeError "missing impl")) ∧ (steadyHypredApplyJac x v s).stop? = some (.exc (.runtimeError "missing impl")) := ⟨rfl, rfl⟩

/-! ### memory -/

/-- C49: the content of the buffers before the call does not matter: two calls from any two states end alike (with the same old outputs, which are kept if not asked for). -/
theorem C49_buffers_do_not_matter {F : Fom K m m n} {f : (m → K) → K → Except Exc (m → K)} {Df Mm : (m → K) → K → Except Exc (Matrix m m K)} (hF : FomIs F f Df Mm)
    (S : Trial K m n) (x : n → K) (t : K) (w : Bool) (s s' : GSt K m m q n) (hJ : s'.J = s.J) (hM : s'.M = s.M) :
    (defaultMMRhsJac S F x t w s').stop? = (defaultMMRhsJac S F x t w s).stop? ∧
    ((defaultMMRhsJac S F x t w s).stop? = none → (defaultMMRhsJac S F x t w s').state.r = (defaultMMRhsJac S F x t w s).state.r ∧
      (defaultMMRhsJac S F x t w s').state.J = (defaultMMRhsJac S F x t w s).state.J ∧ (defaultMMRhsJac S F x t w s').state.M = (defaultMMRhsJac S F x t w s).state.M) := by
  have h1 := C49_default_mass_matrix_rhs_jacobian hF S x t w s
  have h2 := C49_default_mass_matrix_rhs_jacobian hF S x t w s'
  rw [hJ, hM] at h2
  generalize reduced S f Df Mm _ _ x t true w s.J s.M = R at h1 h2
  cases R with
  | error e =>
    obtain ⟨a, ha⟩ := h1
    obtain ⟨b, hb⟩ := h2
    rw [ha, hb]
    simp
  | ok v =>
    obtain ⟨a, ha, ha'⟩ := h1
    obtain ⟨b, hb, hb'⟩ := h2
    rw [ha, hb]
    rw [← ha'] at hb'
    simpa using hb'

end

/-! ### the reduced Jacobian is the derivative of the reduced right-hand side -/
section
variable {m p q n : Type} [Fintype m] [Fintype p] [Fintype q] [Fintype n]

/-- `A` as a continuous linear map -/
noncomputable def asCLM (A : Matrix p n ℝ) : (n → ℝ) →L[ℝ] (p → ℝ) := LinearMap.toContinuousLinearMap A.mulVecLin

theorem lift_hasFDerivAt (S : Trial ℝ m n) (x : n → ℝ) : HasFDerivAt (lift S) (asCLM S.basis) x := by
  have : HasFDerivAt (fun x => asCLM S.basis x + if S.isAffine then S.translation else 0) (asCLM S.basis) x := (asCLM S.basis).hasFDerivAt.add_const _
  exact this

/-- C49: whatever linear operator `L` projects the vectors, if the projection `pm` of matrices is `L` applied to their columns, and `Df` is the derivative of `f`, then the reduced Jacobian is the derivative of the
    reduced right-hand side.  For the default systems `L v = Phi^T v`, `pm B = Phi^T B`. -/
theorem C49_jacobian_is_derivative (S : Trial ℝ m n) (f : (m → ℝ) → (p → ℝ)) (D : Matrix p m ℝ) (L : (p → ℝ) →ₗ[ℝ] (n → ℝ)) (pm : Matrix p n ℝ → Matrix n n ℝ)
    (hpm : ∀ B w, (pm B).mulVec w = L (B.mulVec w)) (x : n → ℝ) (hD : HasFDerivAt f (asCLM D) (lift S x)) :
    HasFDerivAt (fun x => L (f (lift S x))) (asCLM (pm (D * S.basis))) x := by
  have h1 := (hD.comp x (lift_hasFDerivAt S x))
  have h2 := (LinearMap.toContinuousLinearMap L).hasFDerivAt.comp x h1
  refine h2.congr_fderiv ?_
  ext1 w
  show L (D.mulVec (S.basis.mulVec w)) = (pm (D * S.basis)).mulVec w
  rw [hpm, Matrix.mulVec_mulVec]

/-- C49, end to end for the default system: the Jacobian written by `rhsAndJacobian` is the derivative of the map from the reduced state to the right-hand side that it writes. -/
theorem C49_default_jacobian_is_derivative {F : Fom ℝ m m n} {f : (m → ℝ) → ℝ → (m → ℝ)} {D Mm : (m → ℝ) → ℝ → Matrix m m ℝ}
    (hF : FomIs F (fun y t => .ok (f y t)) (fun y t => .ok (D y t)) (fun y t => .ok (Mm y t))) (S : Trial ℝ m n) (x : n → ℝ) (t : ℝ)
    (hD : HasFDerivAt (fun y => f y t) (asCLM (D (lift S x) t)) (lift S x)) (s : GSt ℝ m m q n) :
    ∃ s', defaultRhsJac S F x t true s = .ok () s' ∧ HasFDerivAt (fun x' => (defaultRhsJac S F x' t false s).state.r) (asCLM s'.J) x := by
  obtain ⟨s', h1, h2⟩ := C49_default_rhs_jacobian hF S x t true s
  simp only [reduced, if_true] at h2
  refine ⟨s', h1, ?_⟩
  have hJ : s'.J = S.basisᵀ * (D (lift S x) t * S.basis) := congrArg (fun a => a.2.1) h2
  have hr : (fun x' => (defaultRhsJac S F x' t false s).state.r) = fun x' => S.basisᵀ.mulVecLin (f (lift S x') t) := by
    funext x'
    obtain ⟨s'', h1', h2'⟩ := C49_default_rhs_jacobian hF S x' t false s
    rw [h1']
    exact congrArg (fun a => a.1) h2'
  rw [hr, hJ]
  exact C49_jacobian_is_derivative S (fun y => f y t) (D (lift S x) t) S.basisᵀ.mulVecLin (fun B => S.basisᵀ * B) (fun B w => (Matrix.mulVec_mulVec w _ B).symm) x hD

/-- C49, end to end for hyper-reduced systems whose operator is linear (on matrices: column by column) -/
theorem C49_hypred_jacobian_is_derivative {F : Fom ℝ m p n} {f : (m → ℝ) → ℝ → (p → ℝ)} {D Mm : (m → ℝ) → ℝ → Matrix p m ℝ}
    (hF : FomIs F (fun y t => .ok (f y t)) (fun y t => .ok (D y t)) (fun y t => .ok (Mm y t))) {H : HypRed ℝ p n} (L : ℝ → (p → ℝ) →ₗ[ℝ] (n → ℝ)) (hm : ℝ → Matrix p n ℝ → Matrix n n ℝ)
    (hcol : ∀ t B w, (hm t B).mulVec w = L t (B.mulVec w)) (hH : HypIs H (fun t => L t) hm) (S : Trial ℝ m n) (x : n → ℝ) (t : ℝ)
    (hD : HasFDerivAt (fun y => f y t) (asCLM (D (lift S x) t)) (lift S x)) (s : GSt ℝ m p q n) :
    ∃ s', hypredRhsJac S F H x t true s = .ok () s' ∧ HasFDerivAt (fun x' => (hypredRhsJac S F H x' t false s).state.r) (asCLM s'.J) x := by
  obtain ⟨s', h1, h2⟩ := C49_hypred_rhs_jacobian hF hH S x t true s
  simp only [reduced, if_true] at h2
  refine ⟨s', h1, ?_⟩
  have hJ : s'.J = hm t (D (lift S x) t * S.basis) := congrArg (fun a => a.2.1) h2
  have hr : (fun x' => (hypredRhsJac S F H x' t false s).state.r) = fun x' => L t (f (lift S x') t) := by
    funext x'
    obtain ⟨s'', h1', h2'⟩ := C49_hypred_rhs_jacobian hF hH S x' t false s
    rw [h1']
    exact congrArg (fun a => a.1) h2'
  rw [hr, hJ]
  exact C49_jacobian_is_derivative S (fun y => f y t) (D (lift S x) t) (L t) (hm t) (hcol t) x hD

end

/-! ### relation with the trial subspace objects, and an instance -/

/-- the heap object `s` represents the trial space `S`, with `m = Fin r`, `n = Fin c` -/
def Represents {K : Type} {r c : Nat} (h : Model.Subspace.Heap K) (s : Model.Subspace.Sub) (S : Trial K (Fin r) (Fin c)) : Prop :=
  (h.mat s.lin.basis).rows = r ∧ (h.mat s.lin.basis).cols = c ∧ (∀ i : Fin r, ∀ j : Fin c, (h.mat s.lin.basis).at_ i j = S.basis i j) ∧
  s.isAffine = S.isAffine ∧ (S.isAffine = true → (h.vec s.translation).len = r ∧ ∀ i : Fin r, (h.vec s.translation).at_ i = S.translation i)

/-- C49: `mapFromReducedState` of the object gives the `lift` used above -/
theorem C49_trial_subspace_object {K : Type} [Field K] {r c : Nat} (h : Model.Subspace.Heap K) (s : Model.Subspace.Sub) (S : Trial K (Fin r) (Fin c)) (hs : Represents h s S)
    (x : Fin c → K) (xv : Model.Subspace.DVec K) (hx : xv.len = c ∧ ∀ j : Fin c, xv.at_ j = x j) (out : Nat) (ho : (h.vec out).len = r) (hne : S.isAffine = true → out ≠ s.translation) :
    ∃ h', Model.Subspace.map s xv out h = .ok () h' ∧ ∀ i : Fin r, (h'.vec out).at_ i = lift S x i := by
  obtain ⟨h1, h2, h3, h4, h5⟩ := hs
  obtain ⟨h', e1, -, e2⟩ := C46_map s xv out h (by rw [h1, ho]) (by rw [h2, hx.1]) (fun ha => by
    rw [h4] at ha
    exact ⟨hne ha, by rw [(h5 ha).1, ho]⟩)
  refine ⟨h', e1, fun i => ?_⟩
  rw [e2, h4]
  unfold Spec.Subspace.image Spec.Subspace.linearImage lift
  rw [h2, Finset.sum_range]
  simp only [Pi.add_apply, Matrix.mulVec, dotProduct]
  congr 1
  · exact Finset.sum_congr rfl (fun j _ => by rw [h3, hx.2])
  · cases ha : S.isAffine with
    | false => simp
    | true => simp [(h5 ha).2 i]

/-- a 2-dimensional FOM `f(y,t) = (y_0 y_1, t + y_1)`, with a 1-dimensional affine trial space -/
def fom2 : Fom ℚ (Fin 2) (Fin 2) (Fin 1) where
  rhs := fun y t _ => if y 1 = 100 then .error (.velocityFailureUnrecoverable, 0) else .ok ![y 0 * y 1, t + y 1]
  applyJac := fun y B _ _ => .ok (!![y 1, y 0; 0, 1] * B)
  applyMM := fun _ B _ _ => .ok ((!![2, 0; 0, 3] : Matrix (Fin 2) (Fin 2) ℚ) * B)

def trial2 : Trial ℚ (Fin 2) (Fin 1) := ⟨!![3; 4], ![1, 2], true⟩

/-- the FOM meets the contract -/
theorem fom2_is : FomIs fom2 (fun y t => if y 1 = 100 then .error .velocityFailureUnrecoverable else .ok ![y 0 * y 1, t + y 1]) (fun y _ => .ok !![y 1, y 0; 0, 1]) (fun _ _ => .ok !![2, 0; 0, 3]) where
  rhs := fun y t b => by
    simp only [fom2]
    split <;> rfl
  jac := fun _ _ _ _ => rfl
  mm := fun _ _ _ _ => rfl

/-- buffers with arbitrary old content -/
def gst2 : GSt ℚ (Fin 2) (Fin 2) (Fin 1) (Fin 1) := ⟨![7, 7], ![8, 8], !![9; 9], !![9; 9], ![5], !![5], ![6, 6], ![6, 6], ![11], !![12], !![13]⟩

/-- `x = 1`: state `(4, 6)`, `f = (24, 6 + t)`, `Phi^T f = 3*24 + 4*(6+t)` with `t = 10`; `J = (3,4) [6 4; 0 1] (3,4)^T` -/
example : ((defaultMMRhsJac trial2 fom2 ![1] 10 true gst2).state.r 0, (defaultMMRhsJac trial2 fom2 ![1] 10 true gst2).state.J 0 0, (defaultMMRhsJac trial2 fom2 ![1] 10 true gst2).state.M 0 0) = (136, 118, 66) := by
  decide +kernel
example : (defaultMMRhsJac trial2 fom2 ![49/2] 10 true gst2).stop? = some (.exc .velocityFailureUnrecoverable) := by decide +kernel

/-- a hyper-reduction operator that depends on the time, and one for masked quantities; a masker that keeps the second row -/
def hyp2 : HypRed ℚ (Fin 2) (Fin 1) := ⟨fun v t _ => .ok ![v 0 + t * v 1], fun B t _ => .ok !![B 0 0 + t * B 1 0]⟩
def hyp1 : HypRed ℚ (Fin 1) (Fin 1) := ⟨fun v t _ => .ok ![(t + 1) * v 0], fun B t _ => .ok !![(t + 1) * B 0 0]⟩
def mask2 : Masker ℚ (Fin 2) (Fin 1) (Fin 1) := ⟨fun v _ => .ok ![v 1], fun B _ => .ok !![B 1 0]⟩
theorem hyp2_is : HypIs hyp2 (fun t v => ![v 0 + t * v 1]) (fun t B => !![B 0 0 + t * B 1 0]) := ⟨fun _ _ _ => rfl, fun _ _ _ => rfl⟩
theorem hyp1_is : HypIs hyp1 (fun t v => ![(t + 1) * v 0]) (fun t B => !![(t + 1) * B 0 0]) := ⟨fun _ _ _ => rfl, fun _ _ _ => rfl⟩
theorem mask2_is : MaskIs mask2 (fun v => ![v 1]) (fun B => !![B 1 0]) := ⟨fun _ _ => rfl, fun _ _ => rfl⟩

/-- a steady FOM `f(y) = (y_0 y_1, y_1)` that throws where `y_1 = 100` -/
def steady2 : SteadyFom ℚ (Fin 2) (Fin 2) (Fin 1) where
  residual := fun y _ => if y 1 = 100 then .error (.velocityFailureUnrecoverable, 0) else .ok ![y 0 * y 1, y 1]
  residualAndJac := fun y B w J => if y 1 = 100 then .error (.velocityFailureUnrecoverable, J) else .ok (![y 0 * y 1, y 1], if w then !![y 1, y 0; 0, 1] * B else J.2)
  jacAction := fun y v _ => .ok ((!![y 1, y 0; 0, 1] : Matrix (Fin 2) (Fin 2) ℚ).mulVec v)
theorem steady2_is : SteadyIs steady2 (fun y => if y 1 = 100 then .error .velocityFailureUnrecoverable else .ok ![y 0 * y 1, y 1]) (fun y => .ok !![y 1, y 0; 0, 1]) where
  residual := fun y b => by simp only [steady2]; split <;> rfl
  residualOnly := fun y B b => by simp only [steady2]; split <;> rfl
  residualAndJac := fun y B b => by simp only [steady2]; split <;> rfl
theorem steady2_action : JacActionIs steady2 (fun y => .ok !![y 1, y 0; 0, 1]) := fun _ _ _ => rfl

example := C49_default_rhs fom2_is trial2 ![1] 10 gst2
example := C49_default_mass_matrix_rhs fom2_is trial2 ![1] 10 gst2
example := C49_default_rhs_jacobian fom2_is trial2 ![1] 10 true gst2
example := C49_default_mass_matrix_rhs_jacobian fom2_is trial2 ![1] 10 true gst2
example := C49_hypred_rhs fom2_is hyp2_is trial2 ![1] 10 gst2
example := C49_hypred_rhs_jacobian fom2_is hyp2_is trial2 ![1] 10 true gst2
example := C49_masked_rhs fom2_is mask2_is hyp1_is trial2 ![1] 10 gst2
example := C49_masked_rhs_jacobian fom2_is mask2_is hyp1_is trial2 ![1] 10 true gst2
example := C49_steady_residual steady2_is trial2 ![1] gst2
example := C49_steady_residual_jacobian steady2_is trial2 ![1] true gst2
example := C49_steady_apply_jacobian steady2_action trial2 ![1] ![5] gst2
example := C49_steady_hypred steady2_is hyp2_is trial2 ![1] true gst2
example := C49_steady_masked steady2_is mask2_is hyp1_is trial2 ![1] true gst2
example := C49_buffers_do_not_matter fom2_is trial2 ![1] 10 true gst2 { gst2 with fomState := ![0, 1], fomRhs := ![3, 2], aux := ![4, 4] } rfl rfl
/-- what two of them compute: hyper-reduced `24 + 10 (10 + 6)`, masked steady `6` -/
example : (hypredRhsJac trial2 fom2 hyp2 ![1] 10 true gst2).state.r 0 = 184 ∧ (steadyMaskedResidualJac trial2 steady2 mask2 hyp1 ![1] true gst2).state.r 0 = 6 ∧
    (steadyResidualJac trial2 steady2 ![49/2] true gst2).stop? = some (.exc .velocityFailureUnrecoverable) := by decide +kernel

/-- a real FOM `f(y, t) = 3 y` with its derivative -/
noncomputable def tripleFom (p : Type) [Fintype p] [DecidableEq p] : Fom ℝ p p (Fin 1) :=
  ⟨fun y _ _ => .ok ((3 : ℝ) • y), fun _ B _ _ => .ok (((3 : ℝ) • (1 : Matrix p p ℝ)) * B), fun _ B _ _ => .ok ((1 : Matrix p p ℝ) * B)⟩
theorem tripleFom_is (p : Type) [Fintype p] [DecidableEq p] : FomIs (tripleFom p) (fun y _ => .ok ((3 : ℝ) • y)) (fun _ _ => .ok ((3 : ℝ) • (1 : Matrix p p ℝ))) (fun _ _ => .ok 1) :=
  ⟨fun _ _ _ => rfl, fun _ _ _ _ => rfl, fun _ _ _ _ => rfl⟩
theorem triple_derivative {p : Type} [Fintype p] [DecidableEq p] (y : p → ℝ) : HasFDerivAt (fun y : p → ℝ => (3 : ℝ) • y) (asCLM ((3 : ℝ) • (1 : Matrix p p ℝ))) y := by
  have h : asCLM ((3 : ℝ) • (1 : Matrix p p ℝ)) = (3 : ℝ) • ContinuousLinearMap.id ℝ (p → ℝ) := by
    ext v i; simp [asCLM, Matrix.smul_mulVec]
  rw [h]
  exact (hasFDerivAt_id y).fun_const_smul 3
noncomputable def realTrial2 : Trial ℝ (Fin 2) (Fin 1) := ⟨!![3; 4], ![1, 2], true⟩
noncomputable def rowHyp : HypRed ℝ (Fin 2) (Fin 1) := ⟨fun v t _ => .ok ((!![1, t] : Matrix (Fin 1) (Fin 2) ℝ).mulVec v), fun B t _ => .ok ((!![1, t] : Matrix (Fin 1) (Fin 2) ℝ) * B)⟩
example (x : Fin 1 → ℝ) := C49_jacobian_is_derivative realTrial2 (fun y => (3 : ℝ) • y) _ realTrial2.basisᵀ.mulVecLin (fun B => realTrial2.basisᵀ * B) (fun _ _ => (Matrix.mulVec_mulVec _ _ _).symm) x (triple_derivative _)
example (x : Fin 1 → ℝ) (t : ℝ) (s : GSt ℝ (Fin 2) (Fin 2) (Fin 1) (Fin 1)) := C49_default_jacobian_is_derivative (tripleFom_is (Fin 2)) realTrial2 x t (triple_derivative _) s
example (x : Fin 1 → ℝ) (t : ℝ) (s : GSt ℝ (Fin 2) (Fin 2) (Fin 1) (Fin 1)) :=
  C49_hypred_jacobian_is_derivative (tripleFom_is (Fin 2)) (fun t => (!![1, t] : Matrix (Fin 1) (Fin 2) ℝ).mulVecLin) (fun t B => !![1, t] * B) (fun _ _ _ => by simp [Matrix.mulVec_mulVec])
    (H := rowHyp) ⟨fun _ _ _ => rfl, fun _ _ _ => rfl⟩ realTrial2 x t (triple_derivative _) s


end Pressio.Props
