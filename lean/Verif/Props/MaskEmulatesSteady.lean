import Verif.Props.MaskEmulatesExamples
import Verif.Props.SteadySolve

/-
  C106 for steady problems.
-/
namespace Pressio.Props
set_option autoImplicit false
set_option linter.unusedSectionVars false
open Pressio Matrix
open Pressio.Model.Nonlinear (Env Cfg Reg StopCrit Update Tag Ans SP)
open Pressio.Spec.Sampling Pressio.Model.SteadySolve Pressio.Lemmas.Implicit
open Pressio.Model.Galerkin Pressio.Spec.Galerkin
open Pressio.Model.Lspg (steadyLspg steadyMaskedLspg SteadyScaler)

section
variable {K m s q r n P p L T T' : Type} [Field K] [LinearOrder K] [IsStrictOrderedRing K] [Fintype m] [DecidableEq m] [Fintype s] [DecidableEq s] [Fintype q] [DecidableEq q] [Fintype r] [Fintype n] [DecidableEq n] [Fintype p]

/-- what the caller of `solve` sees: how it ends, the state, and (in the problem's log) all evaluations with their answers -/
def solved {Y A : Type} (o : Res (SolveSt Y T A) Unit) : Option Stop × Y × List (Query Y A) := (o.stop?, o.state.y, o.state.log)

theorem tree_same {Y A : Type} (g : Y → Bool → Except Exc A) (ans : Y → Bool → Prog T A) (ans' : Y → Bool → Prog T' A) (h : ∀ x w s, ∃ s', ans x w s = settle (g x w) s') (h' : ∀ x w s, ∃ s', ans' x w s = settle (g x w) s') :
    ∀ (tr : SolveTree Y A) (y : Y) (l : List (Query Y A)) (a : T) (b : T'), solved (tr.run ans ⟨y, a, l⟩) = solved (tr.run ans' ⟨y, b, l⟩)
  | .ret _, _, _, _, _ => rfl
  | .stop _ _, _, _, _, _ => rfl
  | .ask x w k, y, l, a, b => by
    obtain ⟨a', ha⟩ := h x w a
    obtain ⟨b', hb⟩ := h' x w b
    simp only [SolveTree.run, ha, hb]
    rcases g x w with e | v
    · exact tree_same g ans ans' h h' (k (.error e)) y _ a' b'
    · exact tree_same g ans ans' h h' (k (.ok v)) y _ a' b'

theorem galerkinEval_settles {S : Trial K m n} {f : (m → K) → Except Exc (q → K)} {Df Mm : (m → K) → Except Exc (Matrix q m K)} {pv : (q → K) → n → K} {pm : Matrix q n K → Matrix n n K} {op : (n → K) → Bool → Prog (GSt K m q r n) Unit}
    (h : ∀ x w s, Ends (op x w s) (reduced S (fun y (_ : K) => f y) (fun y _ => Df y) (fun y _ => Mm y) pv pm x 0 false w s.J s.M)) (x : n → K) (w : Bool) (s : GSt K m q r n) :
    ∃ s', galerkinEval op x w s = settle (do
      let v ← (f (lift S x)).map pv
      let J ← if w then (Df (lift S x)).map (fun D => some (pm (D * S.basis))) else pure none
      pure (v, J)) s' := by
  have h := h x w s
  unfold galerkinEval
  unfold reduced at h
  beta_reduce at h
  rcases hf : f (lift S x) with e | v
  · rw [hf] at h
    obtain ⟨s', hs⟩ := h
    exact ⟨s', by simp [hs, settle, Except.map, bind, Except.bind]⟩
  · rw [hf] at h
    cases w with
    | false =>
      obtain ⟨s', hs, hv⟩ := h
      simp only [Prod.mk.injEq] at hv
      exact ⟨s', by simp [hs, hv.1, settle, Except.map, bind, Except.bind, pure, Except.pure]⟩
    | true =>
      rcases hD : Df (lift S x) with e | D
      · rw [hD] at h
        obtain ⟨s', hs⟩ := h
        exact ⟨s', by simp [hs, settle, Except.map, bind, Except.bind]⟩
      · rw [hD] at h
        obtain ⟨s', hs, hv⟩ := h
        simp only [Prod.mk.injEq] at hv
        exact ⟨s', by simp [hs, hv.1, hv.2.1, settle, Except.map, bind, Except.bind, pure, Except.pure]⟩

/-- **C106, steady Galerkin.** A full-mesh code for a residual and its Jacobian, a code for a sample mesh with its stencil mesh whose residual and Jacobian rows are those of the full-mesh code, a masker that keeps the entries of the sample mesh, one hyper-reduction operator for both: a call of `solve`, of any solver object, with the masked problem of the
    full-mesh code and with the hyper-reduced problem of the sample-mesh code ends in the same way with the same state, after evaluations at the same points with the same answers. The codes may throw. -/
theorem C106_steady_galerkin (Pm : Matrix s m K) (E : Matrix q s K) {F : SteadyFom K m m n} {f : (m → K) → Except Exc (m → K)} {Df : (m → K) → Except Exc (Matrix m m K)} (hF : SteadyIs F f Df)
    {F' : SteadyFom K s q n} {f' : (s → K) → Except Exc (q → K)} {Df' : (s → K) → Except Exc (Matrix q s K)} (hF' : SteadyIs F' f' Df') (hs : Samples Pm E (fun y _ => f y) (fun y _ => Df y) (fun y _ => f' y) (fun y _ => Df' y)) {Mk : Masker K m q n} (hMk : MaskIs Mk (fun v => (E * Pm) *ᵥ v) (fun B => (E * Pm) * B))
    {H : HypRed K q n} {hv : K → (q → K) → n → K} {hm : K → Matrix q n K → Matrix n n K} (hH : HypIs H hv hm) (S : Trial K m n) (solve : SP K n n P L Unit) (reg : Reg K n n P L) (x0 : n → K) (mem : GSt K m m q n) (mem' : GSt K s q r n) :
    solved (solveSteady solve reg (galerkinEval (steadyMaskedResidualJac S F Mk H)) x0 mem) = solved (solveSteady solve reg (galerkinEval (steadyHypredResidualJac (onStencil Pm S) F' H)) x0 mem') := by
  have h1 := galerkinEval_settles (fun x w s => C49_steady_masked hF hMk hH S x w s)
  have h2 := galerkinEval_settles (fun x w s => C49_steady_hypred (q := r) hF' hH (onStencil Pm S) x w s)
  refine tree_same _ _ _ h1 (fun x w s => ?_) _ _ _ _ _
  obtain ⟨s', e⟩ := h2 x w s
  have e1 := congrFun (congrFun (samples_reduced hs S hv hm).1 x) 0
  have e2 := congrFun (congrFun (samples_reduced hs S hv hm).2 x) 0
  beta_reduce at e1 e2
  refine ⟨s', e.trans (congrArg (fun g => settle g s') ?_)⟩
  rw [e1]
  refine bind_congr (fun v => ?_)
  cases w
  · rfl
  · simp only [if_true]
    revert e2
    rcases Df' (lift (onStencil Pm S) x) with e' | D' <;> rcases Df (lift S x) with e'' | D <;> intro e2 <;> simp only [Except.map, Except.ok.injEq, Except.error.injEq, reduceCtorEq] at e2 <;> simp [Except.map, e2]

/-- **C106, steady LSPG.** The same for LSPG problems with scaling operators that do the same with sampled residuals and Jacobians (any scaling by the state on the stencil mesh); unlike unsteady LSPG, without a condition on the Jacobian. -/
theorem C106_steady_lspg (Pm : Matrix s m K) (E : Matrix q s K) {F : SteadyFom K m m n} {f : (m → K) → Except Exc (m → K)} {Df : (m → K) → Except Exc (Matrix m m K)} (hF : SteadyIs F f Df)
    {F' : SteadyFom K s q n} {f' : (s → K) → Except Exc (q → K)} {Df' : (s → K) → Except Exc (Matrix q s K)} (hF' : SteadyIs F' f' Df') (hs : Samples Pm E (fun y _ => f y) (fun y _ => Df y) (fun y _ => f' y) (fun y _ => Df' y)) {Mk : Masker K m q n} (hMk : MaskIs Mk (fun v => (E * Pm) *ᵥ v) (fun B => (E * Pm) * B))
    (S : Trial K m n) (sc : SteadyScaler K m q n) (sc' : SteadyScaler K s q n) (hsc : ∀ y a, sc y a = sc' (Pm *ᵥ y) a) (solve : SP K q n P L Unit) (reg : Reg K q n P L) (x0 : n → K) (mem : (m → K) × ((m → K) × Matrix m n K) × (q → K) × Matrix q n K) (mem' : (s → K) × (q → K) × Matrix q n K) :
    solved (solveSteady solve reg (steadyMaskedLspg S F Mk sc) x0 mem) = solved (solveSteady solve reg (steadyLspg (onStencil Pm S) F' sc') x0 mem') := by
  refine tree_same _ _ _ (fun x w s => C55_steady_masked hF hMk S sc x w s) (fun x w s => ?_) _ _ _ _ _
  obtain ⟨s', e⟩ := C55_steady hF' (onStencil Pm S) sc' x w s
  refine ⟨s', e.trans (congrArg (fun g => settle g s') ?_)⟩
  have e1 := hs.values (lift S x) 0
  have e2 := hs.rows (lift S x) 0
  beta_reduce at e1 e2
  rw [lift_onStencil, e1]
  simp only [hsc]
  rcases f (lift S x) with e' | v
  · rfl
  cases w
  · rfl
  · simp only [if_true]
    revert e2
    rcases Df' (Pm *ᵥ lift S x) with e' | D' <;> rcases Df (lift S x) with e'' | D <;> intro e2 <;> simp only [Except.map, Except.ok.injEq, Except.error.injEq, reduceCtorEq] at e2
    · subst e2; rfl
    · have : D' * (Pm * S.basis) = (E * Pm) * (D * S.basis) := by rw [← Matrix.mul_assoc, e2, Matrix.mul_assoc]
      simp [Except.map, bind, Except.bind, onStencil, this]
end

/-! The steady states of the advection problem of `SamplingExamples`; the codes throw for negative states at the sample point. -/

def restBurgers : SteadyFom ℚ (Fin 3) (Fin 3) (Fin 1) where
  residual := fun y _ => if y 1 < 0 then .error (.other 7, ![1, 2, 3]) else .ok (burgersRhs y 1)
  residualAndJac := fun y B w b => if y 1 < 0 then .error (.other 7, b) else .ok (burgersRhs y 1, if w then burgersJac y * B else b.2)
  jacAction := fun y v _ => .ok (burgersJac y *ᵥ v)
def restBurgersF (y : Fin 3 → ℚ) : Except Exc (Fin 3 → ℚ) := if y 1 < 0 then .error (.other 7) else .ok (burgersRhs y 1)
theorem restBurgers_is : SteadyIs restBurgers restBurgersF (fun y => .ok (burgersJac y)) where
  residual := fun y b => by simp only [restBurgers, restBurgersF]; split <;> rfl
  residualOnly := fun y B b => by simp only [restBurgers, restBurgersF]; split <;> rfl
  residualAndJac := fun y B b => by simp only [restBurgers, restBurgersF]; split <;> rfl
def restSampled : SteadyFom ℚ (Fin 2) (Fin 1) (Fin 1) where
  residual := fun u _ => if u 1 < 0 then .error (.other 7, ![1]) else .ok ![-(u 1 * (u 1 - u 0))]
  residualAndJac := fun u B w b => if u 1 < 0 then .error (.other 7, b) else .ok (![-(u 1 * (u 1 - u 0))], if w then !![u 1, u 0 - 2 * u 1] * B else b.2)
  jacAction := fun _ _ b => .ok b
def restSampledF (u : Fin 2 → ℚ) : Except Exc (Fin 1 → ℚ) := if u 1 < 0 then .error (.other 7) else .ok ![-(u 1 * (u 1 - u 0))]
theorem restSampled_is : SteadyIs restSampled restSampledF (fun u => .ok !![u 1, u 0 - 2 * u 1]) where
  residual := fun y b => by simp only [restSampled, restSampledF]; split <;> rfl
  residualOnly := fun y B b => by simp only [restSampled, restSampledF]; split <;> rfl
  residualAndJac := fun y B b => by simp only [restSampled, restSampledF]; split <;> rfl
theorem rest_samples : Samples toStencil toSample (fun y (_ : ℚ) => restBurgersF y) (fun y _ => .ok (burgersJac y)) (fun u _ => restSampledF u) (fun u _ => .ok !![u 1, u 0 - 2 * u 1]) where
  values := fun y t => by
    have h := burgers_samples.values y 1
    have h1 : (toStencil *ᵥ y) 1 = y 1 := by simp [toStencil, Matrix.mulVec, dotProduct, Fin.sum_univ_succ]
    simp only [restSampledF, restBurgersF, h1]
    split
    · rfl
    · rw [← h]; simp only [h1]
  rows := fun y t => burgers_samples.rows y t

example := C106_steady_galerkin toStencil toSample restBurgers_is restSampled_is rest_samples mask3_is hypTime_is meshTrial (Model.Nonlinear.newtonSolve env11N cfg11N) reg11 ![1] gstMask gstHyp
/-- a solve: two iterations -/
example : solved (solveSteady (Model.Nonlinear.newtonSolve env11N cfgTwo) reg11 (galerkinEval (steadyMaskedResidualJac meshTrial restBurgers mask3 hypTime)) ![1] gstMask) =
    (none, solved (solveSteady (Model.Nonlinear.newtonSolve env11N cfgTwo) reg11 (galerkinEval (steadyHypredResidualJac (onStencil toStencil meshTrial) restSampled hypTime)) ![1] gstHyp) |>.2) :=
  (C106_steady_galerkin toStencil toSample restBurgers_is restSampled_is rest_samples mask3_is hypTime_is meshTrial (Model.Nonlinear.newtonSolve env11N cfgTwo) reg11 ![1] gstMask gstHyp).trans (Prod.ext (by decide +kernel) rfl)
example := C106_steady_lspg toStencil toSample restBurgers_is restSampled_is rest_samples mask3_is meshTrial (fun y a => .ok ((1 + y 1 ^ 2) • a.1, a.2.map (fun J => (1 + y 1 ^ 2) • J))) (fun u a => .ok ((1 + u 1 ^ 2) • a.1, a.2.map (fun J => (1 + u 1 ^ 2) • J)))
  (fun y a => by have h1 : (toStencil *ᵥ y) 1 = y 1 := by simp [toStencil, Matrix.mulVec, dotProduct, Fin.sum_univ_succ]
                 simp only [h1]) (Model.Nonlinear.lsSolve env11 cfgBack .gn) reg11 ![1] (0, (0, 0), 0, 0) (0, 0, 0)
end Pressio.Props
