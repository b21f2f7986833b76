import Verif.Spec.Coordinates
import Verif.Lemmas.SolverAlike
import Verif.Lemmas.SolverAlikeRuns

/-
  Two iterations, and two runs, in different coordinates.
-/
namespace Pressio.Lemmas.Coordinates
set_option autoImplicit false
set_option linter.unusedSectionVars false
open Pressio Matrix
open Pressio.Model.Nonlinear (Env Cfg Reg Ans Tag SP Quot')
open Pressio.Spec.Nonlinear Pressio.Spec.Coordinates Pressio.Lemmas.SolverAlike Pressio.Lemmas.Nonlinear

section
variable {K m n m' n' L L' : Type}

/-- the same update, seen through `φ`, with damping parameters related by `E` -/
def SameMove (φ : (n' → K) → n → K) (E : K → K → K → K → Prop) : UpdVal K n → UpdVal K n' → Prop
  | .moved x d v, .moved x' d' v' => x = φ x' ∧ E d v d' v'
  | .breakdown, .breakdown => True
  | .threw e, .threw e' => e = e'
  | _, _ => False

variable [Zero K]

theorem iterate_moved (φ : (n' → K) → n → K) (E : K → K → K → K → Prop) (C : (n → K) → (n' → K) → Prop) (sys : Sys K m n) (sys' : Sys K m' n') (P : Problem K m n L) (P' : Problem K m' n' L') (Rel : (m → K) → Matrix m n K → (m' → K) → Matrix m' n' K → Prop)
    (N : Norms K → Norms K → Prop) (hJ : P.withJ = true) (hJ' : P'.withJ = true)
    (hsys : ∀ x, (∃ e, sys.resJac (φ x) = .error e ∧ sys'.resJac x = .error e) ∨ ∃ r J r' J', sys.resJac (φ x) = .ok (r, J) ∧ sys'.resJac x = .ok (r', J') ∧ Rel r J r' J')
    (hcorr : ∀ x r J r' J' d v d' v' c b l c' b' l', Rel r J r' J' → E d v d' v' →
      ∃ c1 b1 l1 c1' b1' l1', P.corr (φ x) r J d (c, b, l) = .ok () (c1, b1, l1) ∧ P'.corr x r' J' d' (c', b', l') = .ok () (c1', b1', l1') ∧ C c1 c1' ∧ N (P.norms r J c1) (P'.norms r' J' c1'))
    (htest : ∀ i ref ref' now now', N ref ref' → N now now' → P.test i ref now = P'.test i ref' now')
    (hupd : ∀ s s' r J r' J' now now', Rel r J r' J' → N now now' → s.x = φ s'.x → C s.c s'.c → E s.damp s.nu s'.damp s'.nu → now = P.norms r J s.c → now' = P'.norms r' J' s'.c →
      (P.upd s r J now).trials = (P'.upd s' r' J' now').trials.map φ ∧ SameMove φ E (P.upd s r J now).val (P'.upd s' r' J' now').val)
    (k : Nat) : ∀ (i : Int) (ref ref' : Option (Norms K)) (s : St K n L) (s' : St K n' L'), Option.Rel N ref ref' → s.x = φ s'.x → E s.damp s.nu s'.damp s'.nu →
    (iterate sys P k i ref s).how = (iterate sys' P' k i ref' s').how ∧ (iterate sys P k i ref s).st.x = φ (iterate sys' P' k i ref' s').st.x ∧
    points (iterate sys P k i ref s).log = (points (iterate sys' P' k i ref' s').log).map (fun a => (φ a.1, a.2)) := by
  induction k with
  | zero =>
    intro i ref ref' s s' _ hx _
    simp only [iterate]
    split <;> exact ⟨rfl, hx, rfl⟩
  | succ k ih =>
    intro i ref ref' s s' hr hx hE
    obtain ⟨x, c, QTr, lin, damp, nu⟩ := s
    simp only at hx
    subst hx
    simp only [iterate, assembly, hJ, hJ', if_true]
    rcases hsys s'.x with ⟨e, e1, e2⟩ | ⟨r, J, r', J', e1, e2, hR⟩
    · simp only [e1, e2]
      split
      · exact ⟨rfl, rfl, rfl⟩
      · exact ⟨rfl, rfl, rfl⟩
    simp only [e1, e2]
    obtain ⟨c1, b1, l1, c1', b1', l1', q1, q2, q3, q4⟩ := hcorr s'.x r J r' J' damp nu s'.damp s'.nu c QTr lin s'.c s'.QTr s'.lin hR hE
    simp only [q1, q2]
    have hN : N (ref.getD (P.norms r J c1)) (ref'.getD (P'.norms r' J' c1')) := by
      cases hr with
      | none => exact q4
      | some h => exact h
    generalize ref.getD (P.norms r J c1) = R at hN ⊢
    generalize ref'.getD (P'.norms r' J' c1') = R' at hN ⊢
    rw [← htest i R R' _ _ hN q4]
    split
    · exact ⟨rfl, rfl, rfl⟩
    · exact ⟨rfl, rfl, rfl⟩
    obtain ⟨u1, u2⟩ := hupd ⟨φ s'.x, c1, b1, l1, damp, nu⟩ { s' with c := c1', QTr := b1', lin := l1' } r J r' J' _ _ hR q4 rfl q3 hE rfl rfl
    generalize P.upd ⟨φ s'.x, c1, b1, l1, damp, nu⟩ r J (P.norms r J c1) = U at u1 u2 ⊢
    generalize P'.upd { s' with c := c1', QTr := b1', lin := l1' } r' J' (P'.norms r' J' c1') = U' at u1 u2 ⊢
    obtain ⟨T, V⟩ := U
    obtain ⟨T', V'⟩ := U'
    simp only at u1
    subst u1
    have hpt : ∀ (x : n' → K) (w : Bool), ((sys.query (φ x) w).x, (sys.query (φ x) w).wantJ) = (φ (sys'.query x w).x, (sys'.query x w).wantJ) := fun _ _ => rfl
    have hpts : points (sys.query (φ s'.x) true :: (T'.map φ).map (fun t => sys.query t false)) = (points (sys'.query s'.x true :: T'.map (fun t => sys'.query t false))).map (fun a => (φ a.1, a.2)) := by
      simp [points, Function.comp_def, hpt]
    cases V <;> cases V' <;> simp only [SameMove] at u2
    · obtain ⟨u2, u3⟩ := u2
      subst u2
      simp only
      obtain ⟨i1, i2, i3⟩ := ih (i + 1) (some R) (some R') ⟨_, c1, b1, l1, _, _⟩ ⟨_, c1', b1', l1', _, _⟩ (.some hN) rfl u3
      refine ⟨i1, i2, ?_⟩
      unfold points at hpts i3 ⊢
      rw [List.map_append, List.map_append, List.map_append, hpts, i3]
    · exact ⟨rfl, rfl, hpts⟩
    · subst u2
      simp only
      split
      · exact ⟨rfl, rfl, hpts⟩
      · exact ⟨rfl, rfl, hpts⟩

end

section
variable {K m n p m' n' p' L L' : Type} [Field K] [LinearOrder K] [IsStrictOrderedRing K] [Fintype n] [Fintype n']

theorem search_moved (E : K → K → K → K → Prop) (B : Matrix n n' K) (a : n → K) (f : (n → K) → Except Exc K) (g : (n' → K) → Except Exc K) (x c : n' → K) (bound d nu d' nu' : K) (h : ∀ y, f (chart B a y) = g y) (hE : E d nu d' nu') : ∀ l : List K,
    (search f (chart B a x) (B *ᵥ c) bound d nu l).trials = (search g x c bound d' nu' l).trials.map (chart B a) ∧ SameMove (chart B a) E (search f (chart B a x) (B *ᵥ c) bound d nu l).val (search g x c bound d' nu' l).val := by
  have hx : ∀ α : K, chart B a x + α • (B *ᵥ c) = chart B a (x + α • c) := fun α => by
    simp only [chart, Matrix.mulVec_add, Matrix.mulVec_smul]; abel
  intro l
  induction l with
  | nil => exact ⟨rfl, trivial⟩
  | cons α l ih =>
    simp only [search, hx, h]
    rcases g (x + α • c) with e | v
    · exact ⟨rfl, rfl⟩
    simp only
    split
    · exact ⟨rfl, rfl, hE⟩
    · exact ⟨by rw [ih.1]; rfl, ih.2⟩

variable [Fintype m] [Fintype p] [Fintype m'] [Fintype p'] [DecidableEq n] [DecidableEq n']

theorem points_of {D : _ → Prop} {D' : _ → Prop} {full full'} {φ : (n' → K) → n → K} {s : Reg K m n p L} {s' : Reg K m' n' p' L'} {res : Res (Reg K m n p L) Unit} {res' : Res (Reg K m' n' p' L') Unit}
    {o : Out K m n L} {o' : Out K m' n' L'} (h : Refines D full s res o) (h' : Refines D' full' s' res' o') (h1 : o.how = o'.how) (h2 : o.st.x = φ o'.st.x) (h3 : points o.log = (points o'.log).map (fun a => (φ a.1, a.2))) :
    SamePoints φ s s' res res' := by
  obtain ⟨g1, g2, -, g4, -⟩ := h
  obtain ⟨k1, k2, -, k4, -⟩ := h'
  have e1 : res.state.x = o.st.x := congrArg St.x g2
  have e2 : res'.state.x = o'.st.x := congrArg St.x k2
  refine ⟨by rw [g1, k1, h1], by rw [e1, e2, h2], _, _, g4, k4, ?_⟩
  simp only [points, List.map_map, Function.comp_def] at h3
  exact h3

/-- two least-squares solvers (not Levenberg-Marquardt) in different coordinates -/
theorem ls_moved (env : Env K m n p L) (env' : Env K m' n' p' L') (cfg : Cfg K) (tag : Tag) (ht : tag ≠ .lm) (sys : Sys K m n) (sys' : Sys K m' n') (B : Matrix n n' K) (a : n → K)
    (Rel : (m → K) → Matrix m n K → (m' → K) → Matrix m' n' K → Prop) (N : Norms K → Norms K → Prop)
    (hsys : ∀ x, (∃ e, sys.resJac (chart B a x) = .error e ∧ sys'.resJac x = .error e) ∨ ∃ r J r' J', sys.resJac (chart B a x) = .ok (r, J) ∧ sys'.resJac x = .ok (r', J') ∧ Rel r J r' J')
    (hcorr : ∀ rule x r J r' J' d d' c b l c' b' l', Rel r J r' J' →
      ∃ c1 b1 l1 b1' l1', (lsProblem env cfg sys tag rule).corr (chart B a x) r J d (c, b, l) = .ok () (B *ᵥ c1, b1, l1) ∧ (lsProblem env' cfg sys' tag rule).corr x r' J' d' (c', b', l') = .ok () (c1, b1', l1'))
    (hnorm : ∀ r J r' J' c, Rel r J r' J' → N ⟨env.normM r, env.normN (B *ᵥ c), env.normN (gradOf env tag r J), objOf env tag r⟩ ⟨env'.normM r', env'.normN c, env'.normN (gradOf env' tag r' J'), objOf env' tag r'⟩)
    (hobj : ∀ a b, N a b → a.obj = b.obj) (hbelow : ∀ a b c d, N a b → N c d → below cfg.stop cfg.tol a c = below cfg.stop cfg.tol b d) (hat : ∀ x, objAt env sys tag (chart B a x) = objAt env' sys' tag x)
    (s : St K n L) (s' : St K n' L') (hx : s.x = chart B a s'.x) :
    (lsSolve env cfg sys tag s).how = (lsSolve env' cfg sys' tag s').how ∧ (lsSolve env cfg sys tag s).st.x = chart B a (lsSolve env' cfg sys' tag s').st.x ∧
      points (lsSolve env cfg sys tag s).log = (points (lsSolve env' cfg sys' tag s').log).map (fun q => (chart B a q.1, q.2)) := by
  have hr2 : ∀ rule, lsRule cfg tag = .ok rule → rule = .standard ∨ ∃ z, rule = .backtrack z := by
    intro rule h
    unfold lsRule at h
    cases hu : cfg.update <;> simp only [hu, ht, if_false] at h
    · cases h; exact .inl rfl
    · rcases hp : cfg.params with _ | (_ | ⟨z, l⟩) <;> rw [hp] at h <;> cases h <;> exact .inr ⟨_, rfl⟩
    · rcases hp : cfg.params with _ | (_ | ⟨z, l⟩) <;> rw [hp] at h <;> cases h <;> exact .inr ⟨_, rfl⟩
    all_goals cases h
  unfold lsSolve
  rcases hrule : lsRule cfg tag with e | rule
  · cases e <;> exact ⟨rfl, hx, rfl⟩
  · simp only
    refine iterate_moved (chart B a) (fun _ _ _ _ => True) (fun c c' => c = B *ᵥ c') sys sys' (lsProblem env cfg sys tag rule) (lsProblem env' cfg sys' tag rule) Rel N rfl rfl hsys ?_ ?_ ?_ _ _ _ _ _ _ .none hx trivial
    · intro x r J r' J' d _ d' _ c b l c' b' l' hR _
      obtain ⟨c1, b1, l1, b1', l1', q1, q2⟩ := hcorr rule x r J r' J' d d' c b l c' b' l' hR
      exact ⟨_, b1, l1, c1, b1', l1', q1, q2, rfl, hnorm r J r' J' c1 hR⟩
    · intro i ref ref' now now' h1 h2
      simp only [lsProblem, hbelow _ _ _ _ h1 h2]
    · intro s s' r J r' J' now now' hR hN hx hc _ _ _
      rcases hr2 rule hrule with rfl | ⟨z, rfl⟩
      · simp only [lsProblem, lsUpd, hx, hc]
        refine ⟨rfl, ?_, trivial⟩
        simp only [SameMove, chart, Matrix.mulVec_add]; abel
      · simp only [lsProblem, lsUpd, hx, hc, hobj _ _ hN]
        exact search_moved _ B a _ _ _ _ _ _ _ _ _ hat trivial _

/-- Levenberg-Marquardt parameters: the same, and positive -/
def SameDamping (rule : Rule K) (d v d' v' : K) : Prop := d = d' ∧ 0 < d ∧ match rule with | .lm1 => v = v' ∧ 0 < v | _ => True

theorem lm1_moved (φ : (n → K) → n → K) (rho : Quot' K) (x c x' c' : n → K) (d v : K) (hd : 0 < d) (hv : 0 < v) (hx : x = φ x') (hc : x + c = φ (x' + c')) : SameMove φ (SameDamping .lm1) (lm1 rho x c d v) (lm1 rho x' c' d v) := by
  have h2 : (0 : K) < 2 := by norm_num
  cases rho with
  | fin q =>
    simp only [lm1]
    split
    · exact ⟨hc, rfl, mul_pos hd (lt_max_of_lt_left (by norm_num)), rfl, h2⟩
    · exact ⟨hx, rfl, mul_pos hd hv, rfl, mul_pos hv h2⟩
  | posInf => exact ⟨hc, rfl, mul_pos hd (by norm_num), rfl, h2⟩
  | negInf => exact ⟨hx, rfl, mul_pos hd hv, rfl, mul_pos hv h2⟩
  | nan => exact ⟨hx, rfl, mul_pos hd hv, rfl, mul_pos hv h2⟩

theorem lm2_moved (φ : (n → K) → n → K) (rho : Quot' K) (x c x' c' : n → K) (d v v' : K) (hd : 0 < d) (hx : x = φ x') (hc : x + c = φ (x' + c')) : SameMove φ (SameDamping .lm2) (lm2 rho x c d v) (lm2 rho x' c' d v') := by
  refine ⟨?_, rfl, ?_, trivial⟩
  · split
    · exact hc
    · exact hx
  · split
    · exact lt_min (by linarith) (by norm_num)
    · split
      · exact lt_max_of_lt_left (by norm_num)
      · exact hd

/-- two Levenberg-Marquardt solvers in different coordinates -/
theorem lm_moved (env : Env K m n p L) (env' : Env K m' n p' L') (cfg : Cfg K) (sys : Sys K m n) (sys' : Sys K m' n) (B : Matrix n n K) (a : n → K)
    (Rel : (m → K) → Matrix m n K → (m' → K) → Matrix m' n K → Prop) (N : Norms K → Norms K → Prop)
    (hsys : ∀ x, (∃ e, sys.resJac (chart B a x) = .error e ∧ sys'.resJac x = .error e) ∨ ∃ r J r' J', sys.resJac (chart B a x) = .ok (r, J) ∧ sys'.resJac x = .ok (r', J') ∧ Rel r J r' J')
    (hcorr : ∀ rule x r J r' J' d c b l c' b' l', Rel r J r' J' → 0 < d →
      ∃ c1 b1 l1 b1' l1', (lsProblem env cfg sys .lm rule).corr (chart B a x) r J d (c, b, l) = .ok () (B *ᵥ c1, b1, l1) ∧ (lsProblem env' cfg sys' .lm rule).corr x r' J' d (c', b', l') = .ok () (c1, b1', l1'))
    (hnorm : ∀ r J r' J' c, Rel r J r' J' → N ⟨env.normM r, env.normN (B *ᵥ c), env.normN (gradOf env .lm r J), objOf env .lm r⟩ ⟨env'.normM r', env'.normN c, env'.normN (gradOf env' .lm r' J'), objOf env' .lm r'⟩)
    (hgain : ∀ r J r' J' c f1 f0 d, Rel r J r' J' → gain f1 f0 d (Jᵀ * J) (gradOf env .lm r J) (B *ᵥ c) = gain f1 f0 d (J'ᵀ * J') (gradOf env' .lm r' J') c)
    (hobj : ∀ a b, N a b → a.obj = b.obj) (hbelow : ∀ a b c d, N a b → N c d → below cfg.stop cfg.tol a c = below cfg.stop cfg.tol b d) (hat : ∀ x, objAt env sys .lm (chart B a x) = objAt env' sys' .lm x)
    (s : St K n L) (s' : St K n L') (hx : s.x = chart B a s'.x) :
    (lsSolve env cfg sys .lm s).how = (lsSolve env' cfg sys' .lm s').how ∧ (lsSolve env cfg sys .lm s).st.x = chart B a (lsSolve env' cfg sys' .lm s').st.x ∧
      points (lsSolve env cfg sys .lm s).log = (points (lsSolve env' cfg sys' .lm s').log).map (fun q => (chart B a q.1, q.2)) := by
  unfold lsSolve
  rcases hrule : lsRule cfg .lm with e | rule
  · cases e <;> exact ⟨rfl, hx, rfl⟩
  · simp only
    have hstep : ∀ x c : n → K, chart B a x + B *ᵥ c = chart B a (x + c) := fun x c => by simp only [chart, Matrix.mulVec_add]; abel
    refine iterate_moved (chart B a) (SameDamping rule) (fun c c' => c = B *ᵥ c') sys sys' (lsProblem env cfg sys .lm rule) (lsProblem env' cfg sys' .lm rule) Rel N rfl rfl hsys ?_ ?_ ?_ _ _ _ _ _ _ .none hx ?_
    · rintro x r J r' J' d v d' v' c b l c' b' l' hR ⟨rfl, hd, -⟩
      obtain ⟨c1, b1, l1, b1', l1', q1, q2⟩ := hcorr rule x r J r' J' d c b l c' b' l' hR hd
      exact ⟨_, b1, l1, c1, b1', l1', q1, q2, rfl, hnorm r J r' J' c1 hR⟩
    · intro i ref ref' now now' h1 h2
      simp only [lsProblem, hbelow _ _ _ _ h1 h2]
    · rintro ⟨x, c, QTr, lin, damp, nu⟩ s' r J r' J' now now' hR hN hx hc ⟨hd1, hd2, hd3⟩ _ _
      simp only at hx hc hd1 hd2 hd3
      subst hx hc hd1
      cases rule with
      | standard =>
        refine ⟨rfl, hstep _ _, rfl, hd2, trivial⟩
      | backtrack z =>
        simp only [lsProblem, lsUpd, hobj _ _ hN]
        exact search_moved _ B a _ _ _ _ _ _ _ _ _ hat ⟨rfl, hd2, trivial⟩ _
      | lm1 =>
        obtain ⟨hd3, hd4⟩ := hd3
        subst hd3
        simp only [lsProblem, lsUpd, hobj _ _ hN, hstep, hat]
        rcases objAt env' sys' .lm (s'.x + s'.c) with e | v
        · exact ⟨rfl, rfl⟩
        · simp only [hgain r J r' J' _ _ _ _ hR]
          exact ⟨rfl, lm1_moved _ _ _ _ _ _ _ _ hd2 hd4 rfl (hstep _ _)⟩
      | lm2 =>
        simp only [lsProblem, lsUpd, hobj _ _ hN, hstep, hat]
        rcases objAt env' sys' .lm (s'.x + s'.c) with e | v
        · exact ⟨rfl, rfl⟩
        · simp only [hgain r J r' J' _ _ _ _ hR]
          exact ⟨rfl, lm2_moved _ _ _ _ _ _ _ _ _ hd2 rfl (hstep _ _)⟩
    · cases rule <;> simp [SameDamping, lsStart]

end
end Pressio.Lemmas.Coordinates

namespace Pressio.Lemmas.SolverRun
set_option linter.unusedSectionVars false
open Pressio Matrix
open Pressio.Model.Nonlinear Pressio.Spec.Nonlinear Pressio.Spec.SolverRun Pressio.Spec.Implicit Pressio.Lemmas.Implicit Pressio.Lemmas.SolverTree Pressio.Spec.Coordinates

variable {K m n p m' n' p' L L' S S' : Type}

/-- Runs of two steppers with their solver objects, in different coordinates -/
theorem driveObj_moved [Field K] [Fintype n] [Fintype n'] (D : K → Prop) (φ : (n' → K) → n → K) (Q : SolveTree (n → K) (Ans K m n) → Prop) (Q' : SolveTree (n' → K) (Ans K m' n') → Prop)
    (step : ((n → K) → SolveTree (n → K) (Ans K m n)) → K → K → Int → Prog (SolveSt (n → K) S (Ans K m n)) Unit) (step' : ((n' → K) → SolveTree (n' → K) (Ans K m' n')) → K → K → Int → Prog (SolveSt (n' → K) S' (Ans K m' n')) Unit)
    (F : List (n → K) → K → K → (n → K) → Bool → Except Exc (Ans K m n)) (F' : List (n' → K) → K → K → (n' → K) → Bool → Except Exc (Ans K m' n')) (Inv : K → List (n → K) → S → Prop) (Inv' : K → List (n' → K) → S' → Prop)
    (h : RefinesOn Q step F Inv) (h' : RefinesOn Q' step' F' Inv')
    (hF : ∀ hist t dt x w, F hist t dt x w ≠ .error .timeStepFailure) (solve : SP K m n p L Unit) (solve' : SP K m' n' p' L' Unit) (hs : Fine solve) (hs' : Fine solve') (hQ : ∀ reg y, Q (solverOf solve reg y)) (hQ' : ∀ reg y, Q' (solverOf solve' reg y))
    (R : Reg K m n p L → Reg K m' n' p' L' → Prop)
    (hR : ∀ reg reg' y prev t dt, D dt → R reg reg' → let r := SM.run (F ((y :: prev).map φ) t dt) solve { reg with x := φ y }; let r' := SM.run (F' (y :: prev) t dt) solve' { reg' with x := y }
      SamePoints φ { reg with x := φ y } { reg' with x := y } r r' ∧ R r.state r'.state)
    (dts : List K) (hD : ∀ d ∈ dts, D d) (t : K) (y : n' → K) (prev : List (n' → K)) (mem : S) (mem' : S') (reg : Reg K m n p L) (reg' : Reg K m' n' p' L') (hI : Inv t ((y :: prev).map φ) mem) (hI' : Inv' t (y :: prev) mem') (hreg : R reg reg') :
    (driveObj step solve dts t ((y :: prev).map φ) (φ y) mem reg).map (shown id) = (driveObj step' solve' dts t (y :: prev) y mem' reg').map (shown φ) := by
  induction dts generalizing t y prev mem mem' reg reg' with
  | nil => rfl
  | cons dt rest ih =>
    obtain ⟨m1, hm1, e1⟩ := h (solverOf solve reg) t dt (φ y) (prev.map φ) mem hI (hQ reg _)
    obtain ⟨m2, hm2, e2⟩ := h' (solverOf solve' reg') t dt y prev mem' hI' (hQ' reg' y)
    obtain ⟨⟨r1, r2, Qs, Qs', r3, r4, r6⟩, r5⟩ := hR reg reg' y prev t dt (hD _ List.mem_cons_self) hreg
    have hh := honest_outcome (F ((y :: prev).map φ) t dt) (hF _ _ _) (solverOf solve reg (φ y)) (honest_solverOf solve hs reg (φ y))
    have hrep : (solve { reg with x := φ y }).replay reg ((outcome (F ((y :: prev).map φ) t dt) (solverOf solve reg (φ y))).queries.map (·.ans)) = (SM.run (F ((y :: prev).map φ) t dt) solve { reg with x := φ y }).state := by
      rw [outcome_solverOf]; exact replay_asked _ _ _
    have hrep' : (solve' { reg' with x := y }).replay reg' ((outcome (F' (y :: prev) t dt) (solverOf solve' reg' y)).queries.map (·.ans)) = (SM.run (F' (y :: prev) t dt) solve' { reg' with x := y }).state := by
      rw [outcome_solverOf]; exact replay_asked _ _ _
    have l1 := log_run solve hs (F ((y :: prev).map φ) t dt) { reg with x := φ y }
    have l2 := log_run solve' hs' (F' (y :: prev) t dt) { reg' with x := y }
    rw [r3] at l1
    rw [r4] at l2
    have hstop : (outcome (F ((y :: prev).map φ) t dt) (solverOf solve reg (φ y))).stop = (outcome (F' (y :: prev) t dt) (solverOf solve' reg' y)).stop := by
      rw [outcome_solverOf, outcome_solverOf]; exact r1
    have hy : (outcome (F ((y :: prev).map φ) t dt) (solverOf solve reg (φ y))).y = φ (outcome (F' (y :: prev) t dt) (solverOf solve' reg' y)).y := by
      rw [outcome_solverOf, outcome_solverOf]; exact r2
    have hq : (outcome (F ((y :: prev).map φ) t dt) (solverOf solve reg (φ y))).queries.map (fun a => (a.x, a.wantJ)) = (outcome (F' (y :: prev) t dt) (solverOf solve' reg' y)).queries.map (fun a => (φ a.x, a.wantJ)) := by
      rw [outcome_solverOf, outcome_solverOf]
      simp only
      rw [← List.append_cancel_left l1, ← List.append_cancel_left l2]
      exact r6
    simp only [List.map_cons] at e1 hm1 hh hrep hstop hy hq r5 ⊢
    generalize outcome (F (φ y :: prev.map φ) t dt) (solverOf solve reg (φ y)) = O at *
    generalize outcome (F' (y :: prev) t dt) (solverOf solve' reg' y) = O' at *
    simp only [driveObj]
    obtain ⟨st, oy, oq⟩ := O
    obtain ⟨st', oy', oq'⟩ := O'
    simp only at hstop hy hq e1 e2 hm1 hm2 hrep hrep' hh
    subst hstop
    subst hy
    rw [e1, e2]
    have hrest : ∀ d ∈ rest, D d := fun d hd => hD d (List.mem_cons_of_mem _ hd)
    have hsh : ∀ (h : Option Stop) (z : n' → K), shown id (⟨φ y :: prev.map φ, t, dt, oq, h, φ z⟩ : Record K (n → K) (Ans K m n)) = shown φ ⟨y :: prev, t, dt, oq', h, z⟩ := fun h z => by
      simp only [shown, id_eq, List.map_id, List.map_cons, hq]
    match st with
    | none =>
      simp only at hm1 hm2 ⊢
      rw [hrep, hrep', List.map_cons, List.map_cons, hsh]
      exact congrArg _ (ih hrest _ oy' (y :: prev) _ _ _ _ hm1 hm2 r5)
    | some (.exc ex) =>
      cases ex with
      | nonlinearSolveFailure =>
        simp only at hm1 hm2 ⊢
        rw [hrep, hrep', List.map_cons, List.map_cons, hsh]
        exact congrArg _ (ih hrest _ y prev _ _ _ _ hm1 hm2 r5)
      | timeStepFailure => exact absurd rfl hh
      | _ => simp only [List.map_cons, List.map_nil, hsh]
    | some (.ub w) => simp only [List.map_cons, List.map_nil, hsh]
    | some .fuel => simp only [List.map_cons, List.map_nil, hsh]

end Pressio.Lemmas.SolverRun
