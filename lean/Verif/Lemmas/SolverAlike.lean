import Verif.Spec.SolverAlike
import Verif.Lemmas.NonlinearObjects

/-
  Two iterations whose corrections, tests and updates agree do the same.
-/
namespace Pressio.Lemmas.SolverAlike
set_option autoImplicit false
set_option linter.unusedSectionVars false
open Pressio Matrix
open Pressio.Model.Nonlinear (Env Cfg Reg Ans Tag)
open Pressio.Spec.Nonlinear Pressio.Spec.SolverAlike

variable {K m n m' L L' : Type}

/-- the same update, up to damping parameters -/
def SameVal : UpdVal K n → UpdVal K n → Prop
  | .moved x _ _, .moved x' _ _ => x = x'
  | .breakdown, .breakdown => True
  | .threw e, .threw e' => e = e'
  | _, _ => False

def points {A : Type} (l : List (Query (n → K) A)) : List ((n → K) × Bool) := l.map (fun a => (a.x, a.wantJ))

variable [Zero K]

theorem iterate_queries (sys : Sys K m n) (P : Problem K m n L) (k : Nat) : ∀ (i : Int) (ref : Option (Norms K)) (s : St K n L),
    (iterate sys P k i ref s).log = (points (iterate sys P k i ref s).log).map (fun a => sys.query a.1 a.2) := by
  have hq : ∀ (x : n → K) (w : Bool), sys.query (sys.query x w).x (sys.query x w).wantJ = sys.query x w := fun _ _ => rfl
  induction k with
  | zero => intro i ref s; simp only [iterate]; split <;> rfl
  | succ k ih =>
    intro i ref s
    simp only [iterate]
    split
    · split <;> rfl
    split
    · rfl
    split
    · rfl
    · rfl
    split
    · split <;> simp [points, Function.comp_def, hq]
    · simp [points, Function.comp_def, hq]
    · rename_i x' damp nu _
      simp only [List.cons_append, points, List.map_cons, List.map_append, List.map_map, Function.comp_def, hq]
      simp only [points, List.map_map, Function.comp_def] at ih
      rw [← ih]

/-- Two iterations, maybe of different systems and with inner solvers of different kinds. `Rel`: how residual and Jacobian are related; `Λ`: how corrections and memories of inner solvers are; `N`: how norms are. -/
theorem iterate_alike (sys : Sys K m n) (sys' : Sys K m' n) (P : Problem K m n L) (P' : Problem K m' n L') (Rel : (m → K) → Matrix m n K → (m' → K) → Matrix m' n K → Prop)
    (Λ : (n → K) → L → (n → K) → L' → Prop) (N : Norms K → Norms K → Prop) (hJ : P.withJ = true) (hJ' : P'.withJ = true)
    (hsys : ∀ x, (∃ e, sys.resJac x = .error e ∧ sys'.resJac x = .error e) ∨ ∃ r J r' J', sys.resJac x = .ok (r, J) ∧ sys'.resJac x = .ok (r', J') ∧ Rel r J r' J')
    (hcorr : ∀ x r J r' J' d d' c b l c' b' l', Rel r J r' J' → Λ c l c' l' →
      (∃ c1 b1 l1 b1' l1', P.corr x r J d (c, b, l) = .ok () (c1, b1, l1) ∧ P'.corr x r' J' d' (c', b', l') = .ok () (c1, b1', l1') ∧ Λ c1 l1 c1 l1' ∧ N (P.norms r J c1) (P'.norms r' J' c1)) ∨
      (∃ h c1 b1 l1 c1' b1' l1', P.corr x r J d (c, b, l) = .stop h (c1, b1, l1) ∧ P'.corr x r' J' d' (c', b', l') = .stop h (c1', b1', l1') ∧ Λ c1 l1 c1' l1'))
    (htest : ∀ i ref ref' now now', N ref ref' → N now now' → P.test i ref now = P'.test i ref' now')
    (hupd : ∀ s s' r J r' J' now now', Rel r J r' J' → N now now' → s.x = s'.x → s.c = s'.c → now = P.norms r J s.c → now' = P'.norms r' J' s'.c →
      (P.upd s r J now).trials = (P'.upd s' r' J' now').trials ∧ SameVal (P.upd s r J now).val (P'.upd s' r' J' now').val)
    (k : Nat) : ∀ (i : Int) (ref ref' : Option (Norms K)) (s : St K n L) (s' : St K n L'), Option.Rel N ref ref' → s.x = s'.x → Λ s.c s.lin s'.c s'.lin →
    (iterate sys P k i ref s).how = (iterate sys' P' k i ref' s').how ∧ (iterate sys P k i ref s).st.x = (iterate sys' P' k i ref' s').st.x ∧
    Λ (iterate sys P k i ref s).st.c (iterate sys P k i ref s).st.lin (iterate sys' P' k i ref' s').st.c (iterate sys' P' k i ref' s').st.lin ∧
    points (iterate sys P k i ref s).log = points (iterate sys' P' k i ref' s').log ∧
    Option.Rel (fun a b : Norms K × Norms K => N a.1 b.1 ∧ N a.2 b.2) (iterate sys P k i ref s).last (iterate sys' P' k i ref' s').last := by
  induction k with
  | zero =>
    intro i ref ref' s s' _ hx hΛ
    simp only [iterate]
    split <;> exact ⟨rfl, hx, hΛ, rfl, .none⟩
  | succ k ih =>
    intro i ref ref' s s' hr hx hΛ
    obtain ⟨x', c', QTr', lin', damp', nu'⟩ := s'
    simp only at hx
    subst hx
    simp only [iterate, assembly, hJ, hJ', if_true]
    have hpt : ∀ (x : n → K) (w : Bool), (sys.query x w).x = (sys'.query x w).x ∧ (sys.query x w).wantJ = (sys'.query x w).wantJ := fun _ _ => ⟨rfl, rfl⟩
    rcases hsys s.x with ⟨e, e1, e2⟩ | ⟨r, J, r', J', e1, e2, hR⟩
    · simp only [e1, e2]
      split
      · exact ⟨rfl, rfl, hΛ, rfl, .none⟩
      · exact ⟨rfl, rfl, hΛ, rfl, .none⟩
    simp only [e1, e2]
    rcases hcorr s.x r J r' J' s.damp damp' s.c s.QTr s.lin c' QTr' lin' hR hΛ with ⟨c1, b1, l1, b1', l1', q1, q2, q3, q4⟩ | ⟨h, c1, b1, l1, c1', b1', l1', q1, q2, q3⟩
    swap
    · simp only [q1, q2]
      exact ⟨trivial, trivial, q3, rfl, .none⟩
    simp only [q1, q2]
    have hN : N (ref.getD (P.norms r J c1)) (ref'.getD (P'.norms r' J' c1)) := by
      cases hr with
      | none => exact q4
      | some h => exact h
    generalize ref.getD (P.norms r J c1) = R at hN ⊢
    generalize ref'.getD (P'.norms r' J' c1) = R' at hN ⊢
    rw [← htest i R R' _ _ hN q4]
    split
    · exact ⟨rfl, rfl, q3, rfl, .some ⟨hN, q4⟩⟩
    · exact ⟨rfl, rfl, q3, rfl, .some ⟨hN, q4⟩⟩
    obtain ⟨u1, u2⟩ := hupd { s with c := c1, QTr := b1, lin := l1 } ⟨s.x, c1, b1', l1', damp', nu'⟩ r J r' J' _ _ hR q4 rfl rfl rfl rfl
    generalize P.upd { s with c := c1, QTr := b1, lin := l1 } r J (P.norms r J c1) = U at u1 u2 ⊢
    generalize P'.upd ⟨s.x, c1, b1', l1', damp', nu'⟩ r' J' (P'.norms r' J' c1) = U' at u1 u2 ⊢
    obtain ⟨T, V⟩ := U
    obtain ⟨T', V'⟩ := U'
    subst u1
    have hpts : points (sys.query s.x true :: T.map (fun t => sys.query t false)) = points (sys'.query s.x true :: T.map (fun t => sys'.query t false)) := by
      simp [points, Function.comp_def, hpt]
    cases V <;> cases V' <;> simp only [SameVal] at u2
    · subst u2
      simp only
      obtain ⟨i1, i2, i3, i4, i5⟩ := ih (i + 1) (some R) (some R') ⟨_, c1, b1, l1, _, _⟩ ⟨_, c1, b1', l1', _, _⟩ (.some hN) rfl q3
      refine ⟨i1, i2, i3, ?_, ?_⟩
      · unfold points at hpts i4 ⊢
        rw [List.map_append, List.map_append, hpts, i4]
      · split
        · exact .some ⟨hN, q4⟩
        · exact i5
    · exact ⟨rfl, rfl, q3, hpts, .some ⟨hN, q4⟩⟩
    · subst u2
      simp only
      split
      · exact ⟨rfl, rfl, q3, hpts, .some ⟨hN, q4⟩⟩
      · exact ⟨rfl, rfl, q3, hpts, .some ⟨hN, q4⟩⟩

end Pressio.Lemmas.SolverAlike
namespace Pressio.Lemmas.SolverAlike
set_option linter.unusedSectionVars false
open Pressio Matrix
open Pressio.Model.Nonlinear (Env Cfg Reg Ans Tag)
open Pressio.Spec.Nonlinear Pressio.Spec.SolverAlike Pressio.Lemmas.Nonlinear

section
variable {K m n p m' p' L L' : Type} [Field K] [LinearOrder K] [IsStrictOrderedRing K]

theorem search_same (f : (n → K) → Except Exc K) (x c : n → K) (bound d nu d' nu' : K) : ∀ l : List K,
    (search f x c bound d nu l).trials = (search f x c bound d' nu' l).trials ∧ SameVal (search f x c bound d nu l).val (search f x c bound d' nu' l).val := by
  intro l
  induction l with
  | nil => exact ⟨rfl, trivial⟩
  | cons a l ih =>
    simp only [search]
    split
    · exact ⟨rfl, rfl⟩
    split
    · exact ⟨rfl, rfl⟩
    · exact ⟨by rw [ih.1], ih.2⟩

/-- the same with two objectives and bounds, one of which is met whenever the other one is -/
theorem search_same' (f g : (n → K) → Except Exc K) (x c : n → K) (bound bound' d nu d' nu' : K)
    (h : ∀ y, (∃ e, f y = .error e ∧ g y = .error e) ∨ ∃ v v', f y = .ok v ∧ g y = .ok v' ∧ (v ≤ bound ↔ v' ≤ bound')) : ∀ l : List K,
    (search f x c bound d nu l).trials = (search g x c bound' d' nu' l).trials ∧ SameVal (search f x c bound d nu l).val (search g x c bound' d' nu' l).val := by
  intro l
  induction l with
  | nil => exact ⟨rfl, trivial⟩
  | cons a l ih =>
    simp only [search]
    rcases h (x + a • c) with ⟨e, e1, e2⟩ | ⟨v, v', e1, e2, hv⟩
    · simp only [e1, e2]; exact ⟨trivial, rfl⟩
    simp only [e1, e2]
    by_cases hb : v ≤ bound
    · rw [if_pos hb, if_pos (hv.1 hb)]; exact ⟨rfl, rfl⟩
    · rw [if_neg hb, if_neg (fun h => hb (hv.2 h))]
      exact ⟨by rw [ih.1], ih.2⟩

variable [Fintype m] [Fintype n] [Fintype p] [Fintype m'] [Fintype p'] [DecidableEq n]

/-- two outcomes agree -/
def Agree (Λ : (n → K) → L → (n → K) → L' → Prop) (N : Norms K → Norms K → Prop) (o : Out K m n L) (o' : Out K m' n L') : Prop :=
  o.how = o'.how ∧ o.st.x = o'.st.x ∧ Λ o.st.c o.st.lin o'.st.c o'.st.lin ∧ points o.log = points o'.log ∧ Option.Rel (fun a b : Norms K × Norms K => N a.1 b.1 ∧ N a.2 b.2) o.last o'.last

/-- two least-squares solvers (not Levenberg-Marquardt) whose corrections, norms and objectives agree -/
theorem ls_alike (env : Env K m n p L) (env' : Env K m' n p' L') (cfg : Cfg K) (tag tag' : Tag) (ht : tag ≠ .lm) (ht' : tag' ≠ .lm) (sys : Sys K m n) (sys' : Sys K m' n)
    (Rel : (m → K) → Matrix m n K → (m' → K) → Matrix m' n K → Prop) (Λ : (n → K) → L → (n → K) → L' → Prop) (N : Norms K → Norms K → Prop)
    (hsys : ∀ x, (∃ e, sys.resJac x = .error e ∧ sys'.resJac x = .error e) ∨ ∃ r J r' J', sys.resJac x = .ok (r, J) ∧ sys'.resJac x = .ok (r', J') ∧ Rel r J r' J')
    (hcorr : ∀ rule x r J r' J' d d' c b l c' b' l', Rel r J r' J' → Λ c l c' l' →
      (∃ c1 b1 l1 b1' l1', (lsProblem env cfg sys tag rule).corr x r J d (c, b, l) = .ok () (c1, b1, l1) ∧ (lsProblem env' cfg sys' tag' rule).corr x r' J' d' (c', b', l') = .ok () (c1, b1', l1') ∧ Λ c1 l1 c1 l1') ∨
      (∃ h c1 b1 l1 c1' b1' l1', (lsProblem env cfg sys tag rule).corr x r J d (c, b, l) = .stop h (c1, b1, l1) ∧ (lsProblem env' cfg sys' tag' rule).corr x r' J' d' (c', b', l') = .stop h (c1', b1', l1') ∧ Λ c1 l1 c1' l1'))
    (hnorm : ∀ r J r' J' c, Rel r J r' J' → N ⟨env.normM r, env.normN c, env.normN (gradOf env tag r J), objOf env tag r⟩ ⟨env'.normM r', env'.normN c, env'.normN (gradOf env' tag' r' J'), objOf env' tag' r'⟩)
    (hobj : ∀ a b, N a b → a.obj = b.obj) (hbelow : ∀ a b c d, N a b → N c d → below cfg.stop cfg.tol a c = below cfg.stop cfg.tol b d) (hat : ∀ x, objAt env sys tag x = objAt env' sys' tag' x)
    (s : St K n L) (s' : St K n L') (hx : s.x = s'.x) (hΛ : Λ s.c s.lin s'.c s'.lin) :
    Agree Λ N (lsSolve env cfg sys tag s) (lsSolve env' cfg sys' tag' s') := by
  have hr : lsRule cfg tag = lsRule cfg tag' := by simp [lsRule, ht, ht']
  have hr2 : ∀ rule, lsRule cfg tag' = .ok rule → rule = .standard ∨ ∃ z, rule = .backtrack z := by
    intro rule h
    unfold lsRule at h
    cases hu : cfg.update <;> simp only [hu, ht', if_false] at h
    · cases h; exact .inl rfl
    · rcases hp : cfg.params with _ | (_ | ⟨z, l⟩) <;> rw [hp] at h <;> cases h <;> exact .inr ⟨_, rfl⟩
    · rcases hp : cfg.params with _ | (_ | ⟨z, l⟩) <;> rw [hp] at h <;> cases h <;> exact .inr ⟨_, rfl⟩
    all_goals cases h
  unfold lsSolve
  rw [hr]
  rcases hrule : lsRule cfg tag' with e | rule
  · cases e <;> exact ⟨rfl, hx, hΛ, rfl, .none⟩
  · simp only
    refine iterate_alike sys sys' (lsProblem env cfg sys tag rule) (lsProblem env' cfg sys' tag' rule) Rel Λ N rfl rfl hsys ?_ ?_ ?_ _ _ _ _ _ _ .none hx hΛ
    · intro x r J r' J' d d' c b l c' b' l' hR hL
      rcases hcorr rule x r J r' J' d d' c b l c' b' l' hR hL with ⟨c1, b1, l1, b1', l1', q1, q2, q3⟩ | h
      · exact .inl ⟨c1, b1, l1, b1', l1', q1, q2, q3, hnorm r J r' J' c1 hR⟩
      · exact .inr h
    · intro i ref ref' now now' h1 h2
      simp only [lsProblem, hbelow _ _ _ _ h1 h2]
    · intro s s' r J r' J' now now' hR hN hx hc _ _
      rcases hr2 rule hrule with rfl | ⟨z, rfl⟩
      · simp only [lsProblem, lsUpd, hx, hc]
        exact ⟨trivial, rfl⟩
      · simp only [lsProblem, lsUpd, hx, hc, hobj _ _ hN, show objAt env sys tag = objAt env' sys' tag' from funext hat]
        exact search_same _ _ _ _ _ _ _ _ _

theorem calls_of {D : _ → Prop} {D' : _ → Prop} {full full'} {Λ : (n → K) → L → (n → K) → L' → Prop} {N : Norms K → Norms K → Prop} {s : Reg K m n p L} {s' : Reg K m' n p' L'} {res : Res (Reg K m n p L) Unit} {res' : Res (Reg K m' n p' L') Unit}
    {o : Out K m n L} {o' : Out K m' n L'} (h : Refines D full s res o) (h' : Refines D' full' s' res' o') (ha : Agree Λ N o o') :
    SameCalls s s' res res' ∧ Λ res.state.c res.state.lin res'.state.c res'.state.lin := by
  obtain ⟨g1, g2, -, g4, -⟩ := h
  obtain ⟨k1, k2, -, k4, -⟩ := h'
  obtain ⟨a1, a2, a3, a4, -⟩ := ha
  have e1 : res.state.x = o.st.x := congrArg St.x g2
  have e2 : res'.state.x = o'.st.x := congrArg St.x k2
  have e3 : res.state.c = o.st.c := congrArg St.c g2
  have e4 : res'.state.c = o'.st.c := congrArg St.c k2
  have e5 : res.state.lin = o.st.lin := congrArg St.lin g2
  have e6 : res'.state.lin = o'.st.lin := congrArg St.lin k2
  refine ⟨⟨by rw [g1, k1, a1], by rw [e1, e2, a2], _, _, g4, k4, a4⟩, ?_⟩
  rw [e3, e4, e5, e6]
  exact a3

end
end Pressio.Lemmas.SolverAlike
