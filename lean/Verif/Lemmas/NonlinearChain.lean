import Verif.Lemmas.NonlinearObjects

/-
  The accepted iterations of a solve as a chain, with the damping parameters; consequences for the least-squares solvers.
-/
namespace Pressio.Lemmas.Nonlinear
set_option autoImplicit false
open Pressio Matrix
open Pressio.Spec.Nonlinear

variable {K m n p L : Type} [Field K]

/-- one accepted iteration takes state, damping and `nu` from `a` to `b`; `tr` are the points tried -/
def Accepts (sys : Sys K m n) (P : Problem K m n L) (a b : (n → K) × K × K) : Prop :=
  ∃ r J inn c qb l, assembly sys P a.1 = .ok (r, J) ∧ P.corr a.1 r J a.2.1 inn = .ok () (c, qb, l) ∧
    (P.upd ⟨a.1, c, qb, l, a.2.1, a.2.2⟩ r J (P.norms r J c)).val = .moved b.1 b.2.1 b.2.2

theorem filter_trials (sys : Sys K m n) (tr : List (n → K)) : (tr.map (fun t => sys.query t false)).filter (fun q => q.wantJ) = [] := by
  rw [List.filter_eq_nil_iff]
  intro q hq
  obtain ⟨t, -, rfl⟩ := List.mem_map.mp hq
  simp [Sys.query]

theorem iterate_accepts (sys : Sys K m n) (P : Problem K m n L) (hJ : P.withJ = true) :
    ∀ (k : Nat) (i : Int) (ref : Option (Norms K)) (s : St K n L),
      ∃ ys : List ((n → K) × K × K), ys.length ≤ k ∧ List.IsChain (Accepts sys P) ((s.x, s.damp, s.nu) :: ys) ∧
        ((s.x, s.damp, s.nu) :: ys).getLast (by simp) =
          ((iterate sys P k i ref s).st.x, (iterate sys P k i ref s).st.damp, (iterate sys P k i ref s).st.nu) ∧
        (((iterate sys P k i ref s).log.filter (fun q => q.wantJ)).map (fun q => q.x) =
          (if ys.length = k then ((s.x, s.damp, s.nu) :: ys).dropLast else (s.x, s.damp, s.nu) :: ys).map Prod.fst) ∧
        ((iterate sys P k i ref s).how = .limit → ys.length = k) ∧
        ((iterate sys P k i ref s).how = .stopped → ys.length < k ∧ ∃ rf now, P.test (i + ys.length) rf now = .ok true) ∧
        (∀ j (_ : j < ys.length), ∃ rf now, P.test (i + j) rf now = .ok false) := by
  intro k
  induction k with
  | zero =>
    intro i ref s
    refine ⟨[], by simp, by simp, ?_, ?_, fun _ => rfl, ?_, ?_⟩
    · unfold iterate; split <;> rfl
    · unfold iterate; split <;> rfl
    · unfold iterate; split <;> (intro h; cases h)
    · intro j hj; simp at hj
  | succ k ih =>
    intro i ref s
    have hend : ∀ (o : Out K m n L) (tr : List (n → K)), (o.st.x, o.st.damp, o.st.nu) = (s.x, s.damp, s.nu) →
        o.log = sys.query s.x P.withJ :: tr.map (fun t => sys.query t false) → o.how ≠ .limit →
        (o.how = .stopped → ∃ rf now, P.test i rf now = .ok true) →
        ∃ ys : List ((n → K) × K × K), ys.length ≤ k + 1 ∧ List.IsChain (Accepts sys P) ((s.x, s.damp, s.nu) :: ys) ∧
        ((s.x, s.damp, s.nu) :: ys).getLast (by simp) = (o.st.x, o.st.damp, o.st.nu) ∧
        ((o.log.filter (fun q => q.wantJ)).map (fun q => q.x) =
          (if ys.length = k + 1 then ((s.x, s.damp, s.nu) :: ys).dropLast else (s.x, s.damp, s.nu) :: ys).map Prod.fst) ∧
        (o.how = .limit → ys.length = k + 1) ∧
        (o.how = .stopped → ys.length < k + 1 ∧ ∃ rf now, P.test (i + ys.length) rf now = .ok true) ∧
        (∀ j (_ : j < ys.length), ∃ rf now, P.test (i + j) rf now = .ok false) := by
      intro o tr hst hl h1 h2
      refine ⟨[], by simp, by simp, by rw [hst]; rfl, ?_, fun h => absurd h h1, fun h => ⟨by simp, by simpa using h2 h⟩, by intro j hj; simp at hj⟩
      rw [hl, List.filter_cons_of_pos (by simp [Sys.query, hJ]), filter_trials]
      simp [Sys.query]
    apply iterate_cases sys P k i ref s (fun o => ∃ ys : List ((n → K) × K × K), ys.length ≤ k + 1 ∧ List.IsChain (Accepts sys P) ((s.x, s.damp, s.nu) :: ys) ∧
        ((s.x, s.damp, s.nu) :: ys).getLast (by simp) = (o.st.x, o.st.damp, o.st.nu) ∧
        ((o.log.filter (fun q => q.wantJ)).map (fun q => q.x) =
          (if ys.length = k + 1 then ((s.x, s.damp, s.nu) :: ys).dropLast else (s.x, s.damp, s.nu) :: ys).map Prod.fst) ∧
        (o.how = .limit → ys.length = k + 1) ∧
        (o.how = .stopped → ys.length < k + 1 ∧ ∃ rf now, P.test (i + ys.length) rf now = .ok true) ∧
        (∀ j (_ : j < ys.length), ∃ rf now, P.test (i + j) rf now = .ok false))
    · intro e t _ _; exact hend _ [] rfl rfl (by simp) (by simp)
    · intro e _ _; exact hend _ [] rfl rfl (by simp) (by simp)
    · intro r J h c b l _ _; exact hend _ [] rfl rfl (by simp) (by simp)
    · intro r J c b l e _ _ _; exact hend _ [] rfl rfl (by simp) (by simp)
    · intro r J c b l _ _ hT; exact hend _ [] rfl rfl (by simp) (fun _ => ⟨_, _, hT⟩)
    · intro r J c b l t tr _ _ _ _ _; exact hend _ tr rfl rfl (by simp) (by simp)
    · intro r J c b l e tr _ _ _ _ _ _; exact hend _ tr rfl rfl (by simp) (by simp)
    · intro r J c b l x' d nu tr hA hC hT hv _
      obtain ⟨ys, g1, g2, g3, g4, g5, g6, g7⟩ := ih (i+1) (some (ref.getD (P.norms r J c))) { s with x := x', c := c, QTr := b, lin := l, damp := d, nu := nu }
      have hcast : ∀ j : Nat, i + ((j + 1 : Nat) : Int) = i + 1 + (j : Int) := by intro j; push_cast; ring
      refine ⟨(x', d, nu) :: ys, by simpa using g1, ?_, ?_, ?_, ?_, ?_, ?_⟩
      · exact List.isChain_cons_cons.mpr ⟨⟨r, J, _, c, b, l, hA, hC, hv⟩, g2⟩
      · rw [List.getLast_cons (by simp)]; exact g3
      · simp only [List.cons_append]
        rw [List.filter_cons_of_pos (by simp [Sys.query, hJ]), List.filter_append, filter_trials, List.nil_append, List.map_cons, g4]
        have hx : (sys.query s.x P.withJ).x = s.x := rfl
        rw [hx]
        by_cases hl : ys.length = k
        · rw [if_pos hl, if_pos (by simpa using hl)]; rfl
        · rw [if_neg hl, if_neg (by simpa using hl)]; rfl
      · intro h; simp [g5 h]
      · intro h
        obtain ⟨h1, rf, now, h2⟩ := g6 h
        refine ⟨by simpa using h1, rf, now, ?_⟩
        rw [List.length_cons, hcast]; exact h2
      · intro j hj
        cases j with
        | zero => exact ⟨_, _, by simpa using hT⟩
        | succ j =>
          rw [hcast]
          exact g7 j (by simpa using hj)

end Pressio.Lemmas.Nonlinear

namespace Pressio.Lemmas.Nonlinear
open Pressio Matrix
open Pressio.Spec.Nonlinear
variable {K m n p L : Type} [Field K]

/-- no breakdown when updates always move -/
theorem iterate_no_breakdown (sys : Sys K m n) (P : Problem K m n L) (hupd : ∀ s r J now, ∃ x d nu, P.upd s r J now = ⟨[], .moved x d nu⟩) :
    ∀ (k : Nat) (i : Int) (ref : Option (Norms K)) (s : St K n L), (iterate sys P k i ref s).how ≠ .breakdown := by
  intro k
  induction k with
  | zero => intro i ref s; unfold iterate; split <;> simp
  | succ k ih =>
    intro i ref s
    apply iterate_cases sys P k i ref s (fun o => o.how ≠ .breakdown)
    · simp
    · simp
    · simp
    · simp
    · simp
    · intro r J c b l t tr _ _ _ hv
      obtain ⟨x, d, nu, hu⟩ := hupd { s with c := c, QTr := b, lin := l } r J (P.norms r J c)
      rw [hu] at hv
      rcases hv with ⟨hv, -⟩ | ⟨e, hv, -⟩ <;> cases hv
    · simp
    · intro r J c b l x' d nu tr _ _ _ _ _; exact ih _ _ _

end Pressio.Lemmas.Nonlinear
