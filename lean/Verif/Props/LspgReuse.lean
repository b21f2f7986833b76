import Verif.Props.Lspg
import Verif.Props.GalerkinObjects

/-
  C53: reuse of an LSPG problem after any run; C65: failures of the FOM in LSPG; concrete instances for C52-C55.
-/
namespace Pressio.Props
set_option autoImplicit false
set_option linter.unusedSectionVars false
open Pressio Pressio.Model.Galerkin Pressio.Model.Lspg Pressio.Spec.Galerkin Pressio.Spec.Lspg Pressio.Model.Implicit Pressio.Lemmas.Implicit Pressio.Spec.Implicit
open Pressio.Lemmas.Lspg (Good During numStates StOf stepWith Sized equations assembled Assembles assembleDefault_ok assembleHypred_ok)
open Pressio.Model.Explicit (Scheme)
open scoped Matrix

section
variable {K m p q n : Type} [Field K] [Fintype m] [Fintype p] [Fintype q] [Fintype n]

/-! ### which step the memory belongs to, after any run -/

theorem track_any (S : Trial K m n) (x y : n → K) (states : List (n → K)) (hs : states[0]? = some y) (k : Int) (s : LMem K m p n) (hl : s.data.length = 2 ∨ s.data.length = 3) :
    ∃ d, d.length = s.data.length ∧ track S x states k s = .ok () { s with data := d, tracker := k } := by
  obtain ⟨data, tr, he, R, J⟩ := s
  unfold track
  have main : ∀ d0 d1 tl, data = d0 :: d1 :: tl → (tl = [] ∨ ∃ z, tl = [z]) → ∃ d : Mgr K m, d.length = data.length ∧
      (do withMgr (mgrSet S x .nPlusOne)
          let s ← Prog.get
          if s.tracker ≠ k then do
            let yn ← readState states 0
            withMgr (mgrPush S yn)
            Prog.modify (fun s => { s with tracker := k })
          else pure () : Prog (LMem K m p n) Unit) ⟨data, tr, he, R, J⟩ = .ok () ⟨d, k, he, R, J⟩ := by
    rintro d0 d1 tl rfl htl
    have e1 : withMgr (mgrSet S x .nPlusOne) (⟨d0 :: d1 :: tl, tr, he, R, J⟩ : LMem K m p n) = .ok () ⟨lift S x :: d1 :: tl, tr, he, R, J⟩ := by
      simp [withMgr, mgrSet, trial_map_lift]
    rw [bind_ok e1, bind_ok (show Prog.get _ = .ok _ _ from rfl)]
    by_cases ht : tr = k
    · subst ht
      rw [if_neg (by simp)]
      exact ⟨lift S x :: d1 :: tl, by simp, rfl⟩
    · rw [if_pos ht]
      have e2 : (readState states 0 : Prog (LMem K m p n) (n → K)) ⟨lift S x :: d1 :: tl, tr, he, R, J⟩ = .ok y ⟨lift S x :: d1 :: tl, tr, he, R, J⟩ := by
        simp [readState, hs]
      rw [bind_ok e2]
      rcases htl with rfl | ⟨z, rfl⟩
      · have e3 : withMgr (mgrPush S y) (⟨[lift S x, d1], tr, he, R, J⟩ : LMem K m p n) = .ok () ⟨[lift S x, lift S y], tr, he, R, J⟩ := by
          simp [withMgr, mgrPush, trial_map_lift]
        rw [bind_ok e3]
        exact ⟨_, by simp, rfl⟩
      · have e3 : withMgr (mgrPush S y) (⟨[lift S x, d1, z], tr, he, R, J⟩ : LMem K m p n) = .ok () ⟨[lift S x, lift S y, d1], tr, he, R, J⟩ := by
          simp [withMgr, mgrPush, trial_map_lift]
        rw [bind_ok e3]
        exact ⟨_, by simp, rfl⟩
  match data, hl with
  | [d0, d1], _ => exact main d0 d1 [] rfl (Or.inl rfl)
  | [d0, d1, z], _ => exact main d0 d1 [z] rfl (Or.inr ⟨z, rfl⟩)

/-- sizes are right -/
def LspgSizes {K m q n : Type} (name : Scheme) (mem : SMem K (n → K) (n → K) (LMem K m q n)) : Prop := Sized name mem ∧ mem.pol.data.length = numStates name

theorem policy_tracks (name : Scheme) (hname : name = .BDF1 ∨ name = .BDF2) (S : Trial K m n) (assemble : Bool → K → K → Bool → Prog (LMem K m p n) ((p → K) × Option (Matrix p n K)))
    (G : (m → K) → (m → K) → Option (m → K) → K → K → Bool → Except Exc ((p → K) × Option (Matrix p n K))) (hG : Assembles assemble G)
    (x : n → K) (w : Bool) (mem : SMem K (n → K) (n → K) (LMem K m p n)) (hm : LspgSizes name mem) :
    LspgSizes name (residualAndJacobian name (lspgPolicy assemble S) x w mem).state ∧ (residualAndJacobian name (lspgPolicy assemble S) x w mem).state.step = mem.step ∧
      (residualAndJacobian name (lspgPolicy assemble S) x w mem).state.pol.tracker = mem.step := by
  obtain ⟨mt, mdt, ms, mr, mst, mrhs, mp⟩ := mem
  obtain ⟨h1, h2⟩ := hm
  simp only [Sized] at h1 h2
  have hne : ∃ y, mst[0]? = some y := by
    rcases hname with rfl | rfl
    · obtain ⟨a, rfl⟩ := List.length_eq_one_iff.1 h1; exact ⟨a, rfl⟩
    · obtain ⟨a, b, rfl⟩ := List.length_eq_two.1 h1; exact ⟨a, rfl⟩
  obtain ⟨y, hy⟩ := hne
  obtain ⟨d, hd, ht⟩ := track_any S x y mst hy ms mp (by rw [h2]; rcases hname with rfl | rfl <;> simp [numStates])
  have key : ∀ b : Bool, (b = true → name = .BDF2) → ∃ p', p'.data.length = mp.data.length ∧ p'.tracker = ms ∧ ∃ e : Except Exc ((p → K) × Option (Matrix p n K)),
      onPol (R := n → K) (do track S x mst ms; assemble b mt mdt w) (mrhs, mp) = settle e (mrhs, p') := by
    intro b hb
    have hform : ∃ d0 d1 tl, d = d0 :: d1 :: tl ∧ (b = true → ∃ z, tl = [z]) := by
      rcases hname with rfl | rfl
      · rw [h2] at hd
        obtain ⟨a, c, rfl⟩ := List.length_eq_two.1 hd
        exact ⟨a, c, [], rfl, fun hb' => by cases hb hb'⟩
      · rw [h2] at hd
        obtain ⟨a, c, z, rfl⟩ := List.length_eq_three.1 hd
        exact ⟨a, c, [z], rfl, fun _ => ⟨z, rfl⟩⟩
    obtain ⟨d0, d1, tl, rfl, htl⟩ := hform
    obtain ⟨s', g1, g2, g3⟩ := hG d0 d1 tl mt mdt w b { mp with data := d0 :: d1 :: tl, tracker := ms } rfl htl
    refine ⟨s', by rw [g1]; exact hd, g2, G d0 d1 (if b then tl.head? else none) mt mdt w, ?_⟩
    unfold onPol
    simp only
    rw [bind_ok ht, g3]
    rcases G d0 d1 (if b then tl.head? else none) mt mdt w with e | a <;> rfl
  have fin : ∀ (e : Except Exc ((p → K) × Option (Matrix p n K))) (p' : LMem K m p n), p'.data.length = mp.data.length → p'.tracker = ms →
      lspgPolicy assemble S name x mst mt ms mdt w (mrhs, mp) = settle e (mrhs, p') →
      LspgSizes name (residualAndJacobian name (lspgPolicy assemble S) x w ⟨mt, mdt, ms, mr, mst, mrhs, mp⟩).state ∧
      (residualAndJacobian name (lspgPolicy assemble S) x w ⟨mt, mdt, ms, mr, mst, mrhs, mp⟩).state.step = ms ∧
      (residualAndJacobian name (lspgPolicy assemble S) x w ⟨mt, mdt, ms, mr, mst, mrhs, mp⟩).state.pol.tracker = ms := by
    intro e p' f1 f2 f3
    simp only [residualAndJacobian]
    rw [f3]
    cases e <;> exact ⟨⟨h1, f1.trans h2⟩, rfl, f2⟩
  rcases hname with rfl | rfl
  · obtain ⟨p', f1, f2, e, f3⟩ := key false (by simp)
    exact fin e p' f1 f2 f3
  · by_cases h : ms = 1
    · obtain ⟨p', f1, f2, e, f3⟩ := key false (by simp)
      exact fin e p' f1 f2 (by simp only [lspgPolicy, h, if_true]; rw [← h]; exact f3)
    · obtain ⟨p', f1, f2, e, f3⟩ := key true (by simp)
      exact fin e p' f1 f2 (by simp only [lspgPolicy, h, if_false]; exact f3)

theorem run_keeps {Y M A : Type} (ans : Y → Bool → Prog M A) (D : M → Prop) (h : ∀ x w m, D m → D (ans x w m).state) (tree : SolveTree Y A) (s : SolveSt Y M A) (hs : D s.mem) :
    D (tree.run ans s).state.mem := by
  induction tree generalizing s with
  | ret y => exact hs
  | stop hh y => exact hs
  | ask x w k ih =>
    have h1 := h x w s.mem hs
    simp only [SolveTree.run]
    rcases hr : ans x w s.mem with ⟨a, m'⟩ | ⟨hh, m'⟩
    · rw [hr] at h1
      exact ih _ _ h1
    · rw [hr] at h1
      cases hh with
      | exc e => exact ih _ _ h1
      | ub why => exact h1
      | fuel => exact h1

/-- the solver evaluates the equations before it does anything else -/
def AsksFirst {Y A : Type} : SolveTree Y A → Prop
  | .ask _ _ _ => True
  | _ => False

theorem AsksFirst.asks {Y A : Type} {tree : SolveTree Y A} (h : AsksFirst tree) : Asks tree := by
  cases tree <;> first | exact h | trivial

theorem run_tracks_first {Y M A : Type} (ans : Y → Bool → Prog M A) (I D : M → Prop) (h : ∀ x w m, I m → D (ans x w m).state) (hDI : ∀ m, D m → I m) (tree : SolveTree Y A) (ht : AsksFirst tree)
    (s : SolveSt Y M A) (hs : I s.mem) : D (tree.run ans s).state.mem := by
  cases tree with
  | ret y => exact ht.elim
  | stop hh y => exact ht.elim
  | ask x w k =>
    have h1 := h x w s.mem hs
    simp only [SolveTree.run]
    rcases hr : ans x w s.mem with ⟨a, m'⟩ | ⟨hh, m'⟩
    · rw [hr] at h1
      exact run_keeps ans D (fun x w m hm => h x w m (hDI m hm)) _ _ h1
    · rw [hr] at h1
      cases hh with
      | exc e => exact run_keeps ans D (fun x w m hm => h x w m (hDI m hm)) _ _ h1
      | ub why => exact h1
      | fuel => exact h1

/-- after a step attempt, whatever its outcome: sizes are right and the memory belongs to this step -/
theorem step_tracks (name : Scheme) (hname : name = .BDF1 ∨ name = .BDF2) (S : Trial K m n) (assemble : Bool → K → K → Bool → Prog (LMem K m p n) ((p → K) × Option (Matrix p n K)))
    (G : (m → K) → (m → K) → Option (m → K) → K → K → Bool → Except Exc ((p → K) × Option (Matrix p n K))) (hG : Assembles assemble G)
    (solver : (n → K) → SolveTree (n → K) ((p → K) × Option (Matrix p n K))) (t dt : K) (k : Int) (s : SolveSt (n → K) (SMem K (n → K) (n → K) (LMem K m p n)) ((p → K) × Option (Matrix p n K)))
    (hask : ∀ y, AsksFirst (solver y)) (hs : LspgSizes name s.mem) :
    LspgSizes name (stepWith name (lspgPolicy assemble S) solver t dt k s).state.mem ∧ (stepWith name (lspgPolicy assemble S) solver t dt k s).state.mem.pol.tracker = k := by
  have hrun := fun (tree : SolveTree (n → K) ((p → K) × Option (Matrix p n K))) (ht : AsksFirst tree) (s' : SolveSt (n → K) (SMem K (n → K) (n → K) (LMem K m p n)) ((p → K) × Option (Matrix p n K)))
      (hs' : LspgSizes name s'.mem ∧ s'.mem.step = k) =>
    run_tracks_first (residualAndJacobian name (lspgPolicy assemble S)) (fun m => LspgSizes name m ∧ m.step = k) (fun m => (LspgSizes name m ∧ m.step = k) ∧ m.pol.tracker = k)
      (fun x w m hm => by
        obtain ⟨h1, h2, h3⟩ := policy_tracks name hname S assemble G hG x w m hm.1
        exact ⟨⟨h1, h2.trans hm.2⟩, h3.trans hm.2⟩) (fun m hm => hm.1) tree ht s' hs'
  obtain ⟨y, ⟨mt, mdt, ms, mr, mst, mrhs, mp⟩, log⟩ := s
  obtain ⟨hs1, hs2⟩ := hs
  simp only [Sized] at hs1
  rcases hname with rfl | rfl
  · obtain ⟨a, rfl⟩ := List.length_eq_one_iff.1 hs1
    have := hrun (solver y) (hask y) ⟨y, ⟨t + dt, dt, k, mr, [y], mrhs, mp⟩, log⟩ ⟨⟨rfl, hs2⟩, rfl⟩
    have hst : stepBDF1 (lspgPolicy assemble S) solver t dt k ⟨y, ⟨mt, mdt, ms, mr, [a], mrhs, mp⟩, log⟩ =
        Prog.catchE (solve .BDF1 (lspgPolicy assemble S) solver) (fun e =>
          if e = .nonlinearSolveFailure then
            some (do
              let yn ← getState 0
              setY yn
              Prog.throwE .timeStepFailure)
          else none) ⟨y, ⟨t + dt, dt, k, mr, [y], mrhs, mp⟩, log⟩ := by
      simp [stepBDF1, Prog.bind_run, setTimes, setState]
    simp only [stepWith, doStep, hst, Prog.catchE, solve]
    generalize SolveTree.run _ (solver y) _ = res at *
    rcases res with ⟨u, s'⟩ | ⟨hh, s'⟩
    · exact ⟨this.1.1, this.2⟩
    · obtain ⟨⟨⟨i1, i2⟩, i3⟩, i4⟩ := this
      simp only [Res.state, Sized] at i1 i2 i3 i4
      cases hh with
      | exc e =>
        by_cases he : e = .nonlinearSolveFailure
        · subst he
          obtain ⟨b, hb⟩ := List.length_eq_one_iff.1 i1
          simp only [if_true, Prog.bind_run, getState, slot, hb]
          exact ⟨⟨i1, i2⟩, i4⟩
        · simp only [he, if_false]
          exact ⟨⟨i1, i2⟩, i4⟩
      | ub why => exact ⟨⟨i1, i2⟩, i4⟩
      | fuel => exact ⟨⟨i1, i2⟩, i4⟩
  · obtain ⟨a, b, rfl⟩ := List.length_eq_two.1 hs1
    obtain ⟨b', hst⟩ : ∃ b', stepBDF2 (lspgPolicy assemble S) solver t dt k ⟨y, ⟨mt, mdt, ms, mr, [a, b], mrhs, mp⟩, log⟩ =
        Prog.catchE (solve .BDF2 (lspgPolicy assemble S) solver) (fun e =>
          if e = .nonlinearSolveFailure then
            some (do
              let yn ← getState 0
              let ynm1 ← getState 1
              if k = 1 then
                setY yn
              else do
                setY yn
                setState 0 ynm1
              Prog.throwE .timeStepFailure)
          else none) ⟨y, ⟨t + dt, dt, k, mr, [y, b'], mrhs, mp⟩, log⟩ := by
      by_cases hk : k = 1
      · exact ⟨b, by simp [stepBDF2, hk, Prog.bind_run, setTimes, setState]⟩
      · exact ⟨a, by simp [stepBDF2, hk, Prog.bind_run, setTimes, setState, getState, slot]⟩
    have := hrun (solver y) (hask y) ⟨y, ⟨t + dt, dt, k, mr, [y, b'], mrhs, mp⟩, log⟩ ⟨⟨rfl, hs2⟩, rfl⟩
    simp only [stepWith, doStep, hst, Prog.catchE, solve]
    generalize SolveTree.run _ (solver y) _ = res at *
    rcases res with ⟨u, s'⟩ | ⟨hh, s'⟩
    · exact ⟨this.1.1, this.2⟩
    · obtain ⟨⟨⟨i1, i2⟩, i3⟩, i4⟩ := this
      simp only [Res.state, Sized] at i1 i2 i3 i4
      cases hh with
      | exc e =>
        by_cases he : e = .nonlinearSolveFailure
        · subst he
          obtain ⟨c, d, hb⟩ := List.length_eq_two.1 i1
          obtain ⟨y', ⟨mt', mdt', ms', mr', mst', mrhs', mp'⟩, log'⟩ := s'
          simp only at hb i2 i4
          subst hb
          by_cases hk : k = 1
          · subst hk
            exact ⟨⟨i1, i2⟩, i4⟩
          · simp only [if_true, Prog.bind_run, getState, slot, hk, if_false, setY, setState, Prog.modify]
            exact ⟨⟨rfl, i2⟩, i4⟩
        · simp only [he, if_false]
          exact ⟨⟨i1, i2⟩, i4⟩
      | ub why => exact ⟨⟨i1, i2⟩, i4⟩
      | fuel => exact ⟨⟨i1, i2⟩, i4⟩

/-- after any run: the memory belongs to the step of the last attempt -/
theorem run_end_tracks (name : Scheme) (hname : name = .BDF1 ∨ name = .BDF2) (S : Trial K m n) (assemble : Bool → K → K → Bool → Prog (LMem K m p n) ((p → K) × Option (Matrix p n K)))
    (G : (m → K) → (m → K) → Option (m → K) → K → K → Bool → Except Exc ((p → K) × Option (Matrix p n K))) (hG : Assembles assemble G)
    (atts : List (Attempt K (n → K) ((p → K) × Option (Matrix p n K)))) (hask : ∀ a ∈ atts, ∀ y, AsksFirst (a.solver y)) (t0 : K) (hist : List (n → K)) (x : n → K)
    (mem : SMem K (n → K) (n → K) (LMem K m p n)) (hm : LspgSizes name mem) (pre : List (Record K (n → K) ((p → K) × Option (Matrix p n K)))) (r : Record K (n → K) ((p → K) × Option (Matrix p n K)))
    (h : drive (stepWith name (lspgPolicy assemble S)) atts t0 hist x mem = pre ++ [r]) :
    LspgSizes name (driveEnd (stepWith name (lspgPolicy assemble S)) atts t0 hist x mem) ∧ (driveEnd (stepWith name (lspgPolicy assemble S)) atts t0 hist x mem).pol.tracker = r.hist.length := by
  induction atts generalizing t0 hist x mem pre with
  | nil => simp [drive] at h
  | cons a rest ih =>
    have hst := step_tracks name hname S assemble G hG a.solver t0 a.dt hist.length ⟨x, mem, []⟩ (hask a (by simp)) hm
    have hr : ∀ b ∈ rest, ∀ y, AsksFirst (b.solver y) := fun b hb => hask b (by simp [hb])
    simp only [drive, driveEnd] at h ⊢
    generalize stepWith name (lspgPolicy assemble S) a.solver t0 a.dt hist.length ⟨x, mem, []⟩ = res at *
    -- one record followed by a run from a memory with the right sizes
    have go : ∀ (r0 : Record K (n → K) ((p → K) × Option (Matrix p n K))) (t' : K) (hist' : List (n → K)) (x' : n → K) (mem' : SMem K (n → K) (n → K) (LMem K m p n)),
        r0.hist = hist → LspgSizes name mem' → mem'.pol.tracker = hist.length →
        r0 :: drive (stepWith name (lspgPolicy assemble S)) rest t' hist' x' mem' = pre ++ [r] →
        LspgSizes name (driveEnd (stepWith name (lspgPolicy assemble S)) rest t' hist' x' mem') ∧ (driveEnd (stepWith name (lspgPolicy assemble S)) rest t' hist' x' mem').pol.tracker = r.hist.length := by
      intro r0 t' hist' x' mem' e1 e2 e3 e4
      cases pre with
      | nil =>
        simp only [List.nil_append, List.cons.injEq] at e4
        obtain ⟨rfl, e5⟩ := e4
        cases rest with
        | nil => simp only [driveEnd]; exact ⟨e2, by rw [e3, e1]⟩
        | cons b bs =>
          exfalso
          simp only [drive] at e5
          split at e5 <;> simp at e5
      | cons p0 ps =>
        simp only [List.cons_append, List.cons.injEq] at e4
        exact ih hr t' hist' x' mem' e2 ps e4.2
    rcases res with ⟨u, s'⟩ | ⟨hh, s'⟩
    · exact go _ _ _ _ _ rfl hst.1 hst.2 h
    · cases hh with
      | exc e =>
        by_cases he : e = .timeStepFailure
        · subst he
          exact go _ _ _ _ _ rfl hst.1 hst.2 h
        · have hrec : pre = [] ∧ r.hist = hist := by
            cases e <;> first
              | (exfalso; exact he rfl)
              | (cases pre with
                 | nil => simp only [List.nil_append, List.cons.injEq, and_true] at h; exact ⟨rfl, by rw [← h]⟩
                 | cons p0 ps => simp at h)
          rw [hrec.2]
          cases e <;> first
            | (exfalso; exact he rfl)
            | exact hst
      | ub why =>
        have : r.hist = hist := by
          cases pre with
          | nil => simp only [List.nil_append, List.cons.injEq, and_true] at h; rw [← h]
          | cons p0 ps => simp at h
        rw [this]; exact hst
      | fuel =>
        have : r.hist = hist := by
          cases pre with
          | nil => simp only [List.nil_append, List.cons.injEq, and_true] at h; rw [← h]
          | cons p0 ps => simp at h
        rw [this]; exact hst

/-- **C53, what holds, after any run.** A problem used for a run (with any outcome) whose last attempt was not at step 1 behaves in the next run exactly like a new problem. -/
theorem C53_reuse_after_run_partial {F : Fom K m m n} {f : (m → K) → K → Except Exc (m → K)} {Df Mm : (m → K) → K → Except Exc (Matrix m m K)} (hF : FomIs F f Df Mm) (hn : FomNoTSF f Df)
    (S : Trial K m n) (name : Scheme) (hname : name = .BDF1 ∨ name = .BDF2) (new mem : SMem K (n → K) (n → K) (LMem K m m n)) (hnew : LspgReady name new) (hmem : LspgSizes name mem)
    (atts1 : List (Attempt K (n → K) ((m → K) × Option (Matrix m n K)))) (hask1 : ∀ a ∈ atts1, ∀ y, AsksFirst (a.solver y)) (t1 : K) (x1 : n → K)
    (pre : List (Record K (n → K) ((m → K) × Option (Matrix m n K)))) (r : Record K (n → K) ((m → K) × Option (Matrix m n K)))
    (hrun : drive (stepWith name (defaultPolicy S F)) atts1 t1 [x1] x1 mem = pre ++ [r]) (hr : r.hist.length ≠ 1)
    (atts2 : List (Attempt K (n → K) ((m → K) × Option (Matrix m n K)))) (hon : ∀ a ∈ atts2, ∀ y, Honest (a.solver y)) (hask : ∀ a ∈ atts2, ∀ y, Asks (a.solver y)) (t2 : K) (x2 : n → K) :
    drive (stepWith name (defaultPolicy S F)) atts2 t2 [x2] x2 (driveEnd (stepWith name (defaultPolicy S F)) atts1 t1 [x1] x1 mem) =
      drive (stepWith name (defaultPolicy S F)) atts2 t2 [x2] x2 new := by
  obtain ⟨h1, h2⟩ := run_end_tracks name hname S _ _ (assembleDefault_ok hF S) atts1 hask1 t1 [x1] x1 mem hmem pre r hrun
  exact C53_reuse_partial hF hn S name hname _ new ⟨h1.1, h1.2, by show (driveEnd (stepWith name (defaultPolicy S F)) atts1 t1 [x1] x1 mem).pol.tracker ≠ 1; rw [show (driveEnd (stepWith name (defaultPolicy S F)) atts1 t1 [x1] x1 mem).pol.tracker = _ from h2]; exact_mod_cast hr⟩ hnew atts2 hon hask t2 x2

/-- **C53 is false of every run that ended in step 1**: the memory then belongs to step 1, so that `C53_stale_state` applies to the next run. -/
theorem C53_step_one_end {F : Fom K m m n} {f : (m → K) → K → Except Exc (m → K)} {Df Mm : (m → K) → K → Except Exc (Matrix m m K)} (hF : FomIs F f Df Mm)
    (S : Trial K m n) (name : Scheme) (hname : name = .BDF1 ∨ name = .BDF2) (mem : SMem K (n → K) (n → K) (LMem K m m n)) (hmem : LspgSizes name mem)
    (atts1 : List (Attempt K (n → K) ((m → K) × Option (Matrix m n K)))) (hask1 : ∀ a ∈ atts1, ∀ y, AsksFirst (a.solver y)) (t1 : K) (x1 : n → K)
    (pre : List (Record K (n → K) ((m → K) × Option (Matrix m n K)))) (r : Record K (n → K) ((m → K) × Option (Matrix m n K)))
    (hrun : drive (stepWith name (defaultPolicy S F)) atts1 t1 [x1] x1 mem = pre ++ [r]) (hr : r.hist.length = 1) :
    (driveEnd (stepWith name (defaultPolicy S F)) atts1 t1 [x1] x1 mem).pol.tracker = 1 := by
  have := (run_end_tracks name hname S _ _ (assembleDefault_ok hF S) atts1 hask1 t1 [x1] x1 mem hmem pre r hrun).2
  rw [hr] at this
  exact this

/-! ### C65 -/

/-- **C65 is false.** In an LSPG run with a solver that only translates the failures that it knows, a `VelocityFailureUnrecoverable` thrown by the FOM ends the run with that exception: it is never turned into
    `TimeStepFailure`, so an advancer with step size recovery does not retry (with the same FOM, the implicit steppers do: C23). -/
theorem C65_refuted_fom_failure_escapes {F : Fom K m m n} {f : (m → K) → K → Except Exc (m → K)} {Df Mm : (m → K) → K → Except Exc (Matrix m m K)} (hF : FomIs F f Df Mm) (hn : FomNoTSF f Df)
    (S : Trial K m n) (name : Scheme) (hname : name = .BDF1 ∨ name = .BDF2) (mem : SMem K (n → K) (n → K) (LMem K m m n)) (hmem : LspgReady name mem)
    (atts : List (Attempt K (n → K) ((m → K) × Option (Matrix m n K)))) (hon : ∀ a ∈ atts, ∀ y, Honest (a.solver y)) (hask : ∀ a ∈ atts, ∀ y, Asks (a.solver y))
    (hpass : ∀ b ∈ atts, ∀ y, PassesOnVelocityFailure (b.solver y)) (t0 : K) (x0 : n → K)
    (r : Record K (n → K) ((m → K) × Option (Matrix m n K))) (h : r ∈ drive (stepWith name (defaultPolicy S F)) atts t0 [x0] x0 mem)
    (q) (hq : q ∈ r.queries) (hf : f (lift S q.x) (r.t + r.dt) = .error .velocityFailureUnrecoverable) :
    r.stop = some (.exc .velocityFailureUnrecoverable) := by
  rw [C52_run_is_ideal hF hn S name hname mem hmem atts hon hask] at h
  obtain ⟨b, hb, yn, pv, e1, -, e2, e3, e4⟩ := ideal_record _ _ _ _ _ r h
  rw [e2] at hq
  have ha := outcome_query _ _ q hq
  have hans : q.ans = .error .velocityFailureUnrecoverable := by
    rw [ha]
    simp [lspg, hf, bind, Except.bind]
  have := passes_on _ _ (hpass b hb yn) q hq hans
  rw [this] at e3
  exact e3

/-- Failures that the solver itself gives up on do become `TimeStepFailure`, and leave the last accepted state. -/
theorem C65_solver_failure_partial {F : Fom K m m n} {f : (m → K) → K → Except Exc (m → K)} {Df Mm : (m → K) → K → Except Exc (Matrix m m K)} (hF : FomIs F f Df Mm) (hn : FomNoTSF f Df)
    (S : Trial K m n) (name : Scheme) (hname : name = .BDF1 ∨ name = .BDF2) (mem : SMem K (n → K) (n → K) (LMem K m m n)) (hmem : LspgReady name mem)
    (atts : List (Attempt K (n → K) ((m → K) × Option (Matrix m n K)))) (hon : ∀ a ∈ atts, ∀ y, Honest (a.solver y)) (hask : ∀ a ∈ atts, ∀ y, Asks (a.solver y))
    (hgive : ∀ b ∈ atts, ∀ y, GivesUpOnResidualFailure (b.solver y)) (t0 : K) (x0 : n → K)
    (r : Record K (n → K) ((m → K) × Option (Matrix m n K))) (h : r ∈ drive (stepWith name (defaultPolicy S F)) atts t0 [x0] x0 mem)
    (q) (hq : q ∈ r.queries) (hf : f (lift S q.x) (r.t + r.dt) = .error .residualEvaluationFailureUnrecoverable) :
    r.stop = some (.exc .timeStepFailure) ∧ r.hist.head? = some r.y := by
  rw [C52_run_is_ideal hF hn S name hname mem hmem atts hon hask] at h
  obtain ⟨b, hb, yn, pv, e1, -, e2, e3, e4⟩ := ideal_record _ _ _ _ _ r h
  rw [e2] at hq
  have ha := outcome_query _ _ q hq
  have hans : q.ans = .error .residualEvaluationFailureUnrecoverable := by
    rw [ha]
    simp [lspg, hf, bind, Except.bind]
  have := gives_up _ _ (hgive b hb yn) q hq hans
  rw [this] at e3 e4
  simp only at e3 e4
  exact ⟨e3, by rw [e1, e4]; rfl⟩

end
end Pressio.Props
