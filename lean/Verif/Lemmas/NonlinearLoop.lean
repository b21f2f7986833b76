import Verif.Lemmas.Nonlinear
import Mathlib.Tactic.IntervalCases
import Mathlib.Tactic.Positivity

/-
  The solver objects refine the specification, part 2: diagnostics, updaters, loops, solve.
-/
namespace Pressio.Lemmas.Nonlinear
set_option autoImplicit false
open Pressio Matrix
open Pressio.Model.Nonlinear Pressio.Spec.Nonlinear
set_option linter.unusedSectionVars false

variable {K m n p L : Type}

section
variable [Field K] [LinearOrder K] [Fintype m] [Fintype n] [Fintype p]

/-! ### containers -/

/-- container of a least-squares solver with these entries -/
def lsCont (o r c g : DData K) : DContainer K :=
  { publicNames := leastSquaresDiagnostics
    internalNames := [.objective, .residual, .correction, .gradient]
    data := [o, r, c, g]
    index := [(.objectiveAbsolute, 0), (.objectiveRelative, 0), (.residualAbsolutel2Norm, 1), (.residualRelativel2Norm, 1),
              (.correctionAbsolutel2Norm, 2), (.correctionRelativel2Norm, 2), (.gradientAbsolutel2Norm, 3), (.gradientRelativel2Norm, 3)] }

/-- container of a Newton solver with these entries -/
def newtonCont (r c : DData K) : DContainer K :=
  { publicNames := newtonDiagnostics
    internalNames := [.residual, .correction]
    data := [r, c]
    index := [(.residualAbsolutel2Norm, 0), (.residualRelativel2Norm, 0), (.correctionAbsolutel2Norm, 1), (.correctionRelativel2Norm, 1)] }

theorem newContainer_ls : (newContainer leastSquaresDiagnostics : DContainer K) =
    lsCont (DData.mk0 .objective) (DData.mk0 .residual) (DData.mk0 .correction) (DData.mk0 .gradient) := by
  have hu : uniq leastSquaresDiagnostics = leastSquaresDiagnostics := by decide
  simp only [newContainer, prepare, hu]
  simp [DContainer.addIfUnsupported, stopToDiagnostic, leastSquaresDiagnostics, lsCont, prepareStep, toInternal,
    List.findIdx?_cons]

theorem newContainer_newton : (newContainer newtonDiagnostics : DContainer K) =
    newtonCont (DData.mk0 .residual) (DData.mk0 .correction) := by
  have hu : uniq newtonDiagnostics = newtonDiagnostics := by decide
  simp only [newContainer, prepare, hu]
  simp [DContainer.addIfUnsupported, stopToDiagnostic, newtonDiagnostics, newtonCont, prepareStep, toInternal,
    List.findIdx?_cons]

/-- the container of a least-squares solver during its lifetime -/
def LsDiag (ref : Option (Norms K)) (d : DContainer K) : Prop :=
  ∃ o r c g, d = lsCont o r c g ∧ o.name = .objective ∧ r.name = .residual ∧ c.name = .correction ∧ g.name = .gradient ∧
    ∀ R, ref = some R → o.reference = R.obj ∧ r.reference = R.resid ∧ c.reference = R.corr ∧ g.reference = R.grad

/-- the container of a Newton solver during its lifetime -/
def NewtonDiag (ref : Option (Norms K)) (d : DContainer K) : Prop :=
  ∃ r c, d = newtonCont r c ∧ r.name = .residual ∧ c.name = .correction ∧
    ∀ R, ref = some R → r.reference = R.resid ∧ c.reference = R.corr

/-- entry after an update -/
def entry (nm : InternalDiagnostic) (ref v : K) : DData K := ⟨nm, v, fdiv v ref, ref⟩

theorem LsDiag.weaken {ref : Option (Norms K)} {d : DContainer K} (h : LsDiag ref d) : LsDiag none d := by
  obtain ⟨o, r, c, g, hd, h1, h2, h3, h4, -⟩ := h
  exact ⟨o, r, c, g, hd, h1, h2, h3, h4, by simp⟩
theorem NewtonDiag.weaken {ref : Option (Norms K)} {d : DContainer K} (h : NewtonDiag ref d) : NewtonDiag none d := by
  obtain ⟨r, c, hd, h2, h3, -⟩ := h
  exact ⟨r, c, hd, h2, h3, by simp⟩

theorem update_entry (d : DData K) (v : K) (ref : Option K) (h : ∀ R, ref = some R → d.reference = R) :
    d.update v ref.isNone = entry d.name (ref.getD v) v := by
  cases ref with
  | none => rfl
  | some R => simp [DData.update, entry, h R rfl]

/-- the diagnostics after stage 3 of a least-squares iteration -/
def lsFull (ref now : Norms K) : DContainer K :=
  lsCont (entry .objective ref.obj now.obj) (entry .residual ref.resid now.resid) (entry .correction ref.corr now.corr) (entry .gradient ref.grad now.grad)

def newtonFull (ref now : Norms K) : DContainer K :=
  newtonCont (entry .residual ref.resid now.resid) (entry .correction ref.corr now.corr)

theorem lsFull_ok (ref now : Norms K) : LsDiag (some ref) (lsFull ref now) :=
  ⟨_, _, _, _, rfl, rfl, rfl, rfl, rfl, by rintro R ⟨⟩; exact ⟨rfl, rfl, rfl, rfl⟩⟩
theorem newtonFull_ok (ref now : Norms K) : NewtonDiag (some ref) (newtonFull ref now) :=
  ⟨_, _, rfl, rfl, rfl, by rintro R ⟨⟩; exact ⟨rfl, rfl⟩⟩

/-- after the objective and the norms have been updated -/
theorem ls_diag (env : Env K m n p L) (ref : Option (Norms K)) (s : Reg K m n p L) (hd : LsDiag ref s.diag) (v : K) :
    ∃ s1, updateObjective v ref.isNone s = .ok () s1 ∧ LsDiag none s1.diag ∧ s1 = { s with diag := s1.diag } ∧
      ∀ t : Reg K m n p L, t.diag = s1.diag →
        let now : Norms K := ⟨env.normM t.r, env.normN t.c, env.normN t.g, v⟩
        updateDiagnostics env true ref.isNone t = .ok () { t with diag := lsFull (ref.getD now) now } := by
  obtain ⟨o, r, c, g, hd, h1, h2, h3, h4, hR⟩ := hd
  refine ⟨{ s with diag := lsCont (o.update v ref.isNone) r c g }, ?_, ⟨_, _, _, _, rfl, ?_, h2, h3, h4, by simp⟩, rfl, ?_⟩
  · unfold updateObjective
    rw [hd]
    rfl
  · unfold DData.update; split <;> exact h1
  · intro t ht
    have ht : t.diag = lsCont (o.update v ref.isNone) r c g := ht
    have e1 : o.update v ref.isNone = entry .objective ((ref.map Norms.obj).getD v) v := by
      have := update_entry o v (ref.map Norms.obj) (by
        intro R hh; obtain ⟨R', hr, rfl⟩ := Option.map_eq_some_iff.mp hh; exact (hR R' hr).1)
      simpa [h1] using this
    have e2 : r.update (env.normM t.r) ref.isNone = entry .residual ((ref.map Norms.resid).getD (env.normM t.r)) (env.normM t.r) := by
      have := update_entry r (env.normM t.r) (ref.map Norms.resid) (by
        intro R hh; obtain ⟨R', hr, rfl⟩ := Option.map_eq_some_iff.mp hh; exact (hR R' hr).2.1)
      simpa [h2] using this
    have e3 : c.update (env.normN t.c) ref.isNone = entry .correction ((ref.map Norms.corr).getD (env.normN t.c)) (env.normN t.c) := by
      have := update_entry c (env.normN t.c) (ref.map Norms.corr) (by
        intro R hh; obtain ⟨R', hr, rfl⟩ := Option.map_eq_some_iff.mp hh; exact (hR R' hr).2.2.1)
      simpa [h3] using this
    have e4 : g.update (env.normN t.g) ref.isNone = entry .gradient ((ref.map Norms.grad).getD (env.normN t.g)) (env.normN t.g) := by
      have := update_entry g (env.normN t.g) (ref.map Norms.grad) (by
        intro R hh; obtain ⟨R', hr, rfl⟩ := Option.map_eq_some_iff.mp hh; exact (hR R' hr).2.2.2)
      simpa [h4] using this
    simp only [updateDiagnostics, Prog.modify_run, ht, lsCont, List.map_cons, List.map_nil]
    have n1 : normDiagnostic env true ref.isNone t (o.update v ref.isNone) = o.update v ref.isNone := by
      rw [e1]; rfl
    have n2 : normDiagnostic env true ref.isNone t r = r.update (env.normM t.r) ref.isNone := by
      unfold normDiagnostic; rw [h2]
    have n3 : normDiagnostic env true ref.isNone t c = c.update (env.normN t.c) ref.isNone := by
      unfold normDiagnostic; rw [h3]
    have n4 : normDiagnostic env true ref.isNone t g = g.update (env.normN t.g) ref.isNone := by
      unfold normDiagnostic; rw [h4]; rfl
    rw [n1, n2, n3, n4, e1, e2, e3, e4]
    cases ref <;> rfl

theorem newton_diag (env : Env K m n p L) (ref : Option (Norms K)) (t : Reg K m n p L) (hd : NewtonDiag ref t.diag) :
    let now : Norms K := ⟨env.normM t.r, env.normN t.c, 0, 0⟩
    updateDiagnostics env false ref.isNone t = .ok () { t with diag := newtonFull (ref.getD now) now } := by
  obtain ⟨r, c, hd, h2, h3, hR⟩ := hd
  have e2 : r.update (env.normM t.r) ref.isNone = entry .residual ((ref.map Norms.resid).getD (env.normM t.r)) (env.normM t.r) := by
    have := update_entry r (env.normM t.r) (ref.map Norms.resid) (by
      intro R hh; obtain ⟨R', hr, rfl⟩ := Option.map_eq_some_iff.mp hh; exact (hR R' hr).1)
    simpa [h2] using this
  have e3 : c.update (env.normN t.c) ref.isNone = entry .correction ((ref.map Norms.corr).getD (env.normN t.c)) (env.normN t.c) := by
    have := update_entry c (env.normN t.c) (ref.map Norms.corr) (by
      intro R hh; obtain ⟨R', hr, rfl⟩ := Option.map_eq_some_iff.mp hh; exact (hR R' hr).2)
    simpa [h3] using this
  simp only [updateDiagnostics, Prog.modify_run, hd, newtonCont, List.map_cons, List.map_nil]
  have n2 : normDiagnostic env false ref.isNone t r = r.update (env.normM t.r) ref.isNone := by
    unfold normDiagnostic; rw [h2]
  have n3 : normDiagnostic env false ref.isNone t c = c.update (env.normN t.c) ref.isNone := by
    unfold normDiagnostic; rw [h3]
  rw [n2, n3, e2, e3]
  cases ref <;> rfl

/-! ### stopping tests -/

theorem ls_mustStop (cfg : Cfg K) (i : Int) (ref now : Norms K) (s : Reg K m n p L) (hd : s.diag = lsFull ref now) :
    lsMustStop cfg i s = .ok (if cfg.stop = .AfterMaxIters then decide (i = cfg.maxIters) else below cfg.stop cfg.tol ref now) s := by
  unfold lsMustStop
  by_cases h : cfg.stop = .AfterMaxIters
  · rw [if_pos h, if_pos h]; rfl
  · rw [if_neg h, if_neg h]
    simp only [belowTol, hd]
    cases hs : cfg.stop <;> first | rfl | exact absurd hs h

theorem newton_belowTol (cfg : Cfg K) (ref now : Norms K) (s : Reg K m n p L) (hd : s.diag = newtonFull ref now) :
    belowTol cfg s = if rootCriterion cfg.stop then .ok (below cfg.stop cfg.tol ref now) s else .stop (.exc .outOfRange) s := by
  simp only [belowTol, hd]
  cases hs : cfg.stop <;> rfl

/-! ### updaters -/

/-- the registry after an update by a program: `res` realises `u` -/
def Matches (sys : Sys K m n) (s : Reg K m n p L) (res : Res (Reg K m n p L) Unit) (u : UpdOut K n) : Prop :=
  match u.val with
  | .moved x' d nu => ∃ s', res = .ok () s' ∧ absR s' = { absR s with x := x', damp := d, nu := nu } ∧ s'.diag = s.diag ∧ s'.files = s.files ∧
      s'.log = s.log ++ u.trials.map (fun t => sys.query t false)
  | .breakdown => ∃ s', res = .stop (.exc .lineSearchStepTooSmall) s' ∧ absR s' = absR s ∧ s'.diag = s.diag ∧ s'.files = s.files ∧
      s'.log = s.log ++ u.trials.map (fun t => sys.query t false)
  | .threw e => ∃ s', res = .stop (.exc e) s' ∧ absR s' = absR s ∧ s'.diag = s.diag ∧ s'.files = s.files ∧
      s'.log = s.log ++ u.trials.map (fun t => sys.query t false)

/-- an objective program computes `f` and disturbs only scratch -/
def Objective (sys : Sys K m n) (obj : (n → K) → SP K m n p L K) (f : (n → K) → Except Exc K) : Prop :=
  ∀ x s, ∃ r' W' cW', SM.run sys.toF (obj x) s = match f x with
      | .ok v => .ok v { s with r := r', Wr := W', cWr := cW', log := s.log ++ [sys.query x false] }
      | .error e => .stop (.exc e) { s with r := r', Wr := W', cWr := cW', log := s.log ++ [sys.query x false] }

theorem default_matches (sys : Sys K m n) (s : Reg K m n p L) :
    Matches sys s (SM.run sys.toF defaultUpdater s) ⟨[], .moved (s.x + s.c) s.damp s.nu⟩ := by
  refine ⟨{ s with x := s.x + s.c }, ?_, rfl, rfl, rfl, by simp⟩
  simp [defaultUpdater]

theorem search_matches (sys : Sys K m n) (obj : (n → K) → SP K m n p L K) (f : (n → K) → Except Exc K) (hobj : Objective sys obj f)
    (zeta f0 : K) :
    ∀ (l : List K) (alpha : K), (∀ j (h : j < l.length), l[j] = alpha * (1/2)^j) → (∀ a ∈ l, ¬ |a| ≤ 1/1000) → |alpha * (1/2)^l.length| ≤ 1/1000 →
    ∀ s : Reg K m n p L, Matches sys s (SM.run sys.toF (backtrackLoop zeta f0 obj (l.length + 1) alpha) s)
      (search f s.x s.c (zeta * f0) s.damp s.nu l)
  | [], alpha, _, _, hlast, s => by
    have hlast : |alpha| ≤ 1/1000 := by simpa using hlast
    refine ⟨s, ?_, rfl, rfl, rfl, by simp [search]⟩
    show SM.run sys.toF (backtrackLoop zeta f0 obj (0+1) alpha) s = _
    unfold backtrackLoop
    rw [if_pos hlast]
    rfl
  | a :: l, alpha, hl, hbig, hlast, s => by
    have ha : a = alpha := by
      have := hl 0 (by simp)
      simpa only [List.getElem_cons_zero, pow_zero, mul_one] using this
    subst ha
    have hb : ¬ |a| ≤ 1/1000 := hbig a (by simp)
    show Matches sys s (SM.run sys.toF (backtrackLoop zeta f0 obj ((l.length+1)+1) a) s) _
    unfold backtrackLoop
    rw [if_neg hb]
    simp only [SM.run_bind, SM.run_lift, Prog.bind_run, Prog.modify_run, Prog.get_run, zero_smul, one_smul, zero_add]
    obtain ⟨r', W', cW', ho⟩ := hobj (s.x + a • s.c) { s with trial := s.x + a • s.c }
    rw [ho]
    unfold search
    rcases hf : f (s.x + a • s.c) with e | v
    · exact ⟨_, rfl, rfl, rfl, rfl, by simp⟩
    · simp only [SM.run_ite]
      by_cases hv : v ≤ zeta * f0
      · rw [if_pos hv, if_pos hv]
        refine ⟨{ s with trial := s.x + a • s.c, r := r', Wr := W', cWr := cW', log := s.log ++ [sys.query (s.x + a • s.c) false], x := s.x + a • s.c },
          by simp, rfl, rfl, rfl, by simp⟩
      · rw [if_neg hv, if_neg hv]
        have ih := search_matches sys obj f hobj zeta f0 l (a * (1/2)) (by
            intro j h
            have := hl (j+1) (by simpa using h)
            simp only [List.getElem_cons_succ] at this
            rw [this]; ring)
          (fun b hb => hbig b (by simp [hb])) (by
            have e : a * (1/2) * (1/2)^l.length = a * (1/2)^((a :: l).length) := by simp only [List.length_cons]; ring
            rw [e]; exact hlast)
          { s with trial := s.x + a • s.c, r := r', Wr := W', cWr := cW', log := s.log ++ [sys.query (s.x + a • s.c) false] }
        revert ih
        unfold Matches
        dsimp only
        cases (search f s.x s.c (zeta * f0) s.damp s.nu l).val with
        | moved x' d nu =>
          rintro ⟨s', h1, h2, h3, h4, h5⟩
          exact ⟨s', h1, h2, h3, h4, by rw [h5]; simp⟩
        | breakdown =>
          rintro ⟨s', h1, h2, h3, h4, h5⟩
          exact ⟨s', h1, h2, h3, h4, by rw [h5]; simp⟩
        | threw e =>
          rintro ⟨s', h1, h2, h3, h4, h5⟩
          exact ⟨s', h1, h2, h3, h4, by rw [h5]; simp⟩

theorem backtrack_matches [IsStrictOrderedRing K] (sys : Sys K m n) (obj : (n → K) → SP K m n p L K) (f : (n → K) → Except Exc K)
    (hobj : Objective sys obj f) (zeta f0 : K) (s : Reg K m n p L) :
    Matches sys s (SM.run sys.toF (backtrackUpdater zeta obj f0) s) (search f s.x s.c (zeta * f0) s.damp s.nu steps) := by
  have := search_matches sys obj f hobj zeta f0 (steps : List K) 1
    (by intro j h; simp [steps])
    (by
      intro a ha
      simp only [steps, List.mem_map, List.mem_range] at ha
      obtain ⟨j, hj, rfl⟩ := ha
      have : (0:K) < (1/2)^j := by positivity
      rw [abs_of_pos this, not_le]
      interval_cases j <;> norm_num)
    (by
      simp only [steps, List.length_map, List.length_range]
      rw [abs_of_pos (by positivity)]
      norm_num)
    s
  have hlen : (steps : List K).length + 1 = 11 := by simp [steps]
  rw [hlen] at this
  exact this

theorem gain_run (env : Env K m n p L) (sys : Sys K m n) (f0 : K) (s : Reg K m n p L) (J : Matrix m n K) (hH : s.H0 = Jᵀ * J) (tag : Tag) :
    match objAt env sys tag (s.x + s.c) with
    | .error e => ∃ s', SM.run sys.toF (lmGainFactor (lsObjective env tag) f0) s = .stop (.exc e) s' ∧ absR s' = absR s ∧ s'.diag = s.diag ∧
        s'.files = s.files ∧ s'.log = s.log ++ [sys.query (s.x + s.c) false]
    | .ok v => ∃ s', SM.run sys.toF (lmGainFactor (lsObjective env tag) f0) s = .ok (gain v f0 s.damp (Jᵀ * J) s.g s.c) s' ∧ absR s' = absR s ∧
        s'.diag = s.diag ∧ s'.files = s.files ∧ s'.log = s.log ++ [sys.query (s.x + s.c) false] := by
  unfold lmGainFactor
  simp only [SM.run_bind, SM.run_lift, Prog.bind_run, Prog.modify_run, Prog.get_run, zero_smul, one_smul, zero_add]
  obtain ⟨r', W', cW', ho⟩ := objective_run env sys tag (s.x + s.c) { s with trial := s.x + s.c }
  rw [ho]
  rcases objAt env sys tag (s.x + s.c) with e | v
  · exact ⟨_, rfl, rfl, rfl, rfl, rfl⟩
  · refine ⟨{ s with trial := s.x + s.c, r := r', Wr := W', cWr := cW', log := s.log ++ [sys.query (s.x + s.c) false],
                     cDiagH := fun i => (0:K) * s.cDiagH i + 1 * s.c i * s.H0 i i }, ?_, rfl, rfl, rfl, rfl⟩
    simp only [SM.run_pure, Prog.pure_run]
    congr 1
    unfold gain
    simp only [zero_mul, one_mul, zero_add, hH]
    congr 1
    ring

theorem lm1_matches (env : Env K m n p L) (sys : Sys K m n) (f0 : K) (s : Reg K m n p L) (J : Matrix m n K) (hH : s.H0 = Jᵀ * J) (tag : Tag) :
    Matches sys s (SM.run sys.toF (lm1Updater (lsObjective env tag) f0) s)
      (match objAt env sys tag (s.x + s.c) with
        | .error e => ⟨[s.x + s.c], .threw e⟩
        | .ok v => ⟨[s.x + s.c], lm1 (gain v f0 s.damp (Jᵀ * J) s.g s.c) s.x s.c s.damp s.nu⟩) := by
  have hg := gain_run env sys f0 s J hH tag
  unfold lm1Updater
  simp only [SM.run_bind, Prog.bind_run]
  rcases ho : objAt env sys tag (s.x + s.c) with e | v
  · rw [ho] at hg
    obtain ⟨s', h1, h2, h3, h4, h5⟩ := hg
    simp only [h1]
    exact ⟨s', rfl, h2, h3, h4, by simpa using h5⟩
  · rw [ho] at hg
    obtain ⟨s', h1, h2, h3, h4, h5⟩ := hg
    simp only [h1]
    have hx : s'.x = s.x := congrArg St.x h2
    have hc : s'.c = s.c := congrArg St.c h2
    have hd : s'.damp = s.damp := congrArg St.damp h2
    have hn : s'.nu = s.nu := congrArg St.nu h2
    have hq : s'.QTr = s.QTr := congrArg St.QTr h2
    have hl : s'.lin = s.lin := congrArg St.lin h2
    generalize gain v f0 s.damp (Jᵀ * J) s.g s.c = rho
    rcases rho with q | _ | _ | _
    · by_cases h0 : 0 < q
      · have hgt : (Quot'.fin q).gt (0:K) = true := by simp [Quot'.gt, h0]
        simp only [hgt, if_true, lm1, if_pos h0]
        refine ⟨_, rfl, ?_, h3, h4, by simpa using h5⟩
        simp [absR, hx, hc, hd, hq, hl, lm1Factor]
        norm_num
      · have hgt : (Quot'.fin q).gt (0:K) = false := by simp [Quot'.gt, h0]
        simp only [hgt, Bool.false_eq_true, if_false, lm1, if_neg h0]
        refine ⟨_, rfl, ?_, h3, h4, by simpa using h5⟩
        simp [absR, hx, hc, hd, hn, hq, hl]
    · refine ⟨_, rfl, ?_, h3, h4, by simpa using h5⟩
      simp [absR, hx, hc, hd, hn, hq, hl]
    · refine ⟨_, rfl, ?_, h3, h4, by simpa using h5⟩
      simp [absR, hx, hc, hd, hq, hl, lm1Factor]
    · refine ⟨_, rfl, ?_, h3, h4, by simpa using h5⟩
      simp [absR, hx, hc, hd, hn, hq, hl]

theorem lm2_matches [IsStrictOrderedRing K] (env : Env K m n p L) (sys : Sys K m n) (f0 : K) (s : Reg K m n p L) (J : Matrix m n K) (hH : s.H0 = Jᵀ * J) (tag : Tag) :
    Matches sys s (SM.run sys.toF (lm2Updater (lsObjective env tag) f0) s)
      (match objAt env sys tag (s.x + s.c) with
        | .error e => ⟨[s.x + s.c], .threw e⟩
        | .ok v => ⟨[s.x + s.c], lm2 (gain v f0 s.damp (Jᵀ * J) s.g s.c) s.x s.c s.damp s.nu⟩) := by
  have hg := gain_run env sys f0 s J hH tag
  unfold lm2Updater
  simp only [SM.run_bind, Prog.bind_run]
  rcases ho : objAt env sys tag (s.x + s.c) with e | v
  · rw [ho] at hg
    obtain ⟨s', h1, h2, h3, h4, h5⟩ := hg
    simp only [h1]
    exact ⟨s', rfl, h2, h3, h4, by simpa using h5⟩
  · rw [ho] at hg
    obtain ⟨s', h1, h2, h3, h4, h5⟩ := hg
    simp only [h1]
    have hx : s'.x = s.x := congrArg St.x h2
    have hc : s'.c = s.c := congrArg St.c h2
    have hd : s'.damp = s.damp := congrArg St.damp h2
    have hn : s'.nu = s.nu := congrArg St.nu h2
    have hq : s'.QTr = s.QTr := congrArg St.QTr h2
    have hl : s'.lin = s.lin := congrArg St.lin h2
    generalize gain v f0 s.damp (Jᵀ * J) s.g s.c = rho
    have hexcl : rho.lt (1/5 : K) = true → rho.gt (4/5 : K) = false := by
      rcases rho with q | _ | _ | _ <;> simp only [Quot'.lt, Quot'.gt] <;> try decide
      intro h
      have h : q < 1/5 := by simpa using h
      have : ¬ (4/5 : K) < q := by
        intro h'
        have h3 : (4/5 : K) < 1/5 := lt_trans h' h
        norm_num at h3
      simpa using this
    unfold lm2 Matches
    cases h1 : rho.lt (1/5 : K) <;> cases h2 : rho.gt (4/5 : K) <;> cases h6 : rho.gt (0 : K)
    all_goals first
      | (exfalso; have := hexcl h1; rw [h2] at this; cases this; done)
      | (simp only [if_true, if_false, Bool.false_eq_true, SM.run_lift, SM.run_pure, Prog.pure_run, Prog.modify_run]
         refine ⟨_, rfl, ?_, h3, h4, by simpa using h5⟩
         simp [absR, hx, hc, hd, hn, hq, hl])

/-! ### loops -/

/-- a program run refines an outcome of the specification -/
def Refines (D : DContainer K → Prop) (full : Norms K → Norms K → DContainer K) (s : Reg K m n p L) (R : Res (Reg K m n p L) Unit) (o : Out K m n L) : Prop :=
  R.stop? = o.how.stop? ∧ absR R.state = o.st ∧ R.state.files = s.files ++ o.files ∧ R.state.log = s.log ++ o.log ∧ D R.state.diag ∧
    ∀ rn, o.last = some rn → R.state.diag = full rn.1 rn.2

theorem lsAssemble_run [DecidableEq n] (env : Env K m n p L) (sys : Sys K m n) (tag : Tag) (ref : Option (Norms K)) (s : Reg K m n p L)
    (hd : LsDiag ref s.diag) :
    match sys.resJac s.x with
    | .error e =>
      match assemblyText e with
      | some _ => SM.run sys.toF (lsAssemble env tag ref.isNone) s = .stop (.exc .nonlinearSolveFailure) { s with log := s.log ++ [sys.query s.x true] }
      | none => SM.run sys.toF (lsAssemble env tag ref.isNone) s = .stop (.exc e) { s with log := s.log ++ [sys.query s.x true] }
    | .ok (r, J) =>
      ∃ s1, SM.run sys.toF (lsAssemble env tag ref.isNone) s = .ok () s1 ∧ absR s1 = absR s ∧ s1.r = r ∧ s1.J = J ∧ s1.files = s.files ∧
        s1.log = s.log ++ [sys.query s.x true] ∧ s1.g = gradOf env tag r J ∧ (tag ≠ .gnQr → s1.H = hessOf env tag J s.damp) ∧
        (tag = .lm → s1.H0 = Jᵀ * J) ∧ LsDiag none s1.diag ∧
        ∀ t : Reg K m n p L, t.diag = s1.diag →
          let now : Norms K := ⟨env.normM t.r, env.normN t.c, env.normN t.g, objOf env tag r⟩
          updateDiagnostics env true ref.isNone t = .ok () { t with diag := lsFull (ref.getD now) now } := by
  unfold lsAssemble
  simp only [SM.run_catchE, SM.run_bind, SM.run_lift]
  rcases hres : sys.resJac s.x with e | ⟨r, J⟩
  · have hrun : (Prog.get >>= fun (a : Reg K m n p L) => SM.run sys.toF (evalSys a.x true) >>= fun _ => operators env tag >>= fun v =>
        updateObjective v ref.isNone : Prog (Reg K m n p L) Unit) s = .stop (.exc e) { s with log := s.log ++ [sys.query s.x true] } := by
      simp only [Prog.bind_run, Prog.get_run, evalSys_J, hres]
    simp only [Prog.catchE, hrun]
    cases e <;> simp [assemblyText]
  · obtain ⟨s', h1, h2, h3, h4, h5, h6, h7, h8, h9, h10⟩ :=
      operators_run env tag { s with log := s.log ++ [sys.query s.x true], r := r, J := J }
    obtain ⟨s1, g1, g2, g3, g4⟩ := ls_diag env ref s' (by rw [h5]; exact hd) (objOf env tag r)
    have hrun : (Prog.get >>= fun (a : Reg K m n p L) => SM.run sys.toF (evalSys a.x true) >>= fun _ => operators env tag >>= fun v =>
        updateObjective v ref.isNone : Prog (Reg K m n p L) Unit) s = .ok () s1 := by
      simp only [Prog.bind_run, Prog.get_run, evalSys_J, hres, h1, g1]
    refine ⟨s1, by simp only [Prog.catchE, hrun], ?_, ?_, ?_, ?_, ?_, ?_, ?_, ?_, g2, g4⟩
    · rw [g3]; exact h2
    · rw [g3]; exact h3
    · rw [g3]; exact h4
    · rw [g3]; exact h6
    · rw [g3]; exact h7
    · rw [g3]; exact h8
    · rw [g3]; exact h9
    · rw [g3]; exact h10

theorem lsUpdate_run [DecidableEq n] (env : Env K m n p L) (sys : Sys K m n) (tag : Tag) (upd : ((n → K) → SP K m n p L K) → K → SP K m n p L Unit)
    (ref now : Norms K) (s : Reg K m n p L) (hd : s.diag = lsFull ref now) (u : UpdOut K n)
    (hu : Matches sys s (SM.run sys.toF (upd (lsObjective env tag) now.obj) s) u) :
    match u.val with
    | .moved x' d nu => ∃ s', SM.run sys.toF (lsUpdate env tag upd) s = .ok false s' ∧ absR s' = { absR s with x := x', damp := d, nu := nu } ∧
        s'.diag = s.diag ∧ s'.files = s.files ∧ s'.log = s.log ++ u.trials.map (fun t => sys.query t false)
    | .breakdown => ∃ s', SM.run sys.toF (lsUpdate env tag upd) s = .ok true s' ∧ absR s' = absR s ∧
        s'.diag = s.diag ∧ s'.files = s.files ∧ s'.log = s.log ++ u.trials.map (fun t => sys.query t false)
    | .threw e => ∃ s', (SM.run sys.toF (lsUpdate env tag upd) s = match breakdownText e with | some _ => .ok true s' | none => .stop (.exc e) s') ∧
        absR s' = absR s ∧ s'.diag = s.diag ∧ s'.files = s.files ∧ s'.log = s.log ++ u.trials.map (fun t => sys.query t false) := by
  have hat : (s.diag.atInternal .objective : Prog (Reg K m n p L) (DData K)) = pure (entry .objective ref.obj now.obj) := by rw [hd]; rfl
  have hinner : (Prog.get >>= fun (a : Reg K m n p L) => a.diag.atInternal .objective >>= fun d =>
      SM.run sys.toF (upd (lsObjective env tag) d.absolute) >>= fun _ => (pure false : Prog (Reg K m n p L) Bool)) s =
      match SM.run sys.toF (upd (lsObjective env tag) now.obj) s with
      | .ok _ s' => .ok false s'
      | .stop h s' => .stop h s' := by
    simp only [Prog.bind_run, Prog.get_run, hat, Prog.pure_run]
    have : (entry .objective ref.obj now.obj).absolute = now.obj := rfl
    rw [this]
    cases SM.run sys.toF (upd (lsObjective env tag) now.obj) s <;> rfl
  have hrun : SM.run sys.toF (lsUpdate env tag upd) s =
      match (match SM.run sys.toF (upd (lsObjective env tag) now.obj) s with
        | .ok _ s' => (.ok false s' : Res (Reg K m n p L) Bool)
        | .stop h s' => .stop h s') with
      | .ok a s' => .ok a s'
      | .stop (.exc e) s' => (match breakdownText e with | some _ => .ok true s' | none => .stop (.exc e) s')
      | .stop u s' => .stop u s' := by
    unfold lsUpdate
    simp only [SM.run_catchE, SM.run_bind, SM.run_lift, SM.run_pure]
    simp only [Prog.catchE, hinner]
    rcases SM.run sys.toF (upd (lsObjective env tag) now.obj) s with ⟨⟨⟩, s'⟩ | ⟨e | _ | _, s'⟩
    · rfl
    · cases e <;> rfl
    · rfl
    · rfl
  rw [hrun]
  unfold Matches at hu
  rcases hv : u.val with ⟨x', d, nu⟩ | _ | e
  · rw [hv] at hu
    obtain ⟨s', h1, h2⟩ := hu
    exact ⟨s', by rw [h1], h2⟩
  · rw [hv] at hu
    obtain ⟨s', h1, h2⟩ := hu
    exact ⟨s', by rw [h1]; rfl, h2⟩
  · rw [hv] at hu
    obtain ⟨s', h1, h2⟩ := hu
    exact ⟨s', by rw [h1], h2⟩

theorem last_step {full : Norms K → Norms K → DContainer K} {ref now : Norms K} {s' : Reg K m n p L} {R : Res (Reg K m n p L) Unit}
    {l : Option (Norms K × Norms K)} {k : Nat} (h1 : s'.diag = full ref now) (h2 : k = 0 → R.state = s')
    (h3 : ∀ rn, l = some rn → R.state.diag = full rn.1 rn.2) :
    ∀ rn, (if k = 0 then some (ref, now) else l) = some rn → R.state.diag = full rn.1 rn.2 := by
  intro rn hrn
  by_cases hk : k = 0
  · rw [if_pos hk] at hrn
    cases hrn
    rw [h2 hk]; exact h1
  · rw [if_neg hk] at hrn
    exact h3 rn hrn

theorem lsLoop_refines [DecidableEq n] (env : Env K m n p L) (cfg : Cfg K) (sys : Sys K m n) (tag : Tag) (rule : Rule K)
    (upd : ((n → K) → SP K m n p L K) → K → SP K m n p L Unit)
    (hupd : ∀ (s : Reg K m n p L) r J now, s.g = gradOf env tag r J → (tag = .lm → s.H0 = Jᵀ * J) →
      Matches sys s (SM.run sys.toF (upd (lsObjective env tag) now.obj) s) (lsUpd env sys tag rule (absR s) r J now)) :
    ∀ (k : Nat) (i : Int) (ref : Option (Norms K)) (s : Reg K m n p L), 1 ≤ i → (ref.isNone = decide (i = 1)) → LsDiag ref s.diag →
      Refines (LsDiag none) lsFull s (SM.run sys.toF (lsLoop env cfg tag upd k i) s) (iterate sys (lsProblem env cfg sys tag rule) k i ref (absR s)) := by
  intro k
  induction k with
  | zero =>
    intro i ref s hi hri hd
    unfold lsLoop iterate
    by_cases h : i = int32Max + 1
    · simp only [if_pos h]
      exact ⟨rfl, rfl, by simp, by simp, hd.weaken, by simp⟩
    · simp only [if_neg h]
      exact ⟨rfl, rfl, by simp, by simp, hd.weaken, by simp⟩
  | succ k ih =>
    intro i ref s hi hri hd
    unfold lsLoop iterate
    simp only [SM.run_bind, SM.run_lift, Prog.bind_run, ← hri]
    have hasm := lsAssemble_run env sys tag ref s hd
    have easm : assembly sys (lsProblem env cfg sys tag rule) (absR s).x = sys.resJac s.x := rfl
    have eq0 : sys.query (absR s).x (lsProblem env cfg sys tag rule).withJ = sys.query s.x true := rfl
    rw [easm, eq0]
    rcases hres : sys.resJac s.x with e | ⟨r, J⟩
    · rw [hres] at hasm
      rcases ht : assemblyText e with _ | t
      · simp only [ht] at hasm ⊢
        rw [hasm]
        exact ⟨rfl, rfl, by simp, by simp, hd.weaken, by simp⟩
      · simp only [ht] at hasm ⊢
        rw [hasm]
        exact ⟨rfl, rfl, by simp [lsProblem], by simp, hd.weaken, by simp⟩
    · rw [hres] at hasm
      obtain ⟨s1, h1, h2, h3, h4, h5, h6, h7, h8, h9, h10, h11⟩ := hasm
      simp only [h1]
      have hx1 : s1.x = s.x := congrArg St.x h2
      have hc1 : s1.c = s.c := congrArg St.c h2
      have hd1 : s1.damp = s.damp := congrArg St.damp h2
      have hn1 : s1.nu = s.nu := congrArg St.nu h2
      have hq1 : s1.QTr = s.QTr := congrArg St.QTr h2
      have hl1 : s1.lin = s.lin := congrArg St.lin h2
      have hcor := correction_run env cfg sys rule tag s1 s.damp (by rw [h7, h3, h4]) (fun h => by rw [h8 h, h4])
      have ein : (lsProblem env cfg sys tag rule).corr (absR s).x r J (absR s).damp ((absR s).c, (absR s).QTr, (absR s).lin)
          = (lsProblem env cfg sys tag rule).corr s1.x s1.r s1.J s.damp (s1.c, s1.QTr, s1.lin) := by
        rw [h3, h4, hx1, hc1, hq1, hl1]; rfl
      rw [ein, hcor]
      rcases (lsProblem env cfg sys tag rule).corr s1.x s1.r s1.J s.damp (s1.c, s1.QTr, s1.lin) with ⟨⟨⟩, c, b, l⟩ | ⟨h, c, b, l⟩
      · simp only []
        have hdiag := h11 { s1 with c := c, QTr := b, lin := l } rfl
        simp only at hdiag
        rw [hdiag]
        have hnow : (lsProblem env cfg sys tag rule).norms r J c = ⟨env.normM s1.r, env.normN c, env.normN s1.g, objOf env tag r⟩ := by
          rw [h3, h7]; rfl
        simp only [hnow]
        generalize hN : (⟨env.normM s1.r, env.normN c, env.normN s1.g, objOf env tag r⟩ : Norms K) = now
        have hms := ls_mustStop cfg i (ref.getD now) now ({ s1 with c := c, QTr := b, lin := l, diag := lsFull (ref.getD now) now }) rfl
        rw [hms]
        have htest : (lsProblem env cfg sys tag rule).test i (ref.getD now) now =
          .ok (if cfg.stop = .AfterMaxIters then decide (i = cfg.maxIters) else below cfg.stop cfg.tol (ref.getD now) now) := rfl
        rw [htest]
        generalize (if cfg.stop = .AfterMaxIters then decide (i = cfg.maxIters) else below cfg.stop cfg.tol (ref.getD now) now) = b0
        have habs : absR ({ s1 with c := c, QTr := b, lin := l, diag := lsFull (ref.getD now) now } : Reg K m n p L)
            = { absR s with c := c, QTr := b, lin := l } := by
          simp [absR, hx1, hd1, hn1]
        cases b0 with
        | true =>
          simp only [if_true]
          refine ⟨rfl, habs, ?_, ?_, (lsFull_ok _ _).weaken, by rintro rn ⟨⟩; rfl⟩
          · simp [h5, lsProblem]
          · simp [h6]
        | false =>
          simp only [Bool.false_eq_true, if_false, SM.run_bind, Prog.bind_run]
          have hm := hupd ({ s1 with c := c, QTr := b, lin := l, diag := lsFull (ref.getD now) now }) r J now h7 h9
          have hu := lsUpdate_run env sys tag upd (ref.getD now) now _ rfl _ hm
          rw [habs] at hu
          have eupd : (lsProblem env cfg sys tag rule).upd { absR s with c := c, QTr := b, lin := l } r J now
            = lsUpd env sys tag rule { absR s with c := c, QTr := b, lin := l } r J now := rfl
          rw [eupd]
          generalize hU : lsUpd env sys tag rule { absR s with c := c, QTr := b, lin := l } r J now = U at hu
          rcases hv : U.val with ⟨x', d, nu⟩ | _ | e
          · rw [hv] at hu
            obtain ⟨s', k1, k2, k3, k4, k5⟩ := hu
            simp only [k1, Bool.false_eq_true, if_false]
            have hi1 : 1 ≤ i + 1 := by omega
            have := ih (i+1) (some (ref.getD now)) s' hi1 (by
              have : i + 1 ≠ 1 := by omega
              simp [this]) (by rw [k3]; exact lsFull_ok _ _)
            rw [k2] at this
            obtain ⟨j1, j2, j3, j4, j5, j6⟩ := this
            refine ⟨j1, j2, ?_, ?_, j5, ?_⟩
            · rw [j3, k4]; simp [h5, lsProblem]
            · rw [j4, k5]; simp [h6]
            · exact last_step k3 (fun hk => by subst hk; unfold lsLoop; split <;> rfl) j6
          · rw [hv] at hu
            obtain ⟨s', k1, k2, k3, k4, k5⟩ := hu
            simp only [k1, if_true]
            refine ⟨rfl, k2, ?_, ?_, ?_, by rintro rn ⟨⟩; exact k3⟩
            · show s'.files = _
              rw [k4]; simp [h5, lsProblem]
            · show s'.log = _
              rw [k5]; simp [h6]
            · show LsDiag none s'.diag
              rw [k3]; exact (lsFull_ok _ _).weaken
          · rw [hv] at hu
            obtain ⟨s', k1, k2, k3, k4, k5⟩ := hu
            rcases hbt : breakdownText e with _ | t
            · simp only [hbt] at k1 ⊢
              rw [k1]
              refine ⟨rfl, k2, ?_, ?_, ?_, by rintro rn ⟨⟩; exact k3⟩
              · show s'.files = _
                rw [k4]; simp [h5, lsProblem]
              · show s'.log = _
                rw [k5]; simp [h6]
              · show LsDiag none s'.diag
                rw [k3]; exact (lsFull_ok _ _).weaken
            · simp only [hbt] at k1 ⊢
              rw [k1]
              simp only [if_true]
              refine ⟨rfl, k2, ?_, ?_, ?_, by rintro rn ⟨⟩; exact k3⟩
              · show s'.files = _
                rw [k4]; simp [h5, lsProblem]
              · show s'.log = _
                rw [k5]; simp [h6]
              · show LsDiag none s'.diag
                rw [k3]; exact (lsFull_ok _ _).weaken
      · simp only []
        refine ⟨rfl, ?_, ?_, ?_, h10, by simp⟩
        · simp [absR, hx1, hd1, hn1]
        · simp [h5]
        · simp [h6]

/-! ### Newton -/

theorem newtonAssemble_run (sys : Sys K m n) (w : Bool) (s : Reg K m n p L) :
    match (if w then sys.resJac s.x else (sys.res s.x).map (fun r => (r, (0 : Matrix m n K)))) with
    | .error e =>
      SM.run sys.toF (newtonAssemble w) s = match assemblyText e with
        | some t => .stop (.exc .nonlinearSolveFailure) { s with log := s.log ++ [sys.query s.x w], files := s.files ++ [t] }
        | none => .stop (.exc e) { s with log := s.log ++ [sys.query s.x w] }
    | .ok (r, J) => ∃ J', SM.run sys.toF (newtonAssemble w) s = .ok () { s with log := s.log ++ [sys.query s.x w], r := r, J := J' } ∧ (w = true → J' = J) := by
  have hrun : SM.run sys.toF (newtonAssemble w) s =
      match SM.run sys.toF (evalSys s.x w) s with
      | .ok a s' => .ok a s'
      | .stop (.exc e) s' => (match assemblyText e with
        | some t => .stop (.exc .nonlinearSolveFailure) { s' with files := s'.files ++ [t] }
        | none => .stop (.exc e) s')
      | .stop u s' => .stop u s' := by
    unfold newtonAssemble
    simp only [SM.run_catchE, SM.run_bind, SM.run_lift]
    have : (Prog.get >>= fun (a : Reg K m n p L) => SM.run sys.toF (evalSys a.x w) : Prog (Reg K m n p L) Unit) s = SM.run sys.toF (evalSys s.x w) s := rfl
    simp only [Prog.catchE, this]
    rcases SM.run sys.toF (evalSys s.x w) s with ⟨⟨⟩, s'⟩ | ⟨e | _ | _, s'⟩
    · rfl
    · cases e <;> rfl
    · rfl
    · rfl
  rw [hrun]
  cases w
  · rw [evalSys_r]
    simp only [Bool.false_eq_true, if_false]
    rcases sys.res s.x with e | r
    · simp only [Except.map]
    · exact ⟨s.J, rfl, by simp⟩
  · rw [evalSys_J]
    simp only [if_true]
    rcases sys.resJac s.x with e | ⟨r, J⟩
    · rfl
    · exact ⟨J, rfl, fun _ => rfl⟩

theorem newtonUpdate_run (env : Env K m n p L) (sys : Sys K m n) (upd : ((n → K) → SP K m n p L K) → K → SP K m n p L Unit)
    (ref now : Norms K) (s : Reg K m n p L) (hd : s.diag = newtonFull ref now) (u : UpdOut K n)
    (hu : Matches sys s (SM.run sys.toF (upd (newtonObjective env) now.resid) s) u) :
    match u.val with
    | .moved x' d nu => ∃ s', SM.run sys.toF (newtonUpdate env upd) s = .ok false s' ∧ absR s' = { absR s with x := x', damp := d, nu := nu } ∧
        s'.diag = s.diag ∧ s'.files = s.files ∧ s'.log = s.log ++ u.trials.map (fun t => sys.query t false)
    | .breakdown => ∃ s', SM.run sys.toF (newtonUpdate env upd) s = .ok true s' ∧ absR s' = absR s ∧
        s'.diag = s.diag ∧ s'.files = s.files ++ ["line search step size too small"] ∧ s'.log = s.log ++ u.trials.map (fun t => sys.query t false)
    | .threw e =>
      match breakdownText e with
      | some t => ∃ s', SM.run sys.toF (newtonUpdate env upd) s = .ok true s' ∧
        absR s' = absR s ∧ s'.diag = s.diag ∧ s'.files = s.files ++ [t] ∧ s'.log = s.log ++ u.trials.map (fun t => sys.query t false)
      | none => ∃ s', SM.run sys.toF (newtonUpdate env upd) s = .stop (.exc e) s' ∧
        absR s' = absR s ∧ s'.diag = s.diag ∧ s'.files = s.files ∧ s'.log = s.log ++ u.trials.map (fun t => sys.query t false) := by
  have hat : (s.diag.atInternal .residual : Prog (Reg K m n p L) (DData K)) = pure (entry .residual ref.resid now.resid) := by rw [hd]; rfl
  have hinner : (Prog.get >>= fun (a : Reg K m n p L) => a.diag.atInternal .residual >>= fun d =>
      SM.run sys.toF (upd (newtonObjective env) d.absolute) >>= fun _ => (pure false : Prog (Reg K m n p L) Bool)) s =
      match SM.run sys.toF (upd (newtonObjective env) now.resid) s with
      | .ok _ s' => .ok false s'
      | .stop h s' => .stop h s' := by
    simp only [Prog.bind_run, Prog.get_run, hat, Prog.pure_run]
    have : (entry .residual ref.resid now.resid).absolute = now.resid := rfl
    rw [this]
    cases SM.run sys.toF (upd (newtonObjective env) now.resid) s <;> rfl
  have hrun : SM.run sys.toF (newtonUpdate env upd) s =
      match (match SM.run sys.toF (upd (newtonObjective env) now.resid) s with
        | .ok _ s' => (.ok false s' : Res (Reg K m n p L) Bool)
        | .stop h s' => .stop h s') with
      | .ok a s' => .ok a s'
      | .stop (.exc e) s' => (match breakdownText e with | some t => .ok true { s' with files := s'.files ++ [t] } | none => .stop (.exc e) s')
      | .stop u s' => .stop u s' := by
    unfold newtonUpdate
    simp only [SM.run_catchE, SM.run_bind, SM.run_lift, SM.run_pure]
    simp only [Prog.catchE, hinner]
    rcases SM.run sys.toF (upd (newtonObjective env) now.resid) s with ⟨⟨⟩, s'⟩ | ⟨e | _ | _, s'⟩
    · rfl
    · cases e <;> rfl
    · rfl
    · rfl
  rw [hrun]
  unfold Matches at hu
  rcases hv : u.val with ⟨x', d, nu⟩ | _ | e
  · rw [hv] at hu
    obtain ⟨s', h1, h2⟩ := hu
    exact ⟨s', by rw [h1], h2⟩
  · rw [hv] at hu
    obtain ⟨s', h1, h2, h3, h4, h5⟩ := hu
    exact ⟨{ s' with files := s'.files ++ ["line search step size too small"] }, by rw [h1]; rfl, h2, h3, by rw [← h4], h5⟩
  · rw [hv] at hu
    obtain ⟨s', h1, h2, h3, h4, h5⟩ := hu
    dsimp only
    rcases hb : breakdownText e with _ | t
    · exact ⟨s', by rw [h1]; simp only [hb], h2, h3, h4, h5⟩
    · exact ⟨{ s' with files := s'.files ++ [t] }, by rw [h1]; simp only [hb], h2, h3, by rw [← h4], h5⟩

theorem newton_mustStop (cfg : Cfg K) (sys : Sys K m n) (env : Env K m n p L) (mf : Bool) (rule : RootRule K) (i : Int) (ref now : Norms K)
    (s : Reg K m n p L) (hd : s.diag = newtonFull ref now) :
    SM.run sys.toF (newtonMustStop cfg i) s = match (newtonProblem env cfg sys mf rule : Problem K m n L).test i ref now with
      | .error e => .stop (.exc e) s
      | .ok b => .ok b { s with files := s.files ++ (newtonProblem env cfg sys mf rule : Problem K m n L).note i ref now } := by
  have ht : (newtonProblem env cfg sys mf rule : Problem K m n L).test i ref now =
    if rootCriterion cfg.stop then .ok (below cfg.stop cfg.tol ref now) else .error .outOfRange := rfl
  have hn : (newtonProblem env cfg sys mf rule : Problem K m n L).note i ref now =
    if cfg.maxIters ≤ i ∧ below cfg.stop cfg.tol ref now = false then ["reached maximum number of iterations before convergence"] else [] := rfl
  rw [ht, hn]
  unfold newtonMustStop
  simp only [SM.run_bind, SM.run_lift, Prog.bind_run, newton_belowTol cfg ref now s hd, SM.run_ite, SM.run_pure]
  by_cases hc : rootCriterion cfg.stop = true
  · have hna : cfg.stop ≠ .AfterMaxIters := by intro h; rw [h] at hc; cases hc
    simp only [if_pos hc, if_neg hna]
    by_cases hcond : cfg.maxIters ≤ i ∧ below cfg.stop cfg.tol ref now = false
    · have : i ≥ cfg.maxIters ∧ below cfg.stop cfg.tol ref now = false := hcond
      simp only [if_pos this, if_pos hcond]
      rfl
    · have : ¬ (i ≥ cfg.maxIters ∧ below cfg.stop cfg.tol ref now = false) := hcond
      simp only [if_neg this, if_neg hcond]
      simp
  · simp only [if_neg hc]

theorem newtonLoop_refines (env : Env K m n p L) (cfg : Cfg K) (sys : Sys K m n) (mf : Bool) (rule : RootRule K)
    (upd : ((n → K) → SP K m n p L K) → K → SP K m n p L Unit)
    (hupd : ∀ (s : Reg K m n p L) r J now,
      Matches sys s (SM.run sys.toF (upd (newtonObjective env) now.resid) s) ((newtonProblem env cfg sys mf rule).upd (absR s) r J now)) :
    ∀ (k : Nat) (i : Int) (ref : Option (Norms K)) (s : Reg K m n p L), 1 ≤ i → (ref.isNone = decide (i = 1)) → NewtonDiag ref s.diag →
      Refines (NewtonDiag none) newtonFull s (SM.run sys.toF (newtonLoop env cfg mf upd k i) s) (iterate sys (newtonProblem env cfg sys mf rule) k i ref (absR s)) := by
  intro k
  induction k with
  | zero =>
    intro i ref s hi hri hd
    unfold newtonLoop iterate
    by_cases h : i = int32Max + 1
    · simp only [if_pos h]
      exact ⟨rfl, rfl, by simp, by simp, hd.weaken, by simp⟩
    · simp only [if_neg h]
      exact ⟨rfl, rfl, by simp, by simp, hd.weaken, by simp⟩
  | succ k ih =>
    intro i ref s hi hri hd
    unfold newtonLoop iterate
    simp only [SM.run_bind, SM.run_lift, Prog.bind_run, ← hri]
    have hasm := newtonAssemble_run sys (!mf) s
    have easm : assembly sys (newtonProblem env cfg sys mf rule) (absR s).x =
      (if (!mf) then sys.resJac s.x else (sys.res s.x).map (fun r => (r, (0 : Matrix m n K)))) := rfl
    have eq0 : sys.query (absR s).x (newtonProblem env cfg sys mf rule).withJ = sys.query s.x (!mf) := rfl
    have efiles : (newtonProblem env cfg sys mf rule : Problem K m n L).files = true := rfl
    rw [easm, eq0]
    simp only [efiles, if_true]
    generalize (if (!mf) = true then sys.resJac s.x else (sys.res s.x).map (fun r => (r, (0 : Matrix m n K)))) = A at hasm ⊢
    rcases A with e | ⟨r, J⟩
    · simp only at hasm
      rcases ht : assemblyText e with _ | t
      · simp only [ht] at hasm ⊢
        rw [hasm]
        exact ⟨rfl, rfl, by simp, by simp, hd.weaken, by simp⟩
      · simp only [ht] at hasm ⊢
        rw [hasm]
        exact ⟨rfl, rfl, by simp, by simp, hd.weaken, by simp⟩
    · obtain ⟨J', h1, hJ'⟩ := hasm
      simp only [h1]
      have hcor := newtonStep_run env cfg sys rule mf ({ s with log := s.log ++ [sys.query s.x (!mf)], r := r, J := J' }) J s.damp (by
        intro h; exact hJ' (by simp [h]))
      simp only at hcor
      rw [hcor]
      have ein : (newtonProblem env cfg sys mf rule).corr (absR s).x r J (absR s).damp ((absR s).c, (absR s).QTr, (absR s).lin)
          = (newtonProblem env cfg sys mf rule).corr s.x r J s.damp (s.c, s.QTr, s.lin) := rfl
      rw [ein]
      rcases (newtonProblem env cfg sys mf rule).corr s.x r J s.damp (s.c, s.QTr, s.lin) with ⟨⟨⟩, c, b, l⟩ | ⟨h, c, b, l⟩
      · simp only []
        have hdiag := newton_diag env ref ({ s with log := s.log ++ [sys.query s.x (!mf)], r := r, J := J', c := c, QTr := b, lin := l }) hd
        simp only at hdiag
        rw [hdiag]
        have hnow : (newtonProblem env cfg sys mf rule).norms r J c = ⟨env.normM r, env.normN c, 0, 0⟩ := rfl
        simp only [hnow]
        generalize (⟨env.normM r, env.normN c, 0, 0⟩ : Norms K) = now
        have hms := newton_mustStop cfg sys env mf rule i (ref.getD now) now
          ({ s with log := s.log ++ [sys.query s.x (!mf)], r := r, J := J', c := c, QTr := b, lin := l, diag := newtonFull (ref.getD now) now }) rfl
        rw [hms]
        rcases (newtonProblem env cfg sys mf rule : Problem K m n L).test i (ref.getD now) now with e | b0
        · simp only []
          exact ⟨rfl, rfl, by simp, by simp, (newtonFull_ok _ _).weaken, by rintro rn ⟨⟩; rfl⟩
        · simp only []
          cases b0 with
          | true =>
            simp only [if_true]
            exact ⟨rfl, rfl, by simp, by simp, (newtonFull_ok _ _).weaken, by rintro rn ⟨⟩; rfl⟩
          | false =>
            simp only [Bool.false_eq_true, if_false, SM.run_bind, Prog.bind_run]
            generalize hnote : (newtonProblem env cfg sys mf rule : Problem K m n L).note i (ref.getD now) now = note
            have hm := hupd ({ s with log := s.log ++ [sys.query s.x (!mf)], r := r, J := J', c := c, QTr := b, lin := l, diag := newtonFull (ref.getD now) now, files := s.files ++ note }) r J now
            have hu := newtonUpdate_run env sys upd (ref.getD now) now _ rfl _ hm
            have habs : absR ({ s with log := s.log ++ [sys.query s.x (!mf)], r := r, J := J', c := c, QTr := b, lin := l, diag := newtonFull (ref.getD now) now, files := s.files ++ note } : Reg K m n p L)
              = { absR s with c := c, QTr := b, lin := l } := rfl
            rw [habs] at hu
            simp only at hu ⊢
            generalize hU : (newtonProblem env cfg sys mf rule).upd _ r J now = U at hu ⊢
            rcases hv : U.val with ⟨x', d, nu⟩ | _ | e
            · rw [hv] at hu
              obtain ⟨s', k1, k2, k3, k4, k5⟩ := hu
              simp only [k1, Bool.false_eq_true, if_false]
              have hi1 : 1 ≤ i + 1 := by omega
              have := ih (i+1) (some (ref.getD now)) s' hi1 (by
                have : i + 1 ≠ 1 := by omega
                simp [this]) (by rw [k3]; exact newtonFull_ok _ _)
              rw [k2] at this
              obtain ⟨j1, j2, j3, j4, j5, j6⟩ := this
              refine ⟨j1, j2, ?_, ?_, j5, ?_⟩
              · rw [j3, k4]; simp
              · rw [j4, k5]; simp
              · exact last_step k3 (fun hk => by subst hk; unfold newtonLoop; split <;> rfl) j6
            · rw [hv] at hu
              obtain ⟨s', k1, k2, k3, k4, k5⟩ := hu
              simp only [k1, if_true]
              refine ⟨rfl, k2, ?_, ?_, ?_, by rintro rn ⟨⟩; exact k3⟩
              · show s'.files = _
                rw [k4]; simp
              · show s'.log = _
                rw [k5]; simp
              · show NewtonDiag none s'.diag
                rw [k3]; exact (newtonFull_ok _ _).weaken
            · rw [hv] at hu
              simp only at hu ⊢
              rcases hbt : breakdownText e with _ | t
              · simp only [hbt] at hu ⊢
                obtain ⟨s', k1, k2, k3, k4, k5⟩ := hu
                rw [k1]
                refine ⟨rfl, k2, ?_, ?_, ?_, by rintro rn ⟨⟩; exact k3⟩
                · show s'.files = _
                  rw [k4]
                · show s'.log = _
                  rw [k5]; simp
                · show NewtonDiag none s'.diag
                  rw [k3]; exact (newtonFull_ok _ _).weaken
              · simp only [hbt] at hu ⊢
                obtain ⟨s', k1, k2, k3, k4, k5⟩ := hu
                rw [k1]
                simp only [if_true]
                refine ⟨rfl, k2, ?_, ?_, ?_, by rintro rn ⟨⟩; exact k3⟩
                · show s'.files = _
                  rw [k4]; simp
                · show s'.log = _
                  rw [k5]; simp
                · show NewtonDiag none s'.diag
                  rw [k3]; exact (newtonFull_ok _ _).weaken
      · simp only []
        exact ⟨rfl, rfl, by simp, by simp, hd.weaken, by simp⟩

end
end Pressio.Lemmas.Nonlinear
