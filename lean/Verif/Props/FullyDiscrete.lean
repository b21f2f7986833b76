import Verif.Props.LspgInstances

/-
  C57: fully discrete LSPG, Galerkin and hyper-reduced Galerkin problems; C53 for them.
-/
namespace Pressio.Props
set_option autoImplicit false
set_option linter.unusedSectionVars false
open Pressio Pressio.Model.Galerkin Pressio.Model.Lspg Pressio.Spec.Galerkin Pressio.Spec.Lspg Pressio.Model.Implicit Pressio.Lemmas.Implicit Pressio.Spec.Implicit
open Pressio.Lemmas.Lspg (Good During track_run good_start tailData older fomAt_run)
open scoped Matrix

section
variable {K m p q n : Type} [Field K] [Fintype m] [Fintype p] [Fintype q] [Fintype n]

/-- translation of the failure of a discrete residual -/
def trD (e : Exc) : Exc := if e = .discreteTimeResidualFailureUnrecoverable then .residualEvaluationFailureUnrecoverable else e

/-- the FOM's discrete residual and, if wanted, its Jacobian times the basis -/
def rawFD (S : Trial K m n) (g : Int → K → K → (m → K) → List (m → K) → Except Exc (p → K)) (Dg : Int → K → K → (m → K) → List (m → K) → Except Exc (Matrix p m K))
    (k : Int) (t dt : K) (w : Bool) (y : m → K) (prev : List (m → K)) : Except Exc ((p → K) × Option (Matrix p n K)) := do
  let r ← g k t dt y prev
  let J ← if w then (Dg k t dt y prev).map (fun D => some (D * S.basis)) else pure none
  pure (r, J)

theorem callDFom_run {F : DFom K m p n} {g : Int → K → K → (m → K) → List (m → K) → Except Exc (p → K)} {Dg : Int → K → K → (m → K) → List (m → K) → Except Exc (Matrix p m K)} (hF : DFomIs F g Dg)
    (S : Trial K m n) (k : Int) (t dt : K) (w : Bool) (y : m → K) (prev : List (m → K)) (s : LMem K m p n) :
    ∃ s', s'.data = s.data ∧ s'.tracker = s.tracker ∧ catchDiscrete (callDFom S F k t dt w y prev) s =
        settle (((rawFD S g Dg k t dt w y prev).mapError trD).map (fun _ => ())) s' ∧
      ∀ a, rawFD S g Dg k t dt w y prev = .ok a →
        s'.R = a.1 ∧ (w = true → a.2 = some s'.J) ∧ (w = false → a.2 = none) := by
  obtain ⟨data, tr, he, R, J⟩ := s
  cases w with
  | false =>
    have h := hF.residualOnly k t dt S.basis y prev (R, J)
    rcases hc : F.eval k t dt S.basis false y prev (R, J) with ⟨e, v⟩ | v
    · rw [hc] at h
      have hg : g k t dt y prev = .error e := h.symm
      refine ⟨⟨data, tr, he, v.1, J⟩, rfl, rfl, ?_, ?_⟩
      · unfold rawFD
        rw [hg]
        simp only [catchDiscrete, Prog.catchE, callDFom, call, hc]
        by_cases h' : e = .discreteTimeResidualFailureUnrecoverable
        · subst h'; rfl
        · simp only [h', if_false]; simp [bind, Except.bind, Except.mapError, Except.map, trD, h', settle]
      · intro a ha; unfold rawFD at ha; rw [hg] at ha; cases ha
    · rw [hc] at h
      have hg : g k t dt y prev = .ok v.1 := h.symm
      refine ⟨⟨data, tr, he, v.1, J⟩, rfl, rfl, ?_, ?_⟩
      · unfold rawFD
        rw [hg]
        simp only [catchDiscrete, Prog.catchE, callDFom, call, hc]
        rfl
      · intro a ha; unfold rawFD at ha; rw [hg] at ha; cases ha; exact ⟨rfl, by simp, fun _ => rfl⟩
  | true =>
    have h := hF.residualAndJac k t dt S.basis y prev (R, J)
    rcases hc : F.eval k t dt S.basis true y prev (R, J) with ⟨e, v⟩ | v
    · rw [hc] at h
      have h0 : Except.error e = (do let r ← g k t dt y prev; let D ← Dg k t dt y prev; pure (r, D * S.basis) : Except Exc ((p → K) × Matrix p n K)) := h
      refine ⟨⟨data, tr, he, v.1, v.2⟩, rfl, rfl, ?_, ?_⟩
      · have hs : rawFD S g Dg k t dt true y prev = .error e := by
          unfold rawFD
          rcases hg : g k t dt y prev with e' | r
          · rw [hg] at h0; cases h0; rfl
          · rcases hd : Dg k t dt y prev with e' | D
            · rw [hg, hd] at h0; cases h0; rfl
            · rw [hg, hd] at h0; cases h0
        rw [hs]
        simp only [catchDiscrete, Prog.catchE, callDFom, call, hc, if_true]
        by_cases h' : e = .discreteTimeResidualFailureUnrecoverable
        · subst h'; rfl
        · simp only [h', if_false]; simp [Except.mapError, Except.map, trD, h', settle]
      · intro a ha
        exfalso
        unfold rawFD at ha
        rcases hg : g k t dt y prev with e' | r
        · rw [hg] at ha; cases ha
        · rcases hd : Dg k t dt y prev with e' | D
          · rw [hg, hd] at ha; cases ha
          · rw [hg, hd] at h0; cases h0
    · rw [hc] at h
      have h0 : Except.ok v = (do let r ← g k t dt y prev; let D ← Dg k t dt y prev; pure (r, D * S.basis) : Except Exc ((p → K) × Matrix p n K)) := h
      obtain ⟨r, D, hg, hd, hv⟩ : ∃ r D, g k t dt y prev = .ok r ∧ Dg k t dt y prev = .ok D ∧ v = (r, D * S.basis) := by
        rcases hg : g k t dt y prev with e' | r
        · rw [hg] at h0; cases h0
        · rcases hd : Dg k t dt y prev with e' | D
          · rw [hg, hd] at h0; cases h0
          · rw [hg, hd] at h0; cases h0; exact ⟨r, D, rfl, rfl, rfl⟩
      refine ⟨⟨data, tr, he, v.1, v.2⟩, rfl, rfl, ?_, ?_⟩
      · unfold rawFD
        rw [hg, hd]
        simp only [catchDiscrete, Prog.catchE, callDFom, call, hc, if_true]
        rfl
      · intro a ha; unfold rawFD at ha; rw [hg, hd] at ha; cases ha; subst hv; exact ⟨rfl, fun _ => rfl, by simp⟩

theorem fullyDiscrete_def (N : Nat) (S : Trial K m n) (g : Int → K → K → (m → K) → List (m → K) → Except Exc (p → K)) (Dg : Int → K → K → (m → K) → List (m → K) → Except Exc (Matrix p m K))
    (init : m → K) (hist : List (n → K)) (t dt : K) (x : n → K) (w : Bool) :
    fullyDiscrete N S g Dg init hist t dt x w = (rawFD S g Dg hist.length (t + dt) dt w (lift S x) ((hist.map (lift S) ++ [init]).take (N - 1))).mapError trD := rfl

theorem queryFom_run {N : Nat} (hN : N = 2 ∨ N = 3) {F : DFom K m p n} {g : Int → K → K → (m → K) → List (m → K) → Except Exc (p → K)} {Dg : Int → K → K → (m → K) → List (m → K) → Except Exc (Matrix p m K)}
    (hF : DFomIs F g Dg) (S : Trial K m n) (init : m → K) (y : n → K) (prev : List (n → K)) (states : List (n → K)) (hs : states[0]? = some y) (t dt : K) (w : Bool) (x : n → K)
    (s : LMem K m p n) (h : Good N S init (y :: prev) s) :
    ∃ s', During N S init (y :: prev) s' ∧ queryFom N S F (y :: prev).length (t + dt) dt w x states s = settle ((fullyDiscrete N S g Dg init (y :: prev) t dt x w).map (fun _ => ())) s' ∧
      ∀ a, fullyDiscrete N S g Dg init (y :: prev) t dt x w = .ok a → s'.R = a.1 ∧ (w = true → a.2 = some s'.J) ∧ (w = false → a.2 = none) := by
  unfold queryFom
  rw [bind_ok (track_run hN S init y prev x states hs s h)]
  have hprev : (((y :: prev).map (lift S) ++ [init]).take (N - 1)) = tailData N S init y prev := by
    rcases hN with rfl | rfl
    · simp [tailData]
    · cases prev <;> simp [tailData, older]
  have e1 : fomAt .nPlusOne { s with data := lift S x :: tailData N S init y prev, tracker := ((y :: prev).length : Int) } =
      .ok (lift S x) { s with data := lift S x :: tailData N S init y prev, tracker := ((y :: prev).length : Int) } := by
    simp [fomAt, mgrRead]
  rw [bind_ok e1]
  have e2 : previous N { s with data := lift S x :: tailData N S init y prev, tracker := ((y :: prev).length : Int) } =
      .ok (tailData N S init y prev) { s with data := lift S x :: tailData N S init y prev, tracker := ((y :: prev).length : Int) } := by
    rcases hN with rfl | rfl
    · simp [previous, fomAt, mgrRead, tailData, Prog.bind_run]
    · simp [previous, fomAt, mgrRead, tailData, Prog.bind_run]
  rw [bind_ok e2]
  obtain ⟨s', h1, h2, h3, h4⟩ := callDFom_run hF S (y :: prev).length (t + dt) dt w (lift S x) (tailData N S init y prev) { s with data := lift S x :: tailData N S init y prev, tracker := ((y :: prev).length : Int) }
  refine ⟨s', ⟨y, prev, lift S x, rfl, h1, h2⟩, ?_, ?_⟩
  · rw [h3, fullyDiscrete_def, hprev]
  · intro a ha
    rw [fullyDiscrete_def, hprev] at ha
    refine h4 a ?_
    generalize rawFD S g Dg (y :: prev).length (t + dt) dt w (lift S x) (tailData N S init y prev) = res at *
    rcases res with e | b
    · cases ha
    · cases ha; rfl

/-- what the stepper's own translation does to the equations: nothing (the systems have done it already) -/
theorem translated_id {A : Type} (G : List (n → K) → K → K → (n → K) → Bool → Except Exc A) (h : ∀ hist t dt x w, G hist t dt x w ≠ .error .discreteTimeResidualFailureUnrecoverable) : translated G = G := by
  funext hist t dt x w
  unfold translated
  rcases hG : G hist t dt x w with e | a
  · have : e ≠ .discreteTimeResidualFailureUnrecoverable := fun he => h hist t dt x w (by rw [hG, he])
    simp [Except.mapError, this]
  · rfl

theorem fullyDiscrete_ne (N : Nat) (S : Trial K m n) (g : Int → K → K → (m → K) → List (m → K) → Except Exc (p → K)) (Dg : Int → K → K → (m → K) → List (m → K) → Except Exc (Matrix p m K))
    (init : m → K) (hist : List (n → K)) (t dt : K) (x : n → K) (w : Bool) : fullyDiscrete N S g Dg init hist t dt x w ≠ .error .discreteTimeResidualFailureUnrecoverable := by
  rw [fullyDiscrete_def]
  generalize rawFD S g Dg hist.length (t + dt) dt w (lift S x) ((hist.map (lift S) ++ [init]).take (N - 1)) = res
  rcases res with e | a
  · intro h
    simp only [Except.mapError, Except.error.injEq, trD] at h
    split at h
    · cases h
    · rename_i h'; exact h' h
  · intro h; cases h

/-- the FOM never throws the stepper's own exception -/
def DFomNoTSF (g : Int → K → K → (m → K) → List (m → K) → Except Exc (p → K)) (Dg : Int → K → K → (m → K) → List (m → K) → Except Exc (Matrix p m K)) : Prop :=
  (∀ k t dt y prev, g k t dt y prev ≠ .error .timeStepFailure) ∧ ∀ k t dt y prev, Dg k t dt y prev ≠ .error .timeStepFailure

theorem fullyDiscrete_noTSF {g : Int → K → K → (m → K) → List (m → K) → Except Exc (p → K)} {Dg : Int → K → K → (m → K) → List (m → K) → Except Exc (Matrix p m K)} (hn : DFomNoTSF g Dg)
    (N : Nat) (S : Trial K m n) (init : m → K) (hist : List (n → K)) (t dt : K) (x : n → K) (w : Bool) : fullyDiscrete N S g Dg init hist t dt x w ≠ .error .timeStepFailure := by
  rw [fullyDiscrete_def]
  unfold rawFD
  have htr : ∀ e, e ≠ .timeStepFailure → trD e ≠ .timeStepFailure := by
    intro e he; unfold trD; split
    · simp
    · exact he
  rcases hg : g hist.length (t + dt) dt (lift S x) ((hist.map (lift S) ++ [init]).take (N - 1)) with e | r
  · intro h
    simp only [error_bind, Except.mapError, Except.error.injEq] at h
    exact htr e (fun he => hn.1 _ _ _ _ _ (by rw [hg, he])) h
  · cases w with
    | false => intro h; cases h
    | true =>
      rcases hd : Dg hist.length (t + dt) dt (lift S x) ((hist.map (lift S) ++ [init]).take (N - 1)) with e | D
      · intro h
        simp only [ok_bind, Except.map, if_true, error_bind, Except.mapError, Except.error.injEq] at h
        exact htr e (fun he => hn.2 _ _ _ _ _ (by rw [hd, he])) h
      · intro h; cases h

/-- a fully discrete problem that is new, or whose last evaluation was not in step 1 -/
def FDReady {K m p n : Type} (N : Nat) (stencil : AMem K (n → K)) (s : LMem K m p n) : Prop := stencil.states.length = N - 1 ∧ s.data.length = N ∧ s.tracker ≠ 1

/-- **C57, LSPG.** Fully discrete LSPG with 2 or 3 states: in every run the FOM's discrete residual is called with the step number, time and step size of the attempt, with `Phi x + s` and with the accepted
    states, lifted (in the first step of a problem with three states the missing older state is what the manager's slot contained before, zero in a new problem); its residual and Jacobian are the answer. -/
theorem C57_lspg_run_is_ideal {N : Nat} (hN : N = 2 ∨ N = 3) {F : DFom K m p n} {g : Int → K → K → (m → K) → List (m → K) → Except Exc (p → K)} {Dg : Int → K → K → (m → K) → List (m → K) → Except Exc (Matrix p m K)}
    (hF : DFomIs F g Dg) (hn : DFomNoTSF g Dg) (S : Trial K m n) (st : AMem K (n → K)) (s : LMem K m p n) (hr : FDReady N st s)
    (atts : List (Attempt K (n → K) ((p → K) × Option (Matrix p n K)))) (hon : ∀ a ∈ atts, ∀ y, Honest (a.solver y)) (hask : ∀ a ∈ atts, ∀ y, Asks (a.solver y)) (t0 : K) (x0 : n → K) :
    drive (fun solver t dt k => arbStepS (lspgDiscrete N S F) (N - 1) solver t dt k) atts t0 [x0] x0 (st, s) =
      ideal (fullyDiscrete N S g Dg (s.data.getD 1 0)) atts t0 x0 [] := by
  have href : SystemRefinesA (lspgDiscrete N S F) (N - 1) st.states (fullyDiscrete N S g Dg (s.data.getD 1 0)) (Good N S (s.data.getD 1 0)) (During N S (s.data.getD 1 0)) := by
    refine ⟨?_, fun _ _ _ h => h.good, fun y' _ _ _ h => h.accept hN y'⟩
    intro y prev t dt x w s1 h1
    obtain ⟨s', i1, i2, i3⟩ := queryFom_run hN hF S (s.data.getD 1 0) y prev (((y :: prev) ++ st.states).take (N - 1)) (by rcases hN with rfl | rfl <;> rfl) t dt w x s1 h1
    refine ⟨s', i1, ?_⟩
    unfold lspgDiscrete
    rcases hfd : fullyDiscrete N S g Dg (s.data.getD 1 0) (y :: prev) t dt x w with e | a
    · rw [hfd] at i2
      simp only [Prog.bind_run, i2]
      rfl
    · rw [hfd] at i2
      obtain ⟨j1, j2, j3⟩ := i3 a hfd
      simp only [Prog.bind_run, i2]
      obtain ⟨a1, a2⟩ := a
      cases w with
      | false =>
        obtain rfl : a2 = none := j3 rfl
        simp only at j1
        simp [settle, Except.map, result, j1]
      | true =>
        obtain rfl : a2 = some s'.J := j2 rfl
        simp only at j1
        simp [settle, Except.map, result, j1]
  have := drive_eq_ideal_asked _ _ _ (refines_arbS _ (N - 1) (by rcases hN with rfl | rfl <;> simp) st.states hr.1 _ _ _ href)
    (by rw [translated_id _ (fullyDiscrete_ne N S g Dg _)]; exact fullyDiscrete_noTSF hn N S _) atts hon hask t0 x0 [] (st, s)
    ⟨by rw [List.tail_cons, List.nil_append]; exact (List.take_of_length_le hr.1.le).symm, good_start N S x0 s hr.2.1 (by rcases hN with rfl | rfl <;> simp) hr.2.2⟩
  rw [translated_id _ (fullyDiscrete_ne N S g Dg _)] at this
  exact this

/-- the projected equations: vectors by `pv`, matrices by `pm` -/
def projected {p' : Type} (pv : K → (p → K) → (p' → K)) (pm : K → Matrix p n K → Matrix p' n K) (base : List (n → K) → K → K → (n → K) → Bool → Except Exc ((p → K) × Option (Matrix p n K)))
    (hist : List (n → K)) (t dt : K) (x : n → K) (w : Bool) : Except Exc ((p' → K) × Option (Matrix p' n K)) :=
  (base hist t dt x w).map (fun a => (pv (t + dt) a.1, a.2.map (pm (t + dt))))

theorem projected_ne {p' : Type} (pv : K → (p → K) → (p' → K)) (pm : K → Matrix p n K → Matrix p' n K) (base : List (n → K) → K → K → (n → K) → Bool → Except Exc ((p → K) × Option (Matrix p n K))) (e0 : Exc)
    (h : ∀ hist t dt x w, base hist t dt x w ≠ .error e0) (hist : List (n → K)) (t dt : K) (x : n → K) (w : Bool) : projected pv pm base hist t dt x w ≠ .error e0 := by
  unfold projected
  rcases hb : base hist t dt x w with e | a
  · intro h'; cases h'; exact h _ _ _ _ _ hb
  · intro h'; cases h'

/-- **C57, Galerkin.** The reduced operators are `Phi^T` times those of fully discrete LSPG, in every run. -/
theorem C57_galerkin_run_is_ideal {N : Nat} (hN : N = 2 ∨ N = 3) {F : DFom K m m n} {g : Int → K → K → (m → K) → List (m → K) → Except Exc (m → K)} {Dg : Int → K → K → (m → K) → List (m → K) → Except Exc (Matrix m m K)}
    (hF : DFomIs F g Dg) (hn : DFomNoTSF g Dg) (S : Trial K m n) (st : AMem K (n → K)) (s : DGMem K m m n) (hr : FDReady N st s.1)
    (atts : List (Attempt K (n → K) ((n → K) × Option (Matrix n n K)))) (hon : ∀ a ∈ atts, ∀ y, Honest (a.solver y)) (hask : ∀ a ∈ atts, ∀ y, Asks (a.solver y)) (t0 : K) (x0 : n → K) :
    drive (fun solver t dt k => arbStepS (galerkinDiscrete N S F) (N - 1) solver t dt k) atts t0 [x0] x0 (st, s) =
      ideal (projected (fun _ v => S.basisᵀ.mulVec v) (fun _ B => S.basisᵀ * B) (fullyDiscrete N S g Dg (s.1.data.getD 1 0))) atts t0 x0 [] := by
  set G := projected (fun _ v => S.basisᵀ.mulVec v) (fun _ B => S.basisᵀ * B) (fullyDiscrete N S g Dg (s.1.data.getD 1 0)) with hG
  have href : SystemRefinesA (galerkinDiscrete N S F) (N - 1) st.states G (fun hist s' => Good N S (s.1.data.getD 1 0) hist s'.1) (fun hist s' => During N S (s.1.data.getD 1 0) hist s'.1) := by
    refine ⟨?_, fun _ _ _ h => h.good, fun y' _ _ _ h => h.accept hN y'⟩
    rintro y prev t dt x w ⟨s1, r1, j1⟩ h1
    obtain ⟨s', i1, i2, i3⟩ := queryFom_run hN hF S (s.1.data.getD 1 0) y prev (((y :: prev) ++ st.states).take (N - 1)) (by rcases hN with rfl | rfl <;> rfl) t dt w x s1 h1
    rcases hfd : fullyDiscrete N S g Dg (s.1.data.getD 1 0) (y :: prev) t dt x w with e | a
    · rw [hfd] at i2
      refine ⟨(s', r1, j1), i1, ?_⟩
      simp only [galerkinDiscrete, i2, hG, projected, hfd]
      rfl
    · rw [hfd] at i2
      obtain ⟨e1, e2, e3⟩ := i3 a hfd
      obtain ⟨a1, a2⟩ := a
      cases w with
      | false =>
        obtain rfl : a2 = none := e3 rfl
        simp only at e1
        refine ⟨(s', S.basisᵀ.mulVec s'.R, j1), i1, ?_⟩
        simp only [galerkinDiscrete, i2, hG, projected, hfd]
        simp [settle, Except.map, e1]
      | true =>
        obtain rfl : a2 = some s'.J := e2 rfl
        simp only at e1
        refine ⟨(s', S.basisᵀ.mulVec s'.R, S.basisᵀ * s'.J), i1, ?_⟩
        simp only [galerkinDiscrete, i2, hG, projected, hfd]
        simp [settle, Except.map, e1]
  have htr : translated G = G := translated_id _ (projected_ne _ _ _ _ (fullyDiscrete_ne N S g Dg _))
  have := drive_eq_ideal_asked _ _ _ (refines_arbS _ (N - 1) (by rcases hN with rfl | rfl <;> simp) st.states hr.1 _ _ _ href)
    (by rw [htr]; exact projected_ne _ _ _ _ (fullyDiscrete_noTSF hn N S _)) atts hon hask t0 x0 [] (st, s)
    ⟨by rw [List.tail_cons, List.nil_append]; exact (List.take_of_length_le hr.1.le).symm, good_start N S x0 s.1 hr.2.1 (by rcases hN with rfl | rfl <;> simp) hr.2.2⟩
  rw [htr] at this
  exact this

/-- **C57, hyper-reduced Galerkin.** The reduced operators are the hyper-reducer (at the end time of the step) applied to those of fully discrete LSPG, in every run. -/
theorem C57_hypred_galerkin_run_is_ideal {N : Nat} (hN : N = 2 ∨ N = 3) {F : DFom K m p n} {g : Int → K → K → (m → K) → List (m → K) → Except Exc (p → K)} {Dg : Int → K → K → (m → K) → List (m → K) → Except Exc (Matrix p m K)}
    (hF : DFomIs F g Dg) (hn : DFomNoTSF g Dg) {H : HypRed K p n} {hv : K → (p → K) → (n → K)} {hm : K → Matrix p n K → Matrix n n K} (hH : HypIs H hv hm) (S : Trial K m n) (st : AMem K (n → K)) (s : DGMem K m p n) (hr : FDReady N st s.1)
    (atts : List (Attempt K (n → K) ((n → K) × Option (Matrix n n K)))) (hon : ∀ a ∈ atts, ∀ y, Honest (a.solver y)) (hask : ∀ a ∈ atts, ∀ y, Asks (a.solver y)) (t0 : K) (x0 : n → K) :
    drive (fun solver t dt k => arbStepS (galerkinHypredDiscrete N S F H) (N - 1) solver t dt k) atts t0 [x0] x0 (st, s) =
      ideal (projected hv hm (fullyDiscrete N S g Dg (s.1.data.getD 1 0))) atts t0 x0 [] := by
  set G := projected hv hm (fullyDiscrete N S g Dg (s.1.data.getD 1 0)) with hG
  have href : SystemRefinesA (galerkinHypredDiscrete N S F H) (N - 1) st.states G (fun hist s' => Good N S (s.1.data.getD 1 0) hist s'.1) (fun hist s' => During N S (s.1.data.getD 1 0) hist s'.1) := by
    refine ⟨?_, fun _ _ _ h => h.good, fun y' _ _ _ h => h.accept hN y'⟩
    rintro y prev t dt x w ⟨s1, r1, j1⟩ h1
    obtain ⟨s', i1, i2, i3⟩ := queryFom_run hN hF S (s.1.data.getD 1 0) y prev (((y :: prev) ++ st.states).take (N - 1)) (by rcases hN with rfl | rfl <;> rfl) t dt w x s1 h1
    rcases hfd : fullyDiscrete N S g Dg (s.1.data.getD 1 0) (y :: prev) t dt x w with e | a
    · rw [hfd] at i2
      refine ⟨(s', r1, j1), i1, ?_⟩
      simp only [galerkinHypredDiscrete, i2, hG, projected, hfd]
      rfl
    · rw [hfd] at i2
      obtain ⟨e1, e2, e3⟩ := i3 a hfd
      obtain ⟨a1, a2⟩ := a
      cases w with
      | false =>
        obtain rfl : a2 = none := e3 rfl
        simp only at e1
        refine ⟨(s', hv (t + dt) s'.R, j1), i1, ?_⟩
        simp only [galerkinHypredDiscrete, i2, hG, projected, hfd, Except.map, settle, hH.vec]
        simp [e1]
      | true =>
        obtain rfl : a2 = some s'.J := e2 rfl
        simp only at e1
        refine ⟨(s', hv (t + dt) s'.R, hm (t + dt) s'.J), i1, ?_⟩
        simp only [galerkinHypredDiscrete, i2, hG, projected, hfd, Except.map, settle, hH.vec, hH.mat]
        simp [e1]
  have htr : translated G = G := translated_id _ (projected_ne _ _ _ _ (fullyDiscrete_ne N S g Dg _))
  have := drive_eq_ideal_asked _ _ _ (refines_arbS _ (N - 1) (by rcases hN with rfl | rfl <;> simp) st.states hr.1 _ _ _ href)
    (by rw [htr]; exact projected_ne _ _ _ _ (fullyDiscrete_noTSF hn N S _)) atts hon hask t0 x0 [] (st, s)
    ⟨by rw [List.tail_cons, List.nil_append]; exact (List.take_of_length_le hr.1.le).symm, good_start N S x0 s.1 hr.2.1 (by rcases hN with rfl | rfl <;> simp) hr.2.2⟩
  rw [htr] at this
  exact this

end
end Pressio.Props
