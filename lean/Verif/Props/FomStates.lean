import Verif.Props.FullyDiscrete

/-
  C56: the FOM states manager.  C55: steady LSPG.  C53, C57: more about fully discrete problems, instances.
-/
namespace Pressio.Props
set_option autoImplicit false
set_option linter.unusedSectionVars false
open Pressio Pressio.Model.Galerkin Pressio.Model.Lspg Pressio.Spec.Galerkin Pressio.Spec.Lspg Pressio.Model.Implicit Pressio.Lemmas.Implicit Pressio.Spec.Implicit
open scoped Matrix

section
variable {K m p q n : Type} [Field K] [Fintype m] [Fintype p] [Fintype q] [Fintype n]

/-! ### C56 -/

/-- calls of the manager: `reconstructAtWithStencilUpdate(x, n)` and `reconstructAtWithoutStencilUpdate(x, tag)` -/
inductive MgrOp (K n : Type) where
  | push (x : n → K)
  | set (tag : Slot) (x : n → K)

def MgrOp.run (S : Trial K m n) : MgrOp K n → Mgr K m → Option (Mgr K m)
  | .push x, d => mgrPush S x d
  | .set tag x, d => mgrSet S x tag d

/-- the manager as it should be: a full state at each of the four positions -/
def stateHistory (S : Trial K m n) : List (MgrOp K n) → Slot → (m → K)
  | [] => fun _ => 0
  | .push x :: before => fun tag => match tag with
    | .nPlusOne => stateHistory S before .nPlusOne
    | .n => lift S x
    | .nMinusOne => stateHistory S before .n
    | .nMinusTwo => stateHistory S before .nMinusOne
  | .set t x :: before => fun tag => if tag = t then lift S x else stateHistory S before tag

/-- position in a manager with `N` states -/
def Slot.pos : Slot → Nat
  | .nPlusOne => 0
  | .n => 1
  | .nMinusOne => 2
  | .nMinusTwo => 3

/-- the calls refer to existing positions, and none to the position n-2 -/
def MgrOp.InRange (N : Nat) : MgrOp K n → Prop
  | .push _ => True
  | .set tag _ => Slot.pos tag < N ∧ tag ≠ .nMinusTwo

/-- **C56 (false for n-2).** After any sequence of calls (newest first), except those that write position n-2, on a new manager of 2, 3 or 4 states: no call left the storage and every existing position holds what it should. -/
theorem C56_manager_partial (S : Trial K m n) (N : Nat) (hN : N = 2 ∨ N = 3 ∨ N = 4) (ops : List (MgrOp K n)) (h : ∀ o ∈ ops, o.InRange N) :
    ∃ d, ops.foldr (fun o d => d >>= o.run S) (some (createMgr N)) = some d ∧ d.length = N ∧ ∀ tag, mgrRead tag d = if Slot.pos tag < N then some (stateHistory S ops tag) else none := by
  induction ops with
  | nil =>
    refine ⟨_, rfl, by simp [createMgr], fun tag => ?_⟩
    rcases hN with rfl | rfl | rfl <;> cases tag <;> simp [createMgr, mgrRead, Slot.pos, stateHistory]
  | cons o before ih =>
    obtain ⟨d, h1, h2, h3⟩ := ih (fun o' ho => h o' (by simp [ho]))
    have ho := h o (by simp)
    rw [List.foldr_cons, h1]
    have r0 := h3 .nPlusOne
    have r1 := h3 .n
    have r2 := h3 .nMinusOne
    have r3 := h3 .nMinusTwo
    rcases hN with rfl | rfl | rfl
    · obtain ⟨a, b, rfl⟩ := List.length_eq_two.1 h2
      simp [mgrRead, Slot.pos] at r0 r1
      cases o with
      | push x =>
        refine ⟨_, rfl, rfl, fun tag => ?_⟩
        cases tag <;> simp [mgrRead, Slot.pos, stateHistory, trial_map_lift, r0]
      | set t x =>
        cases t <;> simp [MgrOp.InRange, Slot.pos] at ho
        · exact ⟨_, rfl, rfl, fun tag => by cases tag <;> simp [mgrRead, Slot.pos, stateHistory, trial_map_lift, r1]⟩
        · exact ⟨_, rfl, rfl, fun tag => by cases tag <;> simp [mgrRead, Slot.pos, stateHistory, trial_map_lift, r0]⟩
    · obtain ⟨a, b, c, rfl⟩ := List.length_eq_three.1 h2
      simp [mgrRead, Slot.pos] at r0 r1 r2
      cases o with
      | push x =>
        refine ⟨_, rfl, rfl, fun tag => ?_⟩
        cases tag <;> simp [mgrRead, Slot.pos, stateHistory, trial_map_lift, r0, r1]
      | set t x =>
        cases t <;> simp [MgrOp.InRange, Slot.pos] at ho
        · exact ⟨_, rfl, rfl, fun tag => by cases tag <;> simp [mgrRead, Slot.pos, stateHistory, trial_map_lift, r1, r2]⟩
        · exact ⟨_, rfl, rfl, fun tag => by cases tag <;> simp [mgrRead, Slot.pos, stateHistory, trial_map_lift, r0, r2]⟩
        · exact ⟨_, rfl, rfl, fun tag => by cases tag <;> simp [mgrRead, Slot.pos, stateHistory, trial_map_lift, r0, r1]⟩
    · obtain ⟨a, b, c, e, rfl⟩ : ∃ a b c e, d = [a, b, c, e] := by
        match d, h2 with
        | [a, b, c, e], _ => exact ⟨a, b, c, e, rfl⟩
      simp [mgrRead, Slot.pos] at r0 r1 r2 r3
      cases o with
      | push x =>
        refine ⟨_, rfl, rfl, fun tag => ?_⟩
        cases tag <;> simp [mgrRead, Slot.pos, stateHistory, trial_map_lift, r0, r1, r2]
      | set t x =>
        cases t <;> simp [MgrOp.InRange, Slot.pos] at ho
        · exact ⟨_, rfl, rfl, fun tag => by cases tag <;> simp [mgrRead, Slot.pos, stateHistory, trial_map_lift, r1, r2, r3]⟩
        · exact ⟨_, rfl, rfl, fun tag => by cases tag <;> simp [mgrRead, Slot.pos, stateHistory, trial_map_lift, r0, r2, r3]⟩
        · exact ⟨_, rfl, rfl, fun tag => by cases tag <;> simp [mgrRead, Slot.pos, stateHistory, trial_map_lift, r0, r1, r3]⟩

/-- what the history is after pushes only: the full states of the last reduced states pushed, then zeros -/
theorem C56_pushes (S : Trial K m n) (xs : List (n → K)) :
    stateHistory S (xs.map .push) .n = (xs.map (lift S)).getD 0 0 ∧ stateHistory S (xs.map .push) .nMinusOne = (xs.map (lift S)).getD 1 0 ∧
      stateHistory S (xs.map .push) .nMinusTwo = (xs.map (lift S)).getD 2 0 := by
  match xs with
  | [] => exact ⟨rfl, rfl, rfl⟩
  | [a] => exact ⟨rfl, rfl, rfl⟩
  | [a, b] => exact ⟨rfl, rfl, rfl⟩
  | a :: b :: c :: r => exact ⟨rfl, rfl, rfl⟩

/-- **C56 is false for n-2**: in a manager of four states, where the position exists and the assertion of the function holds, the call writes outside of the storage. -/
theorem C56_n_minus_two_refuted (S : Trial K m n) (x : n → K) (d : Mgr K m) (h : d.length = 4) : mgrSet S x .nMinusTwo d = none := by
  simp [mgrSet, h]

/-- The managers that pressio creates have two or three states: the position n-2 does not exist in them. -/
theorem C56_created_sizes (N : Nat) (d : Mgr K m) (h : createMgrN N = .ok d) : (N = 2 ∨ N = 3) ∧ d = createMgr N := by
  unfold createMgrN at h
  split at h
  · rename_i hN; cases h; exact ⟨Or.inl hN, by rw [hN]⟩
  · split at h
    · rename_i hN; cases h; exact ⟨Or.inr hN, by rw [hN]⟩
    · cases h

/-- instance: `n-1` set directly, then two pushes -/
example : ∀ o ∈ ([.push ![2], .push ![1], .set .nMinusOne ![7]] : List (MgrOp ℚ (Fin 1))), o.InRange 3 := by
  simp only [List.mem_cons, List.not_mem_nil, or_false]
  rintro o (rfl | rfl | rfl) <;> simp [MgrOp.InRange, Slot.pos]

/-! ### C57: each evaluation; first step; reuse -/

/-- **C57**, evaluation by evaluation (LSPG) -/
theorem C57_lspg_every_evaluation {N : Nat} (hN : N = 2 ∨ N = 3) {F : DFom K m p n} {g : Int → K → K → (m → K) → List (m → K) → Except Exc (p → K)} {Dg : Int → K → K → (m → K) → List (m → K) → Except Exc (Matrix p m K)}
    (hF : DFomIs F g Dg) (hn : DFomNoTSF g Dg) (S : Trial K m n) (st : AMem K (n → K)) (s : LMem K m p n) (hr : FDReady N st s)
    (atts : List (Attempt K (n → K) ((p → K) × Option (Matrix p n K)))) (hon : ∀ a ∈ atts, ∀ y, Honest (a.solver y)) (hask : ∀ a ∈ atts, ∀ y, Asks (a.solver y)) (t0 : K) (x0 : n → K)
    (pre post : List (Record K (n → K) ((p → K) × Option (Matrix p n K)))) (r : Record K (n → K) ((p → K) × Option (Matrix p n K)))
    (h : drive (fun solver t dt k => arbStepS (lspgDiscrete N S F) (N - 1) solver t dt k) atts t0 [x0] x0 (st, s) = pre ++ r :: post) :
    r.hist = accepted x0 pre ∧ r.t = timeAfter t0 pre ∧ ∀ q ∈ r.queries, q.ans = fullyDiscrete N S g Dg (s.data.getD 1 0) (accepted x0 pre) (timeAfter t0 pre) r.dt q.x q.wantJ :=
  every_evaluation_of_ideal _ _ atts t0 x0 (st, s) (C57_lspg_run_is_ideal hN hF hn S st s hr atts hon hask t0 x0) pre post r h

/-- After the first accepted step (or with two states) the initial content of the manager does not matter: the FOM gets exactly accepted states. -/
theorem C57_accepted_states_only {N : Nat} (hN : N = 2 ∨ N = 3) (S : Trial K m n) (init : m → K) (hist : List (n → K)) (h : N - 1 ≤ hist.length) :
    (hist.map (lift S) ++ [init]).take (N - 1) = (hist.map (lift S)).take (N - 1) :=
  List.take_append_of_le_length (by simpa using h)

/-- a new problem is ready, and `init` is zero in it -/
theorem C57_new_problem_ready (N : Nat) (d : Mgr K m) (h : createMgrN N = .ok d) (helper : m → K) (R : p → K) (J : Matrix p n K) (st : AMem K (n → K)) (hst : st.states.length = N - 1) :
    FDReady N st (⟨d, -1, helper, R, J⟩ : LMem K m p n) ∧ d.getD 1 0 = 0 := by
  obtain ⟨hN, rfl⟩ := C56_created_sizes N d h
  refine ⟨⟨hst, by simp [createMgr], by simp⟩, ?_⟩
  rcases hN with rfl | rfl <;> rfl

/-- **In the first step of a new problem with three states** the FOM is given the zero vector as state n-1, not a point of the trial space: with `Phi z + s ≠ 0` for every `z` no reduced state represents it. -/
theorem C57_first_step_older_state (S : Trial K m n) (g : Int → K → K → (m → K) → List (m → K) → Except Exc (p → K)) (Dg : Int → K → K → (m → K) → List (m → K) → Except Exc (Matrix p m K))
    (x0 x : n → K) (t dt : K) (r : p → K) (h : g 1 (t + dt) dt (lift S x) [lift S x0, 0] = .ok r) :
    fullyDiscrete 3 S g Dg 0 [x0] t dt x false = .ok (r, none) := by
  show (rawFD S g Dg 1 (t + dt) dt false (lift S x) [lift S x0, 0]).mapError trD = _
  unfold rawFD
  rw [h]
  rfl
example : ∀ z : Fin 1 → ℚ, lift trial2 z ≠ 0 := by
  intro z h
  have h0 := congrFun h 0
  have h1 := congrFun h 1
  simp [lift, trial2, Matrix.mulVec, dotProduct] at h0 h1
  linarith

theorem ideal_congr {A : Type} (F F' : List (n → K) → K → K → (n → K) → Bool → Except Exc A) (h : ∀ y prev, F (y :: prev) = F' (y :: prev)) (atts : List (Attempt K (n → K) A)) (t : K) (y : n → K) (prev : List (n → K)) :
    ideal F atts t y prev = ideal F' atts t y prev := by
  induction atts generalizing t y prev with
  | nil => rfl
  | cons a rest ih =>
    simp only [ideal, h]
    split
    · rw [ih]
    · rw [ih]
    · rfl

/-- **C53, fully discrete, what holds.** Runs of two ready problems (one new, one used) agree if there are two states, or if the discrete residual does not use the state n-1 in step 1. -/
theorem C53_fully_discrete_partial {N : Nat} (hN : N = 2 ∨ N = 3) {F : DFom K m p n} {g : Int → K → K → (m → K) → List (m → K) → Except Exc (p → K)} {Dg : Int → K → K → (m → K) → List (m → K) → Except Exc (Matrix p m K)}
    (hF : DFomIs F g Dg) (hn : DFomNoTSF g Dg) (S : Trial K m n) (st st' : AMem K (n → K)) (used new : LMem K m p n) (hu : FDReady N st used) (hnew : FDReady N st' new)
    (hg : N = 2 ∨ ∀ t dt y yn z z', g 1 t dt y [yn, z] = g 1 t dt y [yn, z'] ∧ Dg 1 t dt y [yn, z] = Dg 1 t dt y [yn, z'])
    (atts : List (Attempt K (n → K) ((p → K) × Option (Matrix p n K)))) (hon : ∀ a ∈ atts, ∀ y, Honest (a.solver y)) (hask : ∀ a ∈ atts, ∀ y, Asks (a.solver y)) (t0 : K) (x0 : n → K) :
    drive (fun solver t dt k => arbStepS (lspgDiscrete N S F) (N - 1) solver t dt k) atts t0 [x0] x0 (st, used) =
      drive (fun solver t dt k => arbStepS (lspgDiscrete N S F) (N - 1) solver t dt k) atts t0 [x0] x0 (st', new) := by
  rw [C57_lspg_run_is_ideal hN hF hn S st used hu atts hon hask, C57_lspg_run_is_ideal hN hF hn S st' new hnew atts hon hask]
  refine ideal_congr _ _ ?_ _ _ _ _
  intro y prev
  funext t dt x w
  rw [fullyDiscrete_def, fullyDiscrete_def]
  rcases hN with rfl | rfl
  · rfl
  · cases prev with
    | nil =>
      rcases hg with hg | hg
      · omega
      · simp only [List.map_cons, List.map_nil, List.cons_append, List.nil_append, List.take, Nat.reduceSub, rawFD, List.length_cons, List.length_nil, Nat.cast_one, zero_add]
        rw [(hg (t + dt) dt (lift S x) (lift S y) _ (new.data.getD 1 0)).1, (hg (t + dt) dt (lift S x) (lift S y) _ (new.data.getD 1 0)).2]
    | cons z r => rfl

end

/-- a fully discrete FOM: `y - y_n - dt (y_0 y_1, t + y_1)`, using also `y_{n-1}` if it is given; fails where `y_1 = 100` -/
def dfom2 : DFom ℚ (Fin 2) (Fin 2) (Fin 1) where
  eval := fun _ t dt B w y prev b =>
    if y 1 = 100 then .error (.discreteTimeResidualFailureUnrecoverable, b) else
      .ok (y - prev.getD 0 0 + prev.getD 1 0 - dt • ![y 0 * y 1, t + y 1], if w then (1 - dt • !![y 1, y 0; 0, 1]) * B else b.2)

theorem dfom2_is : DFomIs dfom2
    (fun _ t dt y prev => if y 1 = 100 then .error .discreteTimeResidualFailureUnrecoverable else .ok (y - prev.getD 0 0 + prev.getD 1 0 - dt • ![y 0 * y 1, t + y 1]))
    (fun _ _ dt y _ => .ok (1 - dt • !![y 1, y 0; 0, 1])) where
  residualOnly := fun k t dt B y prev b => by
    simp only [dfom2]; split <;> rfl
  residualAndJac := fun k t dt B y prev b => by
    simp only [dfom2]; split <;> rfl

theorem dfom2_noTSF : DFomNoTSF
    (fun (_ : Int) (t dt : ℚ) (y : Fin 2 → ℚ) prev => if y 1 = 100 then Except.error Exc.discreteTimeResidualFailureUnrecoverable else .ok (y - prev.getD 0 0 + prev.getD 1 0 - dt • ![y 0 * y 1, t + y 1]))
    (fun (_ : Int) (_ dt : ℚ) (y : Fin 2 → ℚ) (_ : List (Fin 2 → ℚ)) => .ok (1 - dt • !![y 1, y 0; 0, 1])) := by
  constructor
  · intro k t dt y prev; dsimp only; split <;> simp
  · intro k t dt y prev; simp

def fdStencil (N : Nat) : AMem ℚ (Fin 1 → ℚ) := ⟨0, 0, 0, List.replicate (N - 1) ![0], ![0]⟩
def fdMem (N : Nat) : LMem ℚ (Fin 2) (Fin 2) (Fin 1) := ⟨List.replicate N 0, -1, ![9, 9], ![8, 8], !![7; 7]⟩

/-- C57: hypotheses, on a run with a failing attempt -/
example := C57_lspg_run_is_ideal (Or.inr rfl) dfom2_is dfom2_noTSF trial2 (fdStencil 3) (fdMem 3) (by refine ⟨?_, ?_, ?_⟩ <;> simp [fdStencil, fdMem]) lspgAtts lspgAtts_ok.1 lspgAtts_ok.2 0 ![0]
example : ((drive (fun solver t dt k => arbStepS (lspgDiscrete 3 trial2 dfom2) 2 solver t dt k) lspgAtts 0 [![0]] ![0] (fdStencil 3, fdMem 3)).map (fun r => (r.hist.length, r.queries.length, r.stop))) =
    [(1, 1, none), (2, 1, some (.exc .timeStepFailure)), (2, 1, none), (3, 1, none)] := by decide +kernel
/-- the failure of the FOM becomes a failed step (compare C65) -/
example : ((drive (fun solver t dt k => arbStepS (lspgDiscrete 3 trial2 dfom2) 2 solver t dt k) lspgAtts 0 [![49/2]] ![49/2] (fdStencil 3, fdMem 3)).map (fun r => r.stop)).head? =
    some (some (.exc .timeStepFailure)) := by decide +kernel

/-- **C53 is false of fully discrete problems, end to end**: two states, a run of one step from `x = 0`, then a run from `x = 1`. -/
theorem C53_fully_discrete_refuted :
    seen (drive (fun solver t dt k => arbStepS (lspgDiscrete 2 trial2 dfom2) 1 solver t dt k) [⟨1/2, gn1⟩] 0 [![1]] ![1]
        (driveEnd (fun solver t dt k => arbStepS (lspgDiscrete 2 trial2 dfom2) 1 solver t dt k) [⟨1/2, gn1⟩] 0 [![0]] ![0] (fdStencil 2, fdMem 2))) ≠
      seen (drive (fun solver t dt k => arbStepS (lspgDiscrete 2 trial2 dfom2) 1 solver t dt k) [⟨1/2, gn1⟩] 0 [![1]] ![1] (fdStencil 2, fdMem 2)) := by
  decide +kernel

/-- **Three states**: even after a run of two steps, a FOM that uses the state n-1 in step 1 sees a state of the previous run. -/
theorem C53_fully_discrete_three_states_refuted :
    seen (drive (fun solver t dt k => arbStepS (lspgDiscrete 3 trial2 dfom2) 2 solver t dt k) [⟨1/2, gn1⟩] 0 [![1]] ![1]
        (driveEnd (fun solver t dt k => arbStepS (lspgDiscrete 3 trial2 dfom2) 2 solver t dt k) [⟨1/2, gn1⟩, ⟨1/2, gn1⟩] 0 [![0]] ![0] (fdStencil 3, fdMem 3))) ≠
      seen (drive (fun solver t dt k => arbStepS (lspgDiscrete 3 trial2 dfom2) 2 solver t dt k) [⟨1/2, gn1⟩] 0 [![1]] ![1] (fdStencil 3, fdMem 3)) := by
  decide +kernel

section
variable {K m p q n : Type} [Field K] [Fintype m] [Fintype p] [Fintype q] [Fintype n]

/-! ### C55: steady problems -/

/-- **C55, steady LSPG.** Residual and Jacobian action of the FOM at `Phi x + s`, then the scaler, once; independent of the buffers; the caller's Jacobian is only changed if it is requested. -/
theorem C55_steady {F : SteadyFom K m p n} {f : (m → K) → Except Exc (p → K)} {Df : (m → K) → Except Exc (Matrix p m K)} (hF : SteadyIs F f Df) (S : Trial K m n) (sc : SteadyScaler K m p n) (x : n → K) (w : Bool)
    (s : (m → K) × (p → K) × Matrix p n K) :
    ∃ s', steadyLspg S F sc x w s = settle ((do
        let r ← f (lift S x)
        let J ← if w then (Df (lift S x)).map (fun D => some (D * S.basis)) else pure none
        sc (lift S x) (r, J) : Except Exc ((p → K) × Option (Matrix p n K)))) s' := by
  simp only [steadyLspg, trial_map_lift]
  cases w with
  | false =>
    have h := hF.residualOnly (lift S x) S.basis (s.2.1, s.2.2)
    rcases hc : F.residualAndJac (lift S x) S.basis false (s.2.1, s.2.2) with ⟨e, v⟩ | v
    · rw [hc] at h
      have hg : f (lift S x) = .error e := h.symm
      rw [hg]; exact ⟨_, rfl⟩
    · rw [hc] at h
      have hg : f (lift S x) = .ok v.1 := h.symm
      rw [hg]
      simp only [ok_bind, Bool.false_eq_true, if_false, pure_bind]
      rcases sc (lift S x) (v.1, none) with e | a
      · exact ⟨_, rfl⟩
      · exact ⟨_, rfl⟩
  | true =>
    have h := hF.residualAndJac (lift S x) S.basis (s.2.1, s.2.2)
    rcases hc : F.residualAndJac (lift S x) S.basis true (s.2.1, s.2.2) with ⟨e, v⟩ | v
    · rw [hc] at h
      have h0 : Except.error e = (do let r ← f (lift S x); let D ← Df (lift S x); pure (r, D * S.basis) : Except Exc ((p → K) × Matrix p n K)) := h
      rcases hg : f (lift S x) with e' | r
      · rw [hg] at h0; cases h0; exact ⟨_, rfl⟩
      · rcases hd : Df (lift S x) with e' | D
        · rw [hg, hd] at h0; cases h0; exact ⟨_, rfl⟩
        · rw [hg, hd] at h0; cases h0
    · rw [hc] at h
      have h0 : Except.ok v = (do let r ← f (lift S x); let D ← Df (lift S x); pure (r, D * S.basis) : Except Exc ((p → K) × Matrix p n K)) := h
      rcases hg : f (lift S x) with e' | r
      · rw [hg] at h0; cases h0
      · rcases hd : Df (lift S x) with e' | D
        · rw [hg, hd] at h0; cases h0
        · rw [hg, hd] at h0; cases h0
          simp only [ok_bind, if_true, Except.map]
          rcases sc (lift S x) (r, some (D * S.basis)) with e | a
          · exact ⟨_, rfl⟩
          · exact ⟨_, rfl⟩

/-- **C55, steady LSPG**: if no Jacobian is requested (and the scaler does not make one up) the caller's matrix is left alone, whatever the outcome -/
theorem C55_steady_jacobian_untouched (F : SteadyFom K m p n) (S : Trial K m n) (sc : SteadyScaler K m p n) (hsc : ∀ y r a, sc y (r, none) = .ok a → a.2 = none) (x : n → K)
    (s : (m → K) × (p → K) × Matrix p n K) : (steadyLspg S F sc x false s).state.2.2 = s.2.2 := by
  simp only [steadyLspg]
  rcases F.residualAndJac (S.map x s.1) S.basis false (s.2.1, s.2.2) with ⟨e, v⟩ | v
  · rfl
  · simp only [Bool.false_eq_true, if_false]
    rcases h : sc (S.map x s.1) (v.1, none) with e | a
    · rfl
    · simp [Res.state, hsc _ _ _ h]

/-- **C55, steady masked LSPG.** The mask of residual and Jacobian action at `Phi x + s`, then the scaler, once. -/
theorem C55_steady_masked {F : SteadyFom K m p n} {f : (m → K) → Except Exc (p → K)} {Df : (m → K) → Except Exc (Matrix p m K)} (hF : SteadyIs F f Df) {Mk : Masker K p q n} {mv : (p → K) → (q → K)}
    {mm : Matrix p n K → Matrix q n K} (hM : MaskIs Mk mv mm) (S : Trial K m n) (sc : SteadyScaler K m q n) (x : n → K) (w : Bool)
    (s : (m → K) × ((p → K) × Matrix p n K) × (q → K) × Matrix q n K) :
    ∃ s', steadyMaskedLspg S F Mk sc x w s = settle ((do
        let r ← f (lift S x)
        let J ← if w then (Df (lift S x)).map (fun D => some (mm (D * S.basis))) else pure none
        sc (lift S x) (mv r, J) : Except Exc ((q → K) × Option (Matrix q n K)))) s' := by
  simp only [steadyMaskedLspg, trial_map_lift, hM.vec, hM.mat]
  cases w with
  | false =>
    have h := hF.residualOnly (lift S x) S.basis s.2.1
    rcases hc : F.residualAndJac (lift S x) S.basis false s.2.1 with ⟨e, v⟩ | v
    · rw [hc] at h
      have hg : f (lift S x) = .error e := h.symm
      rw [hg]; exact ⟨_, rfl⟩
    · rw [hc] at h
      have hg : f (lift S x) = .ok v.1 := h.symm
      rw [hg]
      simp only [ok_bind, Bool.false_eq_true, if_false, pure_bind]
      rcases sc (lift S x) (mv v.1, none) with e | a
      · exact ⟨_, rfl⟩
      · exact ⟨_, rfl⟩
  | true =>
    have h := hF.residualAndJac (lift S x) S.basis s.2.1
    rcases hc : F.residualAndJac (lift S x) S.basis true s.2.1 with ⟨e, v⟩ | v
    · rw [hc] at h
      have h0 : Except.error e = (do let r ← f (lift S x); let D ← Df (lift S x); pure (r, D * S.basis) : Except Exc ((p → K) × Matrix p n K)) := h
      rcases hg : f (lift S x) with e' | r
      · rw [hg] at h0; cases h0; exact ⟨_, rfl⟩
      · rcases hd : Df (lift S x) with e' | D
        · rw [hg, hd] at h0; cases h0; exact ⟨_, rfl⟩
        · rw [hg, hd] at h0; cases h0
    · rw [hc] at h
      have h0 : Except.ok v = (do let r ← f (lift S x); let D ← Df (lift S x); pure (r, D * S.basis) : Except Exc ((p → K) × Matrix p n K)) := h
      rcases hg : f (lift S x) with e' | r
      · rw [hg] at h0; cases h0
      · rcases hd : Df (lift S x) with e' | D
        · rw [hg, hd] at h0; cases h0
        · rw [hg, hd] at h0; cases h0
          simp only [ok_bind, if_true, Except.map]
          rcases sc (lift S x) (mv r, some (mm (D * S.basis))) with e | a
          · exact ⟨_, rfl⟩
          · exact ⟨_, rfl⟩

end
example := C56_manager_partial trial2 3 (.inr (.inl rfl)) [.push ![2], .push ![1], .set .nMinusOne ![7]] (by
  simp only [List.mem_cons, List.not_mem_nil, or_false]
  rintro o (rfl | rfl | rfl) <;> simp [MgrOp.InRange, Slot.pos])
example := C56_pushes trial2 [![2], ![1], ![7], ![5]]
example := C56_n_minus_two_refuted trial2 ![2] [![1, 1], ![2, 2], ![3, 3], ![4, 4]] rfl

/-- the four attempts of `lspgAtts` on a fully discrete problem with three states -/
def fdRun := drive (fun solver t dt k => arbStepS (lspgDiscrete 3 trial2 dfom2) 2 solver t dt k) lspgAtts 0 [![0]] ![0] (fdStencil 3, fdMem 3)
theorem fdRun_length : fdRun.length = 4 := by decide +kernel
/-- the third attempt: it follows an accepted and a refused one -/
example := C57_lspg_every_evaluation (Or.inr rfl) dfom2_is dfom2_noTSF trial2 (fdStencil 3) (fdMem 3) (by refine ⟨?_, ?_, ?_⟩ <;> simp [fdStencil, fdMem]) lspgAtts lspgAtts_ok.1 lspgAtts_ok.2 0 ![0]
  (fdRun.take 2) (fdRun.drop 3) (fdRun[2]'(by rw [fdRun_length]; norm_num)) (by
    rw [← List.drop_eq_getElem_cons, List.take_append_drop]; rfl)
example : (fdRun[2]'(by rw [fdRun_length]; norm_num)).queries.length = 1 := by decide +kernel
example := C57_accepted_states_only (Or.inr rfl) trial2 ![9, 9] [![2], ![1], ![0]] (by decide)
example := C57_new_problem_ready 3 (createMgr 3 : Mgr ℚ (Fin 2)) rfl ![9, 9] ![8, 8] (!![7; 7] : Matrix (Fin 2) (Fin 1) ℚ) (fdStencil 3) rfl

/-- a scaling by the second component of the state; it leaves an absent Jacobian absent -/
def scale2 (p : Type) : SteadyScaler ℚ (Fin 2) p (Fin 1) := fun y a => .ok (y 1 • a.1, a.2.map (y 1 • ·))
example := C55_steady steady2_is trial2 (scale2 _) ![1] true (![9, 9], ![8, 8], !![7; 7])
example := C55_steady_jacobian_untouched steady2 trial2 (scale2 _) (by intro y r a h; cases h; rfl) ![1] (![9, 9], ![8, 8], !![7; 7])
example := C55_steady_masked steady2_is mask2_is trial2 (scale2 _) ![1] true (![9, 9], (![8, 8], !![7; 7]), ![6], !![5])
/-- state `(4, 6)`: residual `6 (24, 6)`, and the old Jacobian is there if none is asked for -/
example : (steadyLspg trial2 steady2 (scale2 _) ![1] true (![9, 9], ![8, 8], !![7; 7])).state.2.1 = ![144, 36] ∧ (steadyLspg trial2 steady2 (scale2 _) ![1] false (![9, 9], ![8, 8], !![7; 7])).state.2.2 0 0 = 7 := by
  decide +kernel

/-- a solver that evaluates once and gives up -/
def nwFails : (Fin 1 → ℚ) → SolveTree (Fin 1 → ℚ) ((Fin 1 → ℚ) × Option (Matrix (Fin 1) (Fin 1) ℚ)) := fun y =>
  .ask (fun i => y i + 1) false (fun _ => .stop (.exc .nonlinearSolveFailure) (fun i => y i + 1))
theorem nwFails_honest (y : Fin 1 → ℚ) : Honest (nwFails y) := by
  intro a _
  simp [Honest]
def galerkinAtts : List (Attempt ℚ (Fin 1 → ℚ) ((Fin 1 → ℚ) × Option (Matrix (Fin 1) (Fin 1) ℚ))) := [⟨1/2, newton1⟩, ⟨1, nwFails⟩, ⟨1/4, newton1⟩, ⟨1/4, newton1⟩]
theorem galerkinAtts_ok : (∀ a ∈ galerkinAtts, ∀ y, Honest (a.solver y)) ∧ (∀ a ∈ galerkinAtts, ∀ y, Asks (a.solver y)) := by
  constructor
  · simp only [galerkinAtts, List.mem_cons, List.not_mem_nil, or_false]
    rintro a (rfl | rfl | rfl | rfl) y <;> first | exact newton1_honest y | exact nwFails_honest y
  · simp only [galerkinAtts, List.mem_cons, List.not_mem_nil, or_false]
    rintro a (rfl | rfl | rfl | rfl) y <;> trivial
example := C57_galerkin_run_is_ideal (Or.inr rfl) dfom2_is dfom2_noTSF trial2 (fdStencil 3) (fdMem 3, ![5], !![6]) (by refine ⟨?_, ?_, ?_⟩ <;> simp [fdStencil, fdMem]) galerkinAtts galerkinAtts_ok.1 galerkinAtts_ok.2 0 ![0]
example := C57_hypred_galerkin_run_is_ideal (Or.inr rfl) dfom2_is dfom2_noTSF hyp2_is trial2 (fdStencil 3) (fdMem 3, ![5], !![6]) (by refine ⟨?_, ?_, ?_⟩ <;> simp [fdStencil, fdMem]) galerkinAtts galerkinAtts_ok.1
  galerkinAtts_ok.2 0 ![0]
example : ((drive (fun solver t dt k => arbStepS (galerkinHypredDiscrete 3 trial2 dfom2 hyp2) 2 solver t dt k) galerkinAtts 0 [![0]] ![0] (fdStencil 3, fdMem 3, ![5], !![6])).map (fun r => (r.hist.length, r.stop))) =
    [(1, none), (2, some (.exc .timeStepFailure)), (2, none), (3, none)] := by decide +kernel


end Pressio.Props
