import Verif.Props.Sampling
import Verif.Props.MassSolved

/-
  C106: a masked problem of a full-mesh code goes through the same run as the hyper-reduced problem of the sample-mesh code.
-/
namespace Pressio.Props
set_option autoImplicit false
set_option linter.unusedSectionVars false
open Pressio Matrix
open Pressio.Model.Advance Pressio.Spec.AdvanceTarget Pressio.Spec.AdvanceDrive Pressio.Spec.CustomSchemes Pressio.Spec.Units Pressio.Lemmas.Units
open Pressio.Model.Nonlinear (Env Cfg Reg StopCrit Update Tag Ans SP)
open Pressio.Spec.Nonlinear Pressio.Spec.SolverAlike Pressio.Spec.Sampling Pressio.Spec.Coordinates
open Pressio.Lemmas.Nonlinear Pressio.Lemmas.SolverAlike Pressio.Lemmas.Coordinates
open Pressio.Model.Implicit Pressio.Spec.Implicit Pressio.Lemmas.Implicit Pressio.Spec.SolverRun Pressio.Lemmas.SolverTree Pressio.Lemmas.SolverRun
open Pressio.Model.Explicit (Scheme System numRhs asStepper dummyObserver)
open Pressio.Model.Galerkin Pressio.Spec.Galerkin Pressio.Model.Lspg Pressio.Spec.Lspg Pressio.Spec.Run Pressio.Lemmas.Lspg
open Pressio.Spec.Explicit Pressio.Lemmas.Run

section
variable {K m s q r r' n p L U : Type} [Field K] [LinearOrder K] [IsStrictOrderedRing K] [Fintype m] [DecidableEq m] [Fintype s] [DecidableEq s] [Fintype q] [DecidableEq q] [Fintype r] [Fintype r'] [Fintype n] [DecidableEq n] [Fintype p]

/-- a program with the postcondition of C49 is, for an implicit stepper, the system of the projected functions -/
theorem reduced_odeIs {S : Trial K m n} {f : (m → K) → K → Except Exc (q → K)} {Df Mm : (m → K) → K → Except Exc (Matrix q m K)} (pv : K → (q → K) → n → K) (pm : K → Matrix q n K → Matrix n n K) (op : (n → K) → K → Bool → Prog (GSt K m q r n) Unit)
    (h : ∀ x t w s, Ends (op x t w s) (reduced S f Df Mm (pv t) (pm t) x t false w s.J s.M)) (s0 : GSt K m q r n) :
    OdeIs (asISystem op s0) (fun x t => (f (lift S x) t).map (pv t)) (fun x t => (Df (lift S x) t).map (fun D => pm t (D * S.basis))) := by
  intro x t w
  have h := h x t w s0
  unfold asISystem
  unfold reduced at h
  rcases hf : f (lift S x) t with e | v
  · rw [hf] at h
    obtain ⟨s, hs⟩ := h
    simp [hs, hf, excOf, Except.map, Except.mapError, bind, Except.bind]
  · rw [hf] at h
    cases w with
    | false =>
      obtain ⟨s, hs, hv⟩ := h
      simp only [Prod.mk.injEq] at hv
      simp [hs, hf, hv.1, Except.map, Except.mapError, bind, Except.bind, pure, Except.pure]
    | true =>
      rcases hD : Df (lift S x) t with e | D
      · rw [hD] at h
        obtain ⟨s, hs⟩ := h
        simp [hs, hf, hD, excOf, Except.map, Except.mapError, bind, Except.bind]
      · rw [hD] at h
        obtain ⟨s, hs, hv⟩ := h
        simp only [Prod.mk.injEq] at hv
        simp [hs, hf, hD, hv.1, hv.2.1, Except.map, Except.mapError, bind, Except.bind, pure, Except.pure]

/-- sampled right-hand side and rows, seen from the reduced coordinates -/
theorem samples_reduced {P : Matrix s m K} {E : Matrix q s K} {f : (m → K) → K → Except Exc (m → K)} {Df : (m → K) → K → Except Exc (Matrix m m K)} {f' : (s → K) → K → Except Exc (q → K)} {Df' : (s → K) → K → Except Exc (Matrix q s K)}
    (hs : Samples P E f Df f' Df') (S : Trial K m n) (hv : K → (q → K) → n → K) (hm : K → Matrix q n K → Matrix n n K) :
    (fun x t => (f' (lift (onStencil P S) x) t).map (hv t)) = (fun x t => (f (lift S x) t).map (fun v => hv t ((E * P) *ᵥ v))) ∧
    (fun x t => (Df' (lift (onStencil P S) x) t).map (fun D => hm t (D * (onStencil P S).basis))) = (fun x t => (Df (lift S x) t).map (fun D => hm t ((E * P) * (D * S.basis)))) := by
  constructor
  · funext x t
    rw [lift_onStencil, hs.values]
    rcases f (lift S x) t with e | v <;> rfl
  · funext x t
    rw [lift_onStencil]
    have hr := hs.rows (lift S x) t
    revert hr
    rcases Df' (P *ᵥ lift S x) t with e' | D' <;> rcases Df (lift S x) t with e | D <;> intro hr <;> simp only [Except.map, Except.ok.injEq, Except.error.injEq, reduceCtorEq] at hr
    · subst hr; rfl
    · have : D' * (P * S.basis) = (E * P) * (D * S.basis) := by rw [← Matrix.mul_assoc, hr, Matrix.mul_assoc]
      simp [Except.map, onStencil, this]

theorem projected_noTSF {f : (m → K) → K → Except Exc (m → K)} {Df : (m → K) → K → Except Exc (Matrix m m K)} (hn : FomNoTSF f Df) (S : Trial K m n) (pv : K → (m → K) → n → K) (pm : K → Matrix m m K → Matrix n n K) :
    FomNoTSF (fun x t => (f (lift S x) t).map (pv t)) (fun x t => (Df (lift S x) t).map (pm t)) := by
  constructor
  · intro x t
    have := hn.1 (lift S x) t
    dsimp only
    rcases hf : f (lift S x) t with e | v
    · intro h; cases h; exact this hf
    · intro h; cases h
  · intro x t
    have := hn.2 (lift S x) t
    dsimp only
    rcases hf : Df (lift S x) t with e | v
    · intro h; cases h; exact this hf
    · intro h; cases h

/-- two systems that compute the same functions: the same runs, with any solver object -/
theorem odeIs_runs {f : (n → K) → K → Except Exc (n → K)} {Df : (n → K) → K → Except Exc (Matrix n n K)} (hn : FomNoTSF f Df) (sys sys' : ISystem K (n → K) (Matrix n n K)) (h : OdeIs sys f Df) (h' : OdeIs sys' f Df) (name : Scheme) (mem mem' : SMem K (n → K) (n → K) PMem) (hmem : Ready name mem) (hmem' : Ready name mem')
    (solve : SP K n n p L Unit) (hsolve : Fine solve) (reg : Reg K n n p L) (dts : List K) (t0 : K) (x0 : n → K) :
    (driveObj (stdStep name sys) solve dts t0 [x0] x0 mem reg).map (shown id) = (driveObj (stdStep name sys') solve dts t0 [x0] x0 mem' reg).map (shown id) := by
  have hr := runs_clock (sameClock (K := K)) (fun _ => True) (stdStep name sys) (stdStep name sys') (textbook name sys) (textbook name sys') _ _ (refinesOn_true (std_refines name (ready_name name mem hmem) _)) (refinesOn_true (std_refines name (ready_name name mem hmem) _))
    (textbook_ne name _ (odeIs_noTSF h hn)) (fun y prev t dt x w => by rw [odeIs_textbook h, odeIs_textbook h', sameClock_time, sameClock_size]) solve hsolve (fun _ _ => trivial) dts t0 x0 mem mem' reg (ready_inv name _ mem hmem _ _) (ready_inv name _ mem' hmem' t0 _)
  rwa [sameClock_time, show dts.map sameClock.size = dts by simp [funext sameClock_size], shown_same] at hr

/-- **C106, implicit Galerkin.** A full-mesh code, a code for the sample mesh with its stencil mesh whose right-hand side and Jacobian rows are those of the full-mesh code (`Samples`), a masker that keeps the entries of the sample mesh, and one hyper-reduction operator for both: the masked Galerkin problem of the full-mesh code and the
    hyper-reduced Galerkin problem of the sample-mesh code on the restricted trial space, with any solver object in the same state, go through the same run: the same states, failures, exceptions and points of evaluation. Any operator (it may depend on time), any scheme. -/
theorem C106_galerkin_implicit (P : Matrix s m K) (E : Matrix q s K) {F : Fom K m m n} {f : (m → K) → K → Except Exc (m → K)} {Df Mm : (m → K) → K → Except Exc (Matrix m m K)} (hF : FomIs F f Df Mm) (hn : FomNoTSF f Df)
    {F' : Fom K s q n} {f' : (s → K) → K → Except Exc (q → K)} {Df' Mm' : (s → K) → K → Except Exc (Matrix q s K)} (hF' : FomIs F' f' Df' Mm') (hs : Samples P E f Df f' Df') {Mk : Masker K m q n} (hMk : MaskIs Mk (fun v => (E * P) *ᵥ v) (fun B => (E * P) * B))
    {H : HypRed K q n} {hv : K → (q → K) → n → K} {hm : K → Matrix q n K → Matrix n n K} (hH : HypIs H hv hm) (S : Trial K m n) (s0 : GSt K m m q n) (s0' : GSt K s q r n) (name : Scheme) (mem mem' : SMem K (n → K) (n → K) PMem) (hmem : Ready name mem) (hmem' : Ready name mem')
    (solve : SP K n n p L Unit) (hsolve : Fine solve) (reg : Reg K n n p L) (dts : List K) (t0 : K) (x0 : n → K) :
    (driveObj (stdStep name (asISystem (maskedRhsJac S F Mk H) s0)) solve dts t0 [x0] x0 mem reg).map (shown id) =
      (driveObj (stdStep name (asISystem (hypredRhsJac (onStencil P S) F' H) s0')) solve dts t0 [x0] x0 mem' reg).map (shown id) := by
  have h1 := reduced_odeIs (fun t v => hv t ((E * P) *ᵥ v)) (fun t B => hm t ((E * P) * B)) (maskedRhsJac S F Mk H) (fun x t w s => C49_masked_rhs_jacobian hF hMk hH S x t w s) s0
  have h2 := reduced_odeIs hv hm (hypredRhsJac (onStencil P S) F' H) (fun x t w s => C49_hypred_rhs_jacobian hF' hH (onStencil P S) x t w s) s0'
  rw [(samples_reduced hs S hv hm).1, (samples_reduced hs S hv hm).2] at h2
  exact odeIs_runs (projected_noTSF hn S (fun t v => hv t ((E * P) *ᵥ v)) (fun t D => hm t ((E * P) * (D * S.basis)))) _ _ h1 h2 name mem mem' hmem hmem' solve hsolve reg dts t0 x0

/-- **C106, explicit Galerkin.** The same for explicit schemes: the runs end in the same state, and show the observer the same. -/
theorem C106_galerkin_explicit (P : Matrix s m K) (E : Matrix q s K) {F : Fom K m m n} {f : (m → K) → K → m → K} {Df Mm : (m → K) → K → Except Exc (Matrix m m K)} (hF : FomIs F (fun y t => .ok (f y t)) Df Mm)
    {F' : Fom K s q n} {f' : (s → K) → K → q → K} {Df' Mm' : (s → K) → K → Except Exc (Matrix q s K)} (hF' : FomIs F' (fun y t => .ok (f' y t)) Df' Mm') (hs : ∀ y t, f' (P *ᵥ y) t = (E * P) *ᵥ f y t) {Mk : Masker K m q n} {mm : Matrix m n K → Matrix q n K} (hMk : MaskIs Mk (fun v => (E * P) *ᵥ v) mm)
    {H : HypRed K q n} {hv : K → (q → K) → n → K} {hm : K → Matrix q n K → Matrix n n K} (hH : HypIs H hv hm) (S : Trial K m n) (s0 : GSt K m m q n) (s0' : GSt K s q r n)
    (scheme : Scheme) (hsch : scheme.isExplicit = true) (pol : Int → K → K → K) (start : K) (N : Nat) (hN : (N : Int) < int32Max) (x0 : n → K) (mem mem' : EMem K (n → K)) (hlen : mem.1.length = numRhs scheme) (hlen' : mem'.1.length = numRhs scheme) :
    ∃ a b, run 0 pol (asStepper (asSystem (maskedRhs S F Mk H) s0) scheme dummyObserver) N start x0 mem = .ok () a ∧
      run 0 pol (asStepper (asSystem (hypredRhs (onStencil P S) F' H) s0') scheme dummyObserver) N start x0 mem' = .ok () b ∧ b.y = a.y ∧ observations b.log = observations a.log := by
  have h1 : Computes (asSystem (maskedRhs S F Mk H) s0) (fun x t => hv t ((E * P) *ᵥ f (lift S x) t)) := by
    intro x t b
    obtain ⟨s, hs', hv'⟩ := C49_masked_rhs hF hMk hH S x t { s0 with r := b }
    simp only [Prod.mk.injEq] at hv'
    unfold asSystem
    simp only [hs', hv'.1]
  have h2 : Computes (asSystem (hypredRhs (onStencil P S) F' H) s0') (fun x t => hv t ((E * P) *ᵥ f (lift S x) t)) := by
    intro x t b
    obtain ⟨s, hs', hv'⟩ := C49_hypred_rhs hF' hH (onStencil P S) x t { s0' with r := b }
    simp only [Prod.mk.injEq] at hv'
    unfold asSystem
    simp only [hs', hv'.1, lift_onStencil, hs]
  obtain ⟨a, b, ha, hb, hy, hl⟩ := run_lift LinearMap.id 0 (f := fun x t => hv t ((E * P) *ᵥ f (lift S x) t)) (g := fun x t => hv t ((E * P) *ᵥ f (lift S x) t)) (fun x t => by simp) (asSystem (hypredRhs (onStencil P S) F' H) s0') h2 (asSystem (maskedRhs S F Mk H) s0) h1 scheme hsch pol start N hN x0 mem hlen mem' hlen'
  simp only [LinearMap.id_coe, id_eq, add_zero] at hb hy hl
  exact ⟨a, b, ha, hb, hy, by simpa using hl⟩

/-- **C106, LSPG.** The same for LSPG: the masked problem of the full-mesh code and the hyper-reduced problem of the sample-mesh code whose updater combines with `E`; for any solver object that evaluates the equations before it returns, if the FOM Jacobian can be evaluated wherever the right-hand side can
    (a masked LSPG problem evaluates both always, see `C102_masked_jacobian_refuted`). -/
theorem C106_lspg (P : Matrix s m K) (E : Matrix q s K) {F : Fom K m m n} {f : (m → K) → K → Except Exc (m → K)} {Df Mm : (m → K) → K → Except Exc (Matrix m m K)} (hF : FomIs F f Df Mm) (hn : FomNoTSF f Df) (hD : ∀ y t v, f y t = .ok v → ∃ D, Df y t = .ok D)
    {F' : Fom K s q n} {f' : (s → K) → K → Except Exc (q → K)} {Df' Mm' : (s → K) → K → Except Exc (Matrix q s K)} (hF' : FomIs F' f' Df' Mm') (hs : Samples P E f Df f' Df') (Up : Updater K s q n) (hU : UpdaterIs Up E) {Mk : Masker K m q n} (hMk : MaskIs Mk (fun v => (E * P) *ᵥ v) (fun B => (E * P) * B))
    (S : Trial K m n) (name : Scheme) (hname : name = .BDF1 ∨ name = .BDF2) (mem : SMem K (n → K) (n → K) (LMem K m m n × (q → K) × Matrix q n K)) (hmem : Sized name mem ∧ mem.pol.1.data.length = numStates name ∧ mem.pol.1.tracker ≠ 1) (mem' : SMem K (n → K) (n → K) (LMem K s q n)) (hmem' : LspgReady name mem')
    (solve : SP K q n p L Unit) (hsolve : Fine solve) (hbusy : Busy solve) (reg : Reg K q n p L) (dts : List K) (t0 : K) (x0 : n → K) :
    (driveObj (stepWith name (maskDecorator Mk (defaultPolicy S F))) solve dts t0 [x0] x0 mem reg).map (shown id) =
      (driveObj (stepWith name (hypredPolicy Up (onStencil P S) F')) solve dts t0 [x0] x0 mem' reg).map (shown id) := by
  obtain ⟨Inv, hr, hI⟩ := policy_lawful name hname _ _ _ _ (masked_refines hF hMk S name hname (mem.pol.1.data.getD 1 0)) mem hmem.1 t0 x0 (good_start _ S x0 mem.pol.1 hmem.2.1 (by rcases hname with rfl | rfl <;> simp [numStates]) hmem.2.2)
  obtain ⟨Inv', hr', hI'⟩ := policy_lawful name hname _ _ _ _ ((lspgPolicy_refines name hname (onStencil P S) _ _ (assembleHypred_ok hF' (onStencil P S) Up E hU) (mem'.pol.data.getD 1 0)).congrF (fun y prev t dt x w => equations_hypred E name hname (onStencil P S) f' Df' y prev t dt x w)) mem' hmem'.1 t0 x0
      (good_start _ (onStencil P S) _ mem'.pol hmem'.2.1 (by rcases hname with rfl | rfl <;> simp [numStates]) hmem'.2.2)
  have hrun := runs_clock (sameClock (K := K)) Asks (stepWith name (maskDecorator Mk (defaultPolicy S F))) (stepWith name (hypredPolicy Up (onStencil P S) F')) _ _ Inv Inv' hr hr'
    (fun hist t dt x w => by
      rw [masked_times (E * P) name S hD]
      have := lspg_ne hn name S hist t dt x w
      rcases hl : lspg name S f Df hist t dt x w with e | a
      · intro h; cases h; exact this hl
      · intro h; cases h)
    (fun y prev t dt x w => by rw [masked_times (E * P) name S hD, hypred_samples P E name S hs, sameClock_time, sameClock_size]) solve hsolve (asks_solverOf solve hbusy) dts t0 x0 mem mem' reg (by rw [sameClock_time]; exact hI) hI'
  rwa [sameClock_time, show dts.map sameClock.size = dts by simp [funext sameClock_size], shown_same] at hrun

/-- **C106, nothing dropped.** A hyper-reduced Galerkin problem whose operator is the projection by the transposed basis, on the mesh of the FOM itself, goes through the same run as the default Galerkin problem. -/
theorem C106_galerkin_nothing_dropped {F : Fom K m m n} {f : (m → K) → K → Except Exc (m → K)} {Df Mm : (m → K) → K → Except Exc (Matrix m m K)} (hF : FomIs F f Df Mm) (hn : FomNoTSF f Df) (S : Trial K m n) {H : HypRed K m n} (hH : HypIs H (fun _ v => S.basisᵀ *ᵥ v) (fun _ B => S.basisᵀ * B))
    (s0 : GSt K m m r n) (s0' : GSt K m m r' n) (name : Scheme) (mem mem' : SMem K (n → K) (n → K) PMem) (hmem : Ready name mem) (hmem' : Ready name mem')
    (solve : SP K n n p L Unit) (hsolve : Fine solve) (reg : Reg K n n p L) (dts : List K) (t0 : K) (x0 : n → K) :
    (driveObj (stdStep name (asISystem (hypredRhsJac S F H) s0)) solve dts t0 [x0] x0 mem reg).map (shown id) =
      (driveObj (stdStep name (asISystem (defaultRhsJac S F) s0')) solve dts t0 [x0] x0 mem' reg).map (shown id) :=
  odeIs_runs (projected_noTSF hn S (fun _ v => S.basisᵀ *ᵥ v) (fun _ D => S.basisᵀ * (D * S.basis))) _ _
    (reduced_odeIs (fun _ v => S.basisᵀ *ᵥ v) (fun _ B => S.basisᵀ * B) (hypredRhsJac S F H) (fun x t w s => C49_hypred_rhs_jacobian hF hH S x t w s) s0)
    (reduced_odeIs (fun _ v => S.basisᵀ *ᵥ v) (fun _ B => S.basisᵀ * B) (defaultRhsJac S F) (fun x t w s => C49_default_rhs_jacobian hF S x t w s) s0') name mem mem' hmem hmem' solve hsolve reg dts t0 x0
end

section
variable {K P n p L M M' U : Type} [Field K] [LinearOrder K] [IsStrictOrderedRing K] [Fintype n] [DecidableEq n] [Fintype p]

/-- **C106, advancers.** Two steppers whose runs are the same for every list of step sizes are the same for callers of `advance_n_steps`: how the call ends, the state, and all calls of policy, stepper and observer. -/
theorem C106_n_steps (step : ((n → K) → SolveTree (n → K) (Ans K P n)) → K → K → Int → Prog (SolveSt (n → K) M (Ans K P n)) Unit) (step' : ((n → K) → SolveTree (n → K) (Ans K P n)) → K → K → Int → Prog (SolveSt (n → K) M' (Ans K P n)) Unit) (solve : SP K P n p L Unit)
    (start : K) (x0 : n → K) (mem : M) (mem' : M') (reg : Reg K P n p L) (h : ∀ dts, (driveObj step solve dts start [x0] x0 mem reg).map (shown id) = (driveObj step' solve dts start [x0] x0 mem' reg).map (shown id))
    (pol : Int → K → K → Prog U K) (pol5 : Int → K → DtVars K → Prog U (DtVars K)) (obs : Int → K → (n → K) → Prog U Unit) (N : Int) (u : U) :
    visible (advanceN 0 (userObjects (objStepper step solve) pol pol5 obs) N start ⟨((mem, reg), u), x0, []⟩) = visible (advanceN 0 (userObjects (objStepper step' solve) pol pol5 obs) N start ⟨((mem', reg), u), x0, []⟩) := by
  have hrun := C100_n_steps sameClock id (fun _ => True) step step' solve solve start x0 mem mem' reg reg
    (fun dts _ => by
      rw [sameClock_time, show dts.map sameClock.size = dts by simp [funext sameClock_size], shown_same]
      exact h dts) pol pol pol5 pol5 obs obs
    (fun i t d u => by rw [sameClock_time, sameClock_size]; rcases pol i t d u with ⟨d', u'⟩ | ⟨e, u'⟩ <;> simp [sameClock_size]) (fun i t y u => by rw [sameClock_time]; rfl) (fun _ _ _ _ _ _ _ => trivial) N u
  rwa [sameClock_time, seenIn_same] at hrun

/-- … and of the advancers to a target time, without and with recovery -/
theorem C106_target (step : ((n → K) → SolveTree (n → K) (Ans K P n)) → K → K → Int → Prog (SolveSt (n → K) M (Ans K P n)) Unit) (step' : ((n → K) → SolveTree (n → K) (Ans K P n)) → K → K → Int → Prog (SolveSt (n → K) M' (Ans K P n)) Unit) (solve : SP K P n p L Unit)
    (start : K) (x0 : n → K) (mem : M) (mem' : M') (reg : Reg K P n p L) (h : ∀ dts, (driveObj step solve dts start [x0] x0 mem reg).map (shown id) = (driveObj step' solve dts start [x0] x0 mem' reg).map (shown id))
    (pol : Int → K → K → Prog U K) (pol5 : Int → K → DtVars K → Prog U (DtVars K)) (obs : Int → K → (n → K) → Prog U Unit) (rec : Bool) (eps final : K) (fuel : Nat) (u : U) :
    visible (advanceT rec eps (userObjects (objStepper step solve) pol pol5 obs) fuel start final ⟨((mem, reg), u), x0, []⟩) = visible (advanceT rec eps (userObjects (objStepper step' solve) pol pol5 obs) fuel start final ⟨((mem', reg), u), x0, []⟩) := by
  have hrun := C100_target_partial sameClock (by simp [sameClock]) id (fun _ => True) step step' solve solve start x0 mem mem' reg reg
    (fun dts _ => by
      rw [sameClock_time, show dts.map sameClock.size = dts by simp [funext sameClock_size], shown_same]
      exact h dts) pol pol pol5 pol5 obs obs
    (fun i t d u => by rw [sameClock_time, sameClock_size]; rcases pol i t d u with ⟨d', u'⟩ | ⟨e, u'⟩ <;> simp [sameClock_size])
    (fun i t v u => by rw [sameClock_time, sameClock_vars]; rcases pol5 i t v u with ⟨d', u'⟩ | ⟨e, u'⟩ <;> simp [sameClock_vars]) (fun i t y u => by rw [sameClock_time]; rfl) (fun _ _ _ _ _ _ _ => trivial) (fun _ _ _ _ _ _ _ => trivial) (fun _ _ _ _ => trivial) rec eps eps (sameClock_size eps).symm final fuel u
  rwa [sameClock_time, sameClock_time, show (sameClock : Clock K).time = id from funext sameClock_time, seenIn_same] at hrun
end
end Pressio.Props
