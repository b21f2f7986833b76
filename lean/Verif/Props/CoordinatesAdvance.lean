import Verif.Props.UnitsExamples

/-
  C99 for the advancers: two descriptions of one trial space, in whole calls of the advancers.
-/
namespace Pressio.Props
set_option autoImplicit false
set_option linter.unusedSectionVars false
open Pressio Matrix
open Pressio.Model.Advance Pressio.Spec.AdvanceTarget Pressio.Spec.AdvanceDrive Pressio.Spec.CustomSchemes Pressio.Spec.Units Pressio.Lemmas.Units
open Pressio.Model.Nonlinear (Env Cfg Reg StopCrit Update Tag Ans SP)
open Pressio.Spec.Nonlinear Pressio.Spec.SolverAlike Pressio.Spec.Coordinates
open Pressio.Lemmas.Nonlinear Pressio.Lemmas.SolverAlike Pressio.Lemmas.Coordinates
open Pressio.Model.Implicit Pressio.Spec.Implicit Pressio.Lemmas.Implicit Pressio.Spec.SolverRun Pressio.Lemmas.SolverTree Pressio.Lemmas.SolverRun
open Pressio.Model.Explicit (Scheme System numRhs asStepper dummyObserver)
open Pressio.Model.Galerkin Pressio.Spec.Galerkin
open Pressio.Model.Lspg Pressio.Spec.Lspg Pressio.Lemmas.Lspg
open Pressio.Spec.Explicit

section
variable {K m n P P' p p' L L' M M' U : Type} [Field K] [Fintype m] [Fintype n] [DecidableEq n]

/-- the same clock -/
def sameClock : Clock K := ⟨1, 0⟩
theorem sameClock_time (t : K) : sameClock.time t = t := by simp [sameClock, Clock.time]
theorem sameClock_size (d : K) : sameClock.size d = d := by simp [sameClock, Clock.size]
theorem sameClock_vars (v : DtVars K) : sameClock.vars v = v := by simp [Clock.vars, sameClock_size]

/-- what the caller of an advancer on a reduced problem sees, with FOM states in place of reduced states -/
def seenFom {α : Type} (S : Trial K m n) (r : Except Stop α × (n → K) × List (Ev K (n → K)) × U) : Except Stop α × (m → K) × List (Ev K (m → K)) × U := seenIn sameClock id (lift S) r

/-- two observers that do the same when they are shown the same FOM state -/
def SameFomObserver (S S' : Trial K m n) (obs obs' : Int → K → (n → K) → Prog U Unit) : Prop := ∀ i t x x' u, lift S x = lift S' x' → obs i t x u = obs' i t x' u

theorem event_comp {Y Y' Y'' : Type} (ψ : Y' → Y) (φ : Y'' → Y') (e : Ev K Y'') : event sameClock ψ (event sameClock φ e) = event sameClock (fun x => ψ (φ x)) e := by
  cases e <;> simp [event, sameClock_time, sameClock_size, sameClock_vars]

theorem seenFom_chart {α : Type} {S S' : Trial K m n} {B : Matrix n n K} {a : n → K} (hS : SameSpace S S' B a) (r : Except Stop α × (n → K) × List (Ev K (n → K)) × U) :
    seenFom S (seenIn sameClock id (chart B a) r) = seenFom S' r := by
  have h : (fun x => lift S (chart B a x)) = lift S' := funext fun x => (hS.2 x).symm
  unfold seenFom seenIn
  simp only [List.map_map, Function.comp_def, event_comp, h, congrFun h r.2.1]
  rcases r.1 with e | v <;> simp [Except.map, congrFun h r.2.1]

/-- runs that show the same FOM states are the same run in two coordinates -/
theorem shown_chart {A A' : Type} {S S' : Trial K m n} {B : Matrix n n K} {a : n → K} (hS : SameSpace S S' B a) (hinj : Function.Injective S.basis.mulVec) (rs : List (Record K (n → K) A)) (rs' : List (Record K (n → K) A'))
    (h : rs.map (shown (lift S)) = rs'.map (shown (lift S'))) : rs.map (shown id) = rs'.map (shownIn sameClock (chart B a)) := by
  have hl : Function.Injective (lift S) := fun x y hxy => hinj (add_right_cancel hxy)
  let up : K × K × Option Stop × List (n → K) × (n → K) × List ((n → K) × Bool) → K × K × Option Stop × List (m → K) × (m → K) × List ((m → K) × Bool) :=
    fun r => (r.1, r.2.1, r.2.2.1, r.2.2.2.1.map (lift S), lift S r.2.2.2.2.1, r.2.2.2.2.2.map (fun q => (lift S q.1, q.2)))
  have hup : Function.Injective up := by
    rintro ⟨a1, a2, a3, a4, a5, a6⟩ ⟨b1, b2, b3, b4, b5, b6⟩ hab
    simp only [up, Prod.mk.injEq] at hab
    obtain ⟨h1, h2, h3, h4, h5, h6⟩ := hab
    refine Prod.ext h1 (Prod.ext h2 (Prod.ext h3 (Prod.ext (hl.list_map h4) (Prod.ext (hl h5) (Function.Injective.list_map ?_ h6)))))
    rintro ⟨u, v⟩ ⟨u', v'⟩ huv
    simp only [Prod.mk.injEq] at huv
    exact Prod.ext (hl huv.1) huv.2
  have hl' : ∀ x, lift S' x = lift S (chart B a x) := fun x => hS.2 x
  refine hup.list_map ?_
  rw [List.map_map, List.map_map]
  have e1 : up ∘ shown id = shown (A := A) (lift S) := by
    funext r
    simp [up, shown, Function.comp_def]
  have e2 : up ∘ shownIn sameClock (chart B a) = shown (A := A') (lift S') := by
    funext r
    simp [up, shown, shownIn, Function.comp_def, sameClock_time, sameClock_size, hl']
  rw [e1, e2, h]

/-- **C99, advancers.** Two reduced problems with their solvers on two descriptions of one trial space whose runs show the same FOM states (`C99_lspg_runs`, `C99_galerkin_implicit`, `C99_galerkin_implicit_mass_matrix`), for all step sizes in a set `D` in which the policy stays:
    a call of `advance_n_steps` ends in the same way with both, in the same FOM state, with the same calls of policy, stepper and observer in the same order, at the same FOM states. -/
theorem C99_n_steps (S S' : Trial K m n) (B : Matrix n n K) (a : n → K) (hS : SameSpace S S' B a) (hinj : Function.Injective S.basis.mulVec) (D : K → Prop) (step : ((n → K) → SolveTree (n → K) (Ans K P n)) → K → K → Int → Prog (SolveSt (n → K) M (Ans K P n)) Unit)
    (step' : ((n → K) → SolveTree (n → K) (Ans K P' n)) → K → K → Int → Prog (SolveSt (n → K) M' (Ans K P' n)) Unit) (solve : SP K P n p L Unit) (solve' : SP K P' n p' L' Unit) (start : K) (x0 x0' : n → K) (hx0 : lift S x0 = lift S' x0') (mem : M) (mem' : M') (reg : Reg K P n p L) (reg' : Reg K P' n p' L')
    (h : ∀ dts, (∀ d ∈ dts, D d) → (driveObj step solve dts start [x0] x0 mem reg).map (shown (lift S)) = (driveObj step' solve' dts start [x0'] x0' mem' reg').map (shown (lift S')))
    (pol : Int → K → K → Prog U K) (pol5 : Int → K → DtVars K → Prog U (DtVars K)) (obs obs' : Int → K → (n → K) → Prog U Unit) (hobs : SameFomObserver S S' obs obs') (hD : ∀ i t d u d' u', pol i t d u = .ok d' u' → D d') (N : Int) (u : U) :
    seenFom S (visible (advanceN 0 (userObjects (objStepper step solve) pol pol5 obs) N start ⟨((mem, reg), u), x0, []⟩)) =
      seenFom S' (visible (advanceN 0 (userObjects (objStepper step' solve') pol pol5 obs') N start ⟨((mem', reg'), u), x0', []⟩)) := by
  obtain rfl : x0 = chart B a x0' := hinj (add_right_cancel (hx0.trans (hS.2 x0')))
  have hrun := C100_n_steps sameClock (chart B a) D step step' solve solve' start x0' mem mem' reg reg'
    (fun dts hd => by
      rw [sameClock_time, show dts.map sameClock.size = dts by simp [funext sameClock_size]]
      exact shown_chart hS hinj _ _ (h dts hd)) pol pol pol5 pol5 obs obs' (fun i t d u => by rw [sameClock_time, sameClock_size]; rcases pol i t d u with ⟨d', u'⟩ | ⟨e, u'⟩ <;> simp [sameClock_size])
    (fun i t y u => by rw [sameClock_time]; exact hobs i t _ _ u (hS.2 y).symm) hD N u
  rw [sameClock_time] at hrun
  rw [hrun, seenFom_chart hS]

/-- the same for the advancers to a target time, without and with recovery -/
theorem C99_target [LinearOrder K] [IsStrictOrderedRing K] (S S' : Trial K m n) (B : Matrix n n K) (a : n → K) (hS : SameSpace S S' B a) (hinj : Function.Injective S.basis.mulVec) (D : K → Prop) (step : ((n → K) → SolveTree (n → K) (Ans K P n)) → K → K → Int → Prog (SolveSt (n → K) M (Ans K P n)) Unit)
    (step' : ((n → K) → SolveTree (n → K) (Ans K P' n)) → K → K → Int → Prog (SolveSt (n → K) M' (Ans K P' n)) Unit) (solve : SP K P n p L Unit) (solve' : SP K P' n p' L' Unit) (start : K) (x0 x0' : n → K) (hx0 : lift S x0 = lift S' x0') (mem : M) (mem' : M') (reg : Reg K P n p L) (reg' : Reg K P' n p' L')
    (h : ∀ dts, (∀ d ∈ dts, D d) → (driveObj step solve dts start [x0] x0 mem reg).map (shown (lift S)) = (driveObj step' solve' dts start [x0'] x0' mem' reg').map (shown (lift S')))
    (pol : Int → K → K → Prog U K) (pol5 : Int → K → DtVars K → Prog U (DtVars K)) (obs obs' : Int → K → (n → K) → Prog U Unit) (hobs : SameFomObserver S S' obs obs')
    (hD : ∀ i t d u d' u', pol i t d u = .ok d' u' → D d') (hD5 : ∀ i t v u v' u', pol5 i t v u = .ok v' u' → D v'.dt) (hq : ∀ d q, D d → 1 < q → D (d / q)) (rec : Bool) (eps final : K) (fuel : Nat) (u : U) :
    seenFom S (visible (advanceT rec eps (userObjects (objStepper step solve) pol pol5 obs) fuel start final ⟨((mem, reg), u), x0, []⟩)) =
      seenFom S' (visible (advanceT rec eps (userObjects (objStepper step' solve') pol pol5 obs') fuel start final ⟨((mem', reg'), u), x0', []⟩)) := by
  obtain rfl : x0 = chart B a x0' := hinj (add_right_cancel (hx0.trans (hS.2 x0')))
  have hrun := C100_target_partial sameClock (by simp [sameClock]) (chart B a) D step step' solve solve' start x0' mem mem' reg reg'
    (fun dts hd => by
      rw [sameClock_time, show dts.map sameClock.size = dts by simp [funext sameClock_size]]
      exact shown_chart hS hinj _ _ (h dts hd)) pol pol pol5 pol5 obs obs' (fun i t d u => by rw [sameClock_time, sameClock_size]; rcases pol i t d u with ⟨d', u'⟩ | ⟨e, u'⟩ <;> simp [sameClock_size])
    (fun i t v u => by rw [sameClock_time, sameClock_vars]; rcases pol5 i t v u with ⟨d', u'⟩ | ⟨e, u'⟩ <;> simp [sameClock_vars])
    (fun i t y u => by rw [sameClock_time]; exact hobs i t _ _ u (hS.2 y).symm) hD hD5 hq rec eps eps (sameClock_size eps).symm final fuel u
  rw [sameClock_time, sameClock_time, show (sameClock : Clock K).time = id from funext sameClock_time] at hrun
  rw [hrun, seenFom_chart hS]
end

/-- an observer that adds up what it sees of the FOM state `(y_0, y_1)` -/
def fomSum (S : Trial ℚ (Fin 2) (Fin 1)) : Int → ℚ → (Fin 1 → ℚ) → Prog ℚ Unit := fun _ t x u => .ok () (u + t + lift S x 0 + lift S x 1)
theorem fomSum_same (S S' : Trial ℚ (Fin 2) (Fin 1)) : SameFomObserver S S' (fomSum S) (fomSum S') := by intro i t x x' u h; simp [fomSum, h]

example := C99_n_steps trial2 trial2b !![2] ![1] trial2b_same trial2_injective (fun _ => True) (stepWith .BDF2 (defaultPolicy trial2 rotFom)) (stepWith .BDF2 (defaultPolicy trial2b rotFom)) (Model.Nonlinear.lsSolve envGN cfgObj .gn) (Model.Nonlinear.lsSolve envGN cfgObj .gn) 0 ![1] ![0]
  (by funext i; fin_cases i <;> simp [lift, trial2, trial2b, Matrix.mulVec, dotProduct] <;> norm_num) (lspgMem .BDF2 3 2) (lspgMem .BDF2 3 2) regGN regGN
  (fun dts _ => C99_lspg_runs rotFom_is rotFom_noTSF trial2 trial2b !![2] ![1] trial2b_same .BDF2 (.inr rfl) (lspgMem .BDF2 3 2) (lspgMem .BDF2 3 2) lspgMem_ready lspgMem_ready envGN envGN envGN_honest envGN_honest envGN_solves envGN_solves rfl
    cfgObj (by simp [cfgObj, cfgN]) (by simp [cfgObj, cfgN, SameMeasure]) regGN regGN regGN_idle regGN_idle dts (fun dt _ => rotFom_regular .BDF2 dt) 0 ![1] ![0] (by funext i; fin_cases i <;> simp [lift, trial2, trial2b, Matrix.mulVec, dotProduct] <;> norm_num) trial2_injective)
  (fun _ _ _ u => .ok (1/4) u) (fun _ _ v => pure v) (fomSum trial2) (fomSum trial2b) (fomSum_same _ _) (fun _ _ _ _ _ _ _ => trivial) 6 0

example (rec : Bool) := C99_target trial2 trial2b !![2] ![1] trial2b_same trial2_injective (fun _ => True) (stepWith .BDF2 (defaultPolicy trial2 rotFom)) (stepWith .BDF2 (defaultPolicy trial2b rotFom)) (Model.Nonlinear.lsSolve envGN cfgObj .gn) (Model.Nonlinear.lsSolve envGN cfgObj .gn) 0 ![1] ![0]
  (by funext i; fin_cases i <;> simp [lift, trial2, trial2b, Matrix.mulVec, dotProduct] <;> norm_num) (lspgMem .BDF2 3 2) (lspgMem .BDF2 3 2) regGN regGN
  (fun dts _ => C99_lspg_runs rotFom_is rotFom_noTSF trial2 trial2b !![2] ![1] trial2b_same .BDF2 (.inr rfl) (lspgMem .BDF2 3 2) (lspgMem .BDF2 3 2) lspgMem_ready lspgMem_ready envGN envGN envGN_honest envGN_honest envGN_solves envGN_solves rfl
    cfgObj (by simp [cfgObj, cfgN]) (by simp [cfgObj, cfgN, SameMeasure]) regGN regGN regGN_idle regGN_idle dts (fun dt _ => rotFom_regular .BDF2 dt) 0 ![1] ![0] (by funext i; fin_cases i <;> simp [lift, trial2, trial2b, Matrix.mulVec, dotProduct] <;> norm_num) trial2_injective)
  (fun _ _ _ u => .ok (1/4) u) (fun _ _ _ u => .ok ⟨1/4, 1/8, 2⟩ u) (fomSum trial2) (fomSum trial2b) (fomSum_same _ _) (fun _ _ _ _ _ _ _ => trivial) (fun _ _ _ _ _ _ _ => trivial) (fun _ _ _ _ => trivial) rec (1/1000) 1 10 0
end Pressio.Props
