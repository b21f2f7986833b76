import Verif.Props.ExplicitTry
import Verif.Props.GalerkinObjects

/-
  C77 for explicit Galerkin problems: failures of the full-order model, the hyper-reduction operator being a function.  C63: programs that use several problems.
-/
namespace Pressio.Props
set_option autoImplicit false
set_option linter.unusedSectionVars false
open Pressio Pressio.Model.Galerkin Pressio.Spec.Galerkin Pressio.Model.GalerkinObjects Pressio.Spec.ExplicitTry Pressio.Spec.Explicit
open Pressio.Model.Explicit (Scheme RhsEv ESt doStep numRhs)
open scoped Matrix

section
variable {K m p q n : Type} [Field K] [Fintype m] [Fintype p] [Fintype q] [Fintype n]

/-- calls that end with the projected velocity or with the exception of the full-order model -/
theorem tries_of_ends {S : Trial K m n} {f : (m → K) → K → Except Exc (p → K)} {Df Mm : (m → K) → K → Except Exc (Matrix p m K)} {pv : K → (p → K) → (n → K)} {pm : K → Matrix p n K → Matrix n n K}
    (rhs : (n → K) → K → Prog (GSt K m p q n) Unit) (h : ∀ x t s, Ends (rhs x t s) (reduced S f Df Mm (pv t) (pm t) x t false false s.J s.M)) (s0 : GSt K m p q n) :
    Tries (asSystem rhs s0) (fun x t => (f (lift S x) t).map (pv t)) := by
  refine ⟨fun x t b => (rhs x t { s0 with r := b }).state.r, fun x t b => ?_⟩
  have := h x t { s0 with r := b }
  unfold reduced at this
  unfold asSystem
  rcases hf : f (lift S x) t with e | v
  · rw [hf] at this
    obtain ⟨s, hs⟩ := this
    simp [hs, hf, Except.map, Res.state]
  · rw [hf] at this
    obtain ⟨s, hs, hv⟩ := this
    simp only [Prod.mk.injEq] at hv
    simp [hs, hf, hv.1, Except.map]

/-- **C77, explicit Galerkin problems.** The reduced system handed to the explicit stepper (default, hyper-reduced, masked) fails exactly when the full-order model fails, with its exception, and otherwise computes the projected velocity; the
    content of its buffers does not matter. -/
theorem C77_galerkin_default {F : Fom K m m n} {f : (m → K) → K → Except Exc (m → K)} {Df Mm : (m → K) → K → Except Exc (Matrix m m K)} (hF : FomIs F f Df Mm) (S : Trial K m n) (s0 : GSt K m m q n) :
    Tries (asSystem (defaultRhs S F) s0) (fun x t => (f (lift S x) t).map S.basisᵀ.mulVec) :=
  tries_of_ends (pv := fun _ => S.basisᵀ.mulVec) (pm := fun _ B => S.basisᵀ * B) _ (fun x t s => C49_default_rhs hF S x t s) s0

theorem C77_galerkin_hyperreduced {F : Fom K m p n} {f : (m → K) → K → Except Exc (p → K)} {Df Mm : (m → K) → K → Except Exc (Matrix p m K)} (hF : FomIs F f Df Mm)
    {H : HypRed K p n} {hv : K → (p → K) → (n → K)} {hm : K → Matrix p n K → Matrix n n K} (hH : HypIs H hv hm) (S : Trial K m n) (s0 : GSt K m p q n) :
    Tries (asSystem (hypredRhs S F H) s0) (fun x t => (f (lift S x) t).map (hv t)) :=
  tries_of_ends _ (fun x t s => C49_hypred_rhs hF hH S x t s) s0

theorem C77_galerkin_masked {F : Fom K m p n} {f : (m → K) → K → Except Exc (p → K)} {Df Mm : (m → K) → K → Except Exc (Matrix p m K)} (hF : FomIs F f Df Mm)
    {Mk : Masker K p q n} {mv : (p → K) → (q → K)} {mm : Matrix p n K → Matrix q n K} (hM : MaskIs Mk mv mm)
    {H : HypRed K q n} {hv : K → (q → K) → (n → K)} {hm : K → Matrix q n K → Matrix n n K} (hH : HypIs H hv hm) (S : Trial K m n) (s0 : GSt K m p q n) :
    Tries (asSystem (maskedRhs S F Mk H) s0) (fun x t => (f (lift S x) t).map (fun v => hv t (mv v))) :=
  tries_of_ends (pv := fun t v => hv t (mv v)) (pm := fun t B => hm t (mm B)) _ (fun x t s => C49_masked_rhs hF hM hH S x t s) s0

/-- with mass matrix: the system fails if the velocity or the mass matrix of the full-order model does, with the exception of the one that is asked for first -/
theorem C77_galerkin_mass_matrix {F : Fom K m m n} {f : (m → K) → K → Except Exc (m → K)} {Df Mm : (m → K) → K → Except Exc (Matrix m m K)} (hF : FomIs F f Df Mm) (S : Trial K m n) (s0 : GSt K m m q n) :
    TriesMM (asMMSystem (defaultMMRhs S F) s0)
      (fun x t => (f (lift S x) t).bind fun v => (Mm (lift S x) t).map fun A => (S.basisᵀ * (A * S.basis), S.basisᵀ.mulVec v)) := by
  refine ⟨fun x t b => ((defaultMMRhs S F x t { s0 with M := b.1, r := b.2 }).state.M, (defaultMMRhs S F x t { s0 with M := b.1, r := b.2 }).state.r), fun x t b => ?_⟩
  have := C49_default_mass_matrix_rhs hF S x t { s0 with M := b.1, r := b.2 }
  unfold reduced at this
  unfold asMMSystem
  rcases hf : f (lift S x) t with e | v
  · rw [hf] at this
    obtain ⟨s, hs⟩ := this
    simp [hs, hf, Except.bind, Res.state]
  · rw [hf] at this
    rcases hA : Mm (lift S x) t with e | A
    · rw [hA] at this
      obtain ⟨s, hs⟩ := this
      simp [hs, hf, hA, Except.bind, Except.map, Res.state]
    · rw [hA] at this
      obtain ⟨s, hs, hv⟩ := this
      simp only [Prod.mk.injEq] at hv
      simp [hs, hf, hA, hv.1, hv.2.2, Except.bind, Except.map]

/-- a step of an explicit Galerkin problem whose full-order model may throw: the stages reached are reported, the first exception is thrown and the reduced state is left as it was -/
theorem C77_galerkin_step [CharZero K] {F : Fom K m m n} {f : (m → K) → K → Except Exc (m → K)} {Df Mm : (m → K) → K → Except Exc (Matrix m m K)} (hF : FomIs F f Df Mm) (S : Trial K m n) (s0 : GSt K m m q n)
    (obs : RhsEv K (n → K) → Except Exc Unit) (scheme : Scheme) (tab : Tableau K) (ht : tableauOf scheme = some tab) (t h : K) (c : Int) (s : ESt K (n → K)) (hlen : s.rhs.length = numRhs scheme) :
    ∃ calls, (doStep (asSystem (defaultRhs S F) s0) scheme obs t h c s).state.log = s.log ++ calls ∧
      Outcome s.y (doStep (asSystem (defaultRhs S F) s0) scheme obs t h c s).stop? (doStep (asSystem (defaultRhs S F) s0) scheme obs t h c s).state.y calls
        (tryStep tab (fun x t => (f (lift S x) t).map S.basisᵀ.mulVec) id .ok obs c s.y t h) :=
  C77_one_step_schemes _ _ (C77_galerkin_default hF S s0) obs scheme tab ht t h c s hlen

/-! ### C63: several problems -/

/-- what happens in a program, seen from the owner of the problem at `a`: a step of it, or something else -/
inductive Event (K m q n : Type) where
  | mine (t : K) (cnt : Int) (dt : K)
  | other (op : ObjOp K m q n)

/-- the operation is about another problem -/
def NotAbout (a : Nat) : ObjOp K m q n → Prop
  | .construct b _ _ _ _ _ => b ≠ a
  | .destroy b => b ≠ a
  | .step b _ _ _ _ => b ≠ a

/-- the program with several problems; `y` is the reduced state of the one at `a`; stops at the first step of it that stops -/
def together (a : Nat) : List (Event K m q n) → (n → K) → Heap K m q n → (n → K) × Option Stop
  | [], y, _ => (y, none)
  | .other op :: es, y, h => together a es y (op.run h)
  | .mine t c dt :: es, y, h =>
    match Model.GalerkinObjects.step a t c dt (y, h) with
    | .ok _ s => together a es s.1 s.2
    | .stop e s => (s.1, some e)

/-- the program with only this problem: its steps one after the other, on its own system and its own stepper storage -/
def alone (o : Obj K m q n) : List (Event K m q n) → (n → K) → (List (n → K) × (n → K) × List (RhsEv K (n → K))) → (n → K) × Option Stop
  | [], y, _ => (y, none)
  | .other _ :: es, y, st => alone o es y st
  | .mine t c dt :: es, y, st =>
    match Model.Explicit.asStepper (asSystem (defaultRhs o.trial o.fom) o.bufs) o.scheme Model.Explicit.dummyObserver t c dt (y, st) with
    | .ok _ s => alone o es s.1 s.2
    | .stop e s => (s.1, some e)

/-- an operation about another problem leaves this one alone -/
theorem other_keeps (a : Nat) (op : ObjOp K m q n) (hop : NotAbout a op) (h : Heap K m q n) (hs : SelfRef h) : op.run h a = h a := by
  cases op with
  | construct b S F sch bu st => exact if_neg (fun e => hop e.symm)
  | destroy b => exact if_neg (fun e => hop e.symm)
  | step b t c dt y =>
    have hb : a ≠ b := fun e => hop e.symm
    simp only [ObjOp.run, Model.GalerkinObjects.step]
    cases ho : h b with
    | none => rfl
    | some o =>
      have hr : o.sysRef = b := hs b o ho
      simp only [hr, ho]
      split <;> simp [Res.state, countUse, setStore, hb]

/-- **C63, what holds.** In every program that does not copy problems, whatever is constructed, destroyed and stepped in between at other places: the steps of a problem give the states, and stop as, they do in a program that has only this problem. -/
theorem C63_problems_do_not_interfere_partial (a : Nat) (es : List (Event K m q n)) (hes : ∀ op, Event.other op ∈ es → NotAbout a op) (h : Heap K m q n) (hs : SelfRef h) (o : Obj K m q n) (ho : h a = some o) (y : n → K) :
    together a es y h = alone o es y o.store := by
  suffices H : ∀ (es : List (Event K m q n)), (∀ op, Event.other op ∈ es → NotAbout a op) → ∀ (h : Heap K m q n), SelfRef h → ∀ o' : Obj K m q n, h a = some o' → (o'.trial = o.trial ∧ o'.fom = o.fom ∧ o'.bufs = o.bufs ∧ o'.scheme = o.scheme) →
      ∀ y, together a es y h = alone o es y o'.store from H es hes h hs o ho ⟨rfl, rfl, rfl, rfl⟩ y
  intro es
  induction es with
  | nil => intro _ h _ o' _ _ y; rfl
  | cons ev es ih =>
    intro hes h hs o' ho' heq y
    have ih := ih (fun op hop => hes op (List.mem_cons_of_mem _ hop))
    cases ev with
    | other op =>
      exact ih (op.run h) (selfRef_run op h hs) o' (by rw [other_keeps a op (hes op List.mem_cons_self) h hs, ho']) heq y
    | mine t c dt =>
      have hr : o'.sysRef = a := hs a o' ho'
      obtain ⟨h1, h2, h3, h4⟩ := heq
      simp only [together, alone, Model.GalerkinObjects.step, ho', hr, h1, h2, h3, h4]
      rcases hst : Model.Explicit.asStepper (asSystem (defaultRhs o.trial o.fom) o.bufs) o.scheme Model.Explicit.dummyObserver t c dt (y, o'.store) with ⟨u, r⟩ | ⟨e, r⟩
      · dsimp only
        exact ih _ (selfRef_update h hs _ _ _) { o' with store := r.2, uses := o'.uses + 1 } (by simp [countUse, setStore, ho']) ⟨h1, h2, h3, h4⟩ r.1
      · rfl

end

/-! ### Concrete instances -/
section
open Pressio.Model.Explicit (asStepper dummyObserver)

/-- a full-order model that fails above 3, having written its output -/
def fomThrows : Fom ℚ (Fin 2) (Fin 2) (Fin 1) where
  rhs := fun y t _ => if y 0 ≤ 3 then .ok (fun _ => t + y 1) else .error (.other 7, fun _ => 99)
  applyJac := fun _ _ _ _ => .ok 0
  applyMM := fun _ _ _ _ => .ok 0

theorem fomThrows_is : FomIs fomThrows (fun y t => if y 0 ≤ 3 then .ok (fun _ => t + y 1) else .error (.other 7)) (fun _ _ => .ok 0) (fun _ _ => .ok 0) := by
  refine ⟨fun y t b => ?_, fun y t B b => ?_, fun y t B b => ?_⟩
  · by_cases h : y 0 ≤ 3 <;> simp [fomThrows, h] <;> rfl
  · simp [fomThrows, Except.map, Except.mapError]
  · simp [fomThrows, Except.map, Except.mapError]

/-- it fails at the second stage of RungeKutta4: the state is unchanged -/
example : (doStep (asSystem (defaultRhs trial3 fomThrows) gst2) .RungeKutta4 (fun _ => .ok ()) 0 4 1 ⟨![0], [0, 0, 0, 0], 0, []⟩).stop? = some (.exc (.other 7)) ∧
    (doStep (asSystem (defaultRhs trial3 fomThrows) gst2) .RungeKutta4 (fun _ => .ok ()) 0 4 1 ⟨![0], [0, 0, 0, 0], 0, []⟩).state.y 0 = 0 := by
  decide +kernel
/-- the hypotheses of the theorem are met -/
example (obs : RhsEv ℚ (Fin 1 → ℚ) → Except Exc Unit) (t h : ℚ) (x : Fin 1 → ℚ) := C77_galerkin_step fomThrows_is trial3 gst2 obs .RungeKutta4 _ rfl t h 1 ⟨x, [0, 0, 0, 0], 0, []⟩ rfl

/-- two problems, constructed at 0 and 1 and stepped alternately; the second is destroyed on the way -/
example (y : Fin 1 → ℚ) :
    let h := construct 0 trial3 fom3 .AdamsBashforth2 gst2 ([![9], ![9]], ![9], []) (fun _ => none)
    let es : List (Event ℚ (Fin 2) (Fin 1) (Fin 1)) := [.other (.construct 1 trial3 fom3 .ForwardEuler gst2 ([![9]], ![9], [])), .mine 0 1 1, .other (.step 1 0 1 1 ![5]), .mine 1 2 (1/2), .other (.destroy 1), .mine (3/2) 3 1]
    together 0 es y h = alone ⟨trial3, fom3, gst2, 0, .AdamsBashforth2, 0, ([![9], ![9]], ![9], [])⟩ es y ([![9], ![9]], ![9], []) := by
  intro h es
  refine C63_problems_do_not_interfere_partial 0 es ?_ h (selfRef_run (.construct 0 trial3 fom3 .AdamsBashforth2 gst2 ([![9], ![9]], ![9], [])) _ (by intro a o ho; simp at ho)) _ rfl y
  intro op hop
  simp only [es, List.mem_cons, Event.other.injEq, reduceCtorEq, List.not_mem_nil, or_false, false_or] at hop
  rcases hop with rfl | rfl | rfl <;> simp [NotAbout]

example := C77_galerkin_default fomThrows_is trial3 gst2
example := C77_galerkin_hyperreduced fomThrows_is hyp2_is trial3 gst2
example := C77_galerkin_masked fomThrows_is mask2_is hyp1_is trial3 gst2
example := C77_galerkin_mass_matrix fom2_is trial3 gst2


end
end Pressio.Props
