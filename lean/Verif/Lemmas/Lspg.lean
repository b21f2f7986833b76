import Verif.Spec.Lspg
import Verif.Props.Galerkin
import Verif.Lemmas.ImplicitAsked
import Verif.Lemmas.ImplicitPolicy

/-
  Lemmas about LSPG: the invariant of the FOM states manager, and the policies.
-/
namespace Pressio.Lemmas.Lspg
set_option autoImplicit false
set_option linter.unusedSectionVars false
open Pressio Pressio.Model.Galerkin Pressio.Model.Lspg Pressio.Spec.Galerkin Pressio.Spec.Lspg Pressio.Model.Implicit Pressio.Lemmas.Implicit Pressio.Props
open Pressio.Model.Explicit (Scheme)
open scoped Matrix

variable {K m p q n : Type} [Field K] [Fintype m] [Fintype p] [Fintype q] [Fintype n]

/-! ### the manager -/

/-- FOM state before the latest accepted one; `init` if there is none -/
def older (S : Trial K m n) (init : m → K) (prev : List (n → K)) : m → K :=
  match prev with
  | z :: _ => lift S z
  | [] => init

/-- no evaluation yet in this step -/
def NotYet (N : Nat) (S : Trial K m n) (init : m → K) (hist : List (n → K)) (p : LMem K m q n) : Prop :=
  ∃ y prev d0 tl, hist = y :: prev ∧ p.data = d0 :: older S init prev :: tl ∧ tl.length + 2 = N ∧ p.tracker ≠ hist.length

/-- data after an evaluation, apart from the first slot -/
def tailData (N : Nat) (S : Trial K m n) (init : m → K) (y : n → K) (prev : List (n → K)) : Mgr K m := lift S y :: ([older S init prev].take (N - 2))

/-- evaluated in this step -/
def During (N : Nat) (S : Trial K m n) (init : m → K) (hist : List (n → K)) (p : LMem K m q n) : Prop :=
  ∃ y prev d0, hist = y :: prev ∧ p.data = d0 :: tailData N S init y prev ∧ p.tracker = hist.length

def Good (N : Nat) (S : Trial K m n) (init : m → K) (hist : List (n → K)) (p : LMem K m q n) : Prop := NotYet N S init hist p ∨ During N S init hist p

theorem During.good {N : Nat} {S : Trial K m n} {init : m → K} {hist : List (n → K)} {p : LMem K m q n} (h : During N S init hist p) : Good N S init hist p := Or.inr h

theorem During.accept {N : Nat} (hN : N = 2 ∨ N = 3) {S : Trial K m n} {init : m → K} {hist : List (n → K)} {p : LMem K m q n} (y' : n → K) (h : During N S init hist p) :
    Good N S init (y' :: hist) p := by
  obtain ⟨y, prev, d0, rfl, h2, h3⟩ := h
  refine Or.inl ⟨y', y :: prev, d0, [older S init prev].take (N - 2), rfl, h2, ?_, ?_⟩
  · rcases hN with rfl | rfl <;> rfl
  · rw [h3]; simp only [List.length_cons]; omega

theorem track_run {N : Nat} (hN : N = 2 ∨ N = 3) (S : Trial K m n) (init : m → K) (y : n → K) (prev : List (n → K)) (x : n → K) (states : List (n → K)) (hs : states[0]? = some y)
    (p : LMem K m q n) (h : Good N S init (y :: prev) p) :
    track S x states (y :: prev).length p = .ok () { p with data := lift S x :: tailData N S init y prev, tracker := (y :: prev).length } := by
  unfold track
  rcases h with ⟨y1, p1, d0, tl, he, hd, hl, ht⟩ | ⟨y1, p1, d0, he, hd, ht⟩
  · obtain ⟨rfl, rfl⟩ := List.cons.inj he
    have e1 : withMgr (mgrSet S x .nPlusOne) p = .ok () { p with data := lift S x :: older S init prev :: tl } := by
      simp [withMgr, mgrSet, hd, trial_map_lift]
    rw [bind_ok e1]
    rw [bind_ok (show Prog.get _ = .ok _ _ from rfl)]
    rw [if_pos (by simpa using ht)]
    have e2 : (readState states 0 : Prog (LMem K m q n) (n → K)) { p with data := lift S x :: older S init prev :: tl } = .ok y { p with data := lift S x :: older S init prev :: tl } := by
      simp [readState, hs]
    rw [bind_ok e2]
    have e3 : withMgr (mgrPush S y) { p with data := lift S x :: older S init prev :: tl } = .ok () { p with data := lift S x :: tailData N S init y prev } := by
      rcases hN with rfl | rfl
      · obtain rfl : tl = [] := List.length_eq_zero_iff.1 (by omega)
        simp [withMgr, mgrPush, trial_map_lift, tailData]
      · obtain ⟨a, rfl⟩ := List.length_eq_one_iff.1 (show tl.length = 1 by omega)
        simp [withMgr, mgrPush, trial_map_lift, tailData]
    rw [bind_ok e3]
    rfl
  · obtain ⟨rfl, rfl⟩ := List.cons.inj he
    have e1 : withMgr (mgrSet S x .nPlusOne) p = .ok () { p with data := lift S x :: tailData N S init y prev } := by
      simp [withMgr, mgrSet, hd, trial_map_lift]
    rw [bind_ok e1]
    rw [bind_ok (show Prog.get _ = .ok _ _ from rfl)]
    rw [if_neg (by simpa using ht)]
    show Res.ok () _ = _
    rw [← ht]

/-! ### the two policies -/

/-- What the assembly after `track` computes: `G y yn (some ynm1)` for BDF2, `G y yn none` for BDF1; the manager is left alone. -/
def Assembles {A : Type} (assemble : Bool → K → K → Bool → Prog (LMem K m q n) A) (G : (m → K) → (m → K) → Option (m → K) → K → K → Bool → Except Exc A) : Prop :=
  ∀ (y yn : m → K) (tl : List (m → K)) (t dt : K) (w bdf2 : Bool) (s : LMem K m q n), s.data = y :: yn :: tl → (bdf2 = true → ∃ z, tl = [z]) →
    ∃ s', s'.data = s.data ∧ s'.tracker = s.tracker ∧ assemble bdf2 t dt w s = settle (G y yn (if bdf2 then tl.head? else none) t dt w) s'

/-- the equations, in terms of `G` -/
def equations {A : Type} (name : Scheme) (S : Trial K m n) (G : (m → K) → (m → K) → Option (m → K) → K → K → Bool → Except Exc A) :
    List (n → K) → K → K → (n → K) → Bool → Except Exc A := fun hist t dt x w =>
  match name, hist with
  | .BDF2, yn :: z :: _ => G (lift S x) (lift S yn) (some (lift S z)) (t + dt) dt w
  | _, yn :: _ => G (lift S x) (lift S yn) none (t + dt) dt w
  | _, [] => .error (.runtimeError "no state")

/-- number of FOM states kept -/
def numStates : Scheme → Nat
  | .BDF2 => 3
  | _ => 2

/-- stencil during a step -/
def StOf : Scheme → List (n → K) → List (n → K) → Prop
  | .BDF2 => St2
  | _ => St1

theorem StOf.head {name : Scheme} {y : n → K} {prev states : List (n → K)} (h : StOf name (y :: prev) states) : states[0]? = some y := by
  cases name <;> first
    | (obtain ⟨y1, p1, he, rfl⟩ := h; obtain ⟨rfl, -⟩ := List.cons.inj he; rfl)
    | (obtain ⟨y1, p1, b, he, rfl, -⟩ := h; obtain ⟨rfl, -⟩ := List.cons.inj he; rfl)

theorem lspgPolicy_call (name : Scheme) (hname : name = .BDF1 ∨ name = .BDF2) (S : Trial K m n) (assemble : Bool → K → K → Bool → Prog (LMem K m q n) ((q → K) × Option (Matrix q n K)))
    (G : (m → K) → (m → K) → Option (m → K) → K → K → Bool → Except Exc ((q → K) × Option (Matrix q n K))) (hG : Assembles assemble G) (init : m → K)
    (y : n → K) (prev : List (n → K)) (t dt : K) (states : List (n → K)) (hs : states[0]? = some y) (x : n → K) (w : Bool) (r : List (n → K)) (p : LMem K m q n)
    (hp : Good (numStates name) S init (y :: prev) p) :
    ∃ p', p'.data = lift S x :: tailData (numStates name) S init y prev ∧ p'.tracker = ((y :: prev).length : Int) ∧
      lspgPolicy assemble S name x states (t + dt) (y :: prev).length dt w (r, p) =
        settle (equations name S G (y :: prev) t dt x w) (r, p') := by
  have hN : numStates name = 2 ∨ numStates name = 3 := by rcases hname with rfl | rfl <;> simp [numStates]
  have ht := track_run hN S init y prev x states hs p hp
  have onpol : ∀ (b : Bool) (g : Except Exc ((q → K) × Option (Matrix q n K))) (s' : LMem K m q n),
      assemble b (t + dt) dt w { p with data := lift S x :: tailData (numStates name) S init y prev, tracker := (y :: prev).length } =
        settle g s' →
      onPol (R := n → K) (do track S x states (y :: prev).length; assemble b (t + dt) dt w) (r, p) = settle g (r, s') := by
    intro b g s' h
    unfold onPol
    simp only
    rw [bind_ok ht, h]
    cases g <;> rfl
  rcases hname with rfl | rfl
  · obtain ⟨s', h1, h2, h3⟩ := hG (lift S x) (lift S y) _ (t + dt) dt w false
      { p with data := lift S x :: tailData (numStates .BDF1) S init y prev, tracker := (y :: prev).length } rfl (by simp)
    exact ⟨s', h1, h2, onpol false _ s' h3⟩
  · cases prev with
    | nil =>
      obtain ⟨s', h1, h2, h3⟩ := hG (lift S x) (lift S y) _ (t + dt) dt w false
        { p with data := lift S x :: tailData (numStates .BDF2) S init y [], tracker := ([y] : List (n → K)).length } rfl (by simp)
      refine ⟨s', h1, h2, ?_⟩
      have := onpol false _ s' h3
      simp only [lspgPolicy]
      rw [if_pos (by simp)]
      exact this
    | cons z rest =>
      obtain ⟨s', h1, h2, h3⟩ := hG (lift S x) (lift S y) _ (t + dt) dt w true
        { p with data := lift S x :: tailData (numStates .BDF2) S init y (z :: rest), tracker := (y :: z :: rest).length } rfl
        (by intro _; exact ⟨lift S z, rfl⟩)
      refine ⟨s', h1, h2, ?_⟩
      have := onpol true _ s' h3
      simp only [lspgPolicy]
      rw [if_neg (by simp only [List.length_cons]; omega)]
      exact this

theorem lspgPolicy_refines (name : Scheme) (hname : name = .BDF1 ∨ name = .BDF2) (S : Trial K m n) (assemble : Bool → K → K → Bool → Prog (LMem K m q n) ((q → K) × Option (Matrix q n K)))
    (G : (m → K) → (m → K) → Option (m → K) → K → K → Bool → Except Exc ((q → K) × Option (Matrix q n K))) (hG : Assembles assemble G) (init : m → K) :
    PolicyRefinesA name (lspgPolicy assemble S) (equations name S G) (StOf name) (fun hist _ p => Good (numStates name) S init hist p)
      (fun hist _ p => During (numStates name) S init hist p) where
  answers := by
    intro y prev t dt states hst x w r p hp
    obtain ⟨p', h1, h2, h3⟩ := lspgPolicy_call name hname S assemble G hG init y prev t dt states hst.head x w r p hp
    exact ⟨r, p', ⟨y, prev, _, rfl, h1, h2⟩, h3⟩
  weaken := fun _ _ _ _ h => h.good
  accept := fun y' _ _ _ _ h => h.accept (by rcases hname with rfl | rfl <;> simp [numStates]) y'

/-- the stepper driven with an LSPG policy -/
def stepWith {P A : Type} (name : Scheme) (policy : Policy K (n → K) (n → K) P A) : ((n → K) → SolveTree (n → K) A) → K → K → Int → Prog (SolveSt (n → K) (SMem K (n → K) (n → K) P) A) Unit :=
  fun solver t dt k => doStep name policy solver t dt k

/-- sizes of the storage -/
def Sized {P : Type} (name : Scheme) (m : SMem K (n → K) (n → K) P) : Prop := m.states.length = match name with | .BDF2 => 2 | _ => 1

open Pressio.Spec.Implicit in
/-- from the policy contract to runs -/
theorem run_of_policy {P A : Type} (name : Scheme) (hname : name = .BDF1 ∨ name = .BDF2) (policy : Policy K (n → K) (n → K) P A) (F : List (n → K) → K → K → (n → K) → Bool → Except Exc A)
    (PI PD : List (n → K) → List (n → K) → P → Prop) (h : PolicyRefinesA name policy F (StOf name) PI PD)
    (hF : ∀ hist t dt x w, F hist t dt x w ≠ .error .timeStepFailure) (atts : List (Attempt K (n → K) A)) (hon : ∀ a ∈ atts, ∀ y, Honest (a.solver y)) (hask : ∀ a ∈ atts, ∀ y, Asks (a.solver y))
    (t0 : K) (x0 : n → K) (mem : SMem K (n → K) (n → K) P) (hmem : Sized name mem) (hp : PI [x0] mem.rhs mem.pol) :
    drive (stepWith name policy) atts t0 [x0] x0 mem = ideal F atts t0 x0 [] := by
  rcases hname with rfl | rfl
  · exact drive_eq_ideal_asked _ _ _ (refines_bdf1_asked policy F PI PD h) hF atts hon hask t0 x0 [] mem ⟨hmem, hp⟩
  · refine drive_eq_ideal_asked _ _ _ (refines_bdf2_asked policy F PI PD h) hF atts hon hask t0 x0 [] mem ⟨?_, hp⟩
    obtain ⟨a, b, hab⟩ := List.length_eq_two.1 hmem
    exact ⟨a, b, hab, by simp⟩

/-- the memory of a problem in which no evaluation has been made for step 1, with the right number of FOM states: good for a new run -/
theorem good_start (N : Nat) (S : Trial K m n) (x0 : n → K) (p : LMem K m q n) (hl : p.data.length = N) (hN : 2 ≤ N) (ht : p.tracker ≠ 1) :
    Good N S (p.data.getD 1 0) [x0] p := by
  obtain ⟨data, tr, he, R, J⟩ := p
  match data, hl with
  | [], hl => simp at hl; omega
  | [a], hl => simp at hl; omega
  | a :: b :: tl, hl => exact Or.inl ⟨x0, [], a, tl, rfl, by simp [older], by simp at hl; omega, by simpa using ht⟩

end Pressio.Lemmas.Lspg
