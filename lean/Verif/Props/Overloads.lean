import Verif.Model.Overloads
import Mathlib.Tactic.SplitIfs
import Mathlib.Data.Rat.Defs
import Mathlib.Algebra.Field.Rat
import Mathlib.Algebra.Order.Ring.Rat

/-
  C70: every public advancer uses the objects that it is given, in their roles.  C71: auxiliary arguments.
-/
namespace Pressio.Props
set_option autoImplicit false
set_option linter.unusedSectionVars false
open Pressio Pressio.Model.Advance Pressio.Model.Overloads

variable {W T Y : Type}

/-- the argument after the range is a fixed step size `d` (and cannot be called as a policy), or a policy `p` (and is not a number) -/
def SizeIs (a : Arg W T Y) : T ⊕ (Int → T → T → Prog W T) → Prop
  | .inl d => a.ind = some d ∧ a.policy3 = none
  | .inr p => a.ind = none ∧ a.policy3 = some p

/-- the loop that a user expects: the given policy or fixed size, the given guesser and observer if any, the stepper with the given auxiliary arguments -/
def expectedN [Add T] (zero : T) (size : T ⊕ (Int → T → T → Prog W T)) (g : Option (Int → T → Prog (Y × W) Unit)) (ob : Option (Int → T → Y → Prog W Unit))
    (stp : T → Int → T → Prog (Y × W) Unit) (N : Int) (start : T) : Prog (St W T Y) Unit :=
  advanceN zero ⟨match size with | .inl d => fun _ _ _ => pure d | .inr p => p, fun _ _ v => pure v,
    match g with | some f => f | none => fun _ _ => pure (), stp, match ob with | some f => f | none => fun _ _ _ => pure ()⟩ N start

theorem runBound_eq [Add T] (zero : T) (b : Bound W T Y) (N : Int) (start : T) : runBound zero b N start = expectedN zero b.size b.guesser b.observer b.step N start := by
  obtain ⟨sz, g, ob, s⟩ := b
  cases sz <;> cases g <;> cases ob <;> rfl

/-- **C70, `advance_n_steps`.**  A call with a step size or a policy, possibly (pre-step variant: always) a guesser, possibly an observer, and any number of auxiliary arguments that the stepper accepts compiles, is
    not ambiguous, and runs the loop with exactly these objects in their roles - also for steppers that would accept the observer as an auxiliary argument, as all steppers of the library do.  Without an observer the first
    auxiliary argument must not itself be usable as an observer. -/
theorem C70_advance_n_steps [Add T] (zero : T) (st : Stepper W T Y) (size : Arg W T Y) (sz : T ⊕ (Int → T → T → Prog W T)) (hsz : SizeIs size sz)
    (g : Option (Arg W T Y)) (gf : Option (Int → T → Prog (Y × W) Unit)) (hg : g.map Arg.guess = gf.map some)
    (ob : Option (Arg W T Y)) (obf : Option (Int → T → Y → Prog W Unit)) (hob : ob.map Arg.obs = obf.map some)
    (aux : List (Arg W T Y)) (stp : T → Int → T → Prog (Y × W) Unit) (hst : st aux = some stp)
    (haux : ob = none → ∀ a r, aux = a :: r → a.obs = none) (N : Int) (start : T) :
    callN zero g.isSome st size (g.toList ++ ob.toList ++ aux) N start = some (expectedN zero sz gf obf stp N start) := by
  have key : callN zero g.isSome st size (g.toList ++ ob.toList ++ aux) N start = some (runBound zero ⟨sz, gf, obf, stp⟩ N start) := by
    cases sz <;> simp only [SizeIs] at hsz <;> obtain ⟨h1, h2⟩ := hsz <;>
    cases g <;> cases gf <;> simp only [Option.map_none, Option.map_some, reduceCtorEq, Option.some.injEq] at hg <;>
    cases ob <;> cases obf <;> simp only [Option.map_none, Option.map_some, reduceCtorEq, Option.some.injEq] at hob
    all_goals first
      | (rcases aux with _ | ⟨a, r⟩
         · simp [callN, resolveN, nOverloads, bindN, take, h1, h2, hg, hst]
         · have ha := haux rfl a r rfl
           simp [callN, resolveN, nOverloads, bindN, take, h1, h2, hg, hst, ha])
      | (rename_i o f
         rcases aux with _ | ⟨a, r⟩
         · rcases h3 : st [o] with _ | s3 <;>
             simp [callN, resolveN, nOverloads, bindN, take, h1, h2, hg, hob, hst, h3, moreSpecialised, Overload.fixed]
         · rcases h3 : st (o :: a :: r) with _ | s3 <;>
             simp [callN, resolveN, nOverloads, bindN, take, h1, h2, hg, hob, hst, h3, moreSpecialised, Overload.fixed])
  rw [key, runBound_eq]

/-- C70: an auxiliary argument that can be called like an observer is taken for the observer (and is not passed to the stepper) as soon as the stepper also accepts the other ones. -/
theorem C70_observer_like_auxiliary [Add T] (zero : T) (st : Stepper W T Y) (size : Arg W T Y) (sz : T ⊕ (Int → T → T → Prog W T)) (hsz : SizeIs size sz)
    (a : Arg W T Y) (f : Int → T → Y → Prog W Unit) (ha : a.obs = some f) (r : List (Arg W T Y)) (stp : T → Int → T → Prog (Y × W) Unit) (hst : st r = some stp) (N : Int) (start : T) :
    callN zero false st size (a :: r) N start = some (expectedN zero sz none (some f) stp N start) :=
  C70_advance_n_steps zero st size sz hsz none none rfl (some a) (some f) (by simp [ha]) r stp hst (by simp) N start

/-- the loop that a user expects of the target-point functions -/
def expectedT [Field T] [LinearOrder T] (eps : T) (recovery : Bool) (p3 : Int → T → T → Prog W T) (p5 : Int → T → DtVars T → Prog W (DtVars T)) (ob : Option (Int → T → Y → Prog W Unit))
    (stp : T → Int → T → Prog (Y × W) Unit) (fuel : Nat) (start final : T) : Prog (St W T Y) T :=
  advanceT recovery eps ⟨p3, p5, fun _ _ => pure (), stp, match ob with | some f => f | none => fun _ _ _ => pure ()⟩ fuel start final

/-- **C70, `advance_to_target_point`.**  Same, with a policy; here the first auxiliary argument must not be usable as an observer in any case (otherwise the call does not compile). -/
theorem C70_advance_to_target_point [Field T] [LinearOrder T] (eps : T) (st : Stepper W T Y) (policy : Arg W T Y) (p : Int → T → T → Prog W T) (hp : policy.policy3 = some p)
    (ob : Option (Arg W T Y)) (obf : Option (Int → T → Y → Prog W Unit)) (hob : ob.map Arg.obs = obf.map some)
    (aux : List (Arg W T Y)) (stp : T → Int → T → Prog (Y × W) Unit) (hst : st aux = some stp)
    (haux : ∀ a r, aux = a :: r → a.obs = none) (fuel : Nat) (start final : T) :
    callT eps false st policy (ob.toList ++ aux) fuel start final = some (expectedT eps false p (fun _ _ v => pure v) obf stp fuel start final) := by
  cases ob <;> cases obf <;> simp only [Option.map_none, Option.map_some, reduceCtorEq, Option.some.injEq] at hob
  · rcases aux with _ | ⟨a, r⟩
    · simp [callT, resolveT, tOverloads, bindT, take, hp, hst, expectedT, advanceToTargetPoint]; rfl
    · have ha := haux a r rfl
      simp [callT, resolveT, tOverloads, bindT, take, hp, hst, ha, auxOk, expectedT, advanceToTargetPoint]; rfl
  · rcases aux with _ | ⟨a, r⟩
    · simp [callT, resolveT, tOverloads, bindT, take, hp, hst, hob, auxOk, expectedT, advanceToTargetPoint]; rfl
    · have ha := haux a r rfl
      simp [callT, resolveT, tOverloads, bindT, take, hp, hst, hob, ha, auxOk, expectedT, advanceToTargetPoint]; rfl

/-- **C70, `advance_to_target_point_with_step_recovery`** with auxiliary arguments: the given policy (called with five arguments), observer, and stepper with its auxiliary arguments, with recovery. -/
theorem C70_advance_with_recovery [Field T] [LinearOrder T] (eps : T) (st : Stepper W T Y) (policy : Arg W T Y) (p : Int → T → DtVars T → Prog W (DtVars T)) (hp : policy.policy5 = some p)
    (ob : Option (Arg W T Y)) (obf : Option (Int → T → Y → Prog W Unit)) (hob : ob.map Arg.obs = obf.map some)
    (a : Arg W T Y) (r : List (Arg W T Y)) (stp : T → Int → T → Prog (Y × W) Unit) (hst : st (a :: r) = some stp)
    (haux : ob = none → a.obs = none) (fuel : Nat) (start final : T) :
    callT eps true st policy (ob.toList ++ a :: r) fuel start final = some (expectedT eps true (fun _ _ d => pure d) p obf stp fuel start final) := by
  cases ob <;> cases obf <;> simp only [Option.map_none, Option.map_some, reduceCtorEq, Option.some.injEq] at hob
  · have ha := haux rfl
    simp [callT, resolveT, tOverloads, bindT, take, hp, hst, ha, auxOk, expectedT, advanceToTargetPointWithStepRecoveryVariadic]; rfl
  · simp [callT, resolveT, tOverloads, bindT, take, hp, hst, hob, auxOk, expectedT, advanceToTargetPointWithStepRecoveryVariadic]; rfl

/-- C70 and C10: without auxiliary arguments the function for recovery only compiles for a policy that can also be called with three arguments, which it then calls, and it does not recover. -/
theorem C70_recovery_without_arguments [Field T] [LinearOrder T] (eps : T) (st : Stepper W T Y) (policy : Arg W T Y) (p : Int → T → DtVars T → Prog W (DtVars T)) (hp : policy.policy5 = some p)
    (ob : Option (Arg W T Y)) (obf : Option (Int → T → Y → Prog W Unit)) (hob : ob.map Arg.obs = obf.map some) (stp : T → Int → T → Prog (Y × W) Unit) (hst : st [] = some stp)
    (fuel : Nat) (start final : T) :
    callT eps true st policy ob.toList fuel start final = policy.policy3.map (fun p3 => expectedT eps false p3 (fun _ _ v => pure v) obf stp fuel start final) := by
  cases ob <;> cases obf <;> simp only [Option.map_none, Option.map_some, reduceCtorEq, Option.some.injEq] at hob
  · rcases h3 : policy.policy3 with _ | p3 <;>
    simp [callT, resolveT, tOverloads, bindT, take, hp, hst, h3, expectedT, advanceToTargetPointWithStepRecovery]
    rfl
  · rcases h3 : policy.policy3 with _ | p3 <;>
    simp [callT, resolveT, tOverloads, bindT, take, hp, hst, h3, hob, auxOk, expectedT, advanceToTargetPointWithStepRecovery]
    rfl

/-- the only overload that can be viable -/
def targetShape (rest : List (Arg W T Y)) : TOverload :=
  match rest with
  | [] => ⟨false, false⟩
  | a :: r => if a.obs.isSome then ⟨true, !r.isEmpty⟩ else ⟨false, true⟩

theorem bindT_shape (recovery : Bool) (o : TOverload) (st : Stepper W T Y) (policy : Arg W T Y) (rest : List (Arg W T Y)) (h : (bindT recovery o st policy rest).isSome = true) : o = targetShape rest := by
  obtain ⟨v, hv⟩ := Option.isSome_iff_exists.1 h
  rw [bindT] at hv
  replace hv : ∃ q, take o.observer Arg.obs rest = some q ∧ (if o.variadic = q.2.isEmpty then none else if (o.variadic && !auxOk recovery o q.2) = true then none else (st q.2).bind fun s => some (q.1, s)) = some v := by
    cases recovery <;> simp only [Bool.false_eq_true, if_true, if_false, Option.bind_eq_bind] at hv <;> obtain ⟨-, -, hv⟩ := Option.bind_eq_some_iff.1 hv <;> exact Option.bind_eq_some_iff.1 hv
  obtain ⟨⟨ob, r⟩, ht, hv⟩ := hv
  obtain ⟨a, b⟩ := o
  rcases rest with _ | ⟨x, r'⟩
  · cases a <;> simp only [take, Bool.false_eq_true, if_true, if_false, reduceCtorEq, Option.some.injEq, Prod.mk.injEq] at ht
    obtain ⟨-, rfl⟩ := ht
    cases b <;> simp [targetShape] at hv ⊢
  · rcases hx : x.obs with _ | f <;> cases a <;> simp only [take, hx, Bool.false_eq_true, if_true, if_false, reduceCtorEq, Option.some.injEq, Prod.mk.injEq, Option.map_none, Option.map_some] at ht
    · obtain ⟨-, rfl⟩ := ht
      cases b <;> simp [targetShape, hx] at hv ⊢
    · obtain ⟨-, rfl⟩ := ht
      cases b <;> simp [targetShape, hx, auxOk] at hv
    · obtain ⟨-, rfl⟩ := ht
      cases b <;> rcases r' with _ | ⟨y, r'⟩ <;> simp [targetShape, hx] at hv ⊢

/-- **C70: target-point calls are never ambiguous.**  At most one overload is viable for a call, and the viable one is selected. -/
theorem C70_target_overloads_exclusive (recovery : Bool) (st : Stepper W T Y) (policy : Arg W T Y) (rest : List (Arg W T Y)) :
    (∀ o o' : TOverload, (bindT recovery o st policy rest).isSome = true → (bindT recovery o' st policy rest).isSome = true → o = o') ∧
    (∀ o : TOverload, resolveT recovery st policy rest = some o ↔ (bindT recovery o st policy rest).isSome = true) := by
  have key : ∀ o o' : TOverload, (bindT recovery o st policy rest).isSome = true → (bindT recovery o' st policy rest).isSome = true → o = o' :=
    fun o o' h h' => (bindT_shape _ _ _ _ _ h).trans (bindT_shape _ _ _ _ _ h').symm
  have all : ∀ o : TOverload, o ∈ tOverloads := by rintro ⟨a, b⟩; cases a <;> cases b <;> simp [tOverloads]
  refine ⟨key, fun o => ⟨fun h => ?_, fun h => ?_⟩⟩
  · have := List.mem_of_find?_eq_some h
    exact (List.mem_filter.1 this).2
  · have hv : ∀ o', o' ∈ tOverloads.filter (fun o => (bindT recovery o st policy rest).isSome) → o' = o := fun o' h' => key o' o (List.mem_filter.1 h').2 h
    have hm : o ∈ tOverloads.filter (fun o => (bindT recovery o st policy rest).isSome) := List.mem_filter.2 ⟨all o, h⟩
    rw [resolveT]
    generalize tOverloads.filter (fun o => (bindT recovery o st policy rest).isSome) = v at hv hm
    obtain ⟨x, hx⟩ : ∃ x, v.find? (fun o => v.all (fun o' => o' == o || moreSpecialisedT o o')) = some x := by
      rw [← Option.isSome_iff_exists, List.find?_isSome]
      exact ⟨o, hm, by rw [List.all_eq_true]; intro o' ho'; simp [hv o' ho']⟩
    rw [hx, hv x (List.mem_of_find?_eq_some hx)]

/-- C70: calls of `advance_to_target_point` with an observer and a first auxiliary argument that can itself be called like an observer do not compile. -/
theorem C70_target_observer_like_auxiliary [Field T] [LinearOrder T] (eps : T) (st : Stepper W T Y) (policy ob a : Arg W T Y) (r : List (Arg W T Y)) (hob : ob.obs.isSome = true) (ha : a.obs.isSome = true) (fuel : Nat) (start final : T) :
    callT eps false st policy (ob :: a :: r) fuel start final = none := by
  obtain ⟨f, hf⟩ := Option.isSome_iff_exists.1 hob
  obtain ⟨g, hg⟩ := Option.isSome_iff_exists.1 ha
  rcases h3 : policy.policy3 with _ | p3 <;> simp [callT, resolveT, tOverloads, bindT, take, auxOk, h3, hf, hg]

/-! ### auxiliary arguments -/

/-- user objects that do not know the auxiliary argument (second component of the world), and a stepper that may -/
def withAux {A : Type} (c : Calls W T Y) (stp : T → Int → T → Prog (Y × W × A) Unit) : Calls (W × A) T Y :=
  ⟨fun n t d x => (match c.dtPolicy3 n t d x.1 with | .ok v w => .ok v (w, x.2) | .stop h w => .stop h (w, x.2)), fun _ _ v => pure v,
    fun n t x => (match c.guesser n t (x.1, x.2.1) with | .ok _ z => .ok () (z.1, z.2, x.2.2) | .stop h z => .stop h (z.1, z.2, x.2.2)),
    stp, fun n t y x => (match c.observer n t y x.1 with | .ok _ w => .ok () (w, x.2) | .stop h w => .stop h (w, x.2))⟩

/-- a run from a state of the world and the auxiliary argument, compared with a run in which the stepper has that argument built in -/
theorem nLoop_forward [Add T] {A : Type} (a : A) (moved : A → A) (c : Calls W T Y) (step : A → T → Int → T → Prog (Y × W) Unit) (k : Nat) (n : Int) (t d : T) (s : St W T Y) :
    nLoop (withAux c (forwardingStep false moved step)) k n t d ⟨(s.w, a), s.y, s.log⟩ =
      match nLoop { c with stepper := step a } k n t d s with
      | .ok _ s' => .ok () ⟨(s'.w, a), s'.y, s'.log⟩
      | .stop h s' => .stop h ⟨(s'.w, a), s'.y, s'.log⟩ := by
  induction k generalizing n t d s with
  | zero => rfl
  | succ k ih =>
    simp only [nLoop, Bind.bind, Prog.bind, onW, withAux]
    rcases h1 : c.dtPolicy3 n t d s.w with ⟨d', w1⟩ | ⟨h, w1⟩ <;> simp only []
    simp only [emit, callGuess, Bind.bind, Prog.bind, onYW]
    rcases h2 : c.guesser n t (s.y, w1) with ⟨⟨⟩, y2, w2⟩ | ⟨h, y2, w2⟩ <;> simp only []
    simp only [callStep, emit, Bind.bind, Prog.bind, onYW, forwardingStep, Bool.false_eq_true, if_false]
    rcases h3 : step a t n d' (y2, w2) with ⟨⟨⟩, y3, w3⟩ | ⟨h, y3, w3⟩ <;> simp only []
    simp only [callObs, emit, Bind.bind, Prog.bind, onW]
    rcases h4 : c.observer n (t + d') y3 w3 with ⟨⟨⟩, w4⟩ | ⟨h, w4⟩ <;> simp only []
    by_cases hm : n = int32Max
    · simp [hm, Prog.undef]
    · simp only [hm, if_false]
      exact ih (n + 1) (t + d') d' ⟨w4, y3, _⟩

/-- **C71.**  Arguments passed as lvalues (or taken by reference by the stepper) reach the stepper unchanged at every step: the run is the one of a stepper with that argument built in. -/
theorem C71_auxiliary_arguments_partial [Add T] {A : Type} (zero : T) (a : A) (moved : A → A) (c : Calls W T Y) (step : A → T → Int → T → Prog (Y × W) Unit) (N : Int) (start : T) (s : St W T Y) :
    advanceN zero (withAux c (forwardingStep false moved step)) N start ⟨(s.w, a), s.y, s.log⟩ =
      match advanceN zero { c with stepper := step a } N start s with
      | .ok _ s' => .ok () ⟨(s'.w, a), s'.y, s'.log⟩
      | .stop h s' => .stop h ⟨(s'.w, a), s'.y, s'.log⟩ := by
  simp only [advanceN, Bind.bind, Prog.bind, callObs, emit, onW, withAux]
  rcases h4 : c.observer 0 start s.y s.w with ⟨⟨⟩, w4⟩ | ⟨h, w4⟩ <;> simp only []
  exact nLoop_forward a moved c step N.toNat 1 start zero ⟨w4, s.y, _⟩

/-- **C71 is false for temporaries** that the stepper takes by value: whatever the moved-from argument looks like, as long as it differs, there is a stepper for which a run of two steps is not the run with the argument
    that was passed: the second step gets the moved-from object. -/
theorem C71_refuted_temporaries {A : Type} [DecidableEq A] (a : A) (moved : A → A) (hm : moved a ≠ a) :
    ∃ (c : Calls Unit Rat (List Bool)) (step : A → Rat → Int → Rat → Prog (List Bool × Unit) Unit),
      (advanceN 0 { c with stepper := step a } 2 0 ⟨(), [], []⟩).state.y = [true, true] ∧
      (advanceN 0 (withAux c (forwardingStep true moved step)) 2 0 ⟨((), a), [], []⟩).state.y = [true, false] ∧
      (advanceN 0 (withAux c (forwardingStep true moved step)) 2 0 ⟨((), a), [], []⟩).stop? = none := by
  refine ⟨⟨fun _ _ _ => pure 1, fun _ _ v => pure v, noopGuesser, fun _ _ _ => pure (), noopObserver⟩, fun b _ _ _ x => .ok () (x.1 ++ [decide (b = a)], ()), ?_, ?_, ?_⟩ <;>
    simp [advanceN, nLoop, callObs, callGuess, callStep, emit, onW, onYW, withAux, forwardingStep, Bind.bind, Prog.bind, Pure.pure, Prog.pure, noopGuesser, noopObserver, int32Max, hm, Res.state, Res.stop?]

/-! ### Instances -/

/-- what the steppers of the library accept: the explicit ones at most one right-hand-side observer (`include/pressio/ode/impl/ode_explicit_stepper_without_mass_matrix.hpp:120-139`), the implicit ones a solver and anything
    after it (`include/pressio/ode/impl/ode_implicit_stepper_standard.hpp:131-137`); what the step does is irrelevant here: it adds the tags of its arguments -/
def explicitLike : Stepper Unit Rat Nat := fun l => if l.length ≤ 1 then some (fun _ _ _ x => .ok () (x.1 + 1 + (l.map Arg.tag).sum, ())) else none
def implicitLike : Stepper Unit Rat Nat := fun l => if 1 ≤ l.length then some (fun _ _ _ x => .ok () (x.1 + (l.map Arg.tag).sum, ())) else none

/-- a number, an observer, a solver -/
def numArg : Arg Unit Rat Nat := ⟨none, none, none, none, some (1/2), 0⟩
def obsArg : Arg Unit Rat Nat := ⟨some (fun _ _ _ => pure ()), none, none, none, none, 100⟩
def solverArg : Arg Unit Rat Nat := ⟨none, none, none, none, none, 10⟩

/-- an explicit stepper with an observer: the observer is not taken for a right-hand-side observer -/
example : (callN 0 false explicitLike numArg [obsArg] 3 0).map (fun p => (p ⟨(), 0, []⟩).state.y) = some 3 := by decide +kernel
/-- an implicit stepper with an observer and a solver: only the solver reaches the stepper -/
example : (callN 0 false implicitLike numArg [obsArg, solverArg] 3 0).map (fun p => (p ⟨(), 0, []⟩).state.y) = some 30 := by decide +kernel
/-- an implicit stepper without a solver does compile here: the observer is taken for the solver (and then fails to compile in the stepper, which is not part of this model) -/
example : (callN 0 false implicitLike numArg [obsArg] 3 0).map (fun p => (p ⟨(), 0, []⟩).state.y) = some 300 := by decide +kernel
/-- the hypotheses of the theorem for the second case -/
example := C70_advance_n_steps (0 : Rat) implicitLike numArg (.inl (1/2)) ⟨rfl, rfl⟩ none none rfl (some obsArg) (some (fun _ _ _ => pure ())) rfl [solverArg]
  (fun _ _ _ x => .ok () (x.1 + 10, ())) rfl (by simp) 3 0
/-- and the refutation for a vector that is left empty by its move constructor -/
example := C71_refuted_temporaries ([1, 2] : List Nat) (fun _ => []) (by decide)

/-- a policy of three arguments and one of five -/
def policyArg : Arg Unit Rat Nat := ⟨none, none, some (fun _ _ _ => pure (1/2)), some (fun _ _ v => pure v), none, 0⟩
example := C70_observer_like_auxiliary (0 : Rat) explicitLike numArg (.inl (1/2)) ⟨rfl, rfl⟩ obsArg _ rfl [] _ rfl 3 0
example := C70_advance_to_target_point (1/1000 : Rat) implicitLike policyArg _ rfl (some obsArg) (some (fun _ _ _ => pure ())) rfl [solverArg] _ rfl (by simp [solverArg]) 5 0 1
example := C70_advance_with_recovery (1/1000 : Rat) implicitLike policyArg _ rfl (some obsArg) (some (fun _ _ _ => pure ())) rfl solverArg [] _ rfl (by simp) 5 0 1
example := C70_recovery_without_arguments (1/1000 : Rat) explicitLike policyArg _ rfl (some obsArg) (some (fun _ _ _ => pure ())) rfl _ rfl 5 0 1
example := C70_target_overloads_exclusive true implicitLike policyArg [obsArg, solverArg]
example := C70_target_observer_like_auxiliary (1/1000 : Rat) implicitLike policyArg obsArg obsArg [solverArg] rfl rfl 5 0 1
example := C71_auxiliary_arguments_partial (0 : Rat) ([1, 2] : List Nat) (fun _ => []) (⟨fun _ _ _ => pure (1/2), fun _ _ v => pure v, fun _ _ => pure (), fun _ _ _ => pure (), fun _ _ _ => pure ()⟩ : Calls Unit Rat Nat)
  (fun l _ _ _ x => .ok () (x.1 + l.length, x.2)) 3 0 ⟨(), 0, []⟩


end Pressio.Props
