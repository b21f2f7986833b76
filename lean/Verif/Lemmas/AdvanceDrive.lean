import Verif.Spec.AdvanceDrive

/-
  Simulation of the loops of the advancers by lists of attempts.
-/
namespace Pressio.Lemmas.AdvanceDrive
set_option autoImplicit false
open Pressio Pressio.Model.Advance Pressio.Spec.AdvanceTarget Pressio.Spec.AdvanceDrive

variable {K Y M U : Type}

/-- where the run stands after attempts of these sizes; `none` if it has ended -/
def posAfter [Add K] (st : K → Int → K → Prog (Y × M) Unit) : List K → Pos K Y M → Option (Pos K Y M)
  | [], c => some c
  | d :: l, c => (attemptAt st c d).2.bind (posAfter st l)

theorem attempts_append [Add K] (st : K → Int → K → Prog (Y × M) Unit) (a b : List K) : ∀ (c c' : Pos K Y M), posAfter st a c = some c' → attempts st (a ++ b) c = attempts st a c ++ attempts st b c' := by
  induction a with
  | nil => intro c c' h; simp only [posAfter, Option.some.injEq] at h; subst h; rfl
  | cons d l ih =>
    intro c c' h
    simp only [posAfter] at h
    simp only [List.cons_append, attempts]
    rcases e : (attemptAt st c d).2 with _ | c1
    · rw [e] at h; simp at h
    · rw [e] at h
      simp only [Option.bind_some] at h
      simp only [ih c1 c' h]

/-- what a part of a log says about the attempts made in it; `stop` is how the call ended (if in this part) -/
structure Part [Add K] (atts : List (Att K Y)) (y0 : Y) (recovery : Bool) (l : List (Ev K Y)) (y : Y) (stop : Option Stop) : Prop where
  calls : stepCalls l = atts.map (fun a => (a.num, a.t, a.dt))
  observer : observations l = seen atts
  state : y = stateAfter y0 atts
  fails : ∀ pre a post, atts = pre ++ a :: post → a.stop = none ∨ (recovery = true ∧ a.stop = some (.exc .timeStepFailure)) ∨ (post = [] ∧ stop = a.stop)

theorem stepCalls_append (l l' : List (Ev K Y)) : stepCalls (l ++ l') = stepCalls l ++ stepCalls l' := by simp [stepCalls]
theorem observations_append (l l' : List (Ev K Y)) : observations (l ++ l') = observations l ++ observations l' := by simp [observations]
theorem seen_append [Add K] (l l' : List (Att K Y)) : seen (l ++ l') = seen l ++ seen l' := by simp [seen]
theorem stateAfter_append (y : Y) (l l' : List (Att K Y)) : stateAfter y (l ++ l') = stateAfter (stateAfter y l) l' := by
  unfold stateAfter
  rw [List.getLast?_append]
  rcases l'.getLast? with _ | a <;> simp

theorem Part.append [Add K] {a b : List (Att K Y)} {y0 y1 y : Y} {rec : Bool} {l l' : List (Ev K Y)} {stop : Option Stop} (h : Part a y0 rec l y1 none) (h' : Part b y1 rec l' y stop) : Part (a ++ b) y0 rec (l ++ l') y stop where
  calls := by rw [stepCalls_append, h.calls, h'.calls, List.map_append]
  observer := by rw [observations_append, h.observer, h'.observer, seen_append]
  state := by rw [h'.state, stateAfter_append, ← h.state]
  fails := by
    intro pre x post e
    rcases List.append_eq_append_iff.1 e with ⟨c, e1, e2⟩ | ⟨c, e1, e2⟩
    · exact h'.fails c x post e2
    · rcases c with _ | ⟨x', c⟩
      · exact h'.fails [] x post (by simpa using e2.symm)
      · simp only [List.cons_append, List.cons.injEq] at e2
        rcases h.fails pre x' c e1 with g | g | ⟨-, g⟩
        · exact .inl (by rw [e2.1, g])
        · exact .inr (.inl (by rw [e2.1]; exact g))
        · exact .inl (by rw [e2.1, ← g])

theorem Part.nil [Add K] (y : Y) (rec : Bool) (stop : Option Stop) : Part ([] : List (Att K Y)) y rec [] y stop :=
  ⟨rfl, rfl, rfl, fun pre a post e => by simp at e⟩

/-- events without attempts and observations -/
theorem Part.quiet [Add K] {a : List (Att K Y)} {y0 y : Y} {rec : Bool} {l : List (Ev K Y)} {stop : Option Stop} (q : List (Ev K Y)) (h1 : stepCalls q = []) (h2 : observations q = []) (h : Part a y0 rec l y stop) : Part a y0 rec (q ++ l) y stop :=
  ⟨by rw [stepCalls_append, h1, h.calls]; rfl, by rw [observations_append, h2, h.observer]; rfl, h.state, h.fails⟩

section
variable [Add K] (st : K → Int → K → Prog (Y × M) Unit) (pol3 : Int → K → K → Prog U K) (pol5 : Int → K → DtVars K → Prog U (DtVars K)) (obs : Int → K → Y → Prog U Unit)

/-- `advance_n_steps`: the loop -/
theorem nLoop_attempts : ∀ (k : Nat) (i : Int) (t d : K) (y : Y) (m : M) (u : U) (log : List (Ev K Y)),
    ∃ dts l, (nLoop (userObjects st pol3 pol5 obs) k i t d ⟨(m, u), y, log⟩).state.log = log ++ l ∧
      Part (attempts st dts ⟨t, i, y, m⟩) y false l (nLoop (userObjects st pol3 pol5 obs) k i t d ⟨(m, u), y, log⟩).state.y (nLoop (userObjects st pol3 pol5 obs) k i t d ⟨(m, u), y, log⟩).stop? ∧
      (attempts st dts ⟨t, i, y, m⟩).length = dts.length ∧ dts.length ≤ k ∧ (∀ d' ∈ dts, ∃ i t d u u', pol3 i t d u = .ok d' u') ∧
      ((nLoop (userObjects st pol3 pol5 obs) k i t d ⟨(m, u), y, log⟩).stop? = none → dts.length = k) ∧
      (∀ h, (nLoop (userObjects st pol3 pol5 obs) k i t d ⟨(m, u), y, log⟩).stop? = some h → (∃ pre a, attempts st dts ⟨t, i, y, m⟩ = pre ++ [a] ∧ a.stop = some h) ∨
        (∃ i t d u, (pol3 i t d u).stop? = some h) ∨ (∃ i t y u, (obs i t y u).stop? = some h) ∨ int32Max < i + k) := by
  intro k
  induction k with
  | zero =>
    intro i t d y m u log
    exact ⟨[], [], by simp [nLoop], Part.nil y false none, rfl, le_rfl, by simp, fun _ => rfl, fun h e => by simp [nLoop] at e⟩
  | succ k ih =>
    intro i t d y m u log
    rcases ep : pol3 i t d u with ⟨d', u1⟩ | ⟨h, u1⟩
    swap
    · have hr : nLoop (userObjects st pol3 pol5 obs) (k + 1) i t d ⟨(m, u), y, log⟩ = .stop h ⟨(m, u1), y, log⟩ := by
        simp only [nLoop, Prog.bind_run, onW, userObjects, ep]
      rw [hr]
      exact ⟨[], [], by simp, Part.nil y false _, rfl, Nat.zero_le _, by simp, fun e => by simp at e, fun h' e => .inr (.inl ⟨i, t, d, u, by rw [ep]; exact e⟩)⟩
    rcases es : st t i d' (y, m) with ⟨_, y', m'⟩ | ⟨h, y', m'⟩
    swap
    · have hr : nLoop (userObjects st pol3 pol5 obs) (k + 1) i t d ⟨(m, u), y, log⟩ = .stop h ⟨(m', u1), y', log ++ [.setDt i t d'] ++ [.guess i t y] ++ [.step i t d' y]⟩ := by
        simp only [nLoop, Prog.bind_run, onW, onYW, userObjects, ep, callGuess, callStep, emit, noopGuesser, Prog.pure_run, es]
      have ha : attempts st [d'] ⟨t, i, y, m⟩ = [⟨i, t, d', some h, y'⟩] := by
        simp only [attempts, attemptAt, es]
        split <;> rfl
      rw [hr]
      refine ⟨[d'], [.setDt i t d', .guess i t y, .step i t d' y], by simp, ?_, by rw [ha]; rfl, by simp, by simpa using ⟨i, t, d, u, u1, ep⟩, fun e => by simp at e, fun h' e => .inl ⟨[], _, ha, by simpa using e⟩⟩
      rw [ha]
      refine ⟨rfl, rfl, rfl, ?_⟩
      intro pre a post e
      rcases pre with _ | ⟨_, _⟩
      · simp only [List.nil_append, List.cons.injEq] at e
        exact .inr (.inr ⟨e.2.symm, by rw [← e.1]; rfl⟩)
      · simp at e
    have hone : attempts st [d'] ⟨t, i, y, m⟩ = [⟨i, t, d', none, y'⟩] := by simp only [attempts, attemptAt, es]
    have hpos : posAfter st [d'] ⟨t, i, y, m⟩ = some ⟨t + d', i + 1, y', m'⟩ := by simp only [posAfter, attemptAt, es, Option.bind_some]
    have hpart : ∀ stop, Part [⟨i, t, d', none, y'⟩] y false [.setDt i t d', .guess i t y, .step i t d' y, .obs i (t + d') y'] y' stop := fun stop => by
      refine ⟨rfl, rfl, rfl, ?_⟩
      intro pre a post e
      rcases pre with _ | ⟨_, _⟩
      · simp only [List.nil_append, List.cons.injEq] at e
        exact .inl (by rw [← e.1])
      · simp at e
    rcases eo : obs i (t + d') y' u1 with ⟨_, u2⟩ | ⟨h, u2⟩
    swap
    · have hr : nLoop (userObjects st pol3 pol5 obs) (k + 1) i t d ⟨(m, u), y, log⟩ = .stop h ⟨(m', u2), y', log ++ [.setDt i t d'] ++ [.guess i t y] ++ [.step i t d' y] ++ [.obs i (t + d') y']⟩ := by
        simp only [nLoop, Prog.bind_run, onW, onYW, userObjects, ep, callGuess, callStep, callObs, emit, noopGuesser, Prog.pure_run, es, eo]
      rw [hr]
      exact ⟨[d'], [.setDt i t d', .guess i t y, .step i t d' y, .obs i (t + d') y'], by simp, hone ▸ hpart _, by rw [hone]; rfl, by simp, by simpa using ⟨i, t, d, u, u1, ep⟩, fun e => by simp at e,
        fun h' e => .inr (.inr (.inl ⟨i, t + d', y', u1, by rw [eo]; exact e⟩))⟩
    by_cases hmax : i = int32Max
    · have hr : nLoop (userObjects st pol3 pol5 obs) (k + 1) i t d ⟨(m, u), y, log⟩ = .stop (.ub "signed overflow of step counter") ⟨(m', u2), y', log ++ [.setDt i t d'] ++ [.guess i t y] ++ [.step i t d' y] ++ [.obs i (t + d') y']⟩ := by
        simp only [nLoop, Prog.bind_run, onW, onYW, userObjects, ep, callGuess, callStep, callObs, emit, noopGuesser, Prog.pure_run, es, eo, if_pos hmax, Prog.undef_run]
      rw [hr]
      exact ⟨[d'], [.setDt i t d', .guess i t y, .step i t d' y, .obs i (t + d') y'], by simp, hone ▸ hpart _, by rw [hone]; rfl, by simp, by simpa using ⟨i, t, d, u, u1, ep⟩, fun e => by simp at e,
        fun h' e => .inr (.inr (.inr (by omega)))⟩
    have hr : nLoop (userObjects st pol3 pol5 obs) (k + 1) i t d ⟨(m, u), y, log⟩ =
        nLoop (userObjects st pol3 pol5 obs) k (i + 1) (t + d') d' ⟨(m', u2), y', log ++ [.setDt i t d'] ++ [.guess i t y] ++ [.step i t d' y] ++ [.obs i (t + d') y']⟩ := by
      conv_lhs => simp only [nLoop, Prog.bind_run, onW, onYW, userObjects, ep, callGuess, callStep, callObs, emit, noopGuesser, Prog.pure_run, es, eo, if_neg hmax]
      rfl
    rw [hr]
    obtain ⟨dts, l, g1, g2, g3, g4, g5, g6, g7⟩ := ih (i + 1) (t + d') d' y' m' u2 (log ++ [.setDt i t d'] ++ [.guess i t y] ++ [.step i t d' y] ++ [.obs i (t + d') y'])
    have happ : attempts st (d' :: dts) ⟨t, i, y, m⟩ = [⟨i, t, d', none, y'⟩] ++ attempts st dts ⟨t + d', i + 1, y', m'⟩ := by
      rw [← hone, ← attempts_append st [d'] dts _ _ hpos]; rfl
    refine ⟨d' :: dts, [.setDt i t d', .guess i t y, .step i t d' y, .obs i (t + d') y'] ++ l, by rw [g1]; simp, by rw [happ]; exact (hpart none).append g2, by rw [happ]; simp [g3], by simpa using g4, ?_, fun e => by simpa using g6 e, ?_⟩
    · intro x hx
      rcases List.mem_cons.1 hx with rfl | hx
      · exact ⟨i, t, d, u, u1, ep⟩
      · exact g5 x hx
    · intro h e
      rcases g7 h e with ⟨pre, a, e1, e2⟩ | g | g | g
      · exact .inl ⟨_ :: pre, a, by rw [happ, e1]; rfl, e2⟩
      · exact .inr (.inl g)
      · exact .inr (.inr (.inl g))
      · exact .inr (.inr (.inr (by push_cast; omega)))

end
section
variable [Field K] [LinearOrder K] (st : K → Int → K → Prog (Y × M) Unit) (pol3 : Int → K → K → Prog U K) (pol5 : Int → K → DtVars K → Prog U (DtVars K)) (obs : Int → K → Y → Prog U Unit)

theorem part_ok (rec : Bool) (i : Int) (t d : K) (y y' : Y) (stop : Option Stop) : Part [⟨i, t, d, none, y'⟩] y rec ([.step i t d y] ++ [.obs i (t + d) y']) y' stop := by
  refine ⟨rfl, rfl, rfl, ?_⟩
  intro pre a post e
  rcases pre with _ | ⟨_, _⟩
  · simp only [List.nil_append, List.cons.injEq] at e
    exact .inl (by rw [← e.1])
  · simp at e

theorem part_fail (rec : Bool) (i : Int) (t d : K) (y y' : Y) (h : Stop) : Part [⟨i, t, d, some h, y'⟩] y rec [.step i t d y] y' (some h) := by
  refine ⟨rfl, rfl, rfl, ?_⟩
  intro pre a post e
  rcases pre with _ | ⟨_, _⟩
  · simp only [List.nil_append, List.cons.injEq] at e
    exact .inr (.inr ⟨e.2.symm, by rw [← e.1]⟩)
  · simp at e

theorem part_tsf (i : Int) (t d : K) (y y' : Y) (stop : Option Stop) : Part [⟨i, t, d, some (.exc .timeStepFailure), y'⟩] y true [.step i t d y] y' stop := by
  refine ⟨rfl, rfl, rfl, ?_⟩
  intro pre a post e
  rcases pre with _ | ⟨_, _⟩
  · simp only [List.nil_append, List.cons.injEq] at e
    exact .inr (.inl ⟨rfl, by rw [← e.1]⟩)
  · simp at e

/-- what the attempts at one step amount to -/
def StepAttempts (rec : Bool) (i : Int) (t : K) (y : Y) (m : M) (u : U) (log : List (Ev K Y)) (ok : K → Prop) : Res (St (M × U) K Y) K → Prop
  | .ok d' s => ∃ dts l m', s = ⟨(m', u), s.y, log ++ l⟩ ∧ (∀ stop, Part (attempts st dts ⟨t, i, y, m⟩) y rec (l ++ [.obs i (t + d') s.y]) s.y stop) ∧ posAfter st dts ⟨t, i, y, m⟩ = some ⟨t + d', i + 1, s.y, m'⟩ ∧
      (attempts st dts ⟨t, i, y, m⟩).length = dts.length ∧ (∀ x ∈ dts, ok x) ∧ ∃ pre a, attempts st dts ⟨t, i, y, m⟩ = pre ++ [a] ∧ a.stop = none
  | .stop h s => ∃ dts l, s.log = log ++ l ∧ Part (attempts st dts ⟨t, i, y, m⟩) y rec l s.y (some h) ∧ (attempts st dts ⟨t, i, y, m⟩).length = dts.length ∧ (∀ x ∈ dts, ok x)

theorem recoverLoop_attempts (t : K) (i : Int) (mn f : K) (u : U) : ∀ (fuel : Nat) (d : K) (y : Y) (m : M) (log : List (Ev K Y)),
    StepAttempts st true i t y m u log (fun x => ∃ j : Nat, x = d / f ^ j ∧ (j = 0 ∨ mn ≤ x)) (recoverLoop (userObjects st pol3 pol5 obs) t i mn f fuel d ⟨(m, u), y, log⟩) := by
  intro fuel
  induction fuel with
  | zero =>
    intro d y m log
    exact ⟨[], [], by simp [Prog.noFuel], Part.nil y true _, rfl, by simp⟩
  | succ fuel ih =>
    intro d y m log
    rcases es : st t i d (y, m) with ⟨_, y', m'⟩ | ⟨h, y', m'⟩
    · have hr : recoverLoop (userObjects st pol3 pol5 obs) t i mn f (fuel + 1) d ⟨(m, u), y, log⟩ = .ok d ⟨(m', u), y', log ++ [.step i t d y]⟩ := by
        simp only [recoverLoop, Prog.catchE, Prog.bind_run, callStep, emit, onYW, userObjects, es, Prog.pure_run, if_true]
      have ha : attempts st [d] ⟨t, i, y, m⟩ = [⟨i, t, d, none, y'⟩] := by simp only [attempts, attemptAt, es]
      rw [hr]
      exact ⟨[d], [.step i t d y], m', rfl, fun stop => ha ▸ part_ok true i t d y y' stop, by simp only [posAfter, attemptAt, es, Option.bind_some], by rw [ha]; rfl,
        fun x hx => ⟨0, by simpa using hx, .inl rfl⟩, [], _, ha, rfl⟩
    · by_cases htsf : h = .exc .timeStepFailure
      · subst htsf
        have ha : attempts st [d] ⟨t, i, y, m⟩ = [⟨i, t, d, some (.exc .timeStepFailure), y'⟩] := by simp only [attempts, attemptAt, es, if_true]
        have hp : posAfter st [d] ⟨t, i, y, m⟩ = some ⟨t, i, y', m'⟩ := by simp only [posAfter, attemptAt, es, if_true, Option.bind_some]
        by_cases hmn : d / f < mn
        · have hr : recoverLoop (userObjects st pol3 pol5 obs) t i mn f (fuel + 1) d ⟨(m, u), y, log⟩ =
              .stop (.exc (.runtimeError "violation of minimum time step while recovering")) ⟨(m', u), y', log ++ [.step i t d y]⟩ := by
            simp only [recoverLoop, Prog.catchE, Prog.bind_run, callStep, emit, onYW, userObjects, es, Prog.pure_run, if_true, Bool.false_eq_true, if_false, if_pos hmn, Prog.throwE_run]
          rw [hr]
          exact ⟨[d], [.step i t d y], rfl, ha ▸ part_tsf i t d y y' _, by rw [ha]; rfl, fun x hx => ⟨0, by simpa using hx, .inl rfl⟩⟩
        · have hr : recoverLoop (userObjects st pol3 pol5 obs) t i mn f (fuel + 1) d ⟨(m, u), y, log⟩ =
              recoverLoop (userObjects st pol3 pol5 obs) t i mn f fuel (d / f) ⟨(m', u), y', log ++ [.step i t d y]⟩ := by
            conv_lhs => simp only [recoverLoop, Prog.catchE, Prog.bind_run, callStep, emit, onYW, userObjects, es, Prog.pure_run, if_true, Bool.false_eq_true, if_false, if_neg hmn]
            rfl
          have happ : ∀ dts, attempts st (d :: dts) ⟨t, i, y, m⟩ = [⟨i, t, d, some (.exc .timeStepFailure), y'⟩] ++ attempts st dts ⟨t, i, y', m'⟩ := fun dts => by
            rw [← ha, ← attempts_append st [d] dts _ _ hp]; rfl
          have hsz : ∀ dts : List K, (∀ x ∈ dts, ∃ j : Nat, x = d / f / f ^ j ∧ (j = 0 ∨ mn ≤ x)) → ∀ x ∈ d :: dts, ∃ j : Nat, x = d / f ^ j ∧ (j = 0 ∨ mn ≤ x) := by
            intro dts hd x hx
            rcases List.mem_cons.1 hx with rfl | hx
            · exact ⟨0, by simp, .inl rfl⟩
            · obtain ⟨j, e1, e2⟩ := hd x hx
              refine ⟨j + 1, by rw [e1, div_div, pow_succ']; , .inr ?_⟩
              rcases e2 with rfl | e2
              · rw [e1]; simpa using not_lt.1 hmn
              · exact e2
          have hi := ih (d / f) y' m' (log ++ [.step i t d y])
          rw [hr]
          generalize recoverLoop (userObjects st pol3 pol5 obs) t i mn f fuel (d / f) ⟨(m', u), y', log ++ [.step i t d y]⟩ = r at hi
          rcases r with ⟨d', s⟩ | ⟨h, s⟩
          · obtain ⟨dts, l, m'', g1, g2, g3, g4, g5, pre, a, g6, g7⟩ := hi
            refine ⟨d :: dts, [.step i t d y] ++ l, m'', ?_, fun stop => ?_, ?_, by rw [happ]; simp [g4], hsz dts g5, _ :: pre, a, by rw [happ, g6]; rfl, g7⟩
            · rw [← List.append_assoc]; exact g1
            · rw [happ, List.append_assoc]; exact (part_tsf i t d y y' none).append (g2 stop)
            · simp only [posAfter, attemptAt, es, if_true, Option.bind_some]; exact g3
          · obtain ⟨dts, l, g1, g2, g3, g4⟩ := hi
            exact ⟨d :: dts, [.step i t d y] ++ l, by rw [g1]; simp, by rw [happ]; exact (part_tsf i t d y y' none).append g2, by rw [happ]; simp [g3], hsz dts g4⟩
      · have ha : attempts st [d] ⟨t, i, y, m⟩ = [⟨i, t, d, some h, y'⟩] := by simp only [attempts, attemptAt, es, if_neg htsf]
        have hr : recoverLoop (userObjects st pol3 pol5 obs) t i mn f (fuel + 1) d ⟨(m, u), y, log⟩ = .stop h ⟨(m', u), y', log ++ [.step i t d y]⟩ := by
          match h, htsf with
          | .exc e, htsf =>
            have he : e ≠ .timeStepFailure := fun h => htsf (by rw [h])
            simp only [recoverLoop, Prog.catchE, Prog.bind_run, callStep, emit, onYW, userObjects, es, if_neg he]
          | .ub w, _ => simp only [recoverLoop, Prog.catchE, Prog.bind_run, callStep, emit, onYW, userObjects, es]
          | .fuel, _ => simp only [recoverLoop, Prog.catchE, Prog.bind_run, callStep, emit, onYW, userObjects, es]
        rw [hr]
        exact ⟨[d], [.step i t d y], rfl, ha ▸ part_fail true i t d y y' h, by rw [ha]; rfl, fun x hx => ⟨0, by simpa using hx, .inl rfl⟩⟩

theorem attempt_attempts (rec : Bool) (t : K) (i : Int) (v : DtVars K) (fuel : Nat) (y : Y) (m : M) (u : U) (log : List (Ev K Y)) :
    StepAttempts st rec i t y m u log (fun x => ∃ j : Nat, x = v.dt / v.factor ^ j ∧ (j = 0 ∨ v.minDt ≤ x) ∧ (rec = false → j = 0)) (attempt rec (userObjects st pol3 pol5 obs) t i v fuel ⟨(m, u), y, log⟩) := by
  cases rec with
  | true =>
    have h := recoverLoop_attempts st pol3 pol5 obs t i v.minDt v.factor u fuel v.dt y m log
    have hr : attempt true (userObjects st pol3 pol5 obs) t i v fuel ⟨(m, u), y, log⟩ = recoverLoop (userObjects st pol3 pol5 obs) t i v.minDt v.factor fuel v.dt ⟨(m, u), y, log⟩ := rfl
    rw [hr]
    generalize recoverLoop (userObjects st pol3 pol5 obs) t i v.minDt v.factor fuel v.dt ⟨(m, u), y, log⟩ = r at h
    have key : ∀ x, (∃ j : Nat, x = v.dt / v.factor ^ j ∧ (j = 0 ∨ v.minDt ≤ x)) → ∃ j : Nat, x = v.dt / v.factor ^ j ∧ (j = 0 ∨ v.minDt ≤ x) ∧ (true = false → j = 0) := fun x ⟨j, e1, e2⟩ => ⟨j, e1, e2, fun h => by cases h⟩
    rcases r with ⟨d', s⟩ | ⟨h', s⟩
    · obtain ⟨dts, l, m'', g1, g2, g3, g4, g5, g6⟩ := h
      exact ⟨dts, l, m'', g1, g2, g3, g4, fun x hx => key x (g5 x hx), g6⟩
    · obtain ⟨dts, l, g1, g2, g3, g4⟩ := h
      exact ⟨dts, l, g1, g2, g3, fun x hx => key x (g4 x hx)⟩
  | false =>
    have key : ∀ x ∈ [v.dt], ∃ j : Nat, x = v.dt / v.factor ^ j ∧ (j = 0 ∨ v.minDt ≤ x) ∧ (false = false → j = 0) := fun x hx => ⟨0, by simpa using hx, .inl rfl, fun _ => rfl⟩
    rcases es : st t i v.dt (y, m) with ⟨_, y', m'⟩ | ⟨h, y', m'⟩
    · have ha : attempts st [v.dt] ⟨t, i, y, m⟩ = [⟨i, t, v.dt, none, y'⟩] := by simp only [attempts, attemptAt, es]
      have hr : attempt false (userObjects st pol3 pol5 obs) t i v fuel ⟨(m, u), y, log⟩ = .ok v.dt ⟨(m', u), y', log ++ [.step i t v.dt y]⟩ := by
        simp only [attempt, Bool.false_eq_true, if_false, Prog.bind_run, callStep, emit, onYW, userObjects, es, Prog.pure_run]
      rw [hr]
      exact ⟨[v.dt], [.step i t v.dt y], m', rfl, fun stop => ha ▸ part_ok false i t v.dt y y' stop, by simp only [posAfter, attemptAt, es, Option.bind_some], by rw [ha]; rfl, key, [], _, ha, rfl⟩
    · have ha : attempts st [v.dt] ⟨t, i, y, m⟩ = [⟨i, t, v.dt, some h, y'⟩] := by
        simp only [attempts, attemptAt, es]
        split <;> rfl
      have hr : attempt false (userObjects st pol3 pol5 obs) t i v fuel ⟨(m, u), y, log⟩ = .stop h ⟨(m', u), y', log ++ [.step i t v.dt y]⟩ := by
        simp only [attempt, Bool.false_eq_true, if_false, Prog.bind_run, callStep, emit, onYW, userObjects, es]
      rw [hr]
      exact ⟨[v.dt], [.step i t v.dt y], rfl, ha ▸ part_fail false i t v.dt y y' h, by rw [ha]; rfl, key⟩

/-- the loop of the advancers to a target time -/
theorem tLoop_attempts (rec : Bool) (eps final : K) : ∀ (fuel : Nat) (i : Int) (t : K) (v : DtVars K) (y : Y) (m : M) (u : U) (log : List (Ev K Y)),
    ∃ dts l, (tLoop rec eps final (userObjects st pol3 pol5 obs) fuel i t v ⟨(m, u), y, log⟩).state.log = log ++ l ∧
      Part (attempts st dts ⟨t, i, y, m⟩) y rec l (tLoop rec eps final (userObjects st pol3 pol5 obs) fuel i t v ⟨(m, u), y, log⟩).state.y (tLoop rec eps final (userObjects st pol3 pol5 obs) fuel i t v ⟨(m, u), y, log⟩).stop? ∧
      (attempts st dts ⟨t, i, y, m⟩).length = dts.length ∧ (∀ d ∈ dts, Asked pol3 pol5 rec d) ∧
      ((tLoop rec eps final (userObjects st pol3 pol5 obs) fuel i t v ⟨(m, u), y, log⟩).stop? = none → ∃ pre a, attempts st dts ⟨t, i, y, m⟩ = pre ++ [a] ∧ a.stop = none) := by
  intro fuel
  induction fuel with
  | zero =>
    intro i t v y m u log
    exact ⟨[], [], by simp [tLoop, Prog.noFuel], Part.nil y rec _, rfl, by simp, fun e => by simp [tLoop] at e⟩
  | succ fuel ih =>
    intro i t v y m u log
    -- the policy
    have hpol : (∃ h u1, callDtPolicy rec (userObjects st pol3 pol5 obs) i t v ⟨(m, u), y, log⟩ = .stop h ⟨(m, u1), y, log⟩) ∨
        ∃ v' u1, callDtPolicy rec (userObjects st pol3 pol5 obs) i t v ⟨(m, u), y, log⟩ = .ok v' ⟨(m, u1), y, log⟩ ∧ (if rec = true then pol5 i t v u = .ok v' u1 else pol3 i t v.dt u = .ok v'.dt u1) := by
      cases rec with
      | true =>
        rcases ep : pol5 i t v u with ⟨v', u1⟩ | ⟨h, u1⟩
        · exact .inr ⟨v', u1, by simp only [callDtPolicy, if_true, onW, userObjects, ep], by simp⟩
        · exact .inl ⟨h, u1, by simp only [callDtPolicy, if_true, onW, userObjects, ep]⟩
      | false =>
        rcases ep : pol3 i t v.dt u with ⟨d', u1⟩ | ⟨h, u1⟩
        · exact .inr ⟨{ v with dt := d' }, u1, by simp only [callDtPolicy, Bool.false_eq_true, if_false, Prog.bind_run, onW, userObjects, ep, Prog.pure_run], by simp [ep]⟩
        · exact .inl ⟨h, u1, by simp only [callDtPolicy, Bool.false_eq_true, if_false, Prog.bind_run, onW, userObjects, ep]⟩
    rcases hpol with ⟨h, u1, hp⟩ | ⟨v', u1, hp, hv⟩
    · have hr : tLoop rec eps final (userObjects st pol3 pol5 obs) (fuel + 1) i t v ⟨(m, u), y, log⟩ = .stop h ⟨(m, u1), y, log⟩ := by simp only [tLoop, Prog.bind_run, hp]
      rw [hr]
      exact ⟨[], [], by simp, Part.nil y rec _, rfl, by simp, fun e => by simp at e⟩
    have hq1 : stepCalls ([.setVars i t v'] : List (Ev K Y)) = [] := rfl
    have hq2 : observations ([.setVars i t v'] : List (Ev K Y)) = [] := rfl
    by_cases hmn : v'.dt < v'.minDt
    · have hr : tLoop rec eps final (userObjects st pol3 pol5 obs) (fuel + 1) i t v ⟨(m, u), y, log⟩ = .stop (.exc (.runtimeError "time step size smaller than the minimum value")) ⟨(m, u1), y, log ++ [.setVars i t v']⟩ := by
        simp only [tLoop, Prog.bind_run, hp, emit, if_pos hmn, Prog.throwE_run]
      rw [hr]
      exact ⟨[], [.setVars i t v'], rfl, List.append_nil [Ev.setVars i t v'] ▸ (Part.nil y rec _).quiet _ hq1 hq2, rfl, by simp, fun e => by simp at e⟩
    by_cases hfac : rec = true ∧ v'.factor ≤ 1
    · have hr : tLoop rec eps final (userObjects st pol3 pol5 obs) (fuel + 1) i t v ⟨(m, u), y, log⟩ = .stop (.exc (.runtimeError "time step size reduction factor must be > 1")) ⟨(m, u1), y, log ++ [.setVars i t v']⟩ := by
        simp only [tLoop, Prog.bind_run, hp, emit, if_neg hmn, if_pos hfac, Prog.throwE_run]
      rw [hr]
      exact ⟨[], [.setVars i t v'], rfl, List.append_nil [Ev.setVars i t v'] ▸ (Part.nil y rec _).quiet _ hq1 hq2, rfl, by simp, fun e => by simp at e⟩
    have hasked : ∀ x, (∃ j : Nat, x = v'.dt / v'.factor ^ j ∧ (j = 0 ∨ v'.minDt ≤ x) ∧ (rec = false → j = 0)) → Asked pol3 pol5 rec x := by
      rintro x ⟨j, e1, e2, e3⟩
      unfold Asked
      cases rec with
      | true =>
        rw [if_pos rfl] at hv ⊢
        refine ⟨i, t, v, u, v', u1, hv, not_lt.1 hmn, ?_, j, e1, ?_⟩
        · by_contra hc
          exact hfac ⟨rfl, not_lt.1 hc⟩
        · rcases e2 with rfl | e2
          · rw [e1]; simpa using not_lt.1 hmn
          · exact e2
      | false =>
        rw [if_neg (by simp)] at hv ⊢
        rw [e3 rfl] at e1
        refine ⟨i, t, v.dt, u, u1, ?_⟩
        rw [hv]; simp [e1]
    have hi := attempt_attempts st pol3 pol5 obs rec t i v' (fuel + 1) y m u1 (log ++ [.setVars i t v'])
    rcases ha : attempt rec (userObjects st pol3 pol5 obs) t i v' (fuel + 1) ⟨(m, u1), y, log ++ [.setVars i t v']⟩ with ⟨d', s⟩ | ⟨h, s⟩
    swap
    · have hr : tLoop rec eps final (userObjects st pol3 pol5 obs) (fuel + 1) i t v ⟨(m, u), y, log⟩ = .stop h s := by
        simp only [tLoop, Prog.bind_run, hp, emit, if_neg hmn, if_neg hfac, ha]
      rw [ha] at hi
      obtain ⟨dts, l, g1, g2, g3, g4⟩ := hi
      rw [hr]
      exact ⟨dts, [.setVars i t v'] ++ l, by simp [g1], g2.quiet _ hq1 hq2, g3, fun x hx => hasked x (g4 x hx), fun e => by simp at e⟩
    rw [ha] at hi
    obtain ⟨dts, l, m', g1, g2, g3, g4, g5, pre, a, g6, g7⟩ := hi
    obtain ⟨ws, ys, ls⟩ := s
    simp only [St.mk.injEq] at g1
    obtain ⟨rfl, -, rfl⟩ := g1
    simp only at g2 g3
    rcases eo : obs i (t + d') ys u1 with ⟨_, u2⟩ | ⟨h, u2⟩
    swap
    · have hr : tLoop rec eps final (userObjects st pol3 pol5 obs) (fuel + 1) i t v ⟨(m, u), y, log⟩ = .stop h ⟨(m', u2), ys, log ++ [.setVars i t v'] ++ l ++ [.obs i (t + d') ys]⟩ := by
        simp only [tLoop, Prog.bind_run, hp, emit, if_neg hmn, if_neg hfac, ha, callObs, onW]
        simp only [userObjects, eo]
      rw [hr]
      exact ⟨dts, [.setVars i t v'] ++ (l ++ [.obs i (t + d') ys]), by simp, (g2 _).quiet _ hq1 hq2, g4, fun x hx => hasked x (g5 x hx), fun e => by simp at e⟩
    have hob : callObs (userObjects st pol3 pol5 obs) i (t + d') ⟨(m', u1), ys, log ++ [.setVars i t v'] ++ l⟩ = .ok () ⟨(m', u2), ys, log ++ [.setVars i t v'] ++ l ++ [.obs i (t + d') ys]⟩ := by
      simp only [callObs, Prog.bind_run, emit, onW, userObjects, eo]
    by_cases hmax : i = int32Max
    · have hr : tLoop rec eps final (userObjects st pol3 pol5 obs) (fuel + 1) i t v ⟨(m, u), y, log⟩ = .stop (.ub "signed overflow of step counter") ⟨(m', u2), ys, log ++ [.setVars i t v'] ++ l ++ [.obs i (t + d') ys]⟩ := by
        simp only [tLoop, Prog.bind_run, hp, emit, if_neg hmn, if_neg hfac, ha, hob, if_pos hmax, Prog.undef_run]
      rw [hr]
      exact ⟨dts, [.setVars i t v'] ++ (l ++ [.obs i (t + d') ys]), by simp, (g2 _).quiet _ hq1 hq2, g4, fun x hx => hasked x (g5 x hx), fun e => by simp at e⟩
    by_cases hstop : (decide (|t + d' - final| ≤ eps) || decide (t + d' > final)) = true
    · have hr : tLoop rec eps final (userObjects st pol3 pol5 obs) (fuel + 1) i t v ⟨(m, u), y, log⟩ = .ok (t + d') ⟨(m', u2), ys, log ++ [.setVars i t v'] ++ l ++ [.obs i (t + d') ys]⟩ := by
        simp only [tLoop, Prog.bind_run, hp, emit, if_neg hmn, if_neg hfac, ha, hob, if_neg hmax, if_pos hstop, Prog.pure_run]
      rw [hr]
      exact ⟨dts, [.setVars i t v'] ++ (l ++ [.obs i (t + d') ys]), by simp, (g2 _).quiet _ hq1 hq2, g4, fun x hx => hasked x (g5 x hx), fun _ => ⟨pre, a, g6, g7⟩⟩
    have hr : tLoop rec eps final (userObjects st pol3 pol5 obs) (fuel + 1) i t v ⟨(m, u), y, log⟩ =
        tLoop rec eps final (userObjects st pol3 pol5 obs) fuel (i + 1) (t + d') { v' with dt := d' } ⟨(m', u2), ys, log ++ [.setVars i t v'] ++ l ++ [.obs i (t + d') ys]⟩ := by
      conv_lhs => simp only [tLoop, Prog.bind_run, hp, emit, if_neg hmn, if_neg hfac, ha, hob, if_neg hmax, if_neg hstop]
    rw [hr]
    obtain ⟨dts', l', k1, k2, k3, k4, k5⟩ := ih (i + 1) (t + d') { v' with dt := d' } ys m' u2 (log ++ [.setVars i t v'] ++ l ++ [.obs i (t + d') ys])
    have happ := attempts_append st dts dts' _ _ g3
    refine ⟨dts ++ dts', ([.setVars i t v'] ++ (l ++ [.obs i (t + d') ys])) ++ l', by rw [k1]; simp, by rw [happ]; exact ((g2 none).quiet _ hq1 hq2).append k2, by rw [happ]; simp [g4, k3], ?_, ?_⟩
    · intro x hx
      rcases List.mem_append.1 hx with hx | hx
      · exact hasked x (g5 x hx)
      · exact k4 x hx
    · intro e
      obtain ⟨pre', a', e1, e2⟩ := k5 e
      exact ⟨attempts st dts ⟨t, i, y, m⟩ ++ pre', a', by rw [happ, e1, List.append_assoc], e2⟩

end
end Pressio.Lemmas.AdvanceDrive
