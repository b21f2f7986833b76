import Verif.Model.Reconstructor
import Verif.Props.FomStates

/-
  C59: the LSPG reconstructor.
-/
namespace Pressio.Props
set_option autoImplicit false
set_option linter.unusedSectionVars false
open Pressio Pressio.Model.Galerkin Pressio.Model.Lspg Pressio.Model.Reconstructor Pressio.Spec.Galerkin Pressio.Spec.Lspg Pressio.Model.Implicit Pressio.Lemmas.Implicit Pressio.Spec.Implicit
open Pressio.Lemmas.Lspg (stepWith)
open scoped Matrix

section
variable {K m n : Type} [Field K] [Fintype m] [Fintype n]

/-- What must be written for a recorded trajectory `(t_0, x_0), (t_1, x_1), ...`: for each `i ≥ 1` what the reduced equations `G` (step number, old state, old time, step size, state) give. Ends early with an exception. -/
def expected (G : Nat → (n → K) → K → K → (n → K) → Except Exc ((m → K) × Matrix m n K)) : Nat → K × (n → K) → List (K × (n → K)) → List (Nat × (m → K) × Matrix m n K) × Option Exc
  | _, _, [] => ([], none)
  | i, (t, x), (t', x') :: rest =>
    match G i x t (t' - t) x' with
    | .error e => ([], some e)
    | .ok a => ((i, a.1, a.2) :: (expected G (i + 1) (t', x') rest).1, (expected G (i + 1) (t', x') rest).2)

/-- the writer accepts everything -/
def Writes (wr : Writer K m n) : Prop := ∀ i R J, wr i R J = .ok ()

/-- The equations `G` followed by the writer: an exception of the writer ends the call like one of the equations. -/
def thenWrite (wr : Writer K m n) (G : Nat → (n → K) → K → K → (n → K) → Except Exc ((m → K) × Matrix m n K)) (i : Nat) (xn : n → K) (tn dt : K) (x : n → K) : Except Exc ((m → K) × Matrix m n K) :=
  match G i xn tn dt x with
  | .error e => .error e
  | .ok a =>
    match wr i a.1 a.2 with
    | .error e => .error e
    | .ok _ => .ok a

theorem thenWrite_accept (wr : Writer K m n) (hw : Writes wr) (G : Nat → (n → K) → K → K → (n → K) → Except Exc ((m → K) × Matrix m n K)) : thenWrite wr G = G := by
  funext i xn tn dt x
  unfold thenWrite
  rcases G i xn tn dt x with e | a
  · rfl
  · simp only [hw i a.1 a.2]

/-- a loop body that computes `G` -/
def BodyIs (S : Trial K m n) (body : Nat → K → K → (n → K) → Prog (RSt K m n) Unit) (G : Nat → (n → K) → K → K → (n → K) → Except Exc ((m → K) × Matrix m n K)) : Prop :=
  ∀ i tn t x z (s : RSt K m n), s.yn = lift S z →
    match G i z tn (t - tn) x with
    | .ok a => ∃ s', body i tn t x s = .ok () s' ∧ s'.yn = lift S x ∧ s'.out = s.out ++ [(i, a.1, a.2)]
    | .error e => ∃ s', body i tn t x s = .stop (.exc e) s' ∧ s'.out = s.out

theorem loop_run (S : Trial K m n) (body : Nat → K → K → (n → K) → Prog (RSt K m n) Unit) (G : Nat → (n → K) → K → K → (n → K) → Except Exc ((m → K) × Matrix m n K)) (hb : BodyIs S body G)
    (rest : List (K × (n → K))) : ∀ (i : Nat) (t : K) (x : n → K) (s : RSt K m n), s.yn = lift S x →
      ∃ s', loop body i t rest s = (match (expected G i (t, x) rest).2 with | none => .ok () s' | some e => .stop (.exc e) s') ∧ s'.out = s.out ++ (expected G i (t, x) rest).1 := by
  induction rest with
  | nil => intro i t x s h; exact ⟨s, rfl, by simp [expected]⟩
  | cons a rest ih =>
    obtain ⟨t', x'⟩ := a
    intro i t x s h
    have := hb i t t' x' x s h
    simp only [loop, expected, Prog.bind_run]
    rcases hG : G i x t (t' - t) x' with e | a
    · rw [hG] at this
      obtain ⟨s', h1, h2⟩ := this
      exact ⟨s', by rw [h1], by simp [h2]⟩
    · rw [hG] at this
      obtain ⟨s', h1, h2, h3⟩ := this
      obtain ⟨s'', h4, h5⟩ := ih (i + 1) t' x' s' h2
      exact ⟨s'', by rw [h1]; exact h4, by rw [h5, h3]; simp⟩

/-- the whole function -/
theorem execute_run (S : Trial K m n) (body : Nat → K → K → (n → K) → Prog (RSt K m n) Unit) (G : Nat → (n → K) → K → K → (n → K) → Except Exc ((m → K) × Matrix m n K)) (hb : BodyIs S body G)
    (d : K × (n → K)) (rest : List (K × (n → K))) (s : RSt K m n) :
    ∃ s', execute S body (d :: rest) s = (match (expected G 1 d rest).2 with | none => .ok () s' | some e => .stop (.exc e) s') ∧ s'.out = s.out ++ (expected G 1 d rest).1 := by
  obtain ⟨t, x⟩ := d
  obtain ⟨s', h1, h2⟩ := loop_run S body G hb rest 1 t x { s with yn := S.map x s.yn } (trial_map_lift S x s.yn)
  exact ⟨s', by simp only [execute, Prog.bind_run, Prog.modify]; exact h1, h2⟩

/-- the LSPG equations of BDF1, with Jacobian -/
def lspgBDF1 (S : Trial K m n) (f : (m → K) → K → Except Exc (m → K)) (Df : (m → K) → K → Except Exc (Matrix m m K)) (_ : Nat) (xn : n → K) (tn dt : K) (x : n → K) : Except Exc ((m → K) × Matrix m n K) :=
  (lspg .BDF1 S f Df [xn] tn dt x true).map (fun a => (a.1, a.2.getD 0))

theorem semiBody_is {F : Fom K m m n} {f : (m → K) → K → Except Exc (m → K)} {Df Mm : (m → K) → K → Except Exc (Matrix m m K)} (hF : FomIs F f Df Mm) (S : Trial K m n) (wr : Writer K m n) :
    BodyIs S (semiBody S F wr) (thenWrite wr (lspgBDF1 S f Df)) := by
  intro i tn t x z s hs
  unfold thenWrite
  obtain ⟨np1, yn, R, J, out⟩ := s
  simp only at hs
  subst hs
  have ht : tn + (t - tn) = t := by ring
  simp only [lspgBDF1, lspg, ht, if_true]
  simp only [semiBody, Prog.bind_run, Prog.modify, Prog.get, trial_map_lift, call]
  have h1 := hF.rhs (lift S x) t R
  rcases hc : F.rhs (lift S x) t R with ⟨e, v⟩ | v
  · rw [hc] at h1
    rw [show f (lift S x) t = .error e from h1.symm]
    exact ⟨_, rfl, rfl⟩
  · rw [hc] at h1
    rw [show f (lift S x) t = .ok v from h1.symm]
    have h2 := hF.jac (lift S x) S.basis t J
    simp only [ok_bind]
    rcases hd : F.applyJac (lift S x) S.basis t J with ⟨e, B⟩ | B
    · rw [hd] at h2
      rcases hD : Df (lift S x) t with e' | D
      · rw [hD] at h2
        cases h2
        exact ⟨_, rfl, rfl⟩
      · rw [hD] at h2; cases h2
    · rw [hd] at h2
      rcases hD : Df (lift S x) t with e' | D
      · rw [hD] at h2; cases h2
      · rw [hD] at h2
        obtain rfl : B = D * S.basis := by cases h2; rfl
        simp only [Except.map, ok_bind]
        simp only [List.map_cons, List.map_nil, combination, coef, pure, Except.pure, Option.getD_some]
        rw [show lift S x - lift S z - (t - tn) • v = discreteResidualBDF1 (lift S x) v (lift S z) (t - tn) by funext i; simp [discreteResidualBDF1]; ring,
          show S.basis - (t - tn) • (D * S.basis) = ((t - tn) * (-1:K)) • (D * S.basis) + (1:K) • S.basis by funext i j; simp [Matrix.sub_apply, Matrix.add_apply, Matrix.smul_apply]; ring]
        simp only [write]
        rcases wr i (discreteResidualBDF1 (lift S x) v (lift S z) (t - tn)) (((t - tn) * (-1:K)) • (D * S.basis) + (1:K) • S.basis) with e | u
        · exact ⟨_, rfl, rfl⟩
        · exact ⟨_, rfl, rfl, rfl⟩

/-- **C59, semi-discrete.** For every recorded trajectory with at least one snapshot: the reconstructor writes, for `i = 1, 2, ...`, the BDF1 LSPG residual and Jacobian at the recorded states `i-1`, `i` and times; it ends
    with the exception of the FOM or of the writer if there is one (having written what comes before). -/
theorem C59_semi_discrete {F : Fom K m m n} {f : (m → K) → K → Except Exc (m → K)} {Df Mm : (m → K) → K → Except Exc (Matrix m m K)} (hF : FomIs F f Df Mm) (S : Trial K m n) (wr : Writer K m n)
    (d : K × (n → K)) (rest : List (K × (n → K))) (s : RSt K m n) :
    ∃ s', execute S (semiBody S F wr) (d :: rest) s = (match (expected (thenWrite wr (lspgBDF1 S f Df)) 1 d rest).2 with | none => .ok () s' | some e => .stop (.exc e) s') ∧
      s'.out = s.out ++ (expected (thenWrite wr (lspgBDF1 S f Df)) 1 d rest).1 :=
  execute_run S _ _ (semiBody_is hF S wr) d rest s

/-- the equations of fully discrete LSPG with two states (without translation of exceptions) -/
def lspgFD (S : Trial K m n) (g : Int → K → K → (m → K) → List (m → K) → Except Exc (m → K)) (Dg : Int → K → K → (m → K) → List (m → K) → Except Exc (Matrix m m K)) (i : Nat) (xn : n → K) (tn dt : K) (x : n → K) :
    Except Exc ((m → K) × Matrix m n K) := do
  let r ← g i (tn + dt) dt (lift S x) [lift S xn]
  let D ← Dg i (tn + dt) dt (lift S x) [lift S xn]
  pure (r, D * S.basis)

theorem fullyBody_is {F : DFom K m m n} {g : Int → K → K → (m → K) → List (m → K) → Except Exc (m → K)} {Dg : Int → K → K → (m → K) → List (m → K) → Except Exc (Matrix m m K)} (hF : DFomIs F g Dg)
    (S : Trial K m n) (wr : Writer K m n) : BodyIs S (fullyBody S F wr) (thenWrite wr (lspgFD S g Dg)) := by
  intro i tn t x z s hs
  unfold thenWrite
  obtain ⟨np1, yn, R, J, out⟩ := s
  simp only at hs
  subst hs
  have ht : tn + (t - tn) = t := by ring
  simp only [lspgFD, ht]
  simp only [fullyBody, Prog.bind_run, Prog.modify, Prog.get, trial_map_lift, call]
  have h1 := hF.residualAndJac i t (t - tn) S.basis (lift S x) [lift S z] (R, J)
  rcases hc : F.eval i t (t - tn) S.basis true (lift S x) [lift S z] (R, J) with ⟨e, v⟩ | v
  · rw [hc] at h1
    rw [← h1]
    exact ⟨_, rfl, rfl⟩
  · rw [hc] at h1
    rw [← h1]
    simp only [Except.mapError, write]
    rcases wr i v.1 v.2 with e | u
    · exact ⟨_, rfl, rfl⟩
    · exact ⟨_, rfl, rfl, rfl⟩

/-- **C59, fully discrete.** -/
theorem C59_fully_discrete {F : DFom K m m n} {g : Int → K → K → (m → K) → List (m → K) → Except Exc (m → K)} {Dg : Int → K → K → (m → K) → List (m → K) → Except Exc (Matrix m m K)} (hF : DFomIs F g Dg)
    (S : Trial K m n) (wr : Writer K m n) (d : K × (n → K)) (rest : List (K × (n → K))) (s : RSt K m n) :
    ∃ s', execute S (fullyBody S F wr) (d :: rest) s = (match (expected (thenWrite wr (lspgFD S g Dg)) 1 d rest).2 with | none => .ok () s' | some e => .stop (.exc e) s') ∧
      s'.out = s.out ++ (expected (thenWrite wr (lspgFD S g Dg)) 1 d rest).1 :=
  execute_run S _ _ (fullyBody_is hF S wr) d rest s

/-- An empty file is undefined behaviour. -/
theorem C59_empty_file (S : Trial K m n) (body : Nat → K → K → (n → K) → Prog (RSt K m n) Unit) (s : RSt K m n) : ∃ w, execute S body [] s = .stop (.ub w) s := ⟨_, rfl⟩

/-! ### the file -/

theorem readEntries_run {ext : Nat} (x0 : Fin ext → K) (c : Nat) (vs : List K) (h : c + vs.length ≤ ext) :
    readEntries x0 c (vs.map some) = some (fun i => if h : c ≤ i.val ∧ i.val < c + vs.length then vs[i.val - c]'(by omega) else x0 i) := by
  induction vs generalizing x0 c with
  | nil =>
    simp only [List.map_nil, readEntries, List.length_nil, Nat.add_zero]
    congr 1
    funext i
    rw [dif_neg (by omega)]
  | cons v vs ih =>
    simp only [List.length_cons] at h
    simp only [List.map_cons, readEntries]
    rw [dif_pos (by omega), ih _ (c + 1) (by omega)]
    congr 1
    funext i
    by_cases h1 : i.val = c
    · rw [dif_neg (by omega), dif_pos (by simp; omega)]
      subst h1
      simp
    · by_cases h2 : c + 1 ≤ i.val ∧ i.val < c + 1 + vs.length
      · rw [dif_pos h2, dif_pos (by simp; omega)]
        have e : i.val - c = (i.val - (c + 1)) + 1 := by omega
        simp only [e, List.getElem_cons_succ]
      · rw [dif_neg h2, dif_neg (by simp; omega), Function.update_of_ne]
        intro h'
        exact h1 (by rw [h'])

/-- the line for a snapshot: time and all entries -/
def lineOf {ext : Nat} (a : K × (Fin ext → K)) : List (Option K) := some a.1 :: (List.ofFn a.2).map some

/-- **C59, file.** Reading back a file with one line per snapshot gives the snapshots, whatever the uninitialised variables contain. -/
theorem C59_file_round_trip {ext : Nat} (data : List ((K × (Fin ext → K)) × K × (Fin ext → K))) : readFile (data.map (fun a => (lineOf a.1, a.2))) = some (data.map (fun a => a.1)) := by
  induction data with
  | nil => rfl
  | cons a rest ih =>
    obtain ⟨⟨t, x⟩, t0, x0⟩ := a
    have : readLine t0 x0 (lineOf (t, x)) = some (t, x) := by
      simp only [lineOf, readLine]
      rw [readEntries_run x0 0 (List.ofFn x) (by simp)]
      simp only [Option.map_some, Option.some.injEq, Prod.mk.injEq, true_and]
      funext i
      rw [dif_pos (by simp)]
      simp
    simp only [List.map_cons, readFile, this, ih]
    rfl

/-- A blank line is read as a snapshot of uninitialised values. -/
theorem C59_blank_line {ext : Nat} (t0 : K) (x0 : Fin ext → K) : readFile [(([] : List (Option K)), t0, x0)] = some [(t0, x0)] := rfl

theorem readEntries_text {ext : Nat} (x0 : Fin ext → K) (c : Nat) (vs : List K) (rest : List (Option K)) (h : c + vs.length ≤ ext) : readEntries x0 c (vs.map some ++ none :: rest) = readEntries x0 c (vs.map some) := by
  induction vs generalizing x0 c with
  | nil => rfl
  | cons v vs ih =>
    simp only [List.length_cons] at h
    simp only [List.map_cons, List.cons_append, readEntries]
    rw [dif_pos (by omega), dif_pos (by omega), ih _ (c + 1) (by omega)]

/-- Malformed lines are not rejected. A line that begins with text is read as a snapshot at time zero with uninitialised entries; in a line that is too short, or with text after the first entries, the remaining entries are uninitialised. -/
theorem C59_malformed_lines {ext : Nat} (t0 t : K) (x0 : Fin ext → K) (vs : List K) (h : vs.length ≤ ext) (rest : List (Option K)) :
    readLine t0 x0 (none :: rest) = some (0, x0) ∧
    readLine t0 x0 (some t :: vs.map some) = some (t, fun i => vs[i.val]?.getD (x0 i)) ∧
    readLine t0 x0 (some t :: (vs.map some ++ none :: rest)) = some (t, fun i => vs[i.val]?.getD (x0 i)) := by
  have key : readEntries x0 0 (vs.map some) = some (fun i => vs[i.val]?.getD (x0 i)) := by
    rw [readEntries_run x0 0 vs (by omega)]
    congr 1
    funext i
    by_cases hi : i.val < vs.length
    · rw [dif_pos (by omega)]; simp [hi]
    · rw [dif_neg (by omega)]; simp [hi]
  refine ⟨rfl, ?_, ?_⟩
  · simp only [readLine, key, Option.map_some]
  · simp only [readLine, readEntries_text x0 0 vs rest (by omega), key, Option.map_some]

example : readLine (7:ℚ) (fun _ : Fin 3 => (9:ℚ)) [some 1, some 2, none, some 4] = some (1, ![2, 9, 9]) := by
  refine ((C59_malformed_lines 7 1 (fun _ : Fin 3 => (9:ℚ)) [2] (by simp) [some 4]).2.2).trans ?_
  congr 2
  funext i
  fin_cases i <;> rfl

/-- A line with more entries than modes writes outside of the state. -/
theorem C59_long_line {ext : Nat} (t0 t : K) (x0 : Fin ext → K) (vs : List K) (h : ext < vs.length) : readLine t0 x0 (some t :: vs.map some) = none := by
  have key : ∀ (c : Nat) (x : Fin ext → K) (vs : List K), ext < c + vs.length → c ≤ ext → readEntries x c (vs.map some) = none := by
    intro c x vs
    induction vs generalizing c x with
    | nil => intro h1 h2; simp at h1; omega
    | cons v vs ih =>
      intro h1 h2
      simp only [List.map_cons, readEntries]
      simp only [List.length_cons] at h1
      by_cases hc : c < ext
      · rw [dif_pos hc]; exact ih (c + 1) _ (by omega) (by omega)
      · rw [dif_neg hc]
  simp only [readLine, key 0 x0 vs (by omega) (by omega), Option.map_none]

/-! ### the run -/

/-- **C59, end to end.** In an LSPG run with BDF1: take any accepted attempt in which the solver evaluated residual and Jacobian at the state that it returned.  What it got is what the reconstructor writes for the pair of
    snapshots (last accepted state, time) and (new state, time + dt). -/
theorem C59_equals_run {F : Fom K m m n} {f : (m → K) → K → Except Exc (m → K)} {Df Mm : (m → K) → K → Except Exc (Matrix m m K)} (hF : FomIs F f Df Mm) (hn : FomNoTSF f Df)
    (S : Trial K m n) (mem : SMem K (n → K) (n → K) (LMem K m m n)) (hmem : LspgReady .BDF1 mem)
    (atts : List (Attempt K (n → K) ((m → K) × Option (Matrix m n K)))) (hon : ∀ a ∈ atts, ∀ y, Honest (a.solver y)) (hask : ∀ a ∈ atts, ∀ y, Asks (a.solver y)) (t0 : K) (x0 : n → K)
    (pre post : List (Record K (n → K) ((m → K) × Option (Matrix m n K)))) (r : Record K (n → K) ((m → K) × Option (Matrix m n K)))
    (h : drive (stepWith .BDF1 (defaultPolicy S F)) atts t0 [x0] x0 mem = pre ++ r :: post)
    (qr) (hq : qr ∈ r.queries) (hx : qr.x = r.y) (hj : qr.wantJ = true) (R : m → K) (J : Matrix m n K) (ha : qr.ans = .ok (R, some J))
    (xn : n → K) (hxn : r.hist.head? = some xn) (wr : Writer K m n) (hw : Writes wr) (s : RSt K m n) :
    ∃ s', execute S (semiBody S F wr) [(r.t, xn), (r.t + r.dt, r.y)] s = .ok () s' ∧ s'.out = s.out ++ [(1, R, J)] := by
  obtain ⟨h1, h2, h3⟩ := C52_every_evaluation hF hn S .BDF1 (Or.inl rfl) mem hmem atts hon hask t0 x0 pre post r h
  have h4 := h3 qr hq
  rw [ha, hx, hj, ← h1, ← h2] at h4
  obtain ⟨tl, hh⟩ : ∃ tl, r.hist = xn :: tl := by
    cases hr : r.hist with
    | nil => rw [hr] at hxn; cases hxn
    | cons a b => rw [hr] at hxn; cases hxn; exact ⟨b, rfl⟩
  have h5 : lspg .BDF1 S f Df [xn] r.t r.dt r.y true = .ok (R, some J) := by
    rw [h4, hh]; rfl
  have h6 : lspgBDF1 S f Df 1 xn r.t (r.t + r.dt - r.t) r.y = .ok (R, J) := by
    rw [add_sub_cancel_left, lspgBDF1, h5]; rfl
  obtain ⟨s', e1, e2⟩ := C59_semi_discrete hF S wr (r.t, xn) [(r.t + r.dt, r.y)] s
  rw [thenWrite_accept wr hw] at e1 e2
  have he : expected (lspgBDF1 S f Df) 1 (r.t, xn) [(r.t + r.dt, r.y)] = ([(1, R, J)], none) := by
    simp only [expected, h6]
  rw [he] at e1 e2
  exact ⟨s', e1, e2⟩

end

/-- a trajectory of three snapshots, written in full -/
example : ((execute trial2 (semiBody trial2 fom2 (fun _ _ _ => .ok ())) [(0, ![0]), (1/2, ![1]), (1, ![2])] ⟨0, 0, 0, 0, []⟩).state.out.map (fun a => a.1)) = [1, 2] := by decide +kernel
example : (execute trial2 (semiBody trial2 fom2 (fun _ _ _ => .ok ())) [(0, ![0]), (1/2, ![49/2]), (1, ![2])] ⟨0, 0, 0, 0, []⟩).stop? = some (.exc .velocityFailureUnrecoverable) := by decide +kernel
/-- a writer that fails at the second step: the first step is written -/
example : ((execute trial2 (semiBody trial2 fom2 (fun i _ _ => if i = 2 then .error (.runtimeError "disk full") else .ok ())) [(0, ![0]), (1/2, ![1]), (1, ![2])] ⟨0, 0, 0, 0, []⟩).state.out.map (fun a => a.1)) = [1] := by decide +kernel
example : (execute trial2 (semiBody trial2 fom2 (fun i _ _ => if i = 2 then .error (.runtimeError "disk full") else .ok ())) [(0, ![0]), (1/2, ![1]), (1, ![2])] ⟨0, 0, 0, 0, []⟩).stop? = some (.exc (.runtimeError "disk full")) := by decide +kernel

/-! ### The theorems on these objects -/

example := C59_semi_discrete fom2_is trial2 (fun i _ _ => if i = 2 then .error (.runtimeError "disk full") else .ok ()) (0, ![0]) [(1/2, ![1]), (1, ![2])] ⟨0, 0, 0, 0, []⟩
example := C59_fully_discrete dfom2_is trial2 (fun _ _ _ => .ok ()) (0, ![0]) [(1/2, ![1]), (1, ![2])] ⟨0, 0, 0, 0, []⟩
example := C59_empty_file trial2 (semiBody trial2 fom2 (fun _ _ _ => .ok ())) ⟨0, 0, 0, 0, []⟩
example := C59_file_round_trip [(((0 : ℚ), ![1, 2]), (7, ![8, 9])), ((1/2, ![3, 4]), (7, ![8, 9]))]
example := C59_blank_line (7 : ℚ) ![8, 9]
example := C59_long_line (7 : ℚ) (1/2) ![8, 9] [1, 2, 3] (by decide)


end Pressio.Props
