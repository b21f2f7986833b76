import Verif.Model.HypredUpdater
import Verif.Props.LspgInstances
import Mathlib.Data.List.GetD

/-
  C69: the hyper-reduction updater for Trilinos containers, on every process.
-/
namespace Pressio.Props
set_option autoImplicit false
set_option linter.unusedSectionVars false
open Pressio Matrix
open Pressio.Model.HypredUpdater
open Pressio.Model.Lspg (Updater)
open Pressio.Spec.Lspg (UpdaterIs)

variable {K : Type} [Field K]

theorem rows_ok (a b : K) (sampleIds stencilIds : List Nat) (stencil : Nat → Nat → K) (hsub : ∀ g ∈ sampleIds, g ∈ stencilIds) (j : Nat) : ∀ (c i : Nat) (s : Nat → Nat → K), i + c = sampleIds.length →
    rows a b sampleIds stencilIds stencil j c i s =
      .ok () (fun x y => if y = j ∧ i ≤ x ∧ x < i + c then a * s x y + b * stencil (stencilIds.idxOf (sampleIds.getD x 0)) y else s x y) := by
  intro c
  induction c with
  | zero =>
    intro i s _
    have : ∀ x y, ¬ (y = j ∧ i ≤ x ∧ x < i + 0) := by intro x y; omega
    simp only [rows, Prog.pure_run, this, if_false]
  | succ c ih =>
    intro i s hi
    have hlt : i < sampleIds.length := by omega
    have hmem : sampleIds.getD i 0 ∈ stencilIds := hsub _ (by rw [List.getD_eq_getElem _ _ hlt]; exact List.getElem_mem hlt)
    simp only [rows, localElement, if_pos hmem, Bind.bind, Prog.bind, Prog.modify_run]
    rw [ih (i + 1) _ (by omega)]
    congr 1
    funext x y
    by_cases hy : y = j
    · rcases Nat.lt_trichotomy x i with h | h | h
      · rw [if_neg (by omega), if_neg (by omega), if_neg (by omega)]
      · subst h hy
        rw [if_neg (by omega), if_pos ⟨rfl, rfl⟩, if_pos (by omega)]
      · have e : ¬ (x = i ∧ y = j) := by omega
        simp only [e, if_false]
        by_cases hc : x < i + 1 + c
        · rw [if_pos (by omega), if_pos (by omega)]
        · rw [if_neg (by omega), if_neg (by omega)]
    · rw [if_neg (by omega), if_neg (by omega), if_neg (by omega)]

theorem cols_ok (a b : K) (sampleIds stencilIds : List Nat) (stencil : Nat → Nat → K) (hsub : ∀ g ∈ sampleIds, g ∈ stencilIds) : ∀ (c j : Nat) (s : Nat → Nat → K),
    cols a b sampleIds stencilIds stencil c j s =
      .ok () (fun x y => if (j ≤ y ∧ y < j + c) ∧ x < sampleIds.length then a * s x y + b * stencil (stencilIds.idxOf (sampleIds.getD x 0)) y else s x y) := by
  intro c
  induction c with
  | zero =>
    intro j s
    have : ∀ x y, ¬ ((j ≤ y ∧ y < j + 0) ∧ x < sampleIds.length) := by intro x y; omega
    simp only [cols, Prog.pure_run, this, if_false]
  | succ c ih =>
    intro j s
    simp only [cols, Bind.bind, Prog.bind, rows_ok a b sampleIds stencilIds stencil hsub j sampleIds.length 0 s (by omega)]
    rw [ih (j + 1)]
    congr 1
    funext x y
    by_cases hx : x < sampleIds.length
    · rcases Nat.lt_trichotomy y j with h | h | h
      · rw [if_neg (by omega), if_neg (by omega), if_neg (by omega)]
      · rw [if_neg (by omega), if_pos (by omega), if_pos (by omega)]
      · have e : ¬ (y = j ∧ 0 ≤ x ∧ x < 0 + sampleIds.length) := by omega
        simp only [e, if_false]
        by_cases hc : y < j + 1 + c
        · rw [if_pos (by omega), if_pos (by omega)]
        · rw [if_neg (by omega), if_neg (by omega)]
    · rw [if_neg (by omega), if_neg (by omega), if_neg (by omega)]

/-- **C69.** On a process whose stencil mesh contains its part of the sample mesh: every entry of the sample operand becomes `a` times itself plus `b` times the stencil entry with the same global id in the same
    column; nothing else is written.  (The order of the ids, of the two maps relative to each other, and the number of columns are arbitrary.) -/
theorem C69_update (n : Nat) (a b : K) (sampleIds stencilIds : List Nat) (hsub : ∀ g ∈ sampleIds, g ∈ stencilIds) (sample stencil : Nat → Nat → K) :
    ∃ out, update n a b sampleIds stencilIds stencil sample = .ok () out ∧
      (∀ x l j, ∀ hx : x < sampleIds.length, ∀ hl : l < stencilIds.length, j < n → stencilIds.Nodup → sampleIds[x] = stencilIds[l] → out x j = a * sample x j + b * stencil l j) ∧
      ∀ x j, ¬ (x < sampleIds.length ∧ j < n) → out x j = sample x j := by
  refine ⟨_, cols_ok a b sampleIds stencilIds stencil hsub n 0 sample, ?_, ?_⟩
  · intro x l j hx hl hj hnd heq
    rw [if_pos (by omega), List.getD_eq_getElem _ _ hx, heq, hnd.idxOf_getElem]
  · intro x j h
    rw [if_neg (by omega)]

/-- **C69.** If some element of the sample mesh is not in the stencil mesh of the process (and there is a column), the call accesses memory out of range: no other check than an assertion. -/
theorem C69_outside_stencil (n : Nat) (hn : 0 < n) (a b : K) (sampleIds stencilIds : List Nat) (g : Nat) (hg : g ∈ sampleIds) (hout : g ∉ stencilIds) (sample stencil : Nat → Nat → K) :
    (update n a b sampleIds stencilIds stencil sample).stop? = some (.ub "not in the stencil mesh of this process") := by
  have key : ∀ (j c i : Nat) (s : Nat → Nat → K), i + c = sampleIds.length → (∃ x, i ≤ x ∧ x < sampleIds.length ∧ sampleIds.getD x 0 ∉ stencilIds) →
      (rows a b sampleIds stencilIds stencil j c i s).stop? = some (.ub "not in the stencil mesh of this process") := by
    intro j c
    induction c with
    | zero => rintro i s hi ⟨x, h1, h2, -⟩; omega
    | succ c ih =>
      rintro i s hi ⟨x, h1, h2, h3⟩
      by_cases hm : sampleIds.getD i 0 ∈ stencilIds
      · simp only [rows, localElement, if_pos hm, Bind.bind, Prog.bind, Prog.modify_run]
        refine ih (i + 1) _ (by omega) ⟨x, ?_, h2, h3⟩
        rcases Nat.eq_or_lt_of_le h1 with h | h
        · subst h; exact absurd hm h3
        · exact h
      · simp only [rows, localElement, if_neg hm, Prog.undef, Res.stop?]
  obtain ⟨x, hx, he⟩ := List.getElem_of_mem hg
  obtain ⟨n, rfl⟩ : ∃ k, n = k + 1 := ⟨n - 1, by omega⟩
  have h := key 0 sampleIds.length 0 sample (by omega) ⟨x, by omega, hx, by rw [List.getD_eq_getElem _ _ hx, he]; exact hout⟩
  unfold update cols
  simp only [Bind.bind, Prog.bind]
  rcases hr : rows a b sampleIds stencilIds stencil 0 sampleIds.length 0 sample with ⟨u, s⟩ | ⟨e, s⟩
  · rw [hr] at h; cases h
  · rw [hr] at h; exact h

/-! ### whole operands, distributed over processes -/

section
variable {m p : Type} [Fintype m] [DecidableEq m] [Fintype p] [DecidableEq p]

/-- Distribution of the sample points `p` and of the stencil points `m` over processes.  `gs`, `gm`: global ids. -/
structure Meshes (p m : Type) where
  gs : p → Nat
  gm : m → Nat
  sample : DMap
  stencil : DMap
  /-- process and local index of each point -/
  atS : p → Nat × Nat
  atM : m → Nat × Nat
  /-- the points stored by a process -/
  pointS : Nat → Nat → p
  pointM : Nat → Nat → m

/-- the two maps describe the meshes, each id occurs once per process, and each sample point is a stencil point of the same process -/
structure Meshes.Ok (M : Meshes p m) : Prop where
  sampleIds : ∀ x, (M.sample (M.atS x).1)[(M.atS x).2]? = some (M.gs x)
  stencilIds : ∀ y, (M.stencil (M.atM y).1)[(M.atM y).2]? = some (M.gm y)
  pointS : ∀ x, M.pointS (M.atS x).1 (M.atS x).2 = x
  pointM : ∀ y, M.pointM (M.atM y).1 (M.atM y).2 = y
  nodup : ∀ r, (M.stencil r).Nodup
  sub : ∀ r, ∀ g ∈ M.sample r, g ∈ M.stencil r
  same : ∀ x, ∃ y, M.gm y = M.gs x ∧ (M.atM y).1 = (M.atS x).1

/-- the updater object: every process updates its part -/
def trilinosUpdater {n : Nat} (M : Meshes p m) : Updater K m p (Fin n) where
  vec := fun R a y b => fun x =>
    let r := (M.atS x).1
    (update 1 a b (M.sample r) (M.stencil r) (fun l _ => y (M.pointM r l)) (fun i _ => R (M.pointS r i))).state (M.atS x).2 0
  mat := fun J a B b => Matrix.of fun x j =>
    let r := (M.atS x).1
    (update n a b (M.sample r) (M.stencil r) (fun l k => if h : k < n then B (M.pointM r l) ⟨k, h⟩ else 0) (fun i k => if h : k < n then J (M.pointS r i) ⟨k, h⟩ else 0)).state (M.atS x).2 j

/-- the matrix that picks the sample points -/
def pick (M : Meshes p m) : Matrix p m K := Matrix.of fun x y => if M.gm y = M.gs x then 1 else 0

/-- **C69.** As a whole, the Trilinos updater meets the contract under which hyper-reduced LSPG is proved right (C54): `R := a R + b E y` with the matrix `E` that picks the sample points out of the
    stencil points, for any distribution over processes. -/
theorem C69_meets_contract {n : Nat} (M : Meshes p m) (hM : M.Ok) (hinj : Function.Injective M.gm) : UpdaterIs (trilinosUpdater (K := K) (n := n) M) (pick M) := by
  have idx : ∀ x, (M.atS x).2 < (M.sample (M.atS x).1).length := fun x => (List.getElem?_eq_some_iff.1 (hM.sampleIds x)).1
  have val : ∀ x, (M.sample (M.atS x).1).getD (M.atS x).2 0 = M.gs x := fun x => by rw [List.getD_eq_getElem?_getD, hM.sampleIds x]; rfl
  have lid : ∀ x, ∃ y, M.gm y = M.gs x ∧ (M.stencil (M.atS x).1).idxOf (M.gs x) = (M.atM y).2 ∧ (M.atM y).1 = (M.atS x).1 := by
    intro x
    obtain ⟨y, h1, h2⟩ := hM.same x
    refine ⟨y, h1, ?_, h2⟩
    have h3 := hM.stencilIds y
    rw [h2] at h3
    obtain ⟨h4, h5⟩ := List.getElem?_eq_some_iff.1 h3
    rw [← h1, ← h5, (hM.nodup _).idxOf_getElem]
  have sel : ∀ x y, M.gm y = M.gs x → ∀ v : m → K, ∑ z, (if M.gm z = M.gs x then (1:K) else 0) * v z = v y := by
    intro x y h v
    rw [Finset.sum_eq_single y]
    · rw [if_pos h, one_mul]
    · intro z _ hz
      rw [if_neg (fun e => hz (hinj (e.trans h.symm))), zero_mul]
    · intro h'; exact absurd (Finset.mem_univ y) h'
  constructor
  · intro R a y b
    funext x
    obtain ⟨z, h1, h2, h3⟩ := lid x
    show (update 1 a b _ _ _ _).state (M.atS x).2 0 = _
    unfold update
    rw [cols_ok a b _ _ _ (hM.sub _)]
    simp only [Res.state]
    rw [if_pos ⟨by omega, idx x⟩, val, h2, ← h3, hM.pointM]
    rw [h3, hM.pointS]
    simp only [Pi.add_apply, Pi.smul_apply, smul_eq_mul, Matrix.mulVec, dotProduct, pick, Matrix.of_apply]
    rw [sel x z h1]
  · intro J a B b
    ext x j
    obtain ⟨z, h1, h2, h3⟩ := lid x
    show (update n a b _ _ _ _).state (M.atS x).2 j = _
    unfold update
    rw [cols_ok a b _ _ _ (hM.sub _)]
    simp only [Res.state]
    rw [if_pos ⟨by have := j.2; omega, idx x⟩, val, h2, ← h3, hM.pointM]
    rw [h3, hM.pointS]
    simp only [Matrix.add_apply, Matrix.smul_apply, smul_eq_mul, Matrix.mul_apply, pick, Matrix.of_apply, j.2, dif_pos]
    rw [sel x z h1 (fun z => B z j)]

open Pressio.Model.Galerkin Pressio.Model.Lspg Pressio.Spec.Galerkin Pressio.Spec.Lspg Pressio.Model.Implicit Pressio.Lemmas.Implicit Pressio.Spec.Implicit Pressio.Model.Explicit in
open Pressio.Lemmas.Lspg (stepWith) in
/-- **C69** with C54: hyper-reduced LSPG with the Trilinos updater, on any number of processes: every run is the ideal run of the equations restricted to the sample points. -/
theorem C69_hypred_lspg [LinearOrder K] [IsStrictOrderedRing K] {n : Nat} (M : Meshes p m) (hM : M.Ok) (hinj : Function.Injective M.gm) {F : Fom K m p (Fin n)} {f : (m → K) → K → Except Exc (p → K)} {Df Mm : (m → K) → K → Except Exc (Matrix p m K)}
    (hF : FomIs F f Df Mm) (h1 : ∀ y t, f y t ≠ .error .timeStepFailure) (h2 : ∀ y t, Df y t ≠ .error .timeStepFailure)
    (S : Trial K m (Fin n)) (name : Scheme) (hname : name = .BDF1 ∨ name = .BDF2) (mem : SMem K (Fin n → K) (Fin n → K) (LMem K m p (Fin n))) (hmem : LspgReady name mem)
    (atts : List (Attempt K (Fin n → K) ((p → K) × Option (Matrix p (Fin n) K)))) (hon : ∀ a ∈ atts, ∀ y, Honest (a.solver y)) (hask : ∀ a ∈ atts, ∀ y, Asks (a.solver y)) (t0 : K) (x0 : Fin n → K) :
    drive (stepWith name (hypredPolicy (trilinosUpdater M) S F)) atts t0 [x0] x0 mem = ideal (hypredLspg (pick M) name S f Df) atts t0 x0 [] :=
  C54_run_is_ideal hF h1 h2 _ _ (C69_meets_contract M hM hinj) S name hname mem hmem atts hon hask t0 x0

end

/-! ### a case -/

/-- four stencil points 10..13 on two processes, in different local orders; sample points 11 and 12 -/
def meshes2 : Meshes (Fin 2) (Fin 4) where
  gs := ![11, 12]
  gm := ![10, 11, 12, 13]
  sample := fun r => if r = 0 then [11] else if r = 1 then [12] else []
  stencil := fun r => if r = 0 then [10, 11] else if r = 1 then [13, 12] else []
  atS := ![(0, 0), (1, 0)]
  atM := ![(0, 0), (0, 1), (1, 1), (1, 0)]
  pointS := fun r _ => if r = 0 then 0 else 1
  pointM := fun r l => if r = 0 then (if l = 0 then 0 else 1) else (if l = 0 then 3 else 2)

theorem meshes2_ok : meshes2.Ok where
  sampleIds := by decide
  stencilIds := by decide
  pointS := by decide
  pointM := by decide
  nodup := by intro r; unfold meshes2; dsimp only; split_ifs <;> decide
  sub := by intro r; unfold meshes2; dsimp only; split_ifs <;> decide
  same := by decide

example : UpdaterIs (trilinosUpdater (K := ℚ) (n := 3) meshes2) (pick meshes2) := C69_meets_contract meshes2 meshes2_ok (by decide)

example : (trilinosUpdater (K := ℚ) (n := 1) meshes2).vec ![1, 2] 10 ![100, 200, 300, 400] 1 = ![210, 320] := by decide +kernel

example : (update 2 (3:ℚ) 1 [11, 12] [12, 10] (fun _ _ => 1) (fun _ _ => 1)).stop? = some (.ub "not in the stencil mesh of this process") :=
  C69_outside_stencil 2 (by decide) 3 1 _ _ 11 (by decide) (by decide) _ _

/-- two sample points of three stencil points, stored in another order -/
example := C69_update 2 (3 : ℚ) 1 [11, 12] [12, 10, 11] (by decide) (fun x j => x + j) (fun l j => 10 * l + j)


end Pressio.Props
