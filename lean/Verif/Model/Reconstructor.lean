import Verif.Model.Lspg

/-
  Model of the LSPG reconstructor: `include/pressio/rom/impl/lspg_unsteady_reconstructor.hpp`.
-/
namespace Pressio.Model.Reconstructor
set_option autoImplicit false
open Pressio Pressio.Model.Galerkin Pressio.Model.Lspg Pressio.Model.Implicit

variable {K m n : Type} [Field K] [Fintype m] [Fintype n]

/-! ### Reading the file -/

/-- `while (stm >> v) reduced_state[c++] = v;` from position `c` on: tokens are numbers or not; a write outside of the vector is undefined (`none`).
    (`include/pressio/rom/impl/lspg_unsteady_reconstructor.hpp:75-78`) -/
def readEntries {ext : Nat} (x : Fin ext → K) (c : Nat) : List (Option K) → Option (Fin ext → K)
  | [] => some x
  | none :: _ => some x
  | some v :: rest => if h : c < ext then readEntries (Function.update x ⟨c, h⟩ v) (c + 1) rest else none

/-- One line (`include/pressio/rom/impl/lspg_unsteady_reconstructor.hpp:67-79`).  `t0`, `x0` are the uninitialised `time` and `reduced_state` of this line: an empty line leaves `time` as it is, text that is not a
    number sets it to zero. -/
def readLine {ext : Nat} (t0 : K) (x0 : Fin ext → K) : List (Option K) → Option (K × (Fin ext → K))
  | [] => some (t0, x0)
  | none :: _ => some (0, x0)
  | some t :: rest => (readEntries x0 0 rest).map (fun x => (t, x))

/-- `read_rom_states_and_times_from_ascii` (`include/pressio/rom/impl/lspg_unsteady_reconstructor.hpp:56-83`): each line with the garbage its variables contain.  The file is taken to exist (`assert`). -/
def readFile {ext : Nat} : List (List (Option K) × K × (Fin ext → K)) → Option (List (K × (Fin ext → K)))
  | [] => some []
  | (line, t0, x0) :: rest => do
    let a ← readLine t0 x0 line
    let as ← readFile rest
    pure (a :: as)

/-! ### The loops -/

/-- local variables of the loops, and what the writer has been given (oldest first) (`include/pressio/rom/impl/lspg_unsteady_reconstructor.hpp:287-290,327-332`) -/
structure RSt (K m n : Type) where
  np1 : m → K
  yn : m → K
  R : m → K
  J : Matrix m n K
  out : List (Nat × (m → K) × Matrix m n K)

/-- the writer: gets step, residual and Jacobian action; may throw. Called at `include/pressio/rom/impl/lspg_unsteady_reconstructor.hpp:309,358`. -/
abbrev Writer (K m n : Type) := Nat → (m → K) → Matrix m n K → Except Exc Unit

/-- `writer(i, R, JTimesPhi)`, `include/pressio/rom/impl/lspg_unsteady_reconstructor.hpp:309,358`. -/
def write (wr : Writer K m n) (i : Nat) : Prog (RSt K m n) Unit := fun s =>
  match wr i s.R s.J with
  | .ok _ => .ok () { s with out := s.out ++ [(i, s.R, s.J)] }
  | .error e => .stop (.exc e) s

/-- body of the loop for semi-discrete FOMs, BDF1 (`include/pressio/rom/impl/lspg_unsteady_reconstructor.hpp:343-359`): `tn`, `tnp1` are `times[i-1]`, `times[i]` -/
def semiBody (S : Trial K m n) (F : Fom K m m n) (wr : Writer K m n) (i : Nat) (tn tnp1 : K) (x : n → K) : Prog (RSt K m n) Unit := do
  Prog.modify (fun s => { s with np1 := S.map x s.np1 })
  let s ← Prog.get
  call (fun s => s.R) (fun s v => { s with R := v }) (F.rhs s.np1 tnp1)
  call (fun s => s.J) (fun s v => { s with J := v }) (F.applyJac s.np1 S.basis tnp1)
  Prog.modify (fun s => { s with R := discreteResidualBDF1 s.np1 s.R s.yn (tnp1 - tn) })
  Prog.modify (fun s => { s with J := ((tnp1 - tn) * (-1:K)) • s.J + (1:K) • S.basis })
  write wr i
  Prog.modify (fun s => { s with yn := s.np1 })

/-- body of the loop for fully discrete FOMs (`include/pressio/rom/impl/lspg_unsteady_reconstructor.hpp:301-311`) -/
def fullyBody (S : Trial K m n) (F : DFom K m m n) (wr : Writer K m n) (i : Nat) (tn tnp1 : K) (x : n → K) : Prog (RSt K m n) Unit := do
  Prog.modify (fun s => { s with np1 := S.map x s.np1 })
  let s ← Prog.get
  call (fun s => (s.R, s.J)) (fun s v => { s with R := v.1, J := v.2 }) (F.eval i tnp1 (tnp1 - tn) S.basis true s.np1 [s.yn])
  write wr i
  Prog.modify (fun s => { s with yn := s.np1 })

/-- the loop over the snapshots after the first: `i` and `tn = times[i-1]` (`include/pressio/rom/impl/lspg_unsteady_reconstructor.hpp:301-311,345-360`) -/
def loop (body : Nat → K → K → (n → K) → Prog (RSt K m n) Unit) : Nat → K → List (K × (n → K)) → Prog (RSt K m n) Unit
  | _, _, [] => pure ()
  | i, tn, (t, x) :: rest => do
    body i tn t x
    loop body (i + 1) t rest

/-- `execute`, after the states have been read: `reducedStates[0]` of an empty vector is undefined (`include/pressio/rom/impl/lspg_unsteady_reconstructor.hpp:299-312, 339-360`) -/
def execute (S : Trial K m n) (body : Nat → K → K → (n → K) → Prog (RSt K m n) Unit) (data : List (K × (n → K))) : Prog (RSt K m n) Unit :=
  match data with
  | [] => fun s => .stop (.ub "reducedStates[0] of an empty file") s
  | (t, x) :: rest => do
    Prog.modify (fun s => { s with yn := S.map x s.yn })
    loop body 1 t rest

end Pressio.Model.Reconstructor
