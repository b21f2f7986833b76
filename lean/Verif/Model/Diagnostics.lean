import Verif.Model.SolverM
import Mathlib.Algebra.Order.Field.Basic

/-
  Model of the convergence diagnostics of the nonlinear solvers
  (`include/pressio/solvers_nonlinear/impl/diagnostics.hpp`, `solvers_nonlinear_enums_and_tags.hpp`).
-/
namespace Pressio.Model.Nonlinear
set_option autoImplicit false
open Pressio

/-- `enum class Stop` (`include/pressio/solvers_nonlinear/solvers_nonlinear_enums_and_tags.hpp:54-64`) -/
inductive StopCrit where
  | WhenAbsolutel2NormOfCorrectionBelowTolerance
  | WhenRelativel2NormOfCorrectionBelowTolerance
  | WhenAbsolutel2NormOfResidualBelowTolerance
  | WhenRelativel2NormOfResidualBelowTolerance
  | WhenAbsolutel2NormOfGradientBelowTolerance
  | WhenRelativel2NormOfGradientBelowTolerance
  | WhenAbsoluteObjectiveBelowTolerance
  | WhenRelativeObjectiveBelowTolerance
  | AfterMaxIters
deriving DecidableEq, Repr

/-- `enum class Update` (`include/pressio/solvers_nonlinear/solvers_nonlinear_enums_and_tags.hpp:66-73`) -/
inductive Update where
  | Standard | Armijo | BacktrackStrictlyDecreasingObjective | LMSchedule1 | LMSchedule2 | Custom
deriving DecidableEq, Repr

/-- `enum class Diagnostic` (`include/pressio/solvers_nonlinear/solvers_nonlinear_enums_and_tags.hpp:75-85`) -/
inductive Diagnostic where
  | correctionAbsolutel2Norm | correctionRelativel2Norm | residualAbsolutel2Norm | residualRelativel2Norm
  | gradientAbsolutel2Norm | gradientRelativel2Norm | objectiveAbsolute | objectiveRelative | invalid
deriving DecidableEq, Repr

/-- `enum class InternalDiagnostic` (`include/pressio/solvers_nonlinear/impl/diagnostics.hpp:11-17`) -/
inductive InternalDiagnostic where
  | correction | residual | gradient | objective | invalid
deriving DecidableEq, Repr

/-- `is_absolute_diagnostic` (`include/pressio/solvers_nonlinear/solvers_nonlinear_enums_and_tags.hpp:104-117`) -/
def isAbsolute : Diagnostic → Bool
  | .correctionRelativel2Norm | .residualRelativel2Norm | .gradientRelativel2Norm | .objectiveRelative => false
  | _ => true

/-- `stop_criterion_to_public_diagnostic` (`include/pressio/solvers_nonlinear/solvers_nonlinear_enums_and_tags.hpp:155-169`) -/
def stopToDiagnostic : StopCrit → Diagnostic
  | .WhenAbsolutel2NormOfCorrectionBelowTolerance => .correctionAbsolutel2Norm
  | .WhenRelativel2NormOfCorrectionBelowTolerance => .correctionRelativel2Norm
  | .WhenAbsolutel2NormOfResidualBelowTolerance => .residualAbsolutel2Norm
  | .WhenRelativel2NormOfResidualBelowTolerance => .residualRelativel2Norm
  | .WhenAbsolutel2NormOfGradientBelowTolerance => .gradientAbsolutel2Norm
  | .WhenRelativel2NormOfGradientBelowTolerance => .gradientRelativel2Norm
  | .WhenAbsoluteObjectiveBelowTolerance => .objectiveAbsolute
  | .WhenRelativeObjectiveBelowTolerance => .objectiveRelative
  | .AfterMaxIters => .invalid

/-- `public_to_internal_diagnostic` (`include/pressio/solvers_nonlinear/impl/diagnostics.hpp:37-60`) -/
def toInternal : Diagnostic → InternalDiagnostic
  | .correctionRelativel2Norm | .correctionAbsolutel2Norm => .correction
  | .residualRelativel2Norm | .residualAbsolutel2Norm => .residual
  | .gradientRelativel2Norm | .gradientAbsolutel2Norm => .gradient
  | .objectiveRelative | .objectiveAbsolute => .objective
  | .invalid => .invalid

/-- Quotients as computed by the machine: exact division, except that dividing by zero gives NaN or an infinity (a zero divisor is taken to be `+0`) (`include/pressio/solvers_nonlinear/impl/diagnostics.hpp:86-92`) -/
inductive Quot' (K : Type) where
  | fin (x : K) | nan | posInf | negInf
deriving DecidableEq, Repr

section
variable {K : Type} [Field K] [LinearOrder K]

/-- `a / b` (`include/pressio/solvers_nonlinear/impl/diagnostics.hpp:88,91`) -/
def fdiv (a b : K) : Quot' K :=
  if b = 0 then (if a = 0 then .nan else if 0 < a then .posInf else .negInf) else .fin (a / b)

/-- `q < t` for finite `t` (`include/pressio/solvers_nonlinear/impl/root_finder.cpp:43-46`, `include/pressio/solvers_nonlinear/impl/nonlinear_least_squares.hpp:39-43`) -/
def Quot'.lt : Quot' K → K → Bool
  | .fin x, t => decide (x < t)
  | .nan, _ => false
  | .posInf, _ => false
  | .negInf, _ => true

/-- `q > t` for finite `t`. Levenberg-Marquardt updaters: `include/pressio/solvers_nonlinear/impl/updaters.hpp:222,276,280` -/
def Quot'.gt : Quot' K → K → Bool
  | .fin x, t => decide (t < x)
  | .nan, _ => false
  | .posInf, _ => true
  | .negInf, _ => false

/-- `InternalDiagnosticDataWithAbsoluteRelativeTracking` (`include/pressio/solvers_nonlinear/impl/diagnostics.hpp:65-94`) -/
structure DData (K : Type) where
  name : InternalDiagnostic
  absolute : K
  relative : Quot' K
  reference : K
deriving DecidableEq, Repr

/-- constructor: the values are value-initialised (`include/pressio/solvers_nonlinear/impl/diagnostics.hpp:71-78`) -/
def DData.mk0 (name : InternalDiagnostic) : DData K := ⟨name, 0, .fin 0, 0⟩

/-- `update` (`include/pressio/solvers_nonlinear/impl/diagnostics.hpp:84-93`) -/
def DData.update (d : DData K) (v : K) (setAsReference : Bool) : DData K :=
  if setAsReference then { d with absolute := v, reference := v, relative := fdiv v v }
  else { d with absolute := v, relative := fdiv v d.reference }

/-- `DiagnosticsContainer` (`include/pressio/solvers_nonlinear/impl/diagnostics.hpp:96-101`); `index` is `publicNameToIndexMap_` -/
structure DContainer (K : Type) where
  publicNames : List Diagnostic
  internalNames : List InternalDiagnostic
  data : List (DData K)
  index : List (Diagnostic × Nat)
deriving DecidableEq, Repr

/-- `std::unique` + `erase` (`include/pressio/solvers_nonlinear/impl/diagnostics.hpp:115-116`) -/
def uniq : List Diagnostic → List Diagnostic
  | [] => []
  | [a] => [a]
  | a :: b :: l => if a = b then uniq (b :: l) else a :: uniq (b :: l)

/-- one iteration of the loop of `prepare` (`include/pressio/solvers_nonlinear/impl/diagnostics.hpp:120-133`) -/
def prepareStep (s : List InternalDiagnostic × List (DData K) × List (Diagnostic × Nat)) (d : Diagnostic) :
    List InternalDiagnostic × List (DData K) × List (Diagnostic × Nat) :=
  let i := toInternal d
  let ins := fun (k : Nat) => if s.2.2.any (fun q => q.1 = d) then s.2.2 else s.2.2 ++ [(d, k)]
  match s.1.findIdx? (fun q => q = i) with
  | some k => (s.1, s.2.1, ins k)
  | none => (s.1 ++ [i], s.2.1 ++ [DData.mk0 i], ins s.2.1.length)

/-- `prepare` (`include/pressio/solvers_nonlinear/impl/diagnostics.hpp:107-134`) -/
def prepare (pub : List Diagnostic) : DContainer K :=
  let u := uniq pub
  let r := u.foldl prepareStep ([], [], [])
  ⟨u, r.1, r.2.1, r.2.2⟩

/-- `addIfUnsupported` (`include/pressio/solvers_nonlinear/impl/diagnostics.hpp:155-160`) -/
def DContainer.addIfUnsupported (c : DContainer K) (d : Diagnostic) : DContainer K :=
  if d ∈ c.publicNames then c else prepare (c.publicNames ++ [d])

/-- `operator[](Diagnostic) const` (`include/pressio/solvers_nonlinear/impl/diagnostics.hpp:164-166`): `at` throws `std::out_of_range` -/
def DContainer.atPublic {σ : Type} (c : DContainer K) (d : Diagnostic) : Prog σ (DData K) :=
  match c.index.find? (fun q => q.1 = d) with
  | none => Prog.throwE .outOfRange
  | some q =>
    match c.data[q.2]? with
    | some v => pure v
    | none => Prog.undef "data_ out of range"

/-- index computed by `operator[](InternalDiagnostic)` (`include/pressio/solvers_nonlinear/impl/diagnostics.hpp:168-172`) -/
def DContainer.internalIndex (c : DContainer K) (d : InternalDiagnostic) : Nat := c.internalNames.findIdx (fun q => q = d)

/-- `operator[](InternalDiagnostic)` for reading (`include/pressio/solvers_nonlinear/impl/diagnostics.hpp:168-172`) -/
def DContainer.atInternal {σ : Type} (c : DContainer K) (d : InternalDiagnostic) : Prog σ (DData K) :=
  match c.data[c.internalIndex d]? with
  | some v => pure v
  | none => Prog.undef "data_ out of range"

/-- diagnostics of the Newton solvers (`include/pressio/solvers_nonlinear/solvers_create_newton.hpp:117-121,140-144`) -/
def newtonDiagnostics : List Diagnostic :=
  [.residualAbsolutel2Norm, .residualRelativel2Norm, .correctionAbsolutel2Norm, .correctionRelativel2Norm]

/-- diagnostics of the least-squares solvers (`include/pressio/solvers_nonlinear/solvers_create_gauss_newton.hpp:96-104`,
    `include/pressio/solvers_nonlinear/solvers_create_levenberg_marquardt.hpp:100-108`) -/
def leastSquaresDiagnostics : List Diagnostic :=
  [.objectiveAbsolute, .objectiveRelative, .residualAbsolutel2Norm, .residualRelativel2Norm,
   .correctionAbsolutel2Norm, .correctionRelativel2Norm, .gradientAbsolutel2Norm, .gradientRelativel2Norm]

/-- The container of a new solver: constructor, then `addIfUnsupported` of the default criterion
    (`include/pressio/solvers_nonlinear/impl/root_finder.cpp:305-327`, `nonlinear_least_squares.hpp:124-151`) -/
def newContainer (diags : List Diagnostic) : DContainer K :=
  (prepare diags).addIfUnsupported (stopToDiagnostic .WhenAbsolutel2NormOfCorrectionBelowTolerance)

end
end Pressio.Model.Nonlinear
