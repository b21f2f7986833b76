import Verif.Spec.AdvanceTargetFail
import Verif.Spec.Advance

/-
  Runs of `advance_n_steps` with a step-size policy without side effects and neither observer nor guesser
  (`C03_observer_and_guesser_transparent` shows that those do not matter).
-/
namespace Pressio.Spec.Run
set_option autoImplicit false
open Pressio Pressio.Model.Advance Pressio.Spec.AdvanceTarget

variable {K Y M : Type}

/-- user objects: a pure step-size policy and a stepper with memory `M` -/
def plainCalls (pol : Int → K → K → K) (st : K → Int → K → Prog (Y × M) Unit) : Calls M K Y where
  dtPolicy3 := fun n t d w => .ok (pol n t d) w
  dtPolicy5 := fun _ _ v w => .ok v w
  guesser := noopGuesser
  stepper := st
  observer := noopObserver

/-- time at which step index `k` starts (its number is `k+1`), and the size used at the previous one -/
def clock [Add K] (zero : K) (pol : Int → K → K → K) (start : K) : Nat → K × K
  | 0 => (start, zero)
  | k+1 =>
    let p := clock zero pol start k
    let h := pol (k + 1) p.1 p.2
    (p.1 + h, h)

/-- start time of step index `k` -/
def tSeq [Add K] (zero : K) (pol : Int → K → K → K) (start : K) (k : Nat) : K := (clock zero pol start k).1
/-- size of step index `k` -/
def hSeq [Add K] (zero : K) (pol : Int → K → K → K) (start : K) (k : Nat) : K :=
  pol (k + 1) (clock zero pol start k).1 (clock zero pol start k).2

/-- The whole run of `N` steps from state `y0`, stepper memory `m0` and time `start`. -/
def run [Add K] (zero : K) (pol : Int → K → K → K) (st : K → Int → K → Prog (Y × M) Unit) (N : Nat) (start : K) (y0 : Y) (m0 : M) :
    Res (St M K Y) Unit :=
  advanceN zero (plainCalls pol st) N start ⟨m0, y0, []⟩

end Pressio.Spec.Run
