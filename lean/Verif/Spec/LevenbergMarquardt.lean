import Verif.Spec.Nonlinear

/-
  The Levenberg-Marquardt iteration as a sequence: state, damping and growth factor.
-/
namespace Pressio.Spec.LevenbergMarquardt
set_option autoImplicit false
open Matrix Pressio.Model.Nonlinear Pressio.Spec.Nonlinear

variable {K m n p L : Type} [Field K] [LinearOrder K] [Fintype m] [Fintype n] [DecidableEq n]

/-- the two schedules of the damping parameter -/
inductive Schedule where
  | one | two

/-- the option that selects the schedule -/
def Schedule.update : Schedule → Update
  | .one => .LMSchedule1
  | .two => .LMSchedule2

/-- growth factor of the damping at the start of a solve (`old`: what the object has; schedule 2 does not use it) -/
def Schedule.growth (old : K) : Schedule → K
  | .one => 2
  | .two => old

/-- the correction: minus the answer of the inner solver `sol` to `(JᵀJ + damp diag(JᵀJ)) c = Jᵀr` -/
def lmCorr (r : (n → K) → m → K) (J : (n → K) → Matrix m n K) (sol : Matrix n n K → (n → K) → n → K) (x : n → K) (damp : K) : n → K :=
  -sol ((J x)ᵀ * J x + damp • Matrix.diagonal ((J x)ᵀ * J x).diag) ((J x)ᵀ *ᵥ r x)

/-- one update of state, damping and growth factor; `f` is the objective -/
def lmNext (sched : Schedule) (f : (n → K) → K) (r : (n → K) → m → K) (J : (n → K) → Matrix m n K) (sol : Matrix n n K → (n → K) → n → K) (z : (n → K) × K × K) : (n → K) × K × K :=
  let c := lmCorr r J sol z.1 z.2.1
  let rho := gain (f (z.1 + c)) (f z.1) z.2.1 ((J z.1)ᵀ * J z.1) ((J z.1)ᵀ *ᵥ r z.1) c
  let u := match sched with
    | .one => lm1 rho z.1 c z.2.1 z.2.2
    | .two => lm2 rho z.1 c z.2.1 z.2.2
  match u with
  | .moved x d nu => (x, d, nu)
  | _ => z

end Pressio.Spec.LevenbergMarquardt
