import Verif.Spec.Coordinates
import Verif.Spec.AdvanceDrive

/-
  A problem written in other units: time `t = rate * t' + origin`, state `y = φ y'`.  What its advancers show, translated back.
-/
namespace Pressio.Spec.Units
set_option autoImplicit false
open Pressio Matrix
open Pressio.Model.Advance (St Ev DtVars)
open Pressio.Model.Implicit (ISystem IMMSystem)
open Pressio.Spec.Implicit (Record)
open Pressio.Spec.Coordinates (chart)

variable {K Y Y' M N U n n' : Type}

/-- a clock that shows `t'` when the reference clock shows `rate * t' + origin` -/
structure Clock (K : Type) where
  rate : K
  origin : K

section
variable [Field K] (c : Clock K)

/-- the reference time when the clock shows `t` -/
def Clock.time (t : K) : K := c.rate * t + c.origin
/-- a duration on the reference clock -/
def Clock.size (d : K) : K := c.rate * d
/-- step size and minimum step size on the reference clock; the reduction factor has no unit -/
def Clock.vars (v : DtVars K) : DtVars K := ⟨c.size v.dt, c.size v.minDt, v.factor⟩

/-- a call made by an advancer, in the reference units -/
def event (φ : Y' → Y) : Ev K Y' → Ev K Y
  | .setDt i t d => .setDt i (c.time t) (c.size d)
  | .setVars i t v => .setVars i (c.time t) (c.vars v)
  | .guess i t y => .guess i (c.time t) (φ y)
  | .step i t d y => .step i (c.time t) (c.size d) (φ y)
  | .obs i t y => .obs i (c.time t) (φ y)

/-- what the caller of an advancer sees of the call (how it ended, the state, all calls that it made, the rest of the world), in the reference units -/
def seenIn {α β : Type} (value : α → β) (φ : Y' → Y) (r : Except Stop α × Y' × List (Ev K Y') × U) : Except Stop β × Y × List (Ev K Y) × U :=
  (r.1.map value, φ r.2.1, r.2.2.1.map (event c φ), r.2.2.2)

/-- what a run shows of a step, in the reference units -/
def shownIn {A : Type} (φ : (n' → K) → n → K) (r : Record K (n' → K) A) : K × K × Option Stop × List (n → K) × (n → K) × List ((n → K) × Bool) :=
  (c.time r.t, c.size r.dt, r.stop, r.hist.map φ, φ r.y, r.queries.map (fun q => (φ q.x, q.wantJ)))

/-- The same step-size policy in both units: asked at the same moment with the same sizes it answers the same sizes. -/
def SamePolicy (pol pol' : Int → K → K → Prog U K) : Prop :=
  ∀ i t d u, pol i (c.time t) (c.size d) u = match pol' i t d u with
    | .ok d' u' => .ok (c.size d') u'
    | .stop h u' => .stop h u'

/-- the same for policies that also set a minimum size and a reduction factor -/
def SamePolicy5 (pol pol' : Int → K → DtVars K → Prog U (DtVars K)) : Prop :=
  ∀ i t v u, pol i (c.time t) (c.vars v) u = match pol' i t v u with
    | .ok v' u' => .ok (c.vars v') u'
    | .stop h u' => .stop h u'

/-- the same observer in both units -/
def SameObserver (φ : Y' → Y) (obs : Int → K → Y → Prog U Unit) (obs' : Int → K → Y' → Prog U Unit) : Prop := ∀ i t y u, obs i (c.time t) (φ y) u = obs' i t y u

/-- The same right-hand side in units of time and state: with `y = B y' + a`, `t = rate t' + origin` the equation `dy/dt = f(y, t)` becomes `dy'/dt' = rate B⁻¹ f(y, t)`, with Jacobian `rate B⁻¹ (df/dy) B`; `A` is `B⁻¹`.  It throws when the original throws. -/
def SameRhs [Fintype n] (A B : Matrix n n K) (a : n → K) (sys sys' : ISystem K (n → K) (Matrix n n K)) : Prop :=
  ∀ x t w, (sys'.eval x t w).mapError Prod.fst = ((sys.eval (chart B a x) (c.time t) w).mapError Prod.fst).map (fun v => (c.rate • (A *ᵥ v.1), v.2.map (fun J => c.rate • (A * J * B))))

/-- the same mass matrix and right-hand side in another unit of time -/
def SameRhsMM {Mt : Type} (sys sys' : IMMSystem K (n → K) (Matrix n n K) Mt) : Prop :=
  ∀ x t w, (sys'.eval x t w).mapError Prod.fst = ((sys.eval x (c.time t) w).mapError Prod.fst).map (fun v => (v.1, c.rate • v.2.1, v.2.2.map (fun J => c.rate • J)))
end

end Pressio.Spec.Units
