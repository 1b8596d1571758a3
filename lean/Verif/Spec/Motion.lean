import Verif.Model.Ekf
import Mathlib.Tactic.Linarith

/-!
# Specification: motion with constant acceleration and rate
-/

namespace EkfCal
variable {K : Type} [Field K] [LinearOrder K]

/-- The intervals a filter at time `now` is moved over by requests for the times `ts`; requests for the past do not count. -/
def intervals (now : K) : List K → List K
  | [] => []
  | t :: ts => if t < now then intervals now ts else (t - now) :: intervals t ts

/-- Elapsed time. -/
def elapsed (now : K) (ts : List K) : K := (intervals now ts).sum

/-- The coordinate acceleration the filter believes in: the specific force without gravity, zero when it is told that the
body does not accelerate. -/
def Ekf.coordAcc (e : Ekf K) : V3 K := if e.isZeroAcceleration then 0 else e.state.body.acc - gravity

/-- Position after time `T` under constant acceleration. -/
def ballistic (p v a : V3 K) (T : K) : V3 K := fun i => p i + T * v i + T ^ 2 / 2 * a i

end EkfCal
