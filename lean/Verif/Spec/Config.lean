import Verif.Model.Config

/-!
# Specification: which rows of the body belong to which quantity, and which values are configured for them
-/

namespace EkfCal
variable {K : Type}

/-- The six quantities of the body state. -/
inductive Quantity
  | pos | vel | acc | angPos | angVel | angAcc

/-- First of the three rows of a quantity. -/
def Quantity.row : Quantity → Nat
  | .pos => 0 | .vel => 3 | .acc => 6 | .angPos => 9 | .angVel => 12 | .angAcc => 15

/-- The additive quantities of a body state (orientation is not additive). -/
def BodyState.part (b : BodyState K) : Quantity → Option (V3 K)
  | .pos => some b.pos | .vel => some b.vel | .acc => some b.acc | .angPos => none
  | .angVel => some b.angVel | .angAcc => some b.angAcc

/-- The process noises that can be configured: six for the simulation, three for the node. -/
def Quantity.choose (pos vel acc angPos angVel angAcc : K) : Quantity → K
  | .pos => pos | .vel => vel | .acc => acc | .angPos => angPos | .angVel => angVel | .angAcc => angAcc

/-- A variance, bounded below by 10⁻⁶. -/
def bounded [Field K] [LinearOrder K] (v : K) : K := max v (1 / 10 ^ 6)

end EkfCal
