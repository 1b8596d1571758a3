import Verif.Spec.Correct
import Verif.Spec.Cov

/-!
# Specification: deviations carried along by a prediction

A deviation of an estimate is a vector in the order of the filter's covariance; an estimate is displaced by it as by a
correction (`Spec/Correct`).
-/

namespace EkfCal
open Finset
variable {K : Type} [Field K]

/-- The deviation after a time `dt` as the filter's covariance accounts for it: `F v`. -/
def Vec.carried (dt : K) (v : Vec K) : Vec K :=
  ⟨v.size, fun i => ∑ k ∈ range v.size, transition dt i k * v.get k⟩

/-- The deviation after one prediction over `dt` when a deviation of the acceleration acts on velocity and position. -/
def Vec.accelerated (dt : K) (v : Vec K) : Vec K :=
  ⟨v.size, fun i => (v.carried dt).get i + if i < 3 then dt * (dt * v.get (i + 6)) else if i < 6 then dt * v.get (i + 3) else 0⟩

end EkfCal
