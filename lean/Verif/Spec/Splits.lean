import Verif.Spec.Motion
import Verif.Spec.Cov

/-!
# Specification: uncertainty over a time that is split into intervals

A body whose velocity is driven by noise of density `q` over the intervals `ds`: the noise of an interval enters the velocity
at its start, and is carried into the position by the time that is left from there to the end.
-/

namespace EkfCal
variable {K : Type} [Field K] [LinearOrder K]

/-- Length of an interval times the time left at its start, summed: what velocity noise gives to position-velocity. -/
def lever1 : List K → K
  | [] => 0
  | d :: ds => d * (d + ds.sum) + lever1 ds

/-- Length of an interval times the square of the time left at its start, summed: what velocity noise gives to position. -/
def lever2 : List K → K
  | [] => 0
  | d :: ds => d * (d + ds.sum) ^ 2 + lever2 ds

/-- Covariance after the intervals `ds`: the covariance `P` carried over the whole time, each component's own noise over the
whole time, and the velocity noise that has reached the position. -/
def overTime (n : Nat) (P Q : Nat → Nat → K) (ds : List K) (i j : Nat) : K :=
  congr n (transition ds.sum) P i j +
    ((if i = j then Q i i * ds.sum else 0) +
     (if i < 3 ∧ j = i then Q (i + 3) (i + 3) * lever2 ds else 0) +
     (if i < 3 ∧ j = i + 3 then Q j j * lever1 ds else 0) +
     (if j < 3 ∧ i = j + 3 then Q i i * lever1 ds else 0))

end EkfCal
