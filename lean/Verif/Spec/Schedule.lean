import Verif.Model.Simulation

/-!
# Specification vocabulary for C34
-/

namespace EkfCal
variable {K : Type} [Field K] [LinearOrder K]

/-- What the standard promises of `std::sort` with `MessageCompare`: a permutation in which no message is later than one
behind it.  Nothing is promised about the order of equal times. -/
def SortLaw (sort : List (SimMsg K) → List (SimMsg K)) : Prop :=
  ∀ l, (sort l).Perm l ∧ (sort l).Pairwise fun a b => ¬ messageCompare b a

/-- Sensor number `n` (from 0), the `n+1`-st sensor constructed, and its id. -/
def SimSensor.Loaded (ss : List (SimSensor K)) (id : Nat) (s : SimSensor K) : Prop := ∃ n : Nat, ss[n]? = some s ∧ id = n + 1

/-- What is delivered to one sensor, in order. -/
def deliveredTo (id : Nat) (l : List (Nat × SimMsg K)) : List (SimMsg K) := (l.filter fun x => x.1 = id).map Prod.snd

end EkfCal
