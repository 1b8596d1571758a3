import Verif.Model.Base
import Mathlib.Algebra.Module.Pi
import Mathlib.Algebra.Order.Ring.Defs

/-!
# What it means to lie between table entries
-/

namespace EkfCal
variable {K : Type} [Field K] [LinearOrder K]

/-- `v` lies on the segment from `a` to `b`. -/
def OnSegment (a b v : V3 K) : Prop := ∃ s : K, 0 ≤ s ∧ s ≤ 1 ∧ v = a + s • (b - a)

/-- `v` is the point the motion from `a` at `t0` to `b` at `t1` with constant velocity reaches at `t`. -/
def AtTime (t0 t1 t : K) (a b v : V3 K) : Prop := t0 ≤ t ∧ t ≤ t1 ∧ (t1 - t0) • (v - a) = (t - t0) • (b - a)

/-- The entry of a table, and zero outside of it. -/
def entryOr0 (l : List (V3 K)) (i : Int) : V3 K := if 0 ≤ i then l.getD i.toNat 0 else 0

/-- What the table entry for the sample time `t` is, for control points `vectors` at `times` from `first` to `last`: the point of the polyline, or zero outside of it. -/
def SampleOf (times : List K) (vectors : List (V3 K)) (first last t : K) (v : V3 K) : Prop :=
  (first < t ∧ t < last → ∃ j t0 t1 a b, times[j]? = some t0 ∧ times[j + 1]? = some t1 ∧ vectors[j]? = some a ∧
    vectors[j + 1]? = some b ∧ AtTime t0 t1 t a b v) ∧
  (¬(first < t ∧ t < last) → v = 0)

end EkfCal
