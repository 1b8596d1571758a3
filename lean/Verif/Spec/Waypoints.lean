import Verif.Model.SplineTruth
import Mathlib.Analysis.Real.Sqrt
import Mathlib.Algebra.BigOperators.Group.Finset.Basic

/-!
# Configured waypoints and the curve fitted through them
-/

namespace EkfCal

/-- `p` is waypoint number `k` of a list that holds three numbers for each waypoint. -/
def IsWaypoint {K : Type} (flat : List K) (k : Nat) (p : V3 K) : Prop :=
  flat[3 * k]? = some (p 0) ∧ flat[3 * k + 1]? = some (p 1) ∧ flat[3 * k + 2]? = some (p 2)

/-- `q` is `p` with the configured spread `err` times the standard draw `z` added. -/
def Spread {K : Type} [Field K] (err : List K) (z p q : V3 K) : Prop := ∀ i : Fin 3, ∃ e, err[(i : Nat)]? = some e ∧ q i = p i + e * z i

/-- The distance of two points. -/
noncomputable def dist3 (p q : V3 ℝ) : ℝ := Real.sqrt ((q 0 - p 0) ^ 2 + (q 1 - p 1) ^ 2 + (q 2 - p 2) ^ 2)

/-- The length of a polyline up to its point number `k`. -/
noncomputable def lengthTo (l : List (V3 ℝ)) (k : Nat) : ℝ :=
  ∑ j ∈ Finset.range k, dist3 (l.getD j 0) (l.getD (j + 1) 0)

/-- The share of a polyline that is covered at its point number `k`. -/
noncomputable def shareAt (l : List (V3 ℝ)) (k : Nat) : ℝ := lengthTo l k / lengthTo l (l.length - 1)

/-- What the library documents: a curve through points, no two consecutive ones equal, is at each of them when the parameter
is the share of the polyline up to it; for points that are all the same the shares are 0/0 and the curve is not a number. -/
structure FitLaw (fit : List (V3 ℝ) → Curve) : Prop where
  through : ∀ l : List (V3 ℝ), 2 ≤ l.length → (∀ j, j + 1 < l.length → l[j]? ≠ l[j + 1]?) →
    (fit l).isNan = false ∧ ∀ k p, l[k]? = some p → (fit l).val (shareAt l k) = p
  still : ∀ (n : Nat) (p : V3 ℝ), 0 < n → (fit (List.replicate n p)).isNan = true

end EkfCal
