import Verif.Model.Smoother
import Verif.Model.SplineTruth
import Verif.Model.SimNoise
import Verif.Model.Params

/-!
# Model of how the configured waypoints become a truth (constructors of `truth_engine_smoother.cpp`, `truth_engine_spline.cpp`)

The standard draws of the random generator are inputs.  Lists are taken to have fewer than 2³² entries.
-/

namespace EkfCal

section
variable {K : Type} [Field K] [LinearOrder K]

/-- truth_engine_smoother.cpp:211-212, truth_engine_spline.cpp:146-147: three consecutive numbers of a list -/
def pointAt (flat : List K) (i : Nat) : Res (V3 K) := do
  let x ← readAt flat (3 * i)
  let y ← readAt flat (3 * i + 1)
  let z ← readAt flat (3 * i + 2)
  pure ![x, y, z]

/-- truth_engine_smoother.cpp:210-222, truth_engine_spline.cpp:145-154: the loop from index `i` on, `n` passes; `zp` and `za`
are the standard draws for positions and angles -/
def waypointLoop (poses angles : List K) (posErr angErr : V3 K) (zp za : Nat → V3 K) :
    Nat → Nat → Res (List (V3 K) × List (V3 K))
  | 0, _ => .ok ([], [])
  | n + 1, i => do
    let pos ← pointAt poses i
    let ang ← pointAt angles i
    let pos' := if i ≠ 0 then vecNormRand pos posErr (zp i) else pos
    let ang' := if i ≠ 0 then vecNormRand ang angErr (za i) else ang
    let rest ← waypointLoop poses angles posErr angErr zp za n (i + 1)
    pure (pos' :: rest.1, ang' :: rest.2)

/-- truth_engine_smoother.cpp:200-222, truth_engine_spline.cpp:136-154: the control points -/
def waypoints (poses angles posErrs angErrs : List K) (zp za : Nat → V3 K) : Res (List (V3 K) × List (V3 K)) := do
  let posErr ← stdToV3 posErrs
  let angErr ← stdToV3 angErrs
  waypointLoop poses angles posErr angErr zp za (min poses.length angles.length / 3) 0

/-- truth_engine_smoother.cpp:188-239: the constructor -/
def Smoother.ofConfig [FloorRing K] (times poses angles posErrs angErrs : List K) (zp za : Nat → V3 K)
    (stationary maxTime rate : K) : Res (Smoother K) := do
  let points ← waypoints poses angles posErrs angErrs zp za
  Smoother.new times points.1 points.2 stationary maxTime rate
end

/-- truth_engine_spline.cpp:126-167: the constructor; `fit` is `SplineFitting::InterpolateWithDerivatives` (Eigen) for curves
of degree 2 that begin with derivative zero; without points it writes outside its list of parameters -/
noncomputable def SplineTruth.ofConfig (fit : List (V3 ℝ) → Curve) (poses angles posErrs angErrs : List ℝ) (zp za : Nat → V3 ℝ)
    (stationary maxTime : ℝ) : Res SplineTruth := do
  let points ← waypoints poses angles posErrs angErrs zp za
  guardUB (points.1 ≠ []) .outOfRange
  pure ⟨fit points.1, fit points.2, stationary, maxTime⟩

end EkfCal
