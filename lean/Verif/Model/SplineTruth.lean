import Verif.Model.Rotation

/-!
# Model of the spline truth (`src/infrastructure/sim/truth_engine_spline.cpp`), over `ℝ`

`Eigen::Spline3d` is a parameter: the value of the curve and its first and second derivatives as the library returns them.
Fitting the curve to the control points (135-166) is the library's work.  The divisions by `m_max_time - m_stationary_time`
give zero in the model when the two are equal; theorems exclude that case.
-/

namespace EkfCal

/-- A fitted curve: `spline(u)`, `derivatives(u, 1).col(1)` and `derivatives(u, 2).col(2)` (Eigen); `isNan` is what
`IsSplineInvalid` (truth_engine_spline.cpp:174-177) finds. -/
structure Curve where
  val : ℝ → V3 ℝ
  d1 : ℝ → V3 ℝ
  d2 : ℝ → V3 ℝ
  isNan : Bool

/-- The members of `TruthEngineSpline` (truth_engine_spline.hpp). -/
structure SplineTruth where
  pos : Curve
  ang : Curve
  stationary : ℝ
  maxTime : ℝ

namespace SplineTruth

/-- truth_engine_spline.cpp:169-172 `IsTimeInvalid` -/
def timeInvalid (e : SplineTruth) (t : ℝ) : Prop := t < 0 ∨ t > e.maxTime

/-- The parameter of the curve (truth_engine_spline.cpp:34, 47). -/
noncomputable def param (e : SplineTruth) (time : ℝ) : ℝ := (time - e.stationary) / (e.maxTime - e.stationary)

open Classical in
/-- truth_engine_spline.cpp:27-37 `GetBodyPosition` -/
noncomputable def position (e : SplineTruth) (time : ℝ) : V3 ℝ :=
  if e.timeInvalid (time - e.stationary) ∨ e.pos.isNan then 0 else e.pos.val (e.param time)

open Classical in
/-- truth_engine_spline.cpp:39-53 `GetBodyVelocity` -/
noncomputable def velocity (e : SplineTruth) (time : ℝ) : V3 ℝ :=
  if e.timeInvalid (time - e.stationary) ∨ e.pos.isNan then 0
  else fun i => e.pos.d1 (e.param time) i / (e.maxTime - e.stationary)

open Classical in
/-- truth_engine_spline.cpp:55-71 `GetBodyAcceleration` -/
noncomputable def acceleration (e : SplineTruth) (time : ℝ) : V3 ℝ :=
  if e.timeInvalid (time - e.stationary) ∨ e.pos.isNan then 0
  else fun i => e.pos.d2 (e.param time) i / (e.maxTime - e.stationary) / (e.maxTime - e.stationary)

open Classical in
/-- truth_engine_spline.cpp:73-88 `GetBodyAngularPosition` -/
noncomputable def orientation (e : SplineTruth) (time : ℝ) : Quat ℝ :=
  if e.timeInvalid (time - e.stationary) ∨ e.ang.isNan then ⟨1, 0, 0, 0⟩ else eulerToQuat (e.ang.val (e.param time))

open Classical in
/-- truth_engine_spline.cpp:90-106 `GetBodyAngularRate` -/
noncomputable def angularRate (e : SplineTruth) (time : ℝ) : V3 ℝ :=
  if e.timeInvalid (time - e.stationary) ∨ e.ang.isNan then 0
  else fun i => e.ang.d1 (e.param time) i / (e.maxTime - e.stationary)

open Classical in
/-- truth_engine_spline.cpp:108-124 `GetBodyAngularAcceleration` -/
noncomputable def angularAcceleration (e : SplineTruth) (time : ℝ) : V3 ℝ :=
  if e.timeInvalid (time - e.stationary) ∨ e.ang.isNan then 0
  else fun i => e.ang.d2 (e.param time) i / (e.maxTime - e.stationary) / (e.maxTime - e.stationary)

end SplineTruth
end EkfCal
