import Verif.Model.Rotation

/-!
# Model of the cyclic truth (`src/infrastructure/sim/truth_engine_cyclic.cpp`), over `ℝ`
-/

namespace EkfCal

/-- The members of `TruthEngineCyclic` (truth_engine_cyclic.hpp). -/
structure CyclicTruth where
  posFreq : V3 ℝ
  angFreq : V3 ℝ
  posOffset : V3 ℝ
  angOffset : V3 ℝ
  angAmp : ℝ
  posAmp : ℝ
  stationary : ℝ

namespace CyclicTruth

/-- truth_engine_cyclic.cpp:47-65 `GetBodyPosition` -/
noncomputable def position (e : CyclicTruth) (time : ℝ) : V3 ℝ :=
  if time - e.stationary < 0 then e.posOffset
  else fun i => e.posAmp / 2 * (1 - Real.cos (e.posFreq i * 2 * Real.pi * (time - e.stationary))) + e.posOffset i

/-- truth_engine_cyclic.cpp:67-84 `GetBodyVelocity` -/
noncomputable def velocity (e : CyclicTruth) (time : ℝ) : V3 ℝ :=
  if time - e.stationary < 0 then 0
  else fun i => e.posAmp * e.posFreq i * Real.pi * Real.sin (e.posFreq i * 2 * Real.pi * (time - e.stationary))

/-- truth_engine_cyclic.cpp:86-103 `GetBodyAcceleration` -/
noncomputable def acceleration (e : CyclicTruth) (time : ℝ) : V3 ℝ :=
  if time - e.stationary < 0 then 0
  else fun i => e.posAmp * 2 * Real.pi * Real.pi * e.posFreq i * e.posFreq i *
    Real.cos (e.posFreq i * 2 * Real.pi * (time - e.stationary))

/-- truth_engine_cyclic.cpp:105-123 `GetBodyRollPitchYaw` -/
noncomputable def rollPitchYaw (e : CyclicTruth) (time : ℝ) : V3 ℝ :=
  if time - e.stationary < 0 then 0
  else fun i => e.angAmp / 2 * (1 - Real.cos (e.angFreq i * 2 * Real.pi * (time - e.stationary))) + e.angOffset i

/-- truth_engine_cyclic.cpp:125-132 `GetBodyAngularPosition` -/
noncomputable def orientation (e : CyclicTruth) (time : ℝ) : Quat ℝ := eulerToQuat (e.rollPitchYaw time)

/-- truth_engine_cyclic.cpp:134-149 `EulerDerivativeTransform` -/
noncomputable def eulerTransform (rpy : V3 ℝ) : M3 ℝ :=
  !![1, 0, -Real.sin (rpy 1);
     0, Real.cos (rpy 0), Real.sin (rpy 0) * Real.cos (rpy 1);
     0, -Real.sin (rpy 0), Real.cos (rpy 0) * Real.cos (rpy 1)]

/-- truth_engine_cyclic.cpp:151-172 `GetBodyAngularRate` -/
noncomputable def angularRate (e : CyclicTruth) (time : ℝ) : V3 ℝ :=
  if time - e.stationary < 0 then 0
  else (eulerTransform (e.rollPitchYaw time)).mulVec fun i =>
    e.angAmp * e.angFreq i * Real.pi * Real.sin (e.angFreq i * 2 * Real.pi * (time - e.stationary))

/-- truth_engine_cyclic.cpp:174-194 `GetBodyAngularAcceleration` -/
noncomputable def angularAcceleration (e : CyclicTruth) (time : ℝ) : V3 ℝ :=
  if time - e.stationary < 0 then 0
  else (eulerTransform (e.rollPitchYaw time)).mulVec fun i =>
    e.angAmp * 2 * Real.pi * Real.pi * e.angFreq i * e.angFreq i *
      Real.cos (e.angFreq i * 2 * Real.pi * (time - e.stationary))

end CyclicTruth
end EkfCal
