import Verif.Model.SimMeasure
import Verif.Model.ImuUpdater
import Verif.Model.MsckfUpdater

/-!
# Model of the errors of simulated measurements and of the covariances sent with them

`src/utility/sim/sim_rng.cpp`, `src/sensors/sim/sim_imu.cpp`, `src/sensors/sim/sim_gps.cpp`,
`src/trackers/sim/sim_fiducial_tracker.cpp`.  A normal draw with mean `m` and standard deviation `s` is `m + s z`; the standard
draws `z` are inputs.
-/

namespace EkfCal

section
variable {K : Type} [Field K] [LinearOrder K]

/-- sim_rng.cpp:41-50 `VecNormRand` for the standard draws `z` (29-33 `NormRand` for each component) -/
def vecNormRand (mean stdDev z : V3 K) : V3 K := fun i => mean i + stdDev i * z i

/-- sim_rng.cpp:52-63 `QuatNormRand` for the standard draws `z`; `halfPi` is `M_PI / 2.0` -/
def quatNormRand (N : Prim K) (halfPi : K) (mean : Quat K) (stdDev z : V3 K) : Quat K :=
  (N.rotVecToQuat fun i => min (0 + stdDev i * z i) halfPi).mul mean

/-- imu_message.hpp:28-36: the fields used by `IMU::Callback` (imu.cpp:62-75) -/
structure ImuMessage (K : Type) where
  acc : V3 K
  accCov : M3 K
  omg : V3 K
  omgCov : M3 K

/-- sim_imu.cpp:76-112: a message; `accError` and `omgError` are the configured standard deviations -/
def simImuMessage (noErrors : Bool) (b : TruthBody K) (s : TruthImu K) (accError omgError zAcc zOmg : V3 K) : ImuMessage K :=
  let m := simImu noErrors b s (fun i => accError i * zAcc i) (fun i => omgError i * zOmg i)
  ⟨m.1, Matrix.diagonal fun i => accError i * accError i, m.2, Matrix.diagonal fun i => omgError i * omgError i⟩

/-- sim_fiducial_tracker.cpp:134-147: a detection; `tVec` and `rVec` are the configured standard deviations -/
def simBoardMessage (N : Prim K) (halfPi : K) (noErrors : Bool) (b : TruthBody K) (camPos : V3 K) (camAng : Quat K) (posF : V3 K)
    (angF : Quat K) (tVec rVec zPos zAng : V3 K) : BoardDetection K :=
  let d := simBoard b camPos camAng posF angF tVec rVec
  if noErrors then d
  else { d with pos := vecNormRand d.pos tVec zPos, ang := quatNormRand N halfPi d.ang rVec zAng }

end

/-- sim_gps.cpp:54-78: a message, the fix and its covariance; `llaError` are the configured standard deviations (in metres) -/
noncomputable def simGpsMessage (noErrors : Bool) (b : TruthBody ℝ) (posA ref : V3 ℝ) (heading : ℝ) (llaError z : V3 ℝ) :
    Res (V3 ℝ × Mat ℝ) := do
  let lla ← simGps noErrors b posA ref heading fun i => 0 + llaError i * z i
  pure (lla, M3.toMat (Matrix.diagonal fun i => llaError i * llaError i))

end EkfCal
