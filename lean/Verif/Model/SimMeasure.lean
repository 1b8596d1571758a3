import Verif.Model.FidUpdater
import Verif.Model.Gps
import Verif.Model.Types

/-!
# Model of the simulated measurements (`sensors/sim/sim_imu.cpp`, `sensors/sim/sim_gps.cpp`, `trackers/sim/sim_fiducial_tracker.cpp`)

The truth is taken at the measurement time.  Random errors are inputs.
-/

namespace EkfCal

/-- What `TruthEngine::GetBody…` returns at one time (truth_engine.hpp:52-82). -/
structure TruthBody (K : Type) where
  pos : V3 K
  vel : V3 K
  acc : V3 K
  ang : Quat K
  angVel : V3 K
  angAcc : V3 K

/-- What `TruthEngine::GetImu…` returns for one IMU (truth_engine.cpp:35-53). -/
structure TruthImu (K : Type) where
  pos : V3 K
  ang : Quat K
  accBias : V3 K
  omgBias : V3 K

section
variable {K : Type} [Field K] [LinearOrder K]

/-- sim_imu.cpp:81-105: acceleration and angular rate; `accErr` and `omgErr` are the draws around the biases -/
def simImu (noErrors : Bool) (b : TruthBody K) (s : TruthImu K) (accErr omgErr : V3 K) : V3 K × V3 K :=
  let accB : V3 K := b.ang.inverse.rotate (b.acc + gravity) + V3.cross b.angAcc s.pos +
    V3.cross b.angVel (V3.cross b.angVel s.pos)
  let acc := s.ang.inverse.rotate accB
  let omg := s.ang.inverse.rotate b.angVel
  if noErrors then (acc, omg) else (acc + (s.accBias + accErr), omg + (s.omgBias + omgErr))

/-- sim_fiducial_tracker.cpp:101-151 `GenerateMessage` without errors: the board seen from the true camera pose -/
def simBoard (b : TruthBody K) (camPos : V3 K) (camAng : Quat K) (posF : V3 K) (angF : Quat K) (posErr angErr : V3 K) :
    BoardDetection K :=
  let rLB : M3 K := b.ang.toMat.transpose
  let rBC : M3 K := camAng.toMat.transpose
  ⟨rBC.mulVec (rLB.mulVec (posF - b.pos) - camPos), (camAng.inverse.mul b.ang.inverse).mul angF, posErr, angErr⟩

end

/-- sim_gps.cpp:60-75: the fix of an antenna at `posA` on the body; `err` is the drawn error -/
noncomputable def simGps (noErrors : Bool) (b : TruthBody ℝ) (posA ref : V3 ℝ) (heading : ℝ) (err : V3 ℝ) : Res (V3 ℝ) :=
  let p := b.pos + b.ang.rotate posA
  let p := if noErrors then p else p + err
  enuToLla (localToEnu p heading) ref

end EkfCal
