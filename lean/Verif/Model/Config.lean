import Verif.Model.Ekf
import Verif.Model.MathHelper

/-!
# Model of the configuration path: parameter loading and sensor constructors

`src/application/ros/node/ekf_cal_node.cpp`, `src/application/sim/simulation.cpp`, `src/sensors/{imu,camera,gps}.cpp`,
`src/trackers/fiducial_tracker.cpp`.  The values are arguments; reading them from ROS or YAML is not modelled.
-/

namespace EkfCal
variable {K : Type} [Field K] [LinearOrder K]

/-- ekf_cal_node.cpp:622-634 `LoadProcessNoise`: the entries that are written (`none`: never written) -/
def nodeProcessNoise (pos vel angPos : K) (i : Nat) : Option K :=
  if i < 3 then some pos else if i < 6 then some vel else if i < 9 then some angPos else none

/-- simulation.cpp:107-125 `LoadProcessNoise` -/
def simProcessNoise (pos vel acc angPos angVel angAcc : K) : Vec K :=
  ⟨bodySize, fun i => if i < 3 then pos else if i < 6 then vel else if i < 9 then acc else if i < 12 then angPos
    else if i < 15 then angVel else angAcc⟩

/-- ekf_cal_node.cpp:106-142 (part of `Initialize`): the filter is constructed with the process noise of the node, which
the constructor copies (ekf.cpp:80, 569-572), and without augmentation if there is no tracker -/
def nodeFilter (N : Prim K) (p : EkfParams K) (pos vel angPos : K) (hasTracker : Bool) : Res (Ekf K) :=
  if (List.range bodySize).all fun i => (nodeProcessNoise pos vel angPos i).isSome then
    .ok (Ekf.init N { p with
      processNoise := ⟨bodySize, fun i => (nodeProcessNoise pos vel angPos i).getD 0⟩
      augType := if hasTracker then p.augType else .none })
  else .error .uninitialised

/-- simulation.cpp:178-197 and 261-268: the filter of the simulation, initialised at time 0 with the configured pose
disturbed by drawn errors (`dp` added, `dq` on the left) -/
def simFilter (N : Prim K) (p : EkfParams K) (noise : Vec K) (hasTracker : Bool) (dp : V3 K) (dq : Quat K) : Ekf K :=
  (Ekf.init N { p with processNoise := noise, augType := if hasTracker then p.augType else .none }).initializeAt 0
    { (BodyState.default : BodyState K) with pos := p.posBInL + dp, ang := dq.mul p.angBToL }

/-- type_helper.cpp:28-36 `StdToEigVec`; `asserts` says whether the build keeps `assert` -/
def stdToEigVec (asserts : Bool) (l : List K) : Res (Vec K) := do
  guardUB (asserts = true → l.length = 3) .assertFailed
  pure ⟨l.length, fun i => l.getD i 0⟩

/-- `v.segment<n>(0)` (Eigen) -/
def Vec.head (v : Vec K) (n : Nat) : Res (Vec K) := do
  guardUB (n ≤ v.size) .outOfRange
  pure ⟨n, v.get⟩

/-- `v.asDiagonal()` assigned to a `MatrixXd` (Eigen) -/
def Vec.asDiagonal (v : Vec K) : Mat K := ⟨v.size, v.size, fun i j => if i = j then v.get i else 0⟩

/-- imu.hpp:38-54 `IMU::Parameters` as far as the filter sees them: the calibration, in an `ImuState` whose flags and
indices are unused -/
structure ImuConfig (K : Type) where
  isExtrinsic : Bool
  isIntrinsic : Bool
  calib : ImuState K
  variance : Vec K

/-- imu.cpp:39-49: the state registered for an IMU -/
def ImuConfig.state (p : ImuConfig K) : ImuState K :=
  let s := ((ImuState.default : ImuState K).setIsExtrinsic p.isExtrinsic).setIsIntrinsic p.isIntrinsic
  { s with
    posStability := p.calib.posStability, angStability := p.calib.angStability
    accBiasStability := p.calib.accBiasStability, omgBiasStability := p.calib.omgBiasStability
    pos := p.calib.pos, ang := p.calib.ang, accBias := p.calib.accBias, omgBias := p.calib.omgBias }

/-- imu.cpp:50-57: the covariance registered for an IMU -/
def ImuConfig.cov (p : ImuConfig K) : Res (Mat K) := do
  let v := minBoundVector p.variance (1 / 10 ^ 6)
  if p.isExtrinsic && p.isIntrinsic then do
    pure (← v.head 12).asDiagonal
  else if p.isExtrinsic || p.isIntrinsic then do
    pure (← v.head 6).asDiagonal
  else pure (Mat.zero 0 0)

/-- imu.cpp:30-60 constructor: its effect on the filter -/
def newImuSensor (N : Prim K) (e : Ekf K) (id : Nat) (p : ImuConfig K) : Res (Ekf K) := do
  e.registerIMU N id p.state (← p.cov)

/-- camera.hpp:46-57 `Camera::Parameters` as far as the filter sees them -/
structure CamConfig (K : Type) where
  isExtrinsic : Bool
  calib : CamState K
  variance : Vec K

/-- camera.cpp:42-49 -/
def CamConfig.state (p : CamConfig K) : CamState K :=
  let s : CamState K := { (CamState.default : CamState K) with
    rate := p.calib.rate, pos := p.calib.pos, ang := p.calib.ang
    posStability := p.calib.posStability, angStability := p.calib.angStability }
  s.setIsExtrinsic p.isExtrinsic

/-- camera.cpp:37-55 constructor: its effect on the filter -/
def newCameraSensor (N : Prim K) (e : Ekf K) (id : Nat) (p : CamConfig K) : Res (Ekf K) :=
  e.registerCamera N id p.state (minBoundVector p.variance (1 / 10 ^ 6)).asDiagonal

/-- gps.hpp:41-47 `GPS::Parameters` as far as the filter sees them -/
structure GpsConfig (K : Type) where
  isExtrinsic : Bool
  pos : V3 K
  posStability : K
  variance : V3 K

/-- gps.cpp:40-43 -/
def GpsConfig.state (p : GpsConfig K) : GpsState K :=
  ({ (GpsState.default : GpsState K) with pos := p.pos, posStability := p.posStability }).setIsExtrinsic p.isExtrinsic

/-- gps.cpp:29-46 constructor: its effect on the filter -/
def newGpsSensor (N : Prim K) (e : Ekf K) (id : Nat) (p : GpsConfig K) : Res (Ekf K) :=
  e.registerGPS N id p.state (Vec.asDiagonal ⟨3, fun i => if h : i < 3 then p.variance ⟨i, h⟩ else 0⟩)

/-- fiducial_tracker.hpp:53-67 as far as the filter sees them -/
structure FidConfig (K : Type) where
  isExtrinsic : Bool
  id : Nat
  pos : V3 K
  ang : Quat K
  variance : Vec K

/-- fiducial_tracker.cpp:61-65; types.hpp:344-351 for the members the constructor leaves at their defaults -/
def FidConfig.state (p : FidConfig K) : FidState K :=
  (⟨0, p.pos, p.ang, 1 / 10 ^ 9, 1 / 10 ^ 9, 0, 0, p.id, false⟩ : FidState K).setIsExtrinsic p.isExtrinsic

/-- fiducial_tracker.cpp:26-70 constructor: its effect on the filter (39-40 read six variances whatever the flags) -/
def newFiducialTracker (N : Prim K) (e : Ekf K) (p : FidConfig K) : Res (Ekf K) := do
  guardUB (6 ≤ p.variance.size) .outOfRange
  e.registerFiducial N p.state p.variance.asDiagonal

end EkfCal
