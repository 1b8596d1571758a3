import Verif.Model.Config
import Verif.Model.Ids
import Verif.Model.LogRows
import Verif.Model.SimNoise

/-!
# Model of the construction of simulated sensors and of their truth

`src/sensors/sim/{sim_imu,sim_camera,sim_gps}.cpp`, `src/trackers/sim/{sim_feature_tracker,sim_fiducial_tracker}.cpp`, the
calibrations kept by `src/infrastructure/sim/truth_engine.cpp`, and the loading loops of `src/application/sim/simulation.cpp`.
Standard normal draws are inputs.  Reading the values from YAML is not modelled, nor the order in which numbers are drawn.
-/

namespace EkfCal
variable {K : Type} [Field K] [LinearOrder K]

/-- sim_imu.hpp:42-51 `SimIMU::Parameters` as far as the truth depends on them, with the standard draws of the constructor -/
structure SimImuConfig (K : Type) where
  config : ImuConfig K
  noErrors : Bool
  posError : V3 K
  angError : V3 K
  accBiasError : V3 K
  omgBiasError : V3 K
  zPos : V3 K
  zAng : V3 K
  zAcc : V3 K
  zOmg : V3 K

/-- sim_imu.cpp:44-59: the true calibration of an IMU -/
def SimImuConfig.truth (N : Prim K) (halfPi : K) (c : SimImuConfig K) : TruthImu K :=
  if c.noErrors then ⟨c.config.calib.pos, c.config.calib.ang, c.config.calib.accBias, c.config.calib.omgBias⟩
  else ⟨vecNormRand c.config.calib.pos c.posError c.zPos, quatNormRand N halfPi c.config.calib.ang c.angError c.zAng,
    vecNormRand c.config.calib.accBias c.accBiasError c.zAcc, vecNormRand c.config.calib.omgBias c.omgBiasError c.zOmg⟩

/-- sim_gps.hpp:44-52 `SimGPS::Parameters`, likewise -/
structure SimGpsConfig (K : Type) where
  config : GpsConfig K
  noErrors : Bool
  posError : V3 K
  zPos : V3 K

/-- sim_gps.cpp:37-42: the true position of an antenna -/
def SimGpsConfig.truth (c : SimGpsConfig K) : V3 K :=
  if c.noErrors then c.config.pos else vecNormRand c.config.pos c.posError c.zPos

/-- sim_fiducial_tracker.hpp:44-52 `SimFiducialTracker::Parameters`, likewise -/
structure SimFidConfig (K : Type) where
  config : FidConfig K
  noErrors : Bool
  posError : V3 K
  angError : V3 K
  zPos : V3 K
  zAng : V3 K

/-- sim_fiducial_tracker.cpp:38-46: the true pose of a board; `noErrors` as passed to the constructor -/
def SimFidConfig.truth (N : Prim K) (halfPi : K) (f : SimFidConfig K) (noErrors : Bool) : V3 K × Quat K :=
  if noErrors then (f.config.pos, f.config.ang)
  else (vecNormRand f.config.pos f.posError f.zPos, quatNormRand N halfPi f.config.ang f.angError f.zAng)

/-- sim_camera.hpp:45-50 `SimCamera::Parameters`, likewise; whether the camera names a feature tracker, and the board detector
it names (simulation.cpp:431-450) -/
structure SimCamConfig (K : Type) where
  config : CamConfig K
  intrinsics : Intrinsics K
  noErrors : Bool
  posError : V3 K
  angError : V3 K
  zPos : V3 K
  zAng : V3 K
  tracker : Bool
  board : Option (SimFidConfig K)

/-- sim_camera.cpp:50-59: the true pose of a camera on the body -/
def SimCamConfig.truth (N : Prim K) (halfPi : K) (c : SimCamConfig K) : V3 K × Quat K :=
  if c.noErrors then (c.config.calib.pos, c.config.calib.ang)
  else (vecNormRand c.config.calib.pos c.posError c.zPos, quatNormRand N halfPi c.config.calib.ang c.angError c.zAng)

/-- A sensor of the configuration (simulation.cpp:287-325, 398-457, 461-491). -/
inductive SimItem (K : Type)
  | imu (c : SimImuConfig K)
  | cam (c : SimCamConfig K)
  | gps (c : SimGpsConfig K)

/-- The filter, the static counters, and the calibrations held by the truth engine (truth_engine.hpp:282-293). -/
structure SimWorld (K : Type) where
  ekf : Ekf K
  ids : IdCounters
  truth : TruthSensors K
  intrinsics : UMap (Intrinsics K)
  boards : UMap (V3 K × Quat K)

namespace SimWorld

/-- simulation.cpp:197, 283: before the first sensor is loaded -/
def start (e : Ekf K) : SimWorld K := ⟨e, {}, ⟨[], [], []⟩, [], []⟩

/-- sim_imu.cpp:33-65 constructor (the base class registers the IMU, 34), with truth_engine.cpp:78-100 -/
def addImu (N : Prim K) (halfPi : K) (w : SimWorld K) (c : SimImuConfig K) : Res (SimWorld K) := do
  let (id, ids) := w.ids.next .sensor
  let ekf ← newImuSensor N w.ekf id c.config
  pure { w with ekf := ekf, ids := ids, truth := { w.truth with imus := w.truth.imus.insert id (c.truth N halfPi) } }

/-- sim_gps.cpp:30-44 constructor, with truth_engine.cpp:119-122 -/
def addGps (N : Prim K) (w : SimWorld K) (c : SimGpsConfig K) : Res (SimWorld K) := do
  let (id, ids) := w.ids.next .sensor
  let ekf ← newGpsSensor N w.ekf id c.config
  pure { w with ekf := ekf, ids := ids, truth := { w.truth with gpss := w.truth.gpss.insert id c.truth } }

/-- sim_camera.cpp:41-64 constructor, with truth_engine.cpp:102-112, 325-328 -/
def addCam (N : Prim K) (halfPi : K) (w : SimWorld K) (c : SimCamConfig K) : Res (SimWorld K) := do
  let (id, ids) := w.ids.next .sensor
  let ekf ← newCameraSensor N w.ekf id c.config
  pure { w with
    ekf := ekf, ids := ids
    truth := { w.truth with cams := w.truth.cams.insert id (c.truth N halfPi) }
    intrinsics := w.intrinsics.insert id c.intrinsics }

/-- sim_feature_tracker.cpp:35-45 constructor: it takes a tracker id (tracker.cpp:22) and leaves filter and truth alone -/
def addTracker (w : SimWorld K) : SimWorld K := { w with ids := (w.ids.next .tracker).2 }

/-- sim_fiducial_tracker.cpp:23-49 constructor, with truth_engine.cpp:114-117, 139-144: the truth is kept under the id of the
tracker, the filter's board under the configured id -/
def addBoard (N : Prim K) (halfPi : K) (w : SimWorld K) (f : SimFidConfig K) (noErrors : Bool) : Res (SimWorld K) := do
  let (id, ids) := w.ids.next .tracker
  let ekf ← newFiducialTracker N w.ekf f.config
  pure { w with ekf := ekf, ids := ids, boards := w.boards.insert id (f.truth N halfPi noErrors) }

/-- simulation.cpp:287-325, 398-457, 461-491: one turn of a loading loop (without the messages) -/
def load (N : Prim K) (halfPi : K) (w : SimWorld K) : SimItem K → Res (SimWorld K)
  | .imu c => w.addImu N halfPi c
  | .gps c => w.addGps N c
  | .cam c => do
    let w ← w.addCam N halfPi c
    let w := if c.tracker then w.addTracker else w
    match c.board with
    | none => pure w
    | some f => w.addBoard N halfPi f (f.noErrors || c.noErrors)

/-- All loading loops (simulation.cpp:287-491).  The program loads IMUs, then cameras, then antennas; the model takes them in any order. -/
def loadAll (N : Prim K) (halfPi : K) : SimWorld K → List (SimItem K) → Res (SimWorld K)
  | w, [] => pure w
  | w, x :: xs => do
    let w ← w.load N halfPi x
    loadAll N halfPi w xs

/-- sim_imu.cpp:76-112 for the IMU `id`: a message; see `simImuMessage` -/
def imuMessage (w : SimWorld K) (id : Nat) (noErrors : Bool) (b : TruthBody K) (accError omgError zAcc zOmg : V3 K) :
    ImuMessage K :=
  simImuMessage noErrors b (w.truth.imus.getD id ⟨0, Quat.one, 0, 0⟩) accError omgError zAcc zOmg

/-- sim_fiducial_tracker.cpp:101-151 `GenerateMessage` of the tracker `tid` of the camera `cam`; see `simBoardMessage`.
`IsBoardVisible` (52-54) returns `true` before it looks at anything, so there always is a detection. -/
def boardMessage (N : Prim K) (halfPi : K) (w : SimWorld K) (cam tid : Nat) (noErrors : Bool) (b : TruthBody K)
    (tVec rVec zPos zAng : V3 K) : Option (BoardDetection K) :=
  let c := w.truth.cams.getD cam (0, Quat.one)
  let f := w.boards.getD tid (0, Quat.one)
  some (simBoardMessage N halfPi noErrors b c.1 c.2 f.1 f.2 tVec rVec zPos zAng)

/-- truth_engine.cpp:294-304: the rows of `board_truth.csv` -/
def boardFile (P : Printer K) (w : SimWorld K) : List String := w.boards.map fun x => boardRow P x.1 x.2.1 x.2.2

end SimWorld

/-- sim_gps.cpp:54-78 for the antenna `id`: a message; see `simGpsMessage` -/
noncomputable def SimWorld.gpsMessage (w : SimWorld ℝ) (id : Nat) (noErrors : Bool) (b : TruthBody ℝ) (ref : V3 ℝ) (heading : ℝ)
    (llaError z : V3 ℝ) : Res (V3 ℝ × Mat ℝ) :=
  simGpsMessage noErrors b (w.truth.gpss.getD id 0) ref heading llaError z

end EkfCal
