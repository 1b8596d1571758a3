import Verif.Model.Camera
import Verif.Model.Config

/-!
# Model of parameter loading in the ROS node and in the simulation

`src/application/ros/node/ekf_cal_node.cpp`, `src/application/sim/simulation.cpp`.  Both programs read the block
`/EkfCalNode/ros__parameters` of a parameter file.  A file is a function from keys to values.  Keys are structured instead
of dotted strings, so sensor names with dots in them are not modelled.  Directories and debug levels are left out, and so
are the parameters of the detectors of images, which the simulation does not have.
-/

namespace EkfCal

/-- Values as the parsers type them: `1` is an integer, `1.0` a number.  No C++ source: `rclcpp` and yaml-cpp. -/
inductive PVal (K : Type)
  | bool (b : Bool)
  | int (i : Int)
  | num (x : K)
  | str (s : String)
  | ints (l : List Int)
  | nums (l : List K)
  | strs (l : List String)

/-- The types of ROS parameters (`rclcpp::ParameterType`). -/
inductive PType | bool | int | num | str | ints | nums | strs
  deriving DecidableEq

/-- The type of a value. -/
def PVal.type {K : Type} : PVal K → PType
  | .bool _ => .bool
  | .int _ => .int
  | .num _ => .num
  | .str _ => .str
  | .ints _ => .ints
  | .nums _ => .nums
  | .strs _ => .strs

/-- Keys at the top of the block (ekf_cal_node.cpp:57-86, simulation.cpp:162-246). -/
inductive TopField
  | dataLogRate | augmentingType | augmentingDeltaTime | augmentingPosError | augmentingAngError
  | noisePos | noiseVel | noiseAcc | noiseAngPos | noiseAngVel | noiseAngAcc
  | posBInL | angBToL | posEInG | angLToE | gpsInitType | gpsInitBaselineDist | gpsInitPosThresh | gpsInitAngThresh
  | motionDetectionChiSquared | imuNoiseScaleFactor | useRootCovariance | useFirstEstimateJacobian
  | imuList | cameraList | trackerList | fiducialList | gpsList
  deriving DecidableEq

/-- The kinds of sensors and trackers, each a section of names (ekf_cal_node.cpp:145-162, simulation.cpp:287-491). -/
inductive PKind | imu | camera | tracker | fiducial | gps
  deriving DecidableEq

/-- Keys below a sensor or tracker; `pos` and `ang` are `pos_i_in_b`, `pos_c_in_b`, `pos_f_in_l`, `pos_a_in_b` and
`ang_i_to_b`, `ang_c_to_b`, `ang_f_to_l`; `fx` to `height` are below `intrinsics`
(ekf_cal_node.cpp:164-460, simulation.cpp:67-125, 287-491). -/
inductive PField
  | topic | rate | dataLogRate | isExtrinsic | isIntrinsic | variance | pos | ang | accBias | omgBias
  | posStability | angStability | accBiasStability | omgBiasStability
  | tracker | fiducial | fx | fy | k1 | k2 | p1 | p2 | pixelSize | width | height
  | featureDetector | descriptorExtractor | descriptorMatcher | detectorThreshold | pixelError
  | downSample | downSampleHeight | downSampleWidth | minFeatureDistance | minFeatDist | minTrackLength | maxTrackLength
  | fiducialType | squaresX | squaresY | squareLength | markerLength | id
  deriving DecidableEq

/-- A key: `name` at the top, or `kind.sensor.name`. -/
inductive PKey
  | top (f : TopField)
  | of (k : PKind) (name : String) (f : PField)
  deriving DecidableEq

/-- A configuration file: the values it has. -/
abbrev ParamFile (K : Type) := PKey → Option (PVal K)

/-- How starting a program can fail: exceptions of `rclcpp`, or undefined behaviour. -/
inductive StartErr
  | alreadyDeclared (k : PKey)
  | notDeclared (k : PKey)
  | wrongType (k : PKey)
  | ub (u : UB)
  deriving DecidableEq

/-- The result of starting a program. -/
abbrev Start (α : Type) := Except StartErr α

/-- A call without exceptions while a program starts. -/
def Start.lift {α : Type} : Res α → Start α
  | .ok a => .ok a
  | .error u => .error (.ub u)

variable {K : Type} [Field K] [LinearOrder K]

/-! ## What is loaded -/

/-- What a tracker of image features is constructed with (tracker.hpp:36-47, feature_tracker.hpp:74-86). -/
structure TrackerSetup (K : Type) where
  pxError : K
  minFeatDist : K
  minTrackLength : Nat
  maxTrackLength : Nat
  downSample : Bool
  downSampleHeight : Int
  downSampleWidth : Int
  isCamExtrinsic : Bool
  dataLogRate : K

/-- What a tracker of a board is constructed with (tracker.hpp:36-47, fiducial_tracker.hpp:53-67). -/
structure BoardSetup (K : Type) where
  config : FidConfig K
  squaresX : Nat
  squaresY : Nat
  squareLength : K
  markerLength : K
  isCamExtrinsic : Bool
  dataLogRate : K

/-- What an IMU is constructed with (sensor.hpp:37-46, imu.hpp:38-54). -/
structure ImuSetup (K : Type) where
  name : String
  topic : String
  rate : K
  dataLogRate : K
  config : ImuConfig K

/-- What a camera is constructed with (sensor.hpp:37-46, camera.hpp:46-57), and its trackers. -/
structure CameraSetup (K : Type) where
  name : String
  topic : String
  dataLogRate : K
  config : CamConfig K
  intrinsics : Intrinsics K
  tracker : Option (TrackerSetup K)
  board : Option (BoardSetup K)

/-- What an antenna is constructed with (sensor.hpp:37-46, gps.hpp:41-47). -/
structure GpsSetup (K : Type) where
  name : String
  topic : String
  rate : K
  dataLogRate : K
  config : GpsConfig K

/-- The filter and the sensors a program starts with.  `filter` leaves out the process noise, which is in `noise` (`none`:
not written); `maxTrackLength` is the argument of `SetMaxTrackLength`, if it is called
(ekf_cal_node.cpp:88-206, simulation.cpp:162-491). -/
structure Setup (K : Type) where
  filter : EkfParams K
  noise : Nat → Option K
  dataLogRate : K
  maxTrackLength : Option Nat
  imus : List (ImuSetup K)
  cameras : List (CameraSetup K)
  gpss : List (GpsSetup K)

/-- type_helper.cpp:28-36 `StdToEigVec` assigned to a `Vector3d` (builds without assertions) -/
def stdToV3 (l : List K) : Res (V3 K) := do
  let v ← stdToEigVec false l
  guardUB (v.size = 3) .sizeMismatch
  pure fun i => v.get i

/-- type_helper.cpp:38-47 `StdToEigQuat` -/
def stdToQuat (N : Prim K) (l : List K) : Quat K :=
  match l with
  | [w, x, y, z] =>
    let n := w * w + x * x + y * y + z * z
    if 0 < n then ⟨w / N.sqrt n, x / N.sqrt n, y / N.sqrt n, z / N.sqrt n⟩ else ⟨w, x, y, z⟩
  | _ => Quat.one

/-- `static_cast<AugmentationType>` (types.hpp:36-43); a value without a name is not modelled -/
def augOfInt : Int → Res AugType
  | 0 => .ok .none
  | 1 => .ok .all
  | 2 => .ok .primary
  | 3 => .ok .time
  | 4 => .ok .error
  | _ => .error .badCast

/-- `static_cast<GpsInitType>` (types.hpp:413-418) -/
def gpsInitOfInt : Int → Res GpsInit
  | 0 => .ok .constant
  | 1 => .ok .baselineDist
  | 2 => .ok .errorThreshold
  | _ => .error .badCast

/-- `static_cast<unsigned int>` of an `int64_t` (ekf_cal_node.cpp:374-375, 419-428) -/
def toU32 (i : Int) : Nat := (i % 2 ^ 32).toNat

/-- `if (!name.empty()) {…}` (ekf_cal_node.cpp:495, 503; simulation.cpp:431, 441) -/
def ifNamed {α : Type} (name : String) (load : String → Start α) : Start (Option α) :=
  if name = "" then .ok none else some <$> load name

/-! ## The ROS node -/

/-- The parameters a node has declared. -/
abbrev Server (K : Type) := List (PKey × PVal K)

/-- `rclcpp::Node::declare_parameter(name, default)`: the value of the file if it has one, which must have the type of the
default; a name can be declared once. -/
def declare (f : ParamFile K) (s : Server K) (d : PKey × PVal K) : Start (Server K) :=
  if d.1 ∈ s.map Prod.fst then .error (.alreadyDeclared d.1)
  else match f d.1 with
    | none => .ok (s ++ [d])
    | some v => if v.type = d.2.type then .ok (s ++ [(d.1, v)]) else .error (.wrongType d.1)

/-- A sequence of declarations. -/
def declareAll (f : ParamFile K) : Server K → List (PKey × PVal K) → Start (Server K)
  | s, [] => .ok s
  | s, d :: ds => do
    let s ← declare f s d
    declareAll f s ds

/-- `get_parameter(name).as_…()` (`rclcpp`) -/
def fetch {α : Type} (s : Server K) (k : PKey) (conv : PVal K → Option α) : Start α :=
  match s.find? fun x => x.1 = k with
  | none => .error (.notDeclared k)
  | some x => match conv x.2 with
    | none => .error (.wrongType k)
    | some a => .ok a

/-! `as_bool`, `as_int`, `as_double`, `as_string`, `as_double_array`, `as_string_array` (`rclcpp`) -/

/-- `as_bool` -/
def PVal.bool? : PVal K → Option Bool | .bool b => some b | _ => none
/-- `as_int` -/
def PVal.int? : PVal K → Option Int | .int b => some b | _ => none
/-- `as_double` -/
def PVal.num? : PVal K → Option K | .num b => some b | _ => none
/-- `as_string` -/
def PVal.str? : PVal K → Option String | .str b => some b | _ => none
/-- `as_double_array` -/
def PVal.nums? : PVal K → Option (List K) | .nums b => some b | _ => none
/-- `as_string_array` -/
def PVal.strs? : PVal K → Option (List String) | .strs b => some b | _ => none

/-- ekf_cal_node.cpp:57-86 constructor -/
def nodeTop : List (PKey × PVal K) :=
  [(.top .dataLogRate, .num 0), (.top .augmentingType, .int 0), (.top .augmentingDeltaTime, .num 0),
   (.top .augmentingPosError, .num 0), (.top .augmentingAngError, .num 0),
   (.top .noisePos, .num (1 / 10 ^ 2)), (.top .noiseVel, .num (1 / 10 ^ 2)), (.top .noiseAngPos, .num (1 / 10 ^ 2)),
   (.top .posBInL, .nums [0, 0, 0]), (.top .angBToL, .nums [0, 0, 0, 0]), (.top .posEInG, .nums [0, 0, 0]),
   (.top .angLToE, .num 0), (.top .gpsInitType, .int 0), (.top .gpsInitBaselineDist, .num 1),
   (.top .gpsInitPosThresh, .num 1), (.top .gpsInitAngThresh, .num 1), (.top .motionDetectionChiSquared, .num 1),
   (.top .imuNoiseScaleFactor, .num 100), (.top .useRootCovariance, .bool true), (.top .useFirstEstimateJacobian, .bool false),
   (.top .imuList, .strs []), (.top .cameraList, .strs []), (.top .trackerList, .strs []), (.top .fiducialList, .strs []),
   (.top .gpsList, .strs [])]

/-- ekf_cal_node.cpp:164-169 `DeclareSensorParameters` -/
def nodeSensor (k : PKind) (name : String) : List (PKey × PVal K) :=
  [(.of k name .topic, .str ""), (.of k name .rate, .num 1), (.of k name .dataLogRate, .num 0)]

/-- ekf_cal_node.cpp:208-225 `DeclareImuParameters` -/
def nodeImuDecl (name : String) : List (PKey × PVal K) :=
  nodeSensor .imu name ++
  [(.of .imu name .isExtrinsic, .bool false), (.of .imu name .isIntrinsic, .bool false),
   (.of .imu name .variance, .nums [1, 1, 1, 1, 1, 1, 1, 1, 1, 1, 1, 1]), (.of .imu name .pos, .nums [0, 0, 0]),
   (.of .imu name .ang, .nums [1, 0, 0, 0]), (.of .imu name .accBias, .nums [0, 0, 0]), (.of .imu name .omgBias, .nums [0, 0, 0]),
   (.of .imu name .posStability, .num (1 / 10 ^ 9)), (.of .imu name .angStability, .num (1 / 10 ^ 9)),
   (.of .imu name .accBiasStability, .num (1 / 10 ^ 9)), (.of .imu name .omgBiasStability, .num (1 / 10 ^ 9))]

/-- ekf_cal_node.cpp:260-271, 290-304 `DeclareIntrinsicParameters`, `DeclareCameraParameters` -/
def nodeCameraDecl (name : String) : List (PKey × PVal K) :=
  nodeSensor .camera name ++
  [(.of .camera name .pos, .nums [0, 0, 0]), (.of .camera name .ang, .nums [1, 0, 0, 0]),
   (.of .camera name .variance, .nums [1, 1, 1, 1, 1, 1]), (.of .camera name .tracker, .str ""), (.of .camera name .fiducial, .str ""),
   (.of .camera name .posStability, .num (1 / 10 ^ 9)), (.of .camera name .angStability, .num (1 / 10 ^ 9)),
   (.of .camera name .isExtrinsic, .bool false), (.of .camera name .fx, .num (1 / 100)), (.of .camera name .fy, .num (1 / 100)),
   (.of .camera name .k1, .num 0), (.of .camera name .k2, .num 0), (.of .camera name .p1, .num 0), (.of .camera name .p2, .num 0),
   (.of .camera name .pixelSize, .num (5 / 10 ^ 6)), (.of .camera name .width, .num 640), (.of .camera name .height, .num 480)]

/-- ekf_cal_node.cpp:334-348 `DeclareTrackerParameters` -/
def nodeTrackerDecl (name : String) : List (PKey × PVal K) :=
  [(.of .tracker name .featureDetector, .int 0), (.of .tracker name .descriptorExtractor, .int 0),
   (.of .tracker name .descriptorMatcher, .int 0), (.of .tracker name .detectorThreshold, .int 20),
   (.of .tracker name .pixelError, .num 1), (.of .tracker name .downSampleHeight, .int 480),
   (.of .tracker name .downSampleWidth, .int 640), (.of .tracker name .minFeatureDistance, .num 1),
   (.of .tracker name .minTrackLength, .int 2), (.of .tracker name .maxTrackLength, .int 20)]

/-- ekf_cal_node.cpp:382-398 `DeclareFiducialParameters` -/
def nodeFiducialDecl (name : String) : List (PKey × PVal K) :=
  [(.of .fiducial name .fiducialType, .int 0), (.of .fiducial name .squaresX, .int 0), (.of .fiducial name .squaresY, .int 0),
   (.of .fiducial name .squareLength, .num 0), (.of .fiducial name .markerLength, .num 0), (.of .fiducial name .id, .int 0),
   (.of .fiducial name .pos, .nums [0, 0, 0]), (.of .fiducial name .ang, .nums [1, 0, 0, 0]),
   (.of .fiducial name .variance, .nums [0, 0, 0, 0, 0, 0]), (.of .fiducial name .minTrackLength, .int 2),
   (.of .fiducial name .maxTrackLength, .int 20), (.of .fiducial name .isExtrinsic, .bool false)]

/-- ekf_cal_node.cpp:436-444 `DeclareGpsParameters` -/
def nodeGpsDecl (name : String) : List (PKey × PVal K) :=
  nodeSensor .gps name ++
  [(.of .gps name .pos, .nums [0, 0, 0]), (.of .gps name .posStability, .num (1 / 10 ^ 9)), (.of .gps name .variance, .nums [1, 1, 1])]

/-- ekf_cal_node.cpp:106-140: the parameters of the filter but for the process noise -/
def nodeFilterParams (N : Prim K) (s : Server K) : Start (EkfParams K) := do
  let trackers ← fetch s (.top .trackerList) PVal.strs?
  let aug ← Start.lift (augOfInt (← fetch s (.top .augmentingType) PVal.int?))
  pure {
    augType := if trackers = [] then .none else aug
    augDeltaTime := ← fetch s (.top .augmentingDeltaTime) PVal.num?
    augPosError := ← fetch s (.top .augmentingPosError) PVal.num?
    augAngError := ← fetch s (.top .augmentingAngError) PVal.num?
    processNoise := ⟨0, fun _ => 0⟩
    posBInL := ← Start.lift (stdToV3 (← fetch s (.top .posBInL) PVal.nums?))
    angBToL := stdToQuat N (← fetch s (.top .angBToL) PVal.nums?)
    posEInG := ← Start.lift (stdToV3 (← fetch s (.top .posEInG) PVal.nums?))
    angLToE := ← fetch s (.top .angLToE) PVal.num?
    gpsInitType := ← Start.lift (gpsInitOfInt (← fetch s (.top .gpsInitType) PVal.int?))
    gpsInitBaselineDist := ← fetch s (.top .gpsInitBaselineDist) PVal.num?
    gpsInitPosThresh := ← fetch s (.top .gpsInitPosThresh) PVal.num?
    gpsInitAngThresh := ← fetch s (.top .gpsInitAngThresh) PVal.num?
    motionDetectionChiSquared := ← fetch s (.top .motionDetectionChiSquared) PVal.num?
    imuNoiseScaleFactor := ← fetch s (.top .imuNoiseScaleFactor) PVal.num?
    useRoot := ← fetch s (.top .useRootCovariance) PVal.bool?
    useFirstEstimate := ← fetch s (.top .useFirstEstimateJacobian) PVal.bool? }

/-- ekf_cal_node.cpp:171-184, 227-258 `LoadSensorParameters`, `GetImuParameters` -/
def nodeImu (N : Prim K) (s : Server K) (name : String) : Start (ImuSetup K) := do
  let v ← fetch s (.of .imu name .variance) PVal.nums?
  pure {
    name := name
    topic := ← fetch s (.of .imu name .topic) PVal.str?
    rate := ← fetch s (.of .imu name .rate) PVal.num?
    dataLogRate := ← fetch s (.of .imu name .dataLogRate) PVal.num?
    config := {
      isExtrinsic := ← fetch s (.of .imu name .isExtrinsic) PVal.bool?
      isIntrinsic := ← fetch s (.of .imu name .isIntrinsic) PVal.bool?
      calib := { (ImuState.default : ImuState K) with
        pos := ← Start.lift (stdToV3 (← fetch s (.of .imu name .pos) PVal.nums?))
        ang := stdToQuat N (← fetch s (.of .imu name .ang) PVal.nums?)
        accBias := ← Start.lift (stdToV3 (← fetch s (.of .imu name .accBias) PVal.nums?))
        omgBias := ← Start.lift (stdToV3 (← fetch s (.of .imu name .omgBias) PVal.nums?))
        posStability := ← fetch s (.of .imu name .posStability) PVal.num?
        angStability := ← fetch s (.of .imu name .angStability) PVal.num?
        accBiasStability := ← fetch s (.of .imu name .accBiasStability) PVal.num?
        omgBiasStability := ← fetch s (.of .imu name .omgBiasStability) PVal.num? }
      variance := ← Start.lift (stdToEigVec false v) } }

/-- ekf_cal_node.cpp:273-288 `GetIntrinsicParameters` -/
def nodeIntrinsics (s : Server K) (name : String) : Start (Intrinsics K) := do
  pure {
    fx := ← fetch s (.of .camera name .fx) PVal.num?
    fy := ← fetch s (.of .camera name .fy) PVal.num?
    k1 := ← fetch s (.of .camera name .k1) PVal.num?
    k2 := ← fetch s (.of .camera name .k2) PVal.num?
    p1 := ← fetch s (.of .camera name .p1) PVal.num?
    p2 := ← fetch s (.of .camera name .p2) PVal.num?
    width := ← fetch s (.of .camera name .width) PVal.num?
    height := ← fetch s (.of .camera name .height) PVal.num?
    pixelSize := ← fetch s (.of .camera name .pixelSize) PVal.num? }

/-- ekf_cal_node.cpp:350-380 `GetTrackerParameters`, with 495-499; feature_tracker.hpp:82, 85 for the members left alone -/
def nodeTracker (s : Server K) (name : String) (logRate : K) : Start (TrackerSetup K) := do
  pure {
    pxError := ← fetch s (.of .tracker name .pixelError) PVal.num?
    minFeatDist := ← fetch s (.of .tracker name .minFeatureDistance) PVal.num?
    minTrackLength := toU32 (← fetch s (.of .tracker name .minTrackLength) PVal.int?)
    maxTrackLength := toU32 (← fetch s (.of .tracker name .maxTrackLength) PVal.int?)
    downSample := false
    downSampleHeight := ← fetch s (.of .tracker name .downSampleHeight) PVal.int?
    downSampleWidth := ← fetch s (.of .tracker name .downSampleWidth) PVal.int?
    isCamExtrinsic := false
    dataLogRate := logRate }

/-- ekf_cal_node.cpp:400-434 `GetFiducialParameters`, with 503-507; fiducial_tracker.hpp:66 for the flag left alone.  The lengths of
tracks, which nothing reads after construction, and the kind of board are left out. -/
def nodeBoard (N : Prim K) (s : Server K) (name : String) (logRate : K) : Start (BoardSetup K) := do
  let v ← fetch s (.of .fiducial name .variance) PVal.nums?
  pure {
    config := {
      isExtrinsic := ← fetch s (.of .fiducial name .isExtrinsic) PVal.bool?
      id := toU32 (← fetch s (.of .fiducial name .id) PVal.int?)
      pos := ← Start.lift (stdToV3 (← fetch s (.of .fiducial name .pos) PVal.nums?))
      ang := stdToQuat N (← fetch s (.of .fiducial name .ang) PVal.nums?)
      variance := ← Start.lift (stdToEigVec false v) }
    squaresX := toU32 (← fetch s (.of .fiducial name .squaresX) PVal.int?)
    squaresY := toU32 (← fetch s (.of .fiducial name .squaresY) PVal.int?)
    squareLength := ← fetch s (.of .fiducial name .squareLength) PVal.num?
    markerLength := ← fetch s (.of .fiducial name .markerLength) PVal.num?
    isCamExtrinsic := false
    dataLogRate := logRate }

/-- ekf_cal_node.cpp:306-332, 488-517 `GetCameraParameters`, `LoadCamera` -/
def nodeCamera (N : Prim K) (s : Server K) (name : String) : Start (CameraSetup K) := do
  let v ← fetch s (.of .camera name .variance) PVal.nums?
  let trk ← fetch s (.of .camera name .tracker) PVal.str?
  let fid ← fetch s (.of .camera name .fiducial) PVal.str?
  let topic ← fetch s (.of .camera name .topic) PVal.str?
  let logRate ← fetch s (.of .camera name .dataLogRate) PVal.num?
  let calib : CamState K := { (CamState.default : CamState K) with
    rate := ← fetch s (.of .camera name .rate) PVal.num?
    pos := ← Start.lift (stdToV3 (← fetch s (.of .camera name .pos) PVal.nums?))
    ang := stdToQuat N (← fetch s (.of .camera name .ang) PVal.nums?)
    posStability := ← fetch s (.of .camera name .posStability) PVal.num?
    angStability := ← fetch s (.of .camera name .angStability) PVal.num? }
  let ext ← fetch s (.of .camera name .isExtrinsic) PVal.bool?
  let variance ← Start.lift (stdToEigVec false v)
  let intrinsics ← nodeIntrinsics s name
  let tracker ← ifNamed trk fun n => nodeTracker s n logRate
  let board ← ifNamed fid fun n => nodeBoard N s n logRate
  pure ⟨name, topic, logRate, ⟨ext, calib, variance⟩, intrinsics, tracker, board⟩

/-- ekf_cal_node.cpp:446-460 `GetGpsParameters`; gps.hpp:45 for the flag left alone -/
def nodeGps (s : Server K) (name : String) : Start (GpsSetup K) := do
  pure {
    name := name
    topic := ← fetch s (.of .gps name .topic) PVal.str?
    rate := ← fetch s (.of .gps name .rate) PVal.num?
    dataLogRate := ← fetch s (.of .gps name .dataLogRate) PVal.num?
    config := {
      isExtrinsic := false
      pos := ← Start.lift (stdToV3 (← fetch s (.of .gps name .pos) PVal.nums?))
      posStability := ← fetch s (.of .gps name .posStability) PVal.num?
      variance := ← Start.lift (stdToV3 (← fetch s (.of .gps name .variance) PVal.nums?)) } }

/-- ekf_cal_main.cpp:25-28 with ekf_cal_node.cpp:54-206: constructor, `Initialize`, `DeclareSensors`, `LoadSensors` -/
def nodeSetup (N : Prim K) (f : ParamFile K) : Start (Setup K) := do
  let s ← declareAll f [] nodeTop
  let filter ← nodeFilterParams N s
  let logRate ← fetch s (.top .dataLogRate) PVal.num?
  let noise := nodeProcessNoise (← fetch s (.top .noisePos) PVal.num?) (← fetch s (.top .noiseVel) PVal.num?)
    (← fetch s (.top .noiseAngPos) PVal.num?)
  let imus ← fetch s (.top .imuList) PVal.strs?
  let cameras ← fetch s (.top .cameraList) PVal.strs?
  let trackers ← fetch s (.top .trackerList) PVal.strs?
  let fiducials ← fetch s (.top .fiducialList) PVal.strs?
  let gpss ← fetch s (.top .gpsList) PVal.strs?
  let s ← declareAll f s (imus.flatMap nodeImuDecl ++ cameras.flatMap nodeCameraDecl ++ trackers.flatMap nodeTrackerDecl ++
    fiducials.flatMap nodeFiducialDecl ++ gpss.flatMap nodeGpsDecl)
  let imus ← imus.mapM (nodeImu N s)
  let cameras ← cameras.mapM (nodeCamera N s)
  let gpss ← gpss.mapM (nodeGps s)
  pure ⟨filter, noise, logRate, none, imus, cameras, gpss⟩

/-! ## The simulation -/

/-- `node.as<double>(default)` (yaml-cpp): the default if there is no value or it does not convert.  In the following
functions, too. -/
def yamlNum (v : Option (PVal K)) (d : K) : K :=
  match v with
  | some (.num x) => x
  | some (.int i) => i
  | _ => d

/-- `as<std::vector<double>>`.  A list of texts makes yaml-cpp throw, which ends the program; here the default stands for that, so
what is proved about such files is about a program that has ended (`Model/SimText` has the exception). -/
def yamlNums (v : Option (PVal K)) (d : List K) : List K :=
  match v with
  | some (.nums l) => l
  | some (.ints l) => l.map fun i => (i : K)
  | _ => d

/-- `as<bool>` -/
def yamlBool (v : Option (PVal K)) (d : Bool) : Bool :=
  match v with
  | some (.bool b) => b
  | _ => d

/-- `as<std::string>`; that other values convert to their text is not modelled -/
def yamlStr (v : Option (PVal K)) (d : String) : String :=
  match v with
  | some (.str b) => b
  | _ => d

/-- `as<unsigned int>` -/
def yamlNat (v : Option (PVal K)) (d : Nat) : Nat :=
  match v with
  | some (.int i) => if 0 ≤ i ∧ i < 2 ^ 32 then i.toNat else d
  | _ => d

/-- `as<int>` -/
def yamlInt (v : Option (PVal K)) (d : Int) : Int :=
  match v with
  | some (.int i) => i
  | _ => d

/-- simulation.cpp:58-65 `LoadNodeList` -/
def yamlList (v : Option (PVal K)) : List String :=
  match v with
  | some (.strs l) => l
  | _ => []

/-- simulation.cpp:169-196: the parameters of the filter but for the process noise -/
def yamlFilterParams (N : Prim K) (f : ParamFile K) : Start (EkfParams K) := do
  let aug ← Start.lift (augOfInt (yamlNat (f (.top .augmentingType)) 1))
  pure {
    augType := if yamlList (f (.top .trackerList)) = [] then .none else aug
    augDeltaTime := yamlNum (f (.top .augmentingDeltaTime)) 1
    augPosError := yamlNum (f (.top .augmentingPosError)) (1 / 10)
    augAngError := yamlNum (f (.top .augmentingAngError)) (1 / 10)
    processNoise := ⟨0, fun _ => 0⟩
    posBInL := ← Start.lift (stdToV3 (yamlNums (f (.top .posBInL)) [0, 0, 0]))
    angBToL := stdToQuat N (yamlNums (f (.top .angBToL)) [1, 0, 0, 0])
    posEInG := ← Start.lift (stdToV3 (yamlNums (f (.top .posEInG)) [0, 0, 0]))
    angLToE := yamlNum (f (.top .angLToE)) 0
    gpsInitType := ← Start.lift (gpsInitOfInt (yamlNat (f (.top .gpsInitType)) 0))
    gpsInitBaselineDist := yamlNum (f (.top .gpsInitBaselineDist)) 1
    gpsInitPosThresh := yamlNum (f (.top .gpsInitPosThresh)) 1
    gpsInitAngThresh := yamlNum (f (.top .gpsInitAngThresh)) 1
    motionDetectionChiSquared := yamlNum (f (.top .motionDetectionChiSquared)) 1
    imuNoiseScaleFactor := yamlNum (f (.top .imuNoiseScaleFactor)) 100
    useRoot := yamlBool (f (.top .useRootCovariance)) true
    useFirstEstimate := yamlBool (f (.top .useFirstEstimateJacobian)) false }

/-- simulation.cpp:107-125 `LoadProcessNoise` -/
def yamlNoise (f : ParamFile K) : Vec K :=
  simProcessNoise (yamlNum (f (.top .noisePos)) (1 / 10 ^ 2)) (yamlNum (f (.top .noiseVel)) (1 / 10 ^ 2))
    (yamlNum (f (.top .noiseAcc)) (1 / 10 ^ 2)) (yamlNum (f (.top .noiseAngPos)) (1 / 10 ^ 2))
    (yamlNum (f (.top .noiseAngVel)) (1 / 10 ^ 2)) (yamlNum (f (.top .noiseAngAcc)) (1 / 10 ^ 2))

/-- simulation.cpp:67-83, 288-303 -/
def yamlImu (N : Prim K) (f : ParamFile K) (name : String) : Start (ImuSetup K) := do
  pure {
    name := name
    topic := yamlStr (f (.of .imu name .topic)) ""
    rate := yamlNum (f (.of .imu name .rate)) 1
    dataLogRate := yamlNum (f (.of .imu name .dataLogRate)) 0
    config := {
      isExtrinsic := yamlBool (f (.of .imu name .isExtrinsic)) false
      isIntrinsic := yamlBool (f (.of .imu name .isIntrinsic)) false
      calib := { (ImuState.default : ImuState K) with
        pos := ← Start.lift (stdToV3 (yamlNums (f (.of .imu name .pos)) [0, 0, 0]))
        ang := stdToQuat N (yamlNums (f (.of .imu name .ang)) [1, 0, 0, 0])
        accBias := ← Start.lift (stdToV3 (yamlNums (f (.of .imu name .accBias)) [0, 0, 0]))
        omgBias := ← Start.lift (stdToV3 (yamlNums (f (.of .imu name .omgBias)) [0, 0, 0]))
        posStability := yamlNum (f (.of .imu name .posStability)) (1 / 10 ^ 9)
        angStability := yamlNum (f (.of .imu name .angStability)) (1 / 10 ^ 9)
        accBiasStability := yamlNum (f (.of .imu name .accBiasStability)) (1 / 10 ^ 9)
        omgBiasStability := yamlNum (f (.of .imu name .omgBiasStability)) (1 / 10 ^ 9) }
      variance := ← Start.lift (stdToEigVec false (yamlNums (f (.of .imu name .variance)) [0, 0, 0])) } }

/-- simulation.cpp:412-420 -/
def yamlIntrinsics (f : ParamFile K) (name : String) : Intrinsics K where
  fx := yamlNum (f (.of .camera name .fx)) (1 / 100)
  fy := yamlNum (f (.of .camera name .fy)) (1 / 100)
  k1 := yamlNum (f (.of .camera name .k1)) 0
  k2 := yamlNum (f (.of .camera name .k2)) 0
  p1 := yamlNum (f (.of .camera name .p1)) 0
  p2 := yamlNum (f (.of .camera name .p2)) 0
  width := yamlNum (f (.of .camera name .width)) 640
  height := yamlNum (f (.of .camera name .height)) 480
  pixelSize := yamlNum (f (.of .camera name .pixelSize)) (5 / 10 ^ 6)

/-- simulation.cpp:331-353, 431-439: the tracker `name` of a camera.  For a name that is not listed, `tracker_map[name]` has no
filter, and the constructor of the tracker goes through that null pointer (feature_tracker.cpp:53). -/
def yamlTracker (f : ParamFile K) (name : String) (ext : Bool) (logRate : K) : Start (TrackerSetup K) := do
  Start.lift (guardUB (name ∈ yamlList (f (.top .trackerList))) .uninitialised)
  pure {
    pxError := yamlNum (f (.of .tracker name .pixelError)) 1
    minFeatDist := yamlNum (f (.of .tracker name .minFeatDist)) 1
    minTrackLength := yamlNat (f (.of .tracker name .minTrackLength)) 2
    maxTrackLength := yamlNat (f (.of .tracker name .maxTrackLength)) 20
    downSample := yamlBool (f (.of .tracker name .downSample)) false
    downSampleHeight := yamlInt (f (.of .tracker name .downSampleHeight)) 480
    downSampleWidth := yamlInt (f (.of .tracker name .downSampleWidth)) 640
    isCamExtrinsic := ext
    dataLogRate := logRate }

/-- simulation.cpp:359-392, 441-449: the board `name` of a camera.  For a name that is not listed there is no filter either
(fiducial_tracker.cpp:69). -/
def yamlBoard (N : Prim K) (f : ParamFile K) (name : String) (ext : Bool) (logRate : K) : Start (BoardSetup K) := do
  Start.lift (guardUB (name ∈ yamlList (f (.top .fiducialList))) .uninitialised)
  pure {
    config := {
      isExtrinsic := yamlBool (f (.of .fiducial name .isExtrinsic)) false
      id := yamlNat (f (.of .fiducial name .id)) 0
      pos := ← Start.lift (stdToV3 (yamlNums (f (.of .fiducial name .pos)) [0, 0, 0]))
      ang := stdToQuat N (yamlNums (f (.of .fiducial name .ang)) [1, 0, 0, 0])
      variance := ← Start.lift (stdToEigVec false (yamlNums (f (.of .fiducial name .variance)) [0, 0, 0])) }
    squaresX := yamlNat (f (.of .fiducial name .squaresX)) 1
    squaresY := yamlNat (f (.of .fiducial name .squaresY)) 1
    squareLength := yamlNum (f (.of .fiducial name .squareLength)) 0
    markerLength := yamlNum (f (.of .fiducial name .markerLength)) 0
    isCamExtrinsic := ext
    dataLogRate := logRate }

/-- simulation.cpp:67-83, 398-457 -/
def yamlCamera (N : Prim K) (f : ParamFile K) (name : String) : Start (CameraSetup K) := do
  let trk := yamlStr (f (.of .camera name .tracker)) ""
  let fid := yamlStr (f (.of .camera name .fiducial)) ""
  let logRate := yamlNum (f (.of .camera name .dataLogRate)) 0
  let ext := yamlBool (f (.of .camera name .isExtrinsic)) false
  let calib : CamState K := { (CamState.default : CamState K) with
    rate := yamlNum (f (.of .camera name .rate)) 1
    pos := ← Start.lift (stdToV3 (yamlNums (f (.of .camera name .pos)) [0, 0, 0]))
    ang := stdToQuat N (yamlNums (f (.of .camera name .ang)) [1, 0, 0, 0])
    posStability := yamlNum (f (.of .camera name .posStability)) (1 / 10 ^ 9)
    angStability := yamlNum (f (.of .camera name .angStability)) (1 / 10 ^ 9) }
  let variance ← Start.lift (stdToEigVec false (yamlNums (f (.of .camera name .variance)) [0, 0, 0]))
  let tracker ← ifNamed trk fun n => yamlTracker f n ext logRate
  let board ← ifNamed fid fun n => yamlBoard N f n ext logRate
  pure ⟨name, yamlStr (f (.of .camera name .topic)) "", logRate, ⟨ext, calib, variance⟩, yamlIntrinsics f name,
    tracker, board⟩

/-- simulation.cpp:67-83, 462-471 -/
def yamlGps (f : ParamFile K) (name : String) : Start (GpsSetup K) := do
  pure {
    name := name
    topic := yamlStr (f (.of .gps name .topic)) ""
    rate := yamlNum (f (.of .gps name .rate)) 1
    dataLogRate := yamlNum (f (.of .gps name .dataLogRate)) 0
    config := {
      isExtrinsic := yamlBool (f (.of .gps name .isExtrinsic)) false
      pos := ← Start.lift (stdToV3 (yamlNums (f (.of .gps name .pos)) [0, 0, 0]))
      posStability := yamlNum (f (.of .gps name .posStability)) 0
      variance := ← Start.lift (stdToV3 (yamlNums (f (.of .gps name .variance)) [0, 0, 0])) } }

/-- simulation.cpp:328, 345, 378, 394: the longest track over all listed trackers and boards (20 for a board, tracker.hpp:43) -/
def yamlMaxTrack (f : ParamFile K) : Nat :=
  ((yamlList (f (.top .trackerList))).map (fun n => yamlNat (f (.of .tracker n .maxTrackLength)) 20) ++
    (yamlList (f (.top .fiducialList))).map fun _ => 20).foldl max 0

/-- simulation.cpp:145-491: what the simulation starts with.  Listed boards that no camera uses are not loaded in the model. -/
def simSetup (N : Prim K) (f : ParamFile K) : Start (Setup K) := do
  let filter ← yamlFilterParams N f
  let imus ← (yamlList (f (.top .imuList))).mapM (yamlImu N f)
  let cameras ← (yamlList (f (.top .cameraList))).mapM (yamlCamera N f)
  let gpss ← (yamlList (f (.top .gpsList))).mapM (yamlGps f)
  pure ⟨filter, fun i => if i < bodySize then some ((yamlNoise f).get i) else none, yamlNum (f (.top .dataLogRate)) 0,
    some (yamlMaxTrack f), imus, cameras, gpss⟩

end EkfCal
