import Mathlib.Data.List.Forall2
import Verif.Model.Params

/-!
# When two programs start with the same configuration
-/

namespace EkfCal
variable {K : Type}

/-- The file lists the name `n` under the key `t`. -/
def ParamFile.Lists (f : ParamFile K) (t : TopField) (n : String) : Prop := ∃ l, f (.top t) = some (.strs l) ∧ n ∈ l

/-- The file gives a value for the key. -/
def ParamFile.Gives (f : ParamFile K) (k : PKey) : Prop := ∃ v, f k = some v

/-- The file gives a value wherever the two programs would assume different ones. -/
structure ParamFile.Complete (f : ParamFile K) : Prop where
  augType : f.Gives (.top .augmentingType)
  augDeltaTime : f.Gives (.top .augmentingDeltaTime)
  augPosError : f.Gives (.top .augmentingPosError)
  augAngError : f.Gives (.top .augmentingAngError)
  angBToL : f.Gives (.top .angBToL)
  imu : ∀ n, f.Lists .imuList n → f.Gives (.of .imu n .variance)
  camera : ∀ n, f.Lists .cameraList n → f.Gives (.of .camera n .variance)
  board : ∀ n, f.Lists .fiducialList n →
    f.Gives (.of .fiducial n .variance) ∧ f.Gives (.of .fiducial n .squaresX) ∧ f.Gives (.of .fiducial n .squaresY)
  gps : ∀ n, f.Lists .gpsList n → f.Gives (.of .gps n .variance) ∧ f.Gives (.of .gps n .posStability)

/-- Integers in the file fit an `unsigned int`. -/
def ParamFile.Counts (f : ParamFile K) : Prop := ∀ k i, f k = some (.int i) → 0 ≤ i ∧ i < 2 ^ 32

/-- Trackers with the same settings, but for the distance of features, down-sampling and the calibration of the camera. -/
structure TrackerSetup.Like (a b : TrackerSetup K) : Prop where
  pxError : a.pxError = b.pxError
  minTrackLength : a.minTrackLength = b.minTrackLength
  maxTrackLength : a.maxTrackLength = b.maxTrackLength
  height : a.downSampleHeight = b.downSampleHeight
  width : a.downSampleWidth = b.downSampleWidth
  dataLogRate : a.dataLogRate = b.dataLogRate

/-- Boards with the same settings, but for the calibration of the camera. -/
structure BoardSetup.Like (a b : BoardSetup K) : Prop where
  config : a.config = b.config
  squaresX : a.squaresX = b.squaresX
  squaresY : a.squaresY = b.squaresY
  squareLength : a.squareLength = b.squareLength
  markerLength : a.markerLength = b.markerLength
  dataLogRate : a.dataLogRate = b.dataLogRate

structure CameraSetup.Like (a b : CameraSetup K) : Prop where
  name : a.name = b.name
  topic : a.topic = b.topic
  dataLogRate : a.dataLogRate = b.dataLogRate
  config : a.config = b.config
  intrinsics : a.intrinsics = b.intrinsics
  tracker : Option.Rel TrackerSetup.Like a.tracker b.tracker
  board : Option.Rel BoardSetup.Like a.board b.board

/-- Receivers with the same settings, but for the calibration of the antenna. -/
structure GpsSetup.Like (a b : GpsSetup K) : Prop where
  name : a.name = b.name
  topic : a.topic = b.topic
  rate : a.rate = b.rate
  dataLogRate : a.dataLogRate = b.dataLogRate
  pos : a.config.pos = b.config.pos
  posStability : a.config.posStability = b.config.posStability
  variance : a.config.variance = b.config.variance

/-- The same filter and sensors, but for what the relations above leave out, most of the process noise and the length of
tracks the filter is told. -/
structure Setup.Like (a b : Setup K) : Prop where
  filter : a.filter = b.filter
  noise : ∀ i, i < 6 → a.noise i = b.noise i
  dataLogRate : a.dataLogRate = b.dataLogRate
  imus : a.imus = b.imus
  cameras : List.Forall₂ CameraSetup.Like a.cameras b.cameras
  gpss : List.Forall₂ GpsSetup.Like a.gpss b.gpss

/-- The types the node expects. -/
def TopField.type : TopField → PType
  | .augmentingType | .gpsInitType => .int
  | .posBInL | .angBToL | .posEInG => .nums
  | .useRootCovariance | .useFirstEstimateJacobian => .bool
  | .imuList | .cameraList | .trackerList | .fiducialList | .gpsList => .strs
  | _ => .num

def PField.type : PField → PType
  | .topic | .tracker | .fiducial => .str
  | .isExtrinsic | .isIntrinsic | .downSample => .bool
  | .variance | .pos | .ang | .accBias | .omgBias => .nums
  | .featureDetector | .descriptorExtractor | .descriptorMatcher | .detectorThreshold | .downSampleHeight | .downSampleWidth
  | .minTrackLength | .maxTrackLength | .fiducialType | .squaresX | .squaresY | .id => .int
  | _ => .num

def PKey.type : PKey → PType
  | .top t => t.type
  | .of _ _ f => f.type

/-- Every value has the type that belongs to its key. -/
def ParamFile.Typed (f : ParamFile K) : Prop := ∀ k v, f k = some v → v.type = k.type

/-- No list names a sensor or tracker twice. -/
def ParamFile.Distinct (f : ParamFile K) : Prop := ∀ t l, f (.top t) = some (.strs l) → l.Nodup

end EkfCal
