import Mathlib.Data.List.Forall2
import Verif.Model.ConfigText
import Verif.Spec.Unit

/-!
# Specification: what the documentation says a configuration file means

Names and meanings are those of docs/parameters.md; the numbers for kinds of augmentation and of GPS initialisation are listed there, too.
-/

namespace EkfCal
variable {K : Type} [Field K]

/-- The value is the number `x`, which may be written as an integer. -/
def IsNumber (v : Option (PVal K)) (x : K) : Prop := v = some (.num x) ∨ ∃ i : Int, v = some (.int i) ∧ x = i
/-- The value is the list `l` of numbers, which may be written as integers. -/
def IsNumbers (v : Option (PVal K)) (l : List K) : Prop := v = some (.nums l) ∨ ∃ m : List Int, v = some (.ints m) ∧ l = m.map fun i => (i : K)

namespace ParamText
variable (t : ParamText K)

/-! If the file has a value of the type at the path, it is the given one. -/

def SaysNum (p : List String) (x : K) : Prop := ∀ y, IsNumber (t p) y → x = y
def SaysBool (p : List String) (x : Bool) : Prop := ∀ y, t p = some (.bool y) → x = y
def SaysStr (p : List String) (x : String) : Prop := ∀ y, t p = some (.str y) → x = y
def SaysCount (p : List String) (x : Nat) : Prop := ∀ y : Nat, y < 2 ^ 32 → t p = some (.int y) → x = y
def SaysVec (p : List String) (x : V3 K) : Prop := ∀ a b c, IsNumbers (t p) [a, b, c] → x = ![a, b, c]
/-- Unit quaternions, the real part first. -/
def SaysQuat (p : List String) (x : Quat K) : Prop :=
  ∀ a b c d, IsNumbers (t p) [a, b, c, d] → (⟨a, b, c, d⟩ : Quat K).normSq = 1 → x = ⟨a, b, c, d⟩
/-- Lists of any length. -/
def SaysList (p : List String) (x : Vec K) : Prop :=
  ∀ l, IsNumbers (t p) l → x.size = l.length ∧ ∀ i (h : i < l.length), x.get i = l[i]
/-- The names of a list. -/
def Named (p : List String) : List String := match t p with
  | some (.strs l) => l
  | _ => []

end ParamText

/-- docs/parameters.md:19-24 -/
def AugType.number : AugType → Nat
  | .none => 0
  | .all => 1
  | .primary => 2
  | .time => 3
  | .error => 4

/-- docs/parameters.md:35-38 -/
def GpsInit.number : GpsInit → Nat
  | .constant => 0
  | .baselineDist => 1
  | .errorThreshold => 2

/-- The filter the file describes.  Without a tracker nothing is augmented.  Leaves out the position and heading of the local frame. -/
structure ParamText.Filter (t : ParamText K) (p : EkfParams K) : Prop where
  augmented : t.Named ["tracker_list"] ≠ [] → t.SaysCount ["augmenting_type"] p.augType.number
  notAugmented : t.Named ["tracker_list"] = [] → p.augType = .none
  deltaTime : t.SaysNum ["augmenting_delta_time"] p.augDeltaTime
  posError : t.SaysNum ["augmenting_pos_error"] p.augPosError
  angError : t.SaysNum ["augmenting_ang_error"] p.augAngError
  gpsInit : t.SaysCount ["gps_init_type"] p.gpsInitType.number
  baseline : t.SaysNum ["gps_init_baseline_dist"] p.gpsInitBaselineDist
  posThresh : t.SaysNum ["gps_init_pos_thresh"] p.gpsInitPosThresh
  angThresh : t.SaysNum ["gps_init_ang_thresh"] p.gpsInitAngThresh
  root : t.SaysBool ["use_root_covariance"] p.useRoot

/-- The position and heading of the local frame (docs/parameters.md:33-34). -/
structure ParamText.Frame (t : ParamText K) (p : EkfParams K) : Prop where
  pos : t.SaysVec ["pos_l_in_g"] p.posEInG
  heading : t.SaysNum ["ang_l_to_g"] p.angLToE

/-- The process noise of the position, velocity and orientation (docs/parameters.md:28-31). -/
structure ParamText.Noise (t : ParamText K) (noise : Nat → Option K) : Prop where
  pos : ∀ i, i < 3 → ∃ x, noise i = some x ∧ t.SaysNum ["process_noise", "pos"] x
  vel : ∀ i, 3 ≤ i → i < 6 → ∃ x, noise i = some x ∧ t.SaysNum ["process_noise", "vel"] x
  ang : ∀ i, 9 ≤ i → i < 12 → ∃ x, noise i = some x ∧ t.SaysNum ["process_noise", "ang_pos"] x

/-- docs/parameters.md:116-135 -/
structure ParamText.Imu (t : ParamText K) (n : String) (s : ImuSetup K) : Prop where
  name : s.name = n
  topic : t.SaysStr ["imu", n, "topic"] s.topic
  rate : t.SaysNum ["imu", n, "rate"] s.rate
  logRate : t.SaysNum ["imu", n, "data_log_rate"] s.dataLogRate
  extrinsic : t.SaysBool ["imu", n, "is_extrinsic"] s.config.isExtrinsic
  intrinsic : t.SaysBool ["imu", n, "is_intrinsic"] s.config.isIntrinsic
  variance : t.SaysList ["imu", n, "variance"] s.config.variance
  pos : t.SaysVec ["imu", n, "pos_i_in_b"] s.config.calib.pos
  ang : t.SaysQuat ["imu", n, "ang_i_to_b"] s.config.calib.ang
  accBias : t.SaysVec ["imu", n, "acc_bias"] s.config.calib.accBias
  omgBias : t.SaysVec ["imu", n, "omg_bias"] s.config.calib.omgBias
  posStability : t.SaysNum ["imu", n, "pos_stability"] s.config.calib.posStability
  angStability : t.SaysNum ["imu", n, "ang_stability"] s.config.calib.angStability
  accBiasStability : t.SaysNum ["imu", n, "acc_bias_stability"] s.config.calib.accBiasStability
  omgBiasStability : t.SaysNum ["imu", n, "omg_bias_stability"] s.config.calib.omgBiasStability

/-- docs/parameters.md:202-220, but for the methods for images (`Spec/Choices`) and the distance of features. -/
structure ParamText.Tracker (t : ParamText K) (n : String) (s : TrackerSetup K) : Prop where
  pixelError : t.SaysNum ["tracker", n, "pixel_error"] s.pxError
  minTrack : t.SaysCount ["tracker", n, "min_track_length"] s.minTrackLength
  maxTrack : t.SaysCount ["tracker", n, "max_track_length"] s.maxTrackLength

/-- docs/parameters.md:238-255, but for the type of the board and the length of tracks. -/
structure ParamText.Board (t : ParamText K) (n : String) (s : BoardSetup K) : Prop where
  squaresX : t.SaysCount ["fiducial", n, "squares_x"] s.squaresX
  squaresY : t.SaysCount ["fiducial", n, "squares_y"] s.squaresY
  squareLength : t.SaysNum ["fiducial", n, "square_length"] s.squareLength
  markerLength : t.SaysNum ["fiducial", n, "marker_length"] s.markerLength
  id : t.SaysCount ["fiducial", n, "id"] s.config.id
  pos : t.SaysVec ["fiducial", n, "pos_f_in_l"] s.config.pos
  ang : t.SaysQuat ["fiducial", n, "ang_f_to_l"] s.config.ang
  variance : t.SaysList ["fiducial", n, "variance"] s.config.variance
  extrinsic : t.SaysBool ["fiducial", n, "is_extrinsic"] s.config.isExtrinsic

/-- docs/parameters.md:159-183 -/
structure ParamText.Camera (t : ParamText K) (n : String) (s : CameraSetup K) : Prop where
  name : s.name = n
  topic : t.SaysStr ["camera", n, "topic"] s.topic
  logRate : t.SaysNum ["camera", n, "data_log_rate"] s.dataLogRate
  rate : t.SaysNum ["camera", n, "rate"] s.config.calib.rate
  extrinsic : t.SaysBool ["camera", n, "is_extrinsic"] s.config.isExtrinsic
  variance : t.SaysList ["camera", n, "variance"] s.config.variance
  pos : t.SaysVec ["camera", n, "pos_c_in_b"] s.config.calib.pos
  ang : t.SaysQuat ["camera", n, "ang_c_to_b"] s.config.calib.ang
  posStability : t.SaysNum ["camera", n, "pos_stability"] s.config.calib.posStability
  angStability : t.SaysNum ["camera", n, "ang_stability"] s.config.calib.angStability
  fx : t.SaysNum ["camera", n, "intrinsics", "f_x"] s.intrinsics.fx
  fy : t.SaysNum ["camera", n, "intrinsics", "f_y"] s.intrinsics.fy
  k1 : t.SaysNum ["camera", n, "intrinsics", "k_1"] s.intrinsics.k1
  k2 : t.SaysNum ["camera", n, "intrinsics", "k_2"] s.intrinsics.k2
  p1 : t.SaysNum ["camera", n, "intrinsics", "p_1"] s.intrinsics.p1
  p2 : t.SaysNum ["camera", n, "intrinsics", "p_2"] s.intrinsics.p2
  pixelSize : t.SaysNum ["camera", n, "intrinsics", "pixel_size"] s.intrinsics.pixelSize
  width : t.SaysNum ["camera", n, "intrinsics", "width"] s.intrinsics.width
  height : t.SaysNum ["camera", n, "intrinsics", "height"] s.intrinsics.height
  tracker : ∀ m, t ["camera", n, "tracker"] = some (.str m) → m ≠ "" → ∃ r, s.tracker = some r ∧ t.Tracker m r
  board : ∀ m, t ["camera", n, "fiducial"] = some (.str m) → m ≠ "" → ∃ r, s.board = some r ∧ t.Board m r

/-- docs/parameters.md:275-281 -/
structure ParamText.Gps (t : ParamText K) (n : String) (s : GpsSetup K) : Prop where
  name : s.name = n
  topic : t.SaysStr ["gps", n, "topic"] s.topic
  rate : t.SaysNum ["gps", n, "rate"] s.rate
  logRate : t.SaysNum ["gps", n, "data_log_rate"] s.dataLogRate
  pos : t.SaysVec ["gps", n, "pos_a_in_b"] s.config.pos
  variance : t.SaysVec ["gps", n, "variance"] s.config.variance
  extrinsic : t.SaysBool ["gps", n, "is_extrinsic"] s.config.isExtrinsic

/-- The clones the filter keeps last for the longest of the listed trackers and no longer (20 images unless the file says otherwise;
docs/parameters.md:220). -/
structure ParamText.Window (t : ParamText K) (m : Nat) : Prop where
  long : ∀ n ∈ t.Named ["tracker_list"], ∀ l : Nat, l < 2 ^ 32 → t ["tracker", n, "max_track_length"] = some (.int l) → l ≤ m
  short : m = 0 ∨ m = 20 ∨ ∃ n ∈ t.Named ["tracker_list"], t ["tracker", n, "max_track_length"] = some (.int m)

/-- What the file describes, but for the local frame. -/
structure ParamText.Describes (t : ParamText K) (s : Setup K) : Prop where
  filter : t.Filter s.filter
  noise : t.Noise s.noise
  logRate : t.SaysNum ["data_log_rate"] s.dataLogRate
  window : ∃ m, s.maxTrackLength = some m ∧ t.Window m
  imus : List.Forall₂ t.Imu (t.Named ["imu_list"]) s.imus
  cameras : List.Forall₂ t.Camera (t.Named ["camera_list"]) s.cameras
  gpss : List.Forall₂ t.Gps (t.Named ["gps_list"]) s.gpss

end EkfCal
