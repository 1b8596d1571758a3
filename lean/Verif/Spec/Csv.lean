import Verif.Model.LogRows

/-!
# Specification of the log files: one list of named columns per file
-/

namespace EkfCal

/-- Comma separated text. -/
def csv : List String → String
  | [] => ""
  | x :: xs => x ++ String.join (xs.map fun y => "," ++ y)

/-- The number of fields of a line. -/
def fieldCount (line : String) : Nat := line.toList.count ',' + 1

/-- Printed numbers hold no comma. -/
def Printer.Law {K : Type} (P : Printer K) : Prop := ∀ n x, ',' ∉ (P.num n x).toList

/-- A value in a row. -/
inductive Cell (K : Type)
  | num (x : K) (precision : Nat := 6)
  | int (n : Int)
  | nat (n : Nat)

/-- The printed value. -/
def Cell.show {K : Type} (P : Printer K) : Cell K → String
  | .num x p => P.num p x
  | .int n => toString n
  | .nat n => toString n

/-- Named columns and their values. -/
abbrev Columns (K : Type) := List (String × Cell K)

/-- The header names the columns, the row gives their values, in the same order. -/
def Columns.Writes {K : Type} (P : Printer K) (cols : Columns K) (header row : String) : Prop :=
  header = csv (cols.map Prod.fst) ∧ row = csv (cols.map fun c => c.2.show P)

/-- Columns `name_0`, `name_1`, … -/
def group {K : Type} (name : String) (n : Nat) (f : Nat → K) (precision : Nat := 6) : Columns K :=
  (List.range n).map fun i => (name ++ "_" ++ toString i, .num (f i) precision)

/-- Three named columns of a vector. -/
def group3 {K : Type} (name : String) (v : V3 K) (precision : Nat := 6) : Columns K :=
  [(name ++ "_0", .num (v 0) precision), (name ++ "_1", .num (v 1) precision), (name ++ "_2", .num (v 2) precision)]

/-- Four named columns of an orientation, scalar part first. -/
def group4 {K : Type} (name : String) (q : Quat K) : Columns K :=
  [(name ++ "_0", .num q.w), (name ++ "_1", .num q.x), (name ++ "_2", .num q.y), (name ++ "_3", .num q.z)]

section
variable {K : Type} [Field K] [LinearOrder K]

/-- The value shown for the variance of the quantity with index `i`. -/
def Ekf.shownVariance (e : Ekf K) (i : Nat) : K := if e.useRoot then e.cov.get i i * e.cov.get i i else e.cov.get i i

/-- `body_state.csv` -/
def bodyColumns (e : Ekf K) (var : Nat → K) (duration : Int) : Columns K :=
  ("time", .num e.currentTime) :: (group3 "body_pos" e.state.body.pos ++ group3 "body_vel" e.state.body.vel ++
    group3 "body_acc" e.state.body.acc ++ group4 "body_ang_pos" e.state.body.ang ++ group3 "body_ang_vel" e.state.body.angVel ++
    group3 "body_ang_acc" e.state.body.angAcc ++ group "body_cov" 18 var ++
    [("state_size", .nat e.stateSize), ("duration_0", .int duration)])

/-- `aug_state.csv` -/
def augColumns (e : Ekf K) : Columns K :=
  ("time", .num e.currentTime) :: (group3 "aug_pos" e.state.body.pos ++ group4 "aug_ang" e.state.body.ang)

/-- `imu_<id>.csv` -/
def imuColumns (s : ImuState K) (var : Nat → K) (t : K) (stationary : Nat) (score : K) (acc omg resAcc resOmg : V3 K)
    (duration : Int) : Columns K :=
  ("time", .num t) :: ([("stationary", .nat stationary), ("score", .num score)] ++ group3 "imu_pos" s.pos ++ group4 "imu_ang_pos" s.ang ++ group3 "imu_acc_bias" s.accBias ++ group3 "imu_gyr_bias" s.omgBias ++
    (if s.isExtrinsic then group "imu_ext_cov" 6 (fun i => var (s.indexExtrinsic + i)) else []) ++
    (if s.isIntrinsic then group "imu_int_cov" 6 (fun i => var (s.indexIntrinsic + i)) else []) ++
    group3 "acc" acc ++ group3 "omg" omg ++
    group "residual" 6 (fun i => if h : i < 3 then resAcc ⟨i, h⟩ else if h : i < 6 then resOmg ⟨i - 3, by omega⟩ else 0) ++
    [("duration_0", .int duration)])

/-- `gps_<id>.csv` -/
def gpsColumns (s : GpsState K) (var : Nat → K) (t : K) (lla loc ref : V3 K) (heading : K) (initialized : Bool) (resid : V3 K)
    (duration : Int) : Columns K :=
  ("time", .num t) :: ([("lat", .num (lla 0) 12), ("lon", .num (lla 1) 12), ("alt", .num (lla 2) 12), ("x", .num (loc 0)),
    ("y", .num (loc 1)), ("z", .num (loc 2)), ("ref_lat", .num (ref 0) 12), ("ref_lon", .num (ref 1) 12),
    ("ref_alt", .num (ref 2) 12), ("ref_heading", .num heading), ("is_initialized", .nat (if initialized then 1 else 0))] ++
    (if s.isExtrinsic then group3 "ant_pos" s.pos ++ group "gps_cov" 3 (fun i => var (s.index + i)) else []) ++
    group3 "residual" resid ++ [("duration_0", .int duration)])

/-- `fiducial_<camera>.csv` -/
def fidColumns (id : Nat) (c : CamState K) (f : FidState K) (var : Nat → K) (t : K) (pos : V3 K) (ang : Quat K)
    (resPos resAng : V3 K) (duration : Int) : Columns K :=
  ("time", .num t) :: ([("board", .nat id)] ++ group3 "board_meas_pos" pos ++ group4 "board_meas_ang" ang ++
    group3 "cam_pos" c.pos ++ group4 "cam_ang_pos" c.ang ++
    group "residual" 6 (fun i => if h : i < 3 then resPos ⟨i, h⟩ else if h : i < 6 then resAng ⟨i - 3, by omega⟩ else 0) ++
    (if f.isExtrinsic then group3 "fid_pos" f.pos ++ group4 "fid_ang" f.ang ++ group "fid_cov" 6 (fun i => var (f.index + i))
      else []) ++
    (if c.isExtrinsic then group "cam_cov" 6 (fun i => var (c.index + i)) else []) ++ [("duration_0", .int duration)])

/-- `msckf_<camera>.csv` -/
def msckfColumns (c : CamState K) (var : Nat → K) (t : K) (tracks : Nat) (duration : Int) : Columns K :=
  ("time", .num t) :: (group3 "cam_pos" c.pos ++ group4 "cam_ang_pos" c.ang ++
    (if c.isExtrinsic then group "cam_cov" 6 (fun i => var (c.index + i)) else []) ++
    [("FeatureTracks", .nat tracks), ("duration_0", .int duration)])

/-- `triangulation_<camera>.csv` -/
def triangulationColumns (t : K) (feature : Int) (p : V3 K) : Columns K :=
  [("time", .num t 3), ("feature", .int feature), ("x", .num (p 0)), ("y", .num (p 1)), ("z", .num (p 2))]

/-- The columns of the sensors of one kind in `body_truth.csv`: the `i`-th sensor is shown under the number `start + i + 1`. -/
def sensorColumns {α : Type} (one : Nat → α → Columns K) (start : Nat) : List α → Columns K
  | [] => []
  | s :: rest => one (start + 1) s ++ sensorColumns one (start + 1) rest

/-- The sensors of one kind under the numbers that follow `start`: the ids a process gives out when it constructs them in this order (C32). -/
def numbered {α : Type} (start : Nat) : List α → UMap α
  | [] => []
  | s :: rest => (start + 1, s) :: numbered (start + 1) rest

/-- The columns of one IMU in `body_truth.csv`. -/
def truthImuColumns (n : Nat) (s : TruthImu K) : Columns K :=
  group3 ("imu_pos_" ++ toString n) s.pos ++ group4 ("imu_ang_pos_" ++ toString n) s.ang ++
    group3 ("imu_acc_bias_" ++ toString n) s.accBias ++ group3 ("imu_gyr_bias_" ++ toString n) s.omgBias

/-- The columns of one camera. -/
def truthCamColumns (n : Nat) (s : V3 K × Quat K) : Columns K :=
  group3 ("cam_pos_" ++ toString n) s.1 ++ group4 ("cam_ang_pos_" ++ toString n) s.2

/-- The columns of one GPS receiver. -/
def truthGpsColumns (n : Nat) (s : V3 K) : Columns K := group3 ("gps_pos_" ++ toString n) s

/-- `body_truth.csv` -/
def truthColumns (imus : List (TruthImu K)) (cams : List (V3 K × Quat K)) (gpss : List (V3 K)) (t : K) (b : TruthBody K) (ref : V3 K)
    (heading : K) : Columns K :=
  ("time", .num t) :: (group3 "body_pos" b.pos ++ group3 "body_vel" b.vel ++ group3 "body_acc" (b.acc + gravity) ++
    group4 "body_ang_pos" b.ang ++ group3 "body_ang_vel" b.angVel ++ group3 "body_ang_acc" b.angAcc ++
    sensorColumns truthImuColumns 0 imus ++ sensorColumns truthCamColumns imus.length cams ++
    sensorColumns truthGpsColumns (imus.length + cams.length) gpss ++
    (if gpss.isEmpty then [] else [("ref_lat", .num (ref 0)), ("ref_lon", .num (ref 1)), ("ref_alt", .num (ref 2)),
      ("ref_heading", .num heading)]))

end
end EkfCal
