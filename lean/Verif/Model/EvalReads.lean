import Verif.Model.Eval

/-!
# Model of the columns that the evaluation reads (`eval/stats.py`, `eval/report.py` and the tabs)

One list for each kind of file.  Columns that a tab reads only if a certain column is there carry the condition.
-/

namespace EkfCal.Eval

/-- The columns `name_0`, …, `name_(n-1)`. -/
def numberedNames (name : String) (n : Nat) : List String := (List.range n).map fun i => name ++ "_" ++ toString i

/-- The quantities of the body: stats.py:51-173, tab_body.py:45-288 and 389-448. -/
def bodyMotionReads : List String :=
  "time" :: (numberedNames "body_pos" 3 ++ numberedNames "body_vel" 3 ++ numberedNames "body_acc" 3 ++
    numberedNames "body_ang_pos" 4 ++ numberedNames "body_ang_vel" 3 ++ numberedNames "body_ang_acc" 3)

/-- `body_state.csv`: also stats.py:181, tab_body.py:304-427 and 583-584, utilities.py:133 -/
def bodyReads : List String := bodyMotionReads ++ numberedNames "body_cov" 18 ++ ["state_size", "duration_0"]

/-- `aug_state.csv`: tab_body.py:501-550 -/
def augReads : List String := "time" :: (numberedNames "aug_pos" 3 ++ numberedNames "aug_ang" 4)

/-- `imu_<id>.csv`: stats.py:188-256, tab_imu.py:34-35, 48-129, 150-154, 183-187, 219-223, 249-323 and 344-401; `names` are the
columns of the file -/
def imuReads (names : List String) : List String :=
  ["time", "stationary", "score", "duration_0"] ++ numberedNames "acc" 3 ++ numberedNames "omg" 3 ++ numberedNames "residual" 6 ++
    numberedNames "imu_pos" 3 ++ numberedNames "imu_ang_pos" 4 ++ numberedNames "imu_acc_bias" 3 ++
    numberedNames "imu_gyr_bias" 3 ++
    (if "imu_ext_cov_0" ∈ names then numberedNames "imu_ext_cov" 6 else []) ++
    (if "imu_int_cov_0" ∈ names then numberedNames "imu_int_cov" 6 else [])

/-- `gps_<id>.csv`: stats.py:268-298, tab_gps.py:33, 46-64, 84-110 and 136-143, utilities.py:133 -/
def gpsReads (names : List String) : List String :=
  ["time", "is_initialized", "ref_lat", "ref_lon", "ref_alt", "ref_heading", "x", "y", "z", "duration_0"] ++
    numberedNames "residual" 3 ++
    (if "gps_cov_0" ∈ names then numberedNames "ant_pos" 3 ++ numberedNames "gps_cov" 3 else [])

/-- `msckf_<camera>.csv`: stats.py:188-225, tab_msckf.py:38, 51-119, 143-164, 279-280 and 294-308, utilities.py:133 -/
def msckfReads (names : List String) : List String :=
  ["time", "FeatureTracks", "duration_0"] ++ numberedNames "cam_pos" 3 ++ numberedNames "cam_ang_pos" 4 ++
    (if "cam_cov_0" ∈ names then numberedNames "cam_cov" 6 else [])

/-- `fiducial_<camera>.csv`: tab_fiducial.py:36-37, 51-119, 144-165, 181-205 and 238-267, utilities.py:133 -/
def fiducialReads (names : List String) : List String :=
  ["time", "duration_0"] ++ numberedNames "board_meas_pos" 3 ++ numberedNames "board_meas_ang" 4 ++
    (if "cam_cov_0" ∈ names then numberedNames "cam_pos" 3 ++ numberedNames "cam_ang_pos" 4 ++ numberedNames "cam_cov" 6
      else []) ++
    (if "fid_cov_0" ∈ names then numberedNames "fid_pos" 3 ++ numberedNames "fid_ang" 4 ++ numberedNames "fid_cov" 6 else [])

/-- `triangulation_<camera>.csv`: tab_msckf.py:184-188 -/
def triangulationReads : List String := ["time", "feature", "x", "y", "z"]

/-- `board_truth.csv`: tab_fiducial.py:230-236 -/
def boardReads : List String := ["pos_x", "pos_y", "pos_z", "quat_w", "quat_x", "quat_y", "quat_z"]

/-- `feature_points.csv`: tab_msckf.py:190-192 -/
def featureReads : List String := ["x", "y", "z"]

/-- `body_truth.csv`, for the IMU with an id: stats.py:191-193, 213-215 and 235-237, tab_imu.py:126-129, 155-159, 189-192,
225-228, 366-372 and 403-408 -/
def imuTruthReads (id : Nat) : List String :=
  numberedNames ("imu_pos_" ++ toString id) 3 ++ numberedNames ("imu_ang_pos_" ++ toString id) 4 ++
    numberedNames ("imu_acc_bias_" ++ toString id) 3 ++ numberedNames ("imu_gyr_bias_" ++ toString id) 3

/-- `body_truth.csv`, for the camera with an id: stats.py:191-193 and 213-215, tab_msckf.py:87-90, 120-124 and 310-317,
tab_fiducial.py:87-90 and 120-124 -/
def camTruthReads (id : Nat) : List String :=
  numberedNames ("cam_pos_" ++ toString id) 3 ++ numberedNames ("cam_ang_pos_" ++ toString id) 4

/-- `body_truth.csv`, for the GPS receiver with an id: stats.py:264-266 and 285, tab_gps.py:79-82 and 145-148 -/
def gpsTruthReads (id : Nat) : List String :=
  numberedNames ("gps_pos_" ++ toString id) 3 ++ ["ref_lat", "ref_lon", "ref_alt", "ref_heading"]

end EkfCal.Eval
