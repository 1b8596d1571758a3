import Verif.Model.Logger

/-!
# Log files on disk

Several data loggers writing into one directory.  Each `DataLogger` owns a `std::ofstream` (data_logger.hpp:89): opening it
empties the file at its path, and every line is flushed (`std::endl`) at the position that stream has reached.  Positions are
counted in characters rather than bytes.  Failing to open is not modelled.
-/

namespace EkfCal

/-- Everything of the project that owns a data logger; the places are given with each. -/
inductive LogWriter
  /-- `EKF::m_data_logger` (ekf.cpp:39) -/
  | body
  /-- `EKF::m_augmentation_logger` (ekf.cpp:40) -/
  | aug
  /-- `ImuUpdater::m_data_logger` of an IMU (imu_updater.cpp:46) -/
  | imu (id : Nat)
  /-- `GpsUpdater::m_data_logger` of a GPS receiver (gps_updater.cpp:43) -/
  | gps (id : Nat)
  /-- `MsckfUpdater::m_msckf_logger` of a feature tracker on a camera (msckf_updater.cpp:49) -/
  | msckf (camera tracker : Nat)
  /-- `MsckfUpdater::m_triangulation_logger` of a feature tracker on a camera (msckf_updater.cpp:50) -/
  | triangulation (camera tracker : Nat)
  /-- `FiducialUpdater::m_fiducial_logger` of a marker board watched by a camera (fiducial_updater.cpp:51) -/
  | fiducial (camera board : Nat)
  /-- `truth_logger` (truth_engine.cpp:223) -/
  | bodyTruth
  /-- `board_logger` (truth_engine.cpp:294) -/
  | boardTruth
  /-- `feature_logger` (truth_engine.cpp:306) -/
  | features
  /-- `EkfCalNode::m_state_data_logger` (ekf_cal_node.cpp:102) -/
  | stateVector
  deriving DecidableEq

/-- The file name each of them is given: ekf.cpp:39-40, imu_updater.cpp:46, gps_updater.cpp:43, msckf_updater.cpp:49-50,
fiducial_updater.cpp:51, truth_engine.cpp:223, 294, 306, ekf_cal_node.cpp:102 -/
def LogWriter.fileName : LogWriter → String
  | .body => "body_state.csv"
  | .aug => "aug_state.csv"
  | .imu id => "imu_" ++ Nat.repr id ++ ".csv"
  | .gps id => "gps_" ++ Nat.repr id ++ ".csv"
  | .msckf camera _ => "msckf_" ++ Nat.repr camera ++ ".csv"
  | .triangulation camera _ => "triangulation_" ++ Nat.repr camera ++ ".csv"
  | .fiducial camera _ => "fiducial_" ++ Nat.repr camera ++ ".csv"
  | .bodyTruth => "body_truth.csv"
  | .boardTruth => "board_truth.csv"
  | .features => "feature_points.csv"
  | .stateVector => "state_vector.csv"

/-- Writing `s` at position `pos` of a file: nothing to write changes nothing, what was there is overwritten, a gap before the position is filled with zeros
(POSIX `write` after the file was shortened by another `open`). -/
def overwrite (old : List Char) (pos : Nat) (s : List Char) : List Char :=
  if s = [] then old
  else (old ++ List.replicate (pos - old.length) '\x00').take pos ++ s ++ old.drop (pos + s.length)

/-- Lines as written: each followed by the line break of `std::endl` (data_logger.cpp:41, 44). -/
def linesText (l : List String) : List Char := l.flatMap fun s => s.toList ++ ['\n']

/-- The loggers of one run, the position each stream has reached, and the files by path. -/
structure LogDisk (K : Type) where
  loggers : LogWriter → DataLogger K
  pos : LogWriter → Nat
  files : String → List Char

namespace LogDisk
variable {K : Type} [Field K] [LinearOrder K]

/-- At the start: every logger constructed with the directory and its file name (data_logger.cpp:21-25), whatever files are
already there. -/
def init (directory : String) (files : String → List Char) : LogDisk K :=
  ⟨fun w => DataLogger.new directory w.fileName, fun _ => 0, files⟩

/-- Flush `s` at the position of `w`'s stream into the file at `path`. -/
def write (d : LogDisk K) (w : LogWriter) (path : String) (s : List Char) : LogDisk K :=
  { d with
    pos := Function.update d.pos w (d.pos w + s.length)
    files := Function.update d.files path (overwrite (d.files path) (d.pos w) s) }

/-- One call on the logger of `w`.  The logger's own file goes from `f` to `f'`; data_logger.cpp:39-44: the first line opens
(and empties) the file at the logger's path, later lines are added at the stream's position. -/
def step (d : LogDisk K) (w : LogWriter) (op : DataLogger.Op K) : LogDisk K :=
  let l := (d.loggers w).step op
  let d' := { d with loggers := Function.update d.loggers w l }
  match (d.loggers w).file, l.file with
  | none, some f =>
    write { d' with pos := Function.update d.pos w 0, files := Function.update d.files f.path [] } w f.path (linesText f.lines)
  | some f, some f' => write d' w f'.path (linesText (f'.lines.drop f.lines.length))
  | _, none => d'

/-- A history of calls on the loggers. -/
def run (d : LogDisk K) (h : List (LogWriter × DataLogger.Op K)) : LogDisk K := h.foldl (fun d c => d.step c.1 c.2) d

end LogDisk
end EkfCal
