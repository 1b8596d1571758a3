import Verif.Model.ImuUpdater
import Verif.Model.GpsUpdater
import Verif.Model.FidUpdater
import Verif.Model.MsckfUpdater
import Verif.Model.SimMeasure

/-!
# Model of the CSV headers and rows

The lines handed to `DataLogger` (`Model/Logger.lean` models what it does with them): `string_helper.cpp`, the headers built in
the constructors and the rows built at the end of each update.  Rows are functions of the filter at that moment and of the local
variables they show.  Printing a `double` is a parameter.  Counts and durations are integers.
-/

namespace EkfCal

/-- `operator<<` for a `double`, for each precision of the stream (the default is 6). -/
structure Printer (K : Type) where
  num : Nat → K → String

/-- string_helper.cpp:24-31 `EnumerateHeader` -/
def enumerateHeader (name : String) (size : Nat) : String :=
  String.join ((List.range size).map fun i => "," ++ name ++ "_" ++ toString i)

section
variable {K : Type} [Field K] [LinearOrder K]

/-- string_helper.cpp:42-49 `VectorToCommaString` with a precision; 33-40 is the one for the default precision -/
def vecText (P : Printer K) (v : Vec K) (precision : Nat := 6) : String :=
  String.join ((List.range v.size).map fun i => "," ++ P.num precision (v.get i))

/-- The same for an `Eigen::Vector3d`, which is converted to a `VectorXd` (string_helper.cpp:33-49). -/
def v3Text (P : Printer K) (v : V3 K) (precision : Nat := 6) : String := vecText P (Vec.of3 v) precision

/-- string_helper.cpp:51-59 `QuaternionToCommaString` -/
def quatText (P : Printer K) (q : Quat K) : String :=
  "," ++ P.num 6 q.w ++ "," ++ P.num 6 q.x ++ "," ++ P.num 6 q.y ++ "," ++ P.num 6 q.z

/-- `m.block(i, i, n, n).diagonal()` (Eigen) -/
def Mat.blockDiag (m : Mat K) (i n : Nat) : Res (Vec K) := do
  let b ← m.block i i n n
  pure ⟨n, fun k => b.get k k⟩

/-- `v.cwiseProduct(v)` (Eigen) -/
def Vec.square (v : Vec K) : Vec K := ⟨v.size, fun i => v.get i * v.get i⟩

/-- The logged variances: ekf.cpp:101-104, imu_updater.cpp:140-144, gps_updater.cpp:138-142, fiducial_updater.cpp:200-204 and
209-213, msckf_updater.cpp:413-417 -/
def Ekf.loggedVariance (e : Ekf K) (i n : Nat) : Res (Vec K) := do
  let d ← e.cov.blockDiag i n
  pure (if e.useRoot then d.square else d)

/-- ekf.cpp:57-67: header of `body_state.csv` -/
def bodyHeader : String :=
  "time" ++ enumerateHeader "body_pos" 3 ++ enumerateHeader "body_vel" 3 ++ enumerateHeader "body_acc" 3 ++
    enumerateHeader "body_ang_pos" 4 ++ enumerateHeader "body_ang_vel" 3 ++ enumerateHeader "body_ang_acc" 3 ++
    enumerateHeader "body_cov" bodySize ++ ",state_size" ++ enumerateHeader "duration" 1

/-- ekf.cpp:97-117 `LogBodyStateIfNeeded`: the row -/
def bodyRow (P : Printer K) (e : Ekf K) (duration : Int) : Res String := do
  let cov ← e.loggedVariance 0 bodySize
  let b := e.state.body
  pure (P.num 6 e.currentTime ++ v3Text P b.pos ++ v3Text P b.vel ++ v3Text P b.acc ++ quatText P b.ang ++ v3Text P b.angVel ++
    v3Text P b.angAcc ++ vecText P cov ++ "," ++ toString e.stateSize ++ "," ++ toString duration)

/-- ekf.cpp:73-77: header of `aug_state.csv` -/
def augHeader : String := "time" ++ enumerateHeader "aug_pos" 3 ++ enumerateHeader "aug_ang" 4

/-- ekf.cpp:517-521 and 561-565: the row -/
def augRow (P : Printer K) (e : Ekf K) : String :=
  P.num 6 e.currentTime ++ v3Text P e.state.body.pos ++ quatText P e.state.body.ang

/-- imu_updater.cpp:49 -/
def imuHeaderStart : String := "time,stationary,score"

/-- imu_updater.cpp:48-59: header of `imu_<id>.csv` -/
def ImuUpdater.header (u : ImuUpdater) : String :=
  imuHeaderStart ++ enumerateHeader "imu_pos" 3 ++ enumerateHeader "imu_ang_pos" 4 ++
    enumerateHeader "imu_acc_bias" 3 ++ enumerateHeader "imu_gyr_bias" 3 ++
    (if u.isExtrinsic then enumerateHeader "imu_ext_cov" imuExtSize else "") ++
    (if u.isIntrinsic then enumerateHeader "imu_int_cov" imuIntSize else "") ++
    enumerateHeader "acc" 3 ++ enumerateHeader "omg" 3 ++ enumerateHeader "residual" 6 ++ enumerateHeader "duration" 1

/-- The part common to both rows: imu_updater.cpp:133-136 and 272-275 -/
def ImuUpdater.poseText (P : Printer K) (u : ImuUpdater) (e : Ekf K) : String :=
  v3Text P (u.imuOf e).pos ++ quatText P (u.imuOf e).ang ++ v3Text P (u.imuOf e).accBias ++ v3Text P (u.imuOf e).omgBias

/-- imu_updater.cpp:129-150: the row of `UpdateEKF`; `resid` has six entries (98, 113) -/
def ImuUpdater.row (P : Printer K) (u : ImuUpdater) (e : Ekf K) (t : K) (acc omg resAcc resOmg : V3 K) (duration : Int) :
    Res String := do
  let cov ← if u.isExtrinsic || u.isIntrinsic then
      pure (vecText P (← e.loggedVariance (u.imuOf e).index (u.imuOf e).size))
    else pure ""
  pure (P.num 6 t ++ ",0," ++ P.num 6 e.motionDetectionChiSquared ++ u.poseText P e ++ cov ++ v3Text P acc ++ v3Text P omg ++
    vecText P (Vec.of6 resAcc resOmg) ++ "," ++ toString duration)

/-- imu_updater.cpp:268-297: the row of `ZeroAccelerationUpdate`; `resid` is `zeroAccResidual`.  The diagonals are squared
whether or not the filter keeps a root. -/
def ImuUpdater.zeroRow (P : Printer K) (u : ImuUpdater) (e : Ekf K) (t score : K) (acc omg : V3 K) (resid : Vec K)
    (duration : Int) : Res String := do
  let ext ← if u.isExtrinsic then
      pure (vecText P (← e.cov.blockDiag (u.imuOf e).indexExtrinsic 6).square)
    else pure ""
  let int ← if u.isIntrinsic then
      pure (vecText P (← e.cov.blockDiag (u.imuOf e).indexIntrinsic 6).square)
    else pure ""
  pure (P.num 6 t ++ ",1," ++ P.num 6 score ++ u.poseText P e ++ ext ++ int ++ v3Text P acc ++ v3Text P omg ++ vecText P resid ++
    (if u.isIntrinsic then "" else v3Text P (0 : V3 K)) ++ "," ++ toString duration)

/-- gps_updater.cpp:46 -/
def gpsHeaderStart : String := "time,lat,lon,alt,x,y,z,ref_lat,ref_lon,ref_alt,ref_heading,is_initialized"

/-- gps_updater.cpp:45-52: header of `gps_<id>.csv` -/
def GpsUpdater.header (u : GpsUpdater K) : String :=
  gpsHeaderStart ++
    (if u.isExtrinsic then enumerateHeader "ant_pos" gpsExtSize ++ enumerateHeader "gps_cov" gpsExtSize else "") ++
    enumerateHeader "residual" gpsExtSize ++ enumerateHeader "duration" 1

/-- gps_updater.cpp:128-146: the row of `UpdateEKF` -/
def GpsUpdater.row (P : Printer K) (u : GpsUpdater K) (e : Ekf K) (t : K) (lla loc ref : V3 K) (heading : K) (resid : V3 K)
    (duration : Int) : Res String := do
  let cov ← if u.isExtrinsic then do
      let d ← e.loggedVariance (u.gpsOf e).index gpsExtSize
      pure (v3Text P (u.gpsOf e).pos ++ vecText P d)
    else pure ""
  pure (P.num 6 t ++ v3Text P lla 12 ++ v3Text P loc ++ v3Text P ref 12 ++ "," ++ P.num 6 heading ++ "," ++
    (if e.isLlaInitialized then "1" else "0") ++ cov ++ v3Text P resid ++ "," ++ toString duration)

/-- fiducial_updater.cpp:55 -/
def fidHeaderStart : String := "time,board"

/-- fiducial_updater.cpp:54-67: header of `fiducial_<camera>.csv` -/
def FidUpdater.header (u : FidUpdater K) : String :=
  fidHeaderStart ++ enumerateHeader "board_meas_pos" 3 ++ enumerateHeader "board_meas_ang" 4 ++ enumerateHeader "cam_pos" 3 ++
    enumerateHeader "cam_ang_pos" 4 ++ enumerateHeader "residual" 6 ++
    (if u.isFidExtrinsic then enumerateHeader "fid_pos" 3 ++ enumerateHeader "fid_ang" 4 ++ enumerateHeader "fid_cov" camExtSize
      else "") ++
    (if u.isCamExtrinsic then enumerateHeader "cam_cov" camExtSize else "") ++ enumerateHeader "duration" 1

/-- fiducial_updater.cpp:187-216: the row of `UpdateEKF`; `f` is the board's state -/
def FidUpdater.row (P : Printer K) (u : FidUpdater K) (e : Ekf K) (f : FidState K) (t : K) (pos : V3 K) (ang : Quat K)
    (resPos resAng : V3 K) (duration : Int) : Res String := do
  let fid ← if u.isFidExtrinsic then do
      let d ← e.loggedVariance f.index fidExtSize
      pure (v3Text P f.pos ++ quatText P f.ang ++ vecText P d)
    else pure ""
  let cam ← if u.isCamExtrinsic then pure (vecText P (← e.loggedVariance (u.camOf e).index camExtSize)) else pure ""
  pure (P.num 6 t ++ "," ++ toString u.id ++ v3Text P pos ++ quatText P ang ++ v3Text P (u.camOf e).pos ++
    quatText P (u.camOf e).ang ++ vecText P (Vec.of6 resPos resAng) ++ fid ++ cam ++ "," ++ toString duration)

/-- msckf_updater.cpp:52-58: header of `msckf_<id>.csv` -/
def MsckfUpdater.header (u : MsckfUpdater K) : String :=
  "time" ++ enumerateHeader "cam_pos" 3 ++ enumerateHeader "cam_ang_pos" 4 ++
    (if u.isCamExtrinsic then enumerateHeader "cam_cov" camExtSize else "") ++ ",FeatureTracks" ++ enumerateHeader "duration" 1

/-- msckf_updater.cpp:408-421: the row of `UpdateEKF` for `tracks` feature tracks -/
def MsckfUpdater.row (P : Printer K) (u : MsckfUpdater K) (e : Ekf K) (t : K) (tracks : Nat) (duration : Int) :
    Res String := do
  let cov ← if u.isCamExtrinsic then pure (vecText P (← e.loggedVariance (u.camOf e).index camExtSize)) else pure ""
  pure (P.num 6 t ++ v3Text P (u.camOf e).pos ++ quatText P (u.camOf e).ang ++ cov ++ "," ++ toString tracks ++ "," ++
    toString duration)

/-- msckf_updater.cpp:64: header of `triangulation_<id>.csv` -/
def triangulationHeader : String := "time,feature,x,y,z"

/-- msckf_updater.cpp:147-150: the row of a triangulated feature -/
def triangulationRow (P : Printer K) (t : K) (feature : Int) (pos : V3 K) : String :=
  P.num 3 t ++ "," ++ toString feature ++ v3Text P pos

end

/-! ## Truth files -/

section
variable {K : Type} [Field K] [LinearOrder K]

/-- The calibrations held by a `TruthEngine` (truth_engine.hpp:282-293).  The four maps of IMU quantities are one map here:
they always have the same keys, since `SimIMU` sets all four (sim_imu.cpp:61-64) and every row touches all four. -/
structure TruthSensors (K : Type) where
  imus : UMap (TruthImu K)
  cams : UMap (V3 K × Quat K)
  gpss : UMap (V3 K)

/-- truth_engine.cpp:235-242 -/
def truthImuHeader (n : Nat) : String :=
  enumerateHeader ("imu_pos_" ++ toString n) 3 ++ enumerateHeader ("imu_ang_pos_" ++ toString n) 4 ++
    enumerateHeader ("imu_acc_bias_" ++ toString n) 3 ++ enumerateHeader ("imu_gyr_bias_" ++ toString n) 3

/-- truth_engine.cpp:243-247 -/
def truthCamHeader (n : Nat) : String :=
  enumerateHeader ("cam_pos_" ++ toString n) 3 ++ enumerateHeader ("cam_ang_pos_" ++ toString n) 4

/-- truth_engine.cpp:248-251 -/
def truthGpsHeader (n : Nat) : String := enumerateHeader ("gps_pos_" ++ toString n) 3

/-- A loop of the header: `n` sensors, counted from `start + 1` (truth_engine.cpp:236-251). -/
def headerLoop (one : Nat → String) (start n : Nat) : String :=
  String.join ((List.range n).map fun i => one (start + i + 1))

/-- truth_engine.cpp:226-254: header of `body_truth.csv` -/
def truthHeader (s : TruthSensors K) : String :=
  "time" ++ enumerateHeader "body_pos" 3 ++ enumerateHeader "body_vel" 3 ++ enumerateHeader "body_acc" 3 ++
    enumerateHeader "body_ang_pos" 4 ++ enumerateHeader "body_ang_vel" 3 ++ enumerateHeader "body_ang_acc" 3 ++
    headerLoop truthImuHeader 0 s.imus.length ++ headerLoop truthCamHeader s.imus.length s.cams.length ++
    headerLoop truthGpsHeader (s.imus.length + s.cams.length) s.gpss.length ++
    (if s.gpss.isEmpty then "" else ",ref_lat,ref_lon,ref_alt,ref_heading")

/-- truth_engine.cpp:270-285: a loop of a row.  `operator[]` inserts a missing sensor (with unspecified values, here `d`), and
the bound `m.size()` is evaluated at every turn.  The loop need not end: `none` after `fuel` turns.  The text, the counter and
the map afterwards. -/
def rowLoop {α : Type} (text : α → String) (d : α) : Nat → Nat → Nat → UMap α → Option (String × Nat × UMap α)
  | 0, j, n, m => if j < m.length then none else some ("", n, m)
  | fuel + 1, j, n, m =>
    if j < m.length then
      (rowLoop text d fuel (j + 1) (n + 1) (m.touch (n + 1) d)).map fun r => (text (m.getD (n + 1) d) ++ r.1, r.2)
    else some ("", n, m)

/-- truth_engine.cpp:272-275 -/
def truthImuText (P : Printer K) (s : TruthImu K) : String :=
  v3Text P s.pos ++ quatText P s.ang ++ v3Text P s.accBias ++ v3Text P s.omgBias

/-- truth_engine.cpp:279-280 -/
def truthCamText (P : Printer K) (s : V3 K × Quat K) : String := v3Text P s.1 ++ quatText P s.2

/-- truth_engine.cpp:258-291: one row of `body_truth.csv` and the calibrations afterwards -/
def truthRow (P : Printer K) (fuel : Nat) (s : TruthSensors K) (t : K) (b : TruthBody K) (ref : V3 K) (heading : K) :
    Option (String × TruthSensors K) := do
  let (imus, n, mi) ← rowLoop (truthImuText P) ⟨0, Quat.one, 0, 0⟩ fuel 0 0 s.imus
  let (cams, n, mc) ← rowLoop (truthCamText P) (0, Quat.one) fuel 0 n s.cams
  let (gpss, _, mg) ← rowLoop (v3Text P) 0 fuel 0 n s.gpss
  some (P.num 6 t ++ v3Text P b.pos ++ v3Text P b.vel ++ v3Text P (b.acc + gravity) ++ quatText P b.ang ++ v3Text P b.angVel ++
    v3Text P b.angAcc ++ imus ++ cams ++ gpss ++ (if mg.isEmpty then "" else v3Text P ref ++ "," ++ P.num 6 heading),
    ⟨mi, mc, mg⟩)

/-- truth_engine.cpp:296: header of `board_truth.csv` -/
def boardHeader : String := "board,pos_x,pos_y,pos_z,quat_w,quat_x,quat_y,quat_z"

/-- truth_engine.cpp:298-304: a row -/
def boardRow (P : Printer K) (id : Nat) (pos : V3 K) (ang : Quat K) : String := toString id ++ v3Text P pos ++ quatText P ang

/-- truth_engine.cpp:308: header of `feature_points.csv` -/
def featureHeader : String := "Feature,x,y,z"

/-- truth_engine.cpp:310-317: a row -/
def featureRow (P : Printer K) (i : Nat) (p : V3 K) : String :=
  toString i ++ "," ++ P.num 6 (p 0) ++ "," ++ P.num 6 (p 1) ++ "," ++ P.num 6 (p 2)

end
end EkfCal
