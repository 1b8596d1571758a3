import Verif.Model.CameraFrame
import Verif.Model.Config
import Verif.Model.GpsUpdater
import Verif.Model.Ids
import Verif.Model.ImuUpdater
import Verif.Model.StateVector

/-!
# Model of the ROS node: message conversion, registration of sensors and dispatch

`src/application/ros/node/ekf_cal_node.cpp`, `src/sensors/ros/*.cpp`, `src/utility/ros_helper.cpp`.  Reading parameters is
not modelled (see `Model/Config.lean`); the filter the node has constructed is an argument.  Callbacks run one at a time
(ekf_cal_main.cpp: a single-threaded executor).
-/

namespace EkfCal
variable {K : Type} [Field K] [LinearOrder K]

/-- `builtin_interfaces/Time`. -/
structure RosStamp where
  sec : Int
  nanosec : Nat

/-- `sensor_msgs/Imu` as far as it is read: the covariances are row-major arrays of nine. -/
structure RosImu (K : Type) where
  stamp : RosStamp
  linAcc : V3 K
  angVel : V3 K
  linAccCov : Fin 9 → K
  angVelCov : Fin 9 → K

/-- `sensor_msgs/NavSatFix`. -/
structure RosFix (K : Type) where
  stamp : RosStamp
  latitude : K
  longitude : K
  altitude : K
  positionCov : Fin 9 → K

/-- `sensor_msgs/Image`, with what is found in it, by tracker id. -/
structure RosImage (K : Type) where
  stamp : RosStamp
  channels : Nat
  empty : Bool
  points : Nat → PointSight K
  boards : Nat → BoardSight K

/-- The messages a node subscribes to (ekf_cal_node.hpp:244-250). -/
inductive RosMsg (K : Type)
  | imu (m : RosImu K)
  | fix (m : RosFix K)
  | image (m : RosImage K)

/-- ros_helper.cpp:27-30 `RosHeaderToTime`; src/utility/constants.hpp:21 -/
def rosTime (s : RosStamp) : K := s.sec + s.nanosec * (1 / 10 ^ 9)

/-- ros_helper.cpp:37-44 `RosToEigen` of an array -/
def rosToMat (a : Fin 9 → K) : M3 K := !![a 0, a 1, a 2; a 3, a 4, a 5; a 6, a 7, a 8]

/-- gps_message.hpp:26-32; `none`: not written -/
structure GpsMsg (K : Type) where
  time : K
  lla : V3 K
  cov : Option (Mat K)

/-- ros_gps_message.cpp:23-28: the covariance is not assigned -/
def RosFix.toMsg (m : RosFix K) : GpsMsg K := ⟨rosTime m.stamp, ![m.latitude, m.longitude, m.altitude], none⟩

/-- gps.cpp:48-58 `GPS::Callback`.  The covariance is copied into a `MatrixXd`; reading it counts as undefined only where
the value is used, in the measurement update after the reference is known (gps_updater.cpp:112-120). -/
def GpsUpdater.callback (N : Num K) (G : GpsNum K) (u : GpsUpdater K) (e : Ekf K) (m : GpsMsg K) : Res (GpsUpdater K × Ekf K) :=
  match m.cov with
  | some c => u.update N G e m.time m.lla c
  | none => do
    let e' ← (e.calculateLocalTime m.time).2.predict N.toPrim (e.calculateLocalTime m.time).1
    guardUB (e'.isLlaInitialized = false) .uninitialised
    u.update N G e m.time m.lla (Mat.zero 3 3)

/-- The types of these messages. -/
inductive RosKind
  | imu
  | gps
  | camera
  deriving DecidableEq

/-- The type of a message. -/
def RosMsg.kind : RosMsg K → RosKind
  | .imu _ => .imu
  | .fix _ => .gps
  | .image _ => .camera

/-- The members of `EkfCalNode` (ekf_cal_node.hpp:262-270) that dispatch uses, with the static counters of sensors and frames,
the number of warnings and the cameras whose image was published. -/
structure Node (K : Type) where
  ekf : Ekf K
  sensorCount : Nat := 0
  frameCount : Nat := 0
  imus : UMap ImuUpdater := []
  gpss : UMap (GpsUpdater K) := []
  cams : UMap (Camera K) := []
  publishers : List Nat := []
  subs : List (String × RosKind × Nat) := []
  warnings : Nat := 0
  published : List Nat := []

/-- A sensor as configured: its topic and parameters.  The camera object with its trackers is a function of the id the camera
gets (ekf_cal_node.cpp:462-556). -/
inductive SensorConfig (K : Type)
  | imu (topic : String) (p : ImuConfig K)
  | gps (topic : String) (p : GpsConfig K)
  | camera (topic : String) (p : CamConfig K) (make : Nat → Camera K) (board : Option (FidConfig K))

namespace Node

/-- `LoadImu`, `LoadCamera`, `LoadGps` with `RegisterImu`, … (ekf_cal_node.cpp:462-556): construct the sensor (sensor.cpp:26-31
gives it its id), enter it in the map, subscribe; a camera's fiducial tracker registers its board and the camera gets a publisher. -/
def load (N : Num K) (n : Node K) : SensorConfig K → Res (Node K)
  | .imu topic p => do
    let id := succ32 n.sensorCount
    let e ← newImuSensor N.toPrim n.ekf id p
    pure { n with
      ekf := e, sensorCount := id, imus := n.imus.insert id (ImuUpdater.new id p.isExtrinsic p.isIntrinsic)
      subs := n.subs ++ [(topic, .imu, id)] }
  | .gps topic p => do
    let id := succ32 n.sensorCount
    let e ← newGpsSensor N.toPrim n.ekf id p
    pure { n with
      ekf := e, sensorCount := id, gpss := n.gpss.insert id (GpsUpdater.new id p.isExtrinsic)
      subs := n.subs ++ [(topic, .gps, id)] }
  | .camera topic p make board => do
    let id := succ32 n.sensorCount
    let e ← newCameraSensor N.toPrim n.ekf id p
    let e ← match board with
      | none => pure e
      | some b => newFiducialTracker N.toPrim e b
    pure { n with
      ekf := e, sensorCount := id, cams := n.cams.insert id (make id)
      subs := n.subs ++ [(topic, .camera, id)], publishers := n.publishers ++ [id] }

/-- `ImuCallback` (ekf_cal_node.cpp:558-568) with ros_imu_message.cpp:26-34 and imu.cpp:62-75 -/
def imuCallback (N : Num K) (n : Node K) (m : RosImu K) (id : Nat) : Res (Node K) :=
  match n.imus.find? id with
  | none => pure { n with warnings := n.warnings + 1 }
  | some u => do
    let r ← u.update N n.ekf (rosTime m.stamp) m.linAcc (rosToMat m.linAccCov) m.angVel (rosToMat m.angVelCov)
    pure { n with ekf := r.2, imus := n.imus.insert id r.1 }

/-- `GpsCallback` (ekf_cal_node.cpp:583-593) -/
def gpsCallback (N : Num K) (G : GpsNum K) (n : Node K) (m : RosFix K) (id : Nat) : Res (Node K) :=
  match n.gpss.find? id with
  | none => pure { n with warnings := n.warnings + 1 }
  | some u => do
    let r ← u.callback N G n.ekf m.toMsg
    pure { n with ekf := r.2, gpss := n.gpss.insert id r.1 }

/-- `CameraCallback` (ekf_cal_node.cpp:570-581) with ros_camera.cpp:33-40 and camera.cpp:57-102: an image that is processed must
have one channel (camera.cpp:71, `COLOR_GRAY2RGB`), and takes the next frame id; the camera must have a publisher. -/
def cameraCallback (N : Num K) (n : Node K) (m : RosImage K) (id : Nat) : Res (Node K) :=
  match n.cams.find? id with
  | none => pure { n with warnings := n.warnings + 1 }
  | some c => do
    let used := m.empty = false ∧ ¬(c.trackers = [] ∧ c.fiducials = [])
    guardUB (used → m.channels = 1) .assertFailed
    let (c', e, _) ← c.callback N n.ekf ⟨rosTime m.stamp, n.frameCount, m.empty, m.points, m.boards⟩
    guardUB (id ∈ n.publishers) .outOfRange
    pure { n with
      ekf := e, cams := n.cams.insert id c', frameCount := if used then succ32 n.frameCount else n.frameCount
      published := n.published ++ [id] }

/-- The callback bound to a subscription (ekf_cal_node.cpp:477-480, 523-525, 548-550). -/
def callback (N : Num K) (G : GpsNum K) (n : Node K) (id : Nat) : RosMsg K → Res (Node K)
  | .imu m => n.imuCallback N m id
  | .fix m => n.gpsCallback N G m id
  | .image m => n.cameraCallback N m id

/-- A message on a topic: every subscription to the topic with the type of the message gets it.  The order of the
subscriptions, which ROS leaves open, is that of their creation (ekf_cal_node.cpp:480, 525, 550). -/
def dispatch (N : Num K) (G : GpsNum K) (topic : String) (m : RosMsg K) : List (String × RosKind × Nat) → Node K → Res (Node K)
  | [], n => .ok n
  | s :: ss, n => do
    let n ← if s.1 = topic ∧ s.2.1 = m.kind then n.callback N G s.2.2 m else pure n
    dispatch N G topic m ss n

/-- What happens to a node: a turn of a loop of `LoadSensors` (ekf_cal_node.cpp:186-206), or a message. -/
inductive Event (K : Type)
  | load (c : SensorConfig K)
  | message (topic : String) (m : RosMsg K)

/-- The node after one event. -/
def step (N : Num K) (G : GpsNum K) (n : Node K) : Event K → Res (Node K)
  | .load c => n.load N c
  | .message topic m => dispatch N G topic m n.subs n

/-- The node after a sequence of events. -/
def run (N : Num K) (G : GpsNum K) : Node K → List (Event K) → Res (Node K)
  | n, [] => .ok n
  | n, ev :: evs => do
    let n ← n.step N G ev
    run N G n evs

/-- `PublishState` (ekf_cal_node.cpp:595-605): the numbers published on `~/BodyState` -/
def publishState (N : Num K) (n : Node K) : List K :=
  let v := n.ekf.state.body.toVector N.toPrim
  (List.range v.size).map v.get

end Node
end EkfCal
