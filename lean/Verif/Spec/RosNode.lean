import Verif.Model.RosNode

/-!
# Specification of the ROS node: sensors in a list, each listening to its topic
-/

namespace EkfCal
variable {K : Type} [Field K] [LinearOrder K]

/-- A sensor. -/
inductive Device (K : Type)
  | imu (u : ImuUpdater)
  | gps (u : GpsUpdater K)
  | camera (c : Camera K)

/-- A camera looks at images only if it has something to track in them. -/
def RosImage.Used (m : RosImage K) (c : Camera K) : Prop := m.empty = false ∧ ¬(c.trackers = [] ∧ c.fiducials = [])

instance (m : RosImage K) (c : Camera K) : Decidable (m.Used c) := inferInstanceAs (Decidable (_ ∧ _))

/-- What a sensor makes of a message on its topic: it hands time, values and covariances to the filter; images are numbered
as they are used.  A message of another type is none of its business. -/
def Device.take (N : Num K) (G : GpsNum K) (e : Ekf K) (frame : Nat) : Device K → RosMsg K → Res (Device K × Ekf K × Nat)
  | .imu u, .imu m => do
    let (u, e) ← u.update N e (m.stamp.sec + m.stamp.nanosec / 10 ^ 9) m.linAcc
      (Matrix.of fun i j => m.linAccCov ⟨3 * i + j, by omega⟩) m.angVel (Matrix.of fun i j => m.angVelCov ⟨3 * i + j, by omega⟩)
    pure (.imu u, e, frame)
  | .gps u, .fix m => do
    let (u, e) ← u.update N G e (m.stamp.sec + m.stamp.nanosec / 10 ^ 9) ![m.latitude, m.longitude, m.altitude]
      (M3.toMat (Matrix.of fun i j => m.positionCov ⟨3 * i + j, by omega⟩))
    pure (.gps u, e, frame)
  | .camera c, .image m => do
    let (c', e, _) ← c.callback N e ⟨m.stamp.sec + m.stamp.nanosec / 10 ^ 9, frame, m.empty, m.points, m.boards⟩
    pure (.camera c', e, if m.Used c then succ32 frame else frame)
  | d, _ => .ok (d, e, frame)

/-- A filter with sensors, in the order in which they were added, each with its topic. -/
structure Rig (K : Type) where
  ekf : Ekf K
  frame : Nat
  devices : List (String × Device K)

namespace Rig

/-- The sensors hear a message one after the other. -/
def hear (N : Num K) (G : GpsNum K) (topic : String) (m : RosMsg K) :
    List (String × Device K) → Ekf K → Nat → Res (List (String × Device K) × Ekf K × Nat)
  | [], e, f => .ok ([], e, f)
  | (t, d) :: ds, e, f => do
    let (d, e, f) ← if t = topic then d.take N G e f m else pure (d, e, f)
    let (ds, e, f) ← hear N G topic m ds e f
    pure ((t, d) :: ds, e, f)

/-- A further sensor: the `n`-th has id `n`. -/
def add (N : Num K) (r : Rig K) : SensorConfig K → Res (Rig K)
  | .imu topic p => do
    let id := r.devices.length + 1
    pure ⟨← newImuSensor N.toPrim r.ekf id p, r.frame, r.devices ++ [(topic, .imu (ImuUpdater.new id p.isExtrinsic p.isIntrinsic))]⟩
  | .gps topic p => do
    let id := r.devices.length + 1
    pure ⟨← newGpsSensor N.toPrim r.ekf id p, r.frame, r.devices ++ [(topic, .gps (GpsUpdater.new id p.isExtrinsic))]⟩
  | .camera topic p make board => do
    let id := r.devices.length + 1
    let e ← newCameraSensor N.toPrim r.ekf id p
    let e ← match board with
      | none => pure e
      | some b => newFiducialTracker N.toPrim e b
    pure ⟨e, r.frame, r.devices ++ [(topic, .camera (make id))]⟩

def step (N : Num K) (G : GpsNum K) (r : Rig K) : Node.Event K → Res (Rig K)
  | .load c => r.add N c
  | .message topic m => do
    let (ds, e, f) ← hear N G topic m r.devices r.ekf r.frame
    pure ⟨e, f, ds⟩

def run (N : Num K) (G : GpsNum K) : Rig K → List (Node.Event K) → Res (Rig K)
  | r, [] => .ok r
  | r, ev :: evs => do
    let r ← r.step N G ev
    run N G r evs

end Rig

/-- The node's tables hold this sensor under the id. -/
def Node.Holds (n : Node K) (id : Nat) : RosKind → Device K → Prop
  | .imu, .imu u => n.imus.find? id = some u
  | .gps, .gps u => n.gpss.find? id = some u
  | .camera, .camera c => n.cams.find? id = some c
  | _, _ => False

/-- Node and rig have the same filter, and the node's `i`-th subscription is to the topic and the state of the `i`-th sensor. -/
def Node.Agrees (n : Node K) (r : Rig K) : Prop :=
  n.ekf = r.ekf ∧ n.frameCount = r.frame ∧
    List.Forall₂ (fun (s : String × RosKind × Nat) (d : String × Device K) => s.1 = d.1 ∧ n.Holds s.2.2 s.2.1 d.2) n.subs r.devices

/-- The number of sensors loaded. -/
def Node.loads : List (Node.Event K) → Nat
  | [] => 0
  | .load _ :: evs => Node.loads evs + 1
  | _ :: evs => Node.loads evs

end EkfCal
