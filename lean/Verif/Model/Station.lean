import Verif.Model.ImuUpdater
import Verif.Model.GpsUpdater
import Verif.Model.FidUpdater
import Verif.Model.MsckfUpdater

/-!
# The filter together with its updaters

Each sensor object owns an updater and hands its messages to it (`src/sensors/imu.cpp`, `gps.cpp`, `camera.cpp`, with the
trackers in between for cameras).  A `Station` is a filter with the updaters of its sensors; a `Call` is one message, or
one direct call on the filter.  This file adds no behaviour of its own: it only dispatches.
-/

namespace EkfCal

/-- A filter and the updaters of its sensors, each list keyed by the sensor (or tracker) id. -/
structure Station (K : Type) where
  ekf : Ekf K
  imus : UMap ImuUpdater
  gpss : UMap (GpsUpdater K)
  fids : UMap (FidUpdater K)
  cams : UMap (MsckfUpdater K)

/-- One event. -/
inductive Call (K : Type)
  /-- a direct call on the filter -/
  | filter (op : Ekf.Op K)
  /-- creation of an updater by a sensor constructor; keys are unique (sensor.cpp counts them up), so a second creation
  under the same key does nothing -/
  | newImu (key id : Nat) (isExtrinsic isIntrinsic : Bool)
  | newGps (key id : Nat) (isExtrinsic : Bool)
  | newFid (key id cameraId : Nat) (fidExt camExt : Bool)
  | newCam (key id : Nat) (isExtrinsic : Bool) (minDist : K)
  /-- a message (imu.cpp `IMU::Callback`, gps.cpp `GPS::Callback`, the trackers' calls of `UpdateEKF`) -/
  | imu (key : Nat) (time : K) (acc : V3 K) (accCov : M3 K) (omg : V3 K) (omgCov : M3 K)
  | gps (key : Nat) (time : K) (lla : V3 K) (cov : Mat K)
  | fid (key : Nat) (time : K) (d : BoardDetection K)
  | cam (key : Nat) (time : K) (intr : Intrinsics K) (fs : List (FeatureTrack K)) (pxError : K)

namespace Station
variable {K : Type} [Field K] [LinearOrder K]

/-- A filter without sensors. -/
def init (N : Num K) (p : EkfParams K) : Station K := ⟨Ekf.init N.toPrim p, [], [], [], []⟩

/-- The station after one event.  A message for an unknown sensor is dropped (ekf_cal_node.cpp: the callbacks look the id
up and warn). -/
def step (N : Num K) (G : GpsNum K) (s : Station K) : Call K → Res (Station K)
  | .filter op => do pure { s with ekf := ← s.ekf.step N.toPrim op }
  | .newImu k id ext int => pure <| if (s.imus.find? k).isSome then s else { s with imus := s.imus.insert k (ImuUpdater.new id ext int) }
  | .newGps k id ext => pure <| if (s.gpss.find? k).isSome then s else { s with gpss := s.gpss.insert k (GpsUpdater.new id ext) }
  | .newFid k id cam fe ce => pure <| if (s.fids.find? k).isSome then s else { s with fids := s.fids.insert k (FidUpdater.new id cam fe ce) }
  | .newCam k id ext d => pure <| if (s.cams.find? k).isSome then s else { s with cams := s.cams.insert k (MsckfUpdater.new id ext d) }
  | .imu k t a ac w wc =>
    match s.imus.find? k with
    | none => pure s
    | some u => do
      let r ← u.update N s.ekf t a ac w wc
      pure { s with ekf := r.2, imus := s.imus.insert k r.1 }
  | .gps k t x c =>
    match s.gpss.find? k with
    | none => pure s
    | some u => do
      let r ← u.update N G s.ekf t x c
      pure { s with ekf := r.2, gpss := s.gpss.insert k r.1 }
  | .fid k t d =>
    match s.fids.find? k with
    | none => pure s
    | some u => do
      let r ← u.update N s.ekf t d
      pure { s with ekf := r.2, fids := s.fids.insert k r.1 }
  | .cam k t i fs px =>
    match s.cams.find? k with
    | none => pure s
    | some u => do
      let r ← u.update N s.ekf t i fs px
      pure { s with ekf := r.2, cams := s.cams.insert k r.1 }

/-- The station after a sequence of events. -/
def run (N : Num K) (G : GpsNum K) (s : Station K) : List (Call K) → Res (Station K)
  | [] => .ok s
  | c :: cs => do
    let s ← s.step N G c
    run N G s cs

end Station
end EkfCal
