import Verif.Spec.Correct
import Verif.Model.GpsUpdater
import Verif.Model.Station
import Verif.Spec.Update
import Verif.Spec.Optimal

/-!
# Specification: messages with the same time
-/

namespace EkfCal
variable {K : Type} [Field K]

/-- The state without its orientations. -/
def State.plain (s : State K) : State K where
  body := { s.body with ang := Quat.one }
  imus := UMap.mapVal (fun x => { x with ang := Quat.one }) s.imus
  gpss := s.gpss
  cams := UMap.mapVal (fun x => { x with ang := Quat.one }) s.cams
  fids := UMap.mapVal (fun x => { x with ang := Quat.one }) s.fids
  augs := UMap.mapVal (List.map fun x => { x with ang := Quat.one }) s.augs

/-- Two filters with the same time and the same uncertainty, whose estimates are the same except for orientations. -/
structure Ekf.SameButTurned (e f : Ekf K) : Prop where
  time : f.currentTime = e.currentTime
  size : f.stateSize = e.stateSize
  state : f.state.plain = e.state.plain
  cov : ∀ i j, i < e.stateSize → j < e.stateSize → f.P i j = e.P i j

/-- The antenna is registered, sits at the origin of the body and is not calibrated. -/
structure GpsUpdater.Centred (u : GpsUpdater K) (e : Ekf K) : Prop where
  fixed : u.isExtrinsic = false
  kept : u.posAInB = 0
  known : ∃ g, e.state.gpss.find? u.id = some g ∧ g.isExtrinsic = false ∧ g.pos = 0

/-- A message of a sensor. -/
def Call.IsMessage : Call K → Prop
  | .imu .. | .gps .. | .fid .. | .cam .. => True
  | _ => False

end EkfCal
