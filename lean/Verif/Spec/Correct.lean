import Verif.Model.Types

/-!
# Specification: a correction applied to a state

Every estimated quantity moves by the slice of the vector at its published index: vectors additively, orientations by
multiplication from the right with the rotation of the slice.
-/

namespace EkfCal
variable {K : Type}

/-- The three entries from index `i` on. -/
def Vec.at3 (v : Vec K) (i : Nat) : V3 K := ![v.get i, v.get (i + 1), v.get (i + 2)]

variable [Field K]

/-- Orientation moved by a rotation vector. -/
def Quat.moved (N : Prim K) (q : Quat K) (d : V3 K) : Quat K := q.mul (N.rotVecToQuat d)

/-- Body: position, velocity, acceleration, orientation, angular velocity and acceleration from its index on. -/
def BodyState.moved (N : Prim K) (v : Vec K) (b : BodyState K) : BodyState K :=
  { b with
    pos := b.pos + v.at3 b.index
    vel := b.vel + v.at3 (b.index + 3)
    acc := b.acc + v.at3 (b.index + 6)
    ang := b.ang.moved N (v.at3 (b.index + 9))
    angVel := b.angVel + v.at3 (b.index + 12)
    angAcc := b.angAcc + v.at3 (b.index + 15) }

/-- IMU: pose if calibrated extrinsically, biases if calibrated intrinsically. -/
def ImuState.moved (N : Prim K) (v : Vec K) (s : ImuState K) : ImuState K :=
  { s with
    pos := if s.isExtrinsic then s.pos + v.at3 s.indexExtrinsic else s.pos
    ang := if s.isExtrinsic then s.ang.moved N (v.at3 (s.indexExtrinsic + 3)) else s.ang
    accBias := if s.isIntrinsic then s.accBias + v.at3 s.indexIntrinsic else s.accBias
    omgBias := if s.isIntrinsic then s.omgBias + v.at3 (s.indexIntrinsic + 3) else s.omgBias }

/-- GPS antenna position. -/
def GpsState.moved (v : Vec K) (s : GpsState K) : GpsState K :=
  { s with pos := if s.isExtrinsic then s.pos + v.at3 s.index else s.pos }

/-- Camera pose. -/
def CamState.moved (N : Prim K) (v : Vec K) (s : CamState K) : CamState K :=
  { s with
    pos := if s.isExtrinsic then s.pos + v.at3 s.index else s.pos
    ang := if s.isExtrinsic then s.ang.moved N (v.at3 (s.index + 3)) else s.ang }

/-- Fiducial pose. -/
def FidState.moved (N : Prim K) (v : Vec K) (s : FidState K) : FidState K :=
  { s with
    pos := if s.isExtrinsic then s.pos + v.at3 s.index else s.pos
    ang := if s.isExtrinsic then s.ang.moved N (v.at3 (s.index + 3)) else s.ang }

/-- Clone pose (always estimated). -/
def AugState.moved (N : Prim K) (v : Vec K) (s : AugState K) : AugState K :=
  { s with pos := s.pos + v.at3 s.index, ang := s.ang.moved N (v.at3 (s.index + 3)) }

/-- Apply a change to every value of a map; keys stay. -/
def UMap.mapVal {α : Type} (f : α → α) (m : UMap α) : UMap α := m.map fun kv => (kv.1, f kv.2)

/-- The whole state. -/
def State.moved (N : Prim K) (v : Vec K) (s : State K) : State K where
  body := s.body.moved N v
  imus := UMap.mapVal (ImuState.moved N v) s.imus
  gpss := UMap.mapVal (GpsState.moved v) s.gpss
  cams := UMap.mapVal (CamState.moved N v) s.cams
  fids := UMap.mapVal (FidState.moved N v) s.fids
  augs := UMap.mapVal (List.map (AugState.moved N v)) s.augs

end EkfCal
