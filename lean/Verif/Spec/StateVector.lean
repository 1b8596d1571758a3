import Verif.Model.StateVector
import Verif.Spec.Layout
import Verif.Spec.Correct

/-!
# Specification: a state written as a vector, and read back

Orientations appear in the vector as rotation vectors.
-/

namespace EkfCal
variable {K : Type} [Field K]

/-- The vector shows a pose from index `i` on. -/
def Vec.ShowsPose (N : Prim K) (v : Vec K) (i : Nat) (p : V3 K) (q : Quat K) : Prop :=
  v.at3 i = p ∧ v.at3 (i + 3) = N.quatToRotVec q

/-- The body's quantities stand from its index on. -/
def BodyState.Shown (N : Prim K) (v : Vec K) (b : BodyState K) : Prop :=
  v.at3 b.index = b.pos ∧ v.at3 (b.index + 3) = b.vel ∧ v.at3 (b.index + 6) = b.acc ∧
  v.at3 (b.index + 9) = N.quatToRotVec b.ang ∧ v.at3 (b.index + 12) = b.angVel ∧ v.at3 (b.index + 15) = b.angAcc

/-- The estimated quantities of an IMU stand at its published indices. -/
def ImuState.Shown (N : Prim K) (v : Vec K) (s : ImuState K) : Prop :=
  (s.isExtrinsic = true → v.ShowsPose N s.indexExtrinsic s.pos s.ang) ∧
  (s.isIntrinsic = true → v.at3 s.indexIntrinsic = s.accBias ∧ v.at3 (s.indexIntrinsic + 3) = s.omgBias)

/-- The estimated quantities of every component stand at the published indices. -/
structure State.Shown (N : Prim K) (v : Vec K) (s : State K) : Prop where
  body : s.body.Shown N v
  imus : ∀ x ∈ s.imus, x.2.Shown N v
  gpss : ∀ x ∈ s.gpss, x.2.isExtrinsic = true → v.at3 x.2.index = x.2.pos
  cams : ∀ x ∈ s.cams, x.2.isExtrinsic = true → v.ShowsPose N x.2.index x.2.pos x.2.ang
  fids : ∀ x ∈ s.fids, x.2.isExtrinsic = true → v.ShowsPose N x.2.index x.2.pos x.2.ang
  augs : ∀ x ∈ s.augs, ∀ a ∈ x.2, v.ShowsPose N a.index a.pos a.ang

/-- IMU with its estimated quantities replaced by the entries at its indices. -/
def ImuState.imported (N : Prim K) (v : Vec K) (s : ImuState K) : ImuState K :=
  { s with
    pos := if s.isExtrinsic then v.at3 s.indexExtrinsic else s.pos
    ang := if s.isExtrinsic then N.rotVecToQuat (v.at3 (s.indexExtrinsic + 3)) else s.ang
    accBias := if s.isIntrinsic then v.at3 s.indexIntrinsic else s.accBias
    omgBias := if s.isIntrinsic then v.at3 (s.indexIntrinsic + 3) else s.omgBias }
/-- GPS antenna. -/
def GpsState.imported (v : Vec K) (s : GpsState K) : GpsState K :=
  { s with pos := if s.isExtrinsic then v.at3 s.index else s.pos }
/-- Camera. -/
def CamState.imported (N : Prim K) (v : Vec K) (s : CamState K) : CamState K :=
  { s with
    pos := if s.isExtrinsic then v.at3 s.index else s.pos
    ang := if s.isExtrinsic then N.rotVecToQuat (v.at3 (s.index + 3)) else s.ang }
/-- Fiducial. -/
def FidState.imported (N : Prim K) (v : Vec K) (s : FidState K) : FidState K :=
  { s with
    pos := if s.isExtrinsic then v.at3 s.index else s.pos
    ang := if s.isExtrinsic then N.rotVecToQuat (v.at3 (s.index + 3)) else s.ang }
/-- Body. -/
def BodyState.imported (N : Prim K) (v : Vec K) (b : BodyState K) : BodyState K :=
  { b with
    pos := v.at3 b.index
    vel := v.at3 (b.index + 3)
    acc := v.at3 (b.index + 6)
    ang := N.rotVecToQuat (v.at3 (b.index + 9))
    angVel := v.at3 (b.index + 12)
    angAcc := v.at3 (b.index + 15) }
/-- What importing does to a state: everything estimated is replaced, except that clones keep their values. -/
def State.imported (N : Prim K) (v : Vec K) (s : State K) : State K where
  body := s.body.imported N v
  imus := UMap.mapVal (ImuState.imported N v) s.imus
  gpss := UMap.mapVal (GpsState.imported v) s.gpss
  cams := UMap.mapVal (CamState.imported N v) s.cams
  fids := UMap.mapVal (FidState.imported N v) s.fids
  augs := s.augs

/-- Same keys, flags and indices: a state of the same structure. -/
structure State.SameStructure (s t : State K) : Prop where
  body : s.body.index = t.body.index
  imus : List.Forall₂ (fun x y : Nat × ImuState K => x.1 = y.1 ∧ x.2.isExtrinsic = y.2.isExtrinsic ∧
    x.2.isIntrinsic = y.2.isIntrinsic ∧ x.2.indexExtrinsic = y.2.indexExtrinsic ∧
    x.2.indexIntrinsic = y.2.indexIntrinsic) s.imus t.imus
  gpss : List.Forall₂ (fun x y : Nat × GpsState K => x.1 = y.1 ∧ x.2.isExtrinsic = y.2.isExtrinsic ∧
    x.2.index = y.2.index) s.gpss t.gpss
  cams : List.Forall₂ (fun x y : Nat × CamState K => x.1 = y.1 ∧ x.2.isExtrinsic = y.2.isExtrinsic ∧
    x.2.index = y.2.index) s.cams t.cams
  fids : List.Forall₂ (fun x y : Nat × FidState K => x.1 = y.1 ∧ x.2.isExtrinsic = y.2.isExtrinsic ∧
    x.2.index = y.2.index) s.fids t.fids

/-- Same value of everything that is estimated, clones excepted. -/
structure State.SameEstimates (s t : State K) : Prop where
  pos : s.body.pos = t.body.pos
  vel : s.body.vel = t.body.vel
  acc : s.body.acc = t.body.acc
  ang : s.body.ang = t.body.ang
  angVel : s.body.angVel = t.body.angVel
  angAcc : s.body.angAcc = t.body.angAcc
  imus : List.Forall₂ (fun x y : Nat × ImuState K => x.1 = y.1 ∧
    (y.2.isExtrinsic = true → x.2.pos = y.2.pos ∧ x.2.ang = y.2.ang) ∧
    (y.2.isIntrinsic = true → x.2.accBias = y.2.accBias ∧ x.2.omgBias = y.2.omgBias)) s.imus t.imus
  gpss : List.Forall₂ (fun x y : Nat × GpsState K => x.1 = y.1 ∧
    (y.2.isExtrinsic = true → x.2.pos = y.2.pos)) s.gpss t.gpss
  cams : List.Forall₂ (fun x y : Nat × CamState K => x.1 = y.1 ∧
    (y.2.isExtrinsic = true → x.2.pos = y.2.pos ∧ x.2.ang = y.2.ang)) s.cams t.cams
  fids : List.Forall₂ (fun x y : Nat × FidState K => x.1 = y.1 ∧
    (y.2.isExtrinsic = true → x.2.pos = y.2.pos ∧ x.2.ang = y.2.ang)) s.fids t.fids

end EkfCal
