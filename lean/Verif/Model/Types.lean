import Verif.Model.Prim

/-!
# Model of `src/ekf/types.hpp`, `src/ekf/types.cpp` and `src/ekf/constants.hpp`
-/

namespace EkfCal

/-! constants.hpp:22-31 -/
/-- constants.hpp `g_body_state_size` -/
def bodySize : Nat := 18
/-- constants.hpp `g_imu_extrinsic_state_size` -/
def imuExtSize : Nat := 6
/-- constants.hpp `g_imu_intrinsic_state_size` -/
def imuIntSize : Nat := 6
/-- constants.hpp `g_gps_extrinsic_state_size` -/
def gpsExtSize : Nat := 3
/-- constants.hpp `g_cam_extrinsic_state_size` -/
def camExtSize : Nat := 6
/-- constants.hpp `g_aug_state_size` -/
def augSize : Nat := 6
/-- constants.hpp `g_fid_extrinsic_state_size` -/
def fidExtSize : Nat := 6

/-- types.hpp:36-43 `AugmentationType` -/
inductive AugType | none | all | primary | time | error
  deriving DecidableEq, Repr

/-- types.hpp:413-418 `GpsInitType` -/
inductive GpsInit | constant | baselineDist | errorThreshold
  deriving DecidableEq, Repr

/-- types.hpp:80-108 `BodyState` (the constant member `size` omitted) -/
structure BodyState (K : Type) where
  pos : V3 K
  vel : V3 K
  acc : V3 K
  ang : Quat K
  angVel : V3 K
  angAcc : V3 K
  index : Nat

/-- types.hpp:113-172 `ImuState` -/
structure ImuState (K : Type) where
  posStability : K
  angStability : K
  accBiasStability : K
  omgBiasStability : K
  pos : V3 K
  ang : Quat K
  accBias : V3 K
  omgBias : V3 K
  size : Nat
  index : Nat
  indexIntrinsic : Nat
  indexExtrinsic : Nat
  isExtrinsic : Bool
  isIntrinsic : Bool

/-- types.hpp:177-207 `GpsState` -/
structure GpsState (K : Type) where
  pos : V3 K
  posStability : K
  size : Nat
  index : Nat
  isExtrinsic : Bool

/-- types.hpp:212-230 `AugState` (the constant member `size` omitted) -/
structure AugState (K : Type) where
  frameId : Nat
  time : K
  pos : V3 K
  ang : Quat K
  index : Nat
  alpha : K

/-- types.hpp:235-274 `CamState` (camera intrinsics omitted here; they are in `Model/Camera.lean`) -/
structure CamState (K : Type) where
  posStability : K
  angStability : K
  pos : V3 K
  ang : Quat K
  rate : K
  size : Nat
  index : Nat
  isExtrinsic : Bool

/-- types.hpp:317-356 `FidState` -/
structure FidState (K : Type) where
  frameId : Nat
  pos : V3 K
  ang : Quat K
  posStability : K
  angStability : K
  size : Nat
  index : Nat
  id : Nat
  isExtrinsic : Bool

/-- types.hpp:362-394 `State` -/
structure State (K : Type) where
  body : BodyState K
  imus : UMap (ImuState K)
  gpss : UMap (GpsState K)
  cams : UMap (CamState K)
  fids : UMap (FidState K)
  augs : UMap (List (AugState K))

section Defaults
variable {K : Type} [Field K]

/-- constants.hpp `g_gravity` = (0, 0, 9.80665) -/
def gravity : V3 K := ![0, 0, 980665 / 100000]

/-- types.hpp:100-107: default `BodyState` -/
def BodyState.default : BodyState K :=
  ⟨0, 0, gravity, Quat.one, 0, 0, 0⟩

/-- types.hpp:155-171: default `ImuState` -/
def ImuState.default : ImuState K :=
  ⟨1 / 10 ^ 9, 1 / 10 ^ 9, 1 / 10 ^ 9, 1 / 10 ^ 9, 0, Quat.one, 0, 0, 0, 0, 0, 0, false, false⟩

/-- types.hpp:199-206: default `GpsState` -/
def GpsState.default : GpsState K := ⟨0, 1 / 10 ^ 9, 0, 0, false⟩

/-- types.hpp:223-229: default `AugState` -/
def AugState.default : AugState K := ⟨0, 0, 0, Quat.one, 0, 0⟩

/-- types.hpp:262-273: default `CamState` -/
def CamState.default : CamState K := ⟨1 / 10 ^ 9, 1 / 10 ^ 9, 0, Quat.one, 1, 0, 0, false⟩

/-- types.hpp:388-393: default `State` -/
def State.default : State K := ⟨BodyState.default, [], [], [], [], []⟩

end Defaults

section Setters
variable {K : Type}

/-- types.cpp:489-494 `ImuState::refresh_size` -/
def ImuState.refreshSize (s : ImuState K) : ImuState K :=
  { s with size := (if s.isExtrinsic then imuExtSize else 0) + (if s.isIntrinsic then imuIntSize else 0) }

/-- types.cpp:459-463 `ImuState::SetIsExtrinsic` -/
def ImuState.setIsExtrinsic (s : ImuState K) (b : Bool) : ImuState K :=
  ({ s with isExtrinsic := b }).refreshSize

/-- types.cpp:483-487 `ImuState::SetIsIntrinsic` -/
def ImuState.setIsIntrinsic (s : ImuState K) (b : Bool) : ImuState K :=
  ({ s with isIntrinsic := b }).refreshSize

/-- types.cpp:477-481 and 502-506 `GpsState::SetIsExtrinsic` -/
def GpsState.setIsExtrinsic (s : GpsState K) (b : Bool) : GpsState K :=
  { s with isExtrinsic := b, size := if b then gpsExtSize else 0 }

/-- types.cpp:465-469 and 496-500 `CamState::SetIsExtrinsic` -/
def CamState.setIsExtrinsic (s : CamState K) (b : Bool) : CamState K :=
  { s with isExtrinsic := b, size := if b then camExtSize else 0 }

/-- types.cpp:508-512 and 520-524 `FidState::SetIsExtrinsic` (line 523 uses the IMU constant) -/
def FidState.setIsExtrinsic (s : FidState K) (b : Bool) : FidState K :=
  { s with isExtrinsic := b, size := if b then imuExtSize else 0 }

end Setters

section Add
variable {K : Type} [Field K]

/-- types.cpp:38-48 `BodyState += VectorXd` -/
def BodyState.addVec (N : Prim K) (b : BodyState K) (v : Vec K) : Res (BodyState K) := do
  let p ← v.segment3 0
  let w ← v.segment3 3
  let a ← v.segment3 6
  let q ← v.segment3 9
  let o ← v.segment3 12
  let l ← v.segment3 15
  pure { b with
    pos := b.pos + p
    vel := b.vel + w
    acc := b.acc + a
    ang := b.ang.mul (N.rotVecToQuat q)
    angVel := b.angVel + o
    angAcc := b.angAcc + l }

/-- Body of the IMU loop, types.cpp:101-111: the new state and the advanced offset. -/
def ImuState.addVecAt (N : Prim K) (s : ImuState K) (v : Vec K) (idx : Nat) :
    Res (ImuState K × Nat) := do
  let (s, idx) ← if s.isExtrinsic then do
      let p ← v.segment3 (idx + 0)
      let q ← v.segment3 (idx + 3)
      pure ({ s with pos := s.pos + p, ang := s.ang.mul (N.rotVecToQuat q) }, idx + imuExtSize)
    else pure (s, idx)
  if s.isIntrinsic then do
    let a ← v.segment3 (idx + 0)
    let o ← v.segment3 (idx + 3)
    pure ({ s with accBias := s.accBias + a, omgBias := s.omgBias + o }, idx + imuIntSize)
  else pure (s, idx)

/-- Body of the GPS loop, types.cpp:115-118. -/
def GpsState.addVecAt (s : GpsState K) (v : Vec K) (idx : Nat) : Res (GpsState K × Nat) :=
  if s.isExtrinsic then do
    let p ← v.segment3 idx
    pure ({ s with pos := s.pos + p }, idx + gpsExtSize)
  else pure (s, idx)

/-- Body of the camera loop, types.cpp:122-127. -/
def CamState.addVecAt (N : Prim K) (s : CamState K) (v : Vec K) (idx : Nat) :
    Res (CamState K × Nat) :=
  if s.isExtrinsic then do
    let p ← v.segment3 (idx + 0)
    let q ← v.segment3 (idx + 3)
    pure ({ s with pos := s.pos + p, ang := s.ang.mul (N.rotVecToQuat q) }, idx + camExtSize)
  else pure (s, idx)

/-- Body of the fiducial loop, types.cpp:131-136. -/
def FidState.addVecAt (N : Prim K) (s : FidState K) (v : Vec K) (idx : Nat) :
    Res (FidState K × Nat) :=
  if s.isExtrinsic then do
    let p ← v.segment3 idx
    let q ← v.segment3 (idx + 3)
    pure ({ s with pos := s.pos + p, ang := s.ang.mul (N.rotVecToQuat q) }, idx + fidExtSize)
  else pure (s, idx)

/-- Body of the clone loop, types.cpp:142-145. -/
def AugState.addVecAt (N : Prim K) (s : AugState K) (v : Vec K) (idx : Nat) :
    Res (AugState K × Nat) := do
  let p ← v.segment3 (idx + 0)
  let q ← v.segment3 (idx + 3)
  pure ({ s with pos := s.pos + p, ang := s.ang.mul (N.rotVecToQuat q) }, idx + augSize)

end Add

/-- A loop `for (auto & x : list) { body; idx += …; }` that rewrites every element and threads an offset. -/
def loopIdx {α : Type} (f : α → Nat → Res (α × Nat)) : List α → Nat → Res (List α × Nat)
  | [], idx => .ok ([], idx)
  | a :: rest, idx => do
    let (a', idx) ← f a idx
    let (rest', idx) ← loopIdx f rest idx
    pure (a' :: rest', idx)

/-- The same loop over the values of a `std::map`. -/
def loopMap {α : Type} (f : α → Nat → Res (α × Nat)) (m : UMap α) (idx : Nat) :
    Res (UMap α × Nat) :=
  loopIdx (fun (kv : Nat × α) i => do
    let (v, i) ← f kv.2 i
    pure ((kv.1, v), i)) m idx

/-- types.cpp:94-150 `State += VectorXd` -/
def State.addVec {K : Type} [Field K] (N : Prim K) (s : State K) (v : Vec K) : Res (State K) := do
  let bodyPart ← v.segment 0 bodySize
  let body ← s.body.addVec N bodyPart
  let (imus, idx) ← loopMap (fun x i => ImuState.addVecAt N x v i) s.imus bodySize
  let (gpss, idx) ← loopMap (fun x i => GpsState.addVecAt x v i) s.gpss idx
  let (cams, idx) ← loopMap (fun x i => CamState.addVecAt N x v i) s.cams idx
  let (fids, idx) ← loopMap (fun x i => FidState.addVecAt N x v i) s.fids idx
  let (augs, _) ← loopMap (fun w i => loopIdx (fun x i => AugState.addVecAt N x v i) w i) s.augs idx
  pure ⟨body, imus, gpss, cams, fids, augs⟩

end EkfCal
