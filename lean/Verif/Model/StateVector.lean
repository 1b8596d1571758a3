import Verif.Model.Types

/-!
# Model of the vector export and import in `src/ekf/types.cpp`, and of its component-level `+=` operators
-/

namespace EkfCal
variable {K : Type} [Field K]

/-- `v.segment(i, w.size()) = w` (Eigen). -/
def Vec.put (v : Vec K) (i : Nat) (w : Vec K) : Res (Vec K) :=
  if i + w.size ≤ v.size then
    .ok ⟨v.size, fun k => if i ≤ k ∧ k < i + w.size then w.get (k - i) else v.get k⟩
  else .error .outOfRange

/-- A vector filled by consecutive `segment<3>` assignments from index 0 on (zero beyond them). -/
def Vec.ofV3s (l : List (V3 K)) : Vec K := ⟨3 * l.length, fun k => (l.getD (k / 3) 0) (Fin.ofNat 3 k)⟩

/-- types.cpp:220-232 `BodyState::ToVector` -/
def BodyState.toVector (N : Prim K) (b : BodyState K) : Vec K :=
  .ofV3s [b.pos, b.vel, b.acc, N.quatToRotVec b.ang, b.angVel, b.angAcc]

/-- types.cpp:234-242 `CamState::ToVector` -/
def CamState.toVector (N : Prim K) (s : CamState K) : Vec K := .ofV3s [s.pos, N.quatToRotVec s.ang]

/-- types.cpp:244-252 `AugState::ToVector` -/
def AugState.toVector (N : Prim K) (s : AugState K) : Vec K := .ofV3s [s.pos, N.quatToRotVec s.ang]

/-- types.cpp:254-271 `ImuState::ToVector`: a zero vector of the stored size, then the segments. -/
def ImuState.toVector (N : Prim K) (s : ImuState K) : Res (Vec K) :=
  let parts := (if s.isExtrinsic then [s.pos, N.quatToRotVec s.ang] else []) ++
    (if s.isIntrinsic then [s.accBias, s.omgBias] else [])
  if 3 * parts.length ≤ s.size then .ok ⟨s.size, (Vec.ofV3s parts).get⟩ else .error .outOfRange

/-- types.cpp:273-276 `GpsState::ToVector` -/
def GpsState.toVector (s : GpsState K) : Vec K := .ofV3s [s.pos]

/-- types.cpp:278-288 `FidState::ToVector` -/
def FidState.toVector (N : Prim K) (s : FidState K) : Res (Vec K) :=
  let parts := if s.isExtrinsic then [s.pos, N.quatToRotVec s.ang] else []
  if 3 * parts.length ≤ s.size then .ok ⟨s.size, (Vec.ofV3s parts).get⟩ else .error .outOfRange

/-- types.cpp:386-420 `State::GetStateSize` (line 417 counts the windows, not the clones) -/
def State.getStateSize (s : State K) : Nat :=
  bodySize
    + (s.imus.map fun x => (if x.2.isExtrinsic then imuExtSize else 0) + (if x.2.isIntrinsic then imuIntSize else 0)).sum
    + (s.gpss.map fun x => if x.2.isExtrinsic then gpsExtSize else 0).sum
    + (s.cams.map fun x => if x.2.isExtrinsic then camExtSize else 0).sum
    + (s.fids.map fun x => if x.2.isExtrinsic then fidExtSize else 0).sum
    + augSize * s.augs.length

/-- A loop that writes the vectors of its elements one after the other; `none` skips the element
(types.cpp:308-342). -/
def putEach {α : Type} (f : α → Res (Option (Vec K))) : List α → Vec K → Nat → Res (Vec K × Nat)
  | [], v, i => .ok (v, i)
  | a :: l, v, i => do
    match ← f a with
    | none => putEach f l v i
    | some w => do
      let v ← v.put i w
      putEach f l v (i + w.size)

/-- types.cpp:308-314: body of the IMU loop (line 309 tests `GetIsExtrinsic` twice) -/
def ImuState.chunk (N : Prim K) (s : ImuState K) : Res (Option (Vec K)) :=
  if s.isExtrinsic || s.isExtrinsic then do pure (some (← s.toVector N)) else pure none
/-- types.cpp:316-321: body of the GPS loop -/
def GpsState.chunk (s : GpsState K) : Res (Option (Vec K)) :=
  pure (if s.isExtrinsic then some (.ofV3s [s.pos]) else none)
/-- types.cpp:323-328: body of the camera loop -/
def CamState.chunk (N : Prim K) (s : CamState K) : Res (Option (Vec K)) :=
  pure (if s.isExtrinsic then some (s.toVector N) else none)
/-- types.cpp:330-335: body of the fiducial loop; the fixed-size segment needs a vector of six entries -/
def FidState.chunk (N : Prim K) (s : FidState K) : Res (Option (Vec K)) :=
  if s.isExtrinsic then do
    let w ← s.toVector N
    if w.size = fidExtSize then pure (some w) else .error .sizeMismatch
  else pure none

/-- types.cpp:301-345 `State::ToVector` (the two nested clone loops as one loop over all clones) -/
def State.toVector (N : Prim K) (s : State K) : Res (Vec K) := do
  let v ← (⟨s.getStateSize, fun _ => 0⟩ : Vec K).put 0 (s.body.toVector N)
  let (v, i) ← putEach (fun x => x.2.chunk N) s.imus v bodySize
  let (v, i) ← putEach (fun x => x.2.chunk) s.gpss v i
  let (v, i) ← putEach (fun x => x.2.chunk N) s.cams v i
  let (v, i) ← putEach (fun x => x.2.chunk N) s.fids v i
  let (v, _) ← putEach (fun x => pure (some (x.toVector N))) (s.augs.flatMap (·.2)) v i
  pure v

/-- types.cpp:290-298 `BodyState::SetState` -/
def BodyState.setState (N : Prim K) (b : BodyState K) (v : Vec K) : Res (BodyState K) := do
  let p ← v.segment3 0
  let w ← v.segment3 3
  let a ← v.segment3 6
  let q ← v.segment3 9
  let o ← v.segment3 12
  let l ← v.segment3 15
  pure { b with pos := p, vel := w, acc := a, ang := N.rotVecToQuat q, angVel := o, angAcc := l }

/-- types.cpp:353-362 with 422-432: body of the IMU loop -/
def ImuState.setAt (N : Prim K) (s : ImuState K) (v : Vec K) (idx : Nat) : Res (ImuState K × Nat) := do
  let (s, idx) ← if s.isExtrinsic then do
      let p ← v.segment3 (idx + 0)
      let q ← v.segment3 (idx + 3)
      pure ({ s with pos := p, ang := N.rotVecToQuat q }, idx + imuExtSize)
    else pure (s, idx)
  if s.isIntrinsic then do
    let a ← v.segment3 (idx + 0)
    let o ← v.segment3 (idx + 3)
    pure ({ s with accBias := a, omgBias := o }, idx + imuIntSize)
  else pure (s, idx)

/-- types.cpp:364-369: body of the GPS loop -/
def GpsState.setAt (s : GpsState K) (v : Vec K) (idx : Nat) : Res (GpsState K × Nat) :=
  if s.isExtrinsic then do
    let p ← v.segment3 idx
    pure ({ s with pos := p }, idx + gpsExtSize)
  else pure (s, idx)

/-- types.cpp:371-376 with 471-475: body of the camera loop -/
def CamState.setAt (N : Prim K) (s : CamState K) (v : Vec K) (idx : Nat) : Res (CamState K × Nat) :=
  if s.isExtrinsic then do
    let p ← v.segment3 (idx + 0)
    let q ← v.segment3 (idx + 3)
    pure ({ s with pos := p, ang := N.rotVecToQuat q }, idx + camExtSize)
  else pure (s, idx)

/-- types.cpp:378-383 with 514-518: body of the fiducial loop -/
def FidState.setAt (N : Prim K) (s : FidState K) (v : Vec K) (idx : Nat) : Res (FidState K × Nat) :=
  if s.isExtrinsic then do
    let p ← v.segment3 (idx + 0)
    let q ← v.segment3 (idx + 3)
    pure ({ s with pos := p, ang := N.rotVecToQuat q }, idx + fidExtSize)
  else pure (s, idx)

/-- types.cpp:347-384 `State::SetState`: clones are not assigned -/
def State.setState (N : Prim K) (s : State K) (v : Vec K) : Res (State K) := do
  let body ← s.body.setState N (← v.segment 0 bodySize)
  let (imus, idx) ← loopMap (fun x i => ImuState.setAt N x v i) s.imus bodySize
  let (gpss, idx) ← loopMap (fun x i => GpsState.setAt x v i) s.gpss idx
  let (cams, idx) ← loopMap (fun x i => CamState.setAt N x v i) s.cams idx
  let (fids, _) ← loopMap (fun x i => FidState.setAt N x v i) s.fids idx
  pure ⟨body, imus, gpss, cams, fids, s.augs⟩

/-! ## Component-level `+=` -/

/-- types.cpp:152-168 `ImuState += VectorXd` -/
def ImuState.addVec (N : Prim K) (s : ImuState K) (v : Vec K) : Res (ImuState K) := do
  pure (← s.addVecAt N v 0).1

/-- types.cpp:170-190 `map<ImuState> += VectorXd` -/
def imuMapAddVec (N : Prim K) (m : UMap (ImuState K)) (v : Vec K) : Res (UMap (ImuState K)) := do
  pure (← loopMap (fun x i => ImuState.addVecAt N x v i) m 0).1

/-- types.cpp:192-204 `map<CamState> += VectorXd`: neither tests the flag nor advances the index -/
def camMapAddVec (N : Prim K) (m : UMap (CamState K)) (v : Vec K) : Res (UMap (CamState K)) := do
  pure (← loopMap (fun s idx => do
    let p ← v.segment3 (idx + 0)
    let q ← v.segment3 (idx + 3)
    pure ({ s with pos := s.pos + p, ang := s.ang.mul (N.rotVecToQuat q) }, idx)) m 0).1

/-- types.cpp:207-217 `vector<AugState> += VectorXd` -/
def augVecAddVec (N : Prim K) (w : List (AugState K)) (v : Vec K) : Res (List (AugState K)) := do
  pure (← loopIdx (fun x i => AugState.addVecAt N x v i) w 0).1

/-! ## `State += State` (types.cpp:26-36 and 50-92); the two operands are taken to be different objects -/

/-- types.cpp:26-36 `BodyState += BodyState` -/
def BodyState.addBody (l r : BodyState K) : BodyState K :=
  { l with
    pos := l.pos + r.pos, vel := l.vel + r.vel, acc := l.acc + r.acc, ang := r.ang.mul l.ang
    angVel := l.angVel + r.angVel, angAcc := l.angAcc + r.angAcc }

/-- types.cpp:56-60: body of the IMU loop -/
def ImuState.addImu (l r : ImuState K) : ImuState K :=
  { l with pos := l.pos + r.pos, ang := r.ang.mul l.ang, accBias := l.accBias + r.accBias, omgBias := l.omgBias + r.omgBias }
/-- types.cpp:65: body of the GPS loop -/
def GpsState.addGps (l r : GpsState K) : GpsState K := { l with pos := l.pos + r.pos }
/-- types.cpp:70-72: body of the camera loop -/
def CamState.addCam (l r : CamState K) : CamState K := { l with pos := l.pos + r.pos, ang := r.ang.mul l.ang }
/-- types.cpp:77-79: body of the fiducial loop -/
def FidState.addFid (l r : FidState K) : FidState K := { l with pos := l.pos + r.pos, ang := r.ang.mul l.ang }
/-- types.cpp:85-87: body of the inner clone loop -/
def AugState.addAug (l r : AugState K) : AugState K := { l with pos := l.pos + r.pos, ang := r.ang.mul l.ang }

/-- One loop over the left map; `r[id]` gives the right operand a default entry when it has none
(types.cpp:54-80). -/
def addEach {α : Type} (add : α → α → α) (dflt : α) : UMap α → UMap α → UMap α × UMap α
  | [], r => ([], r)
  | (k, a) :: l, r =>
    let b := r.getD k dflt
    let out := addEach add dflt l (r.touch k dflt)
    ((k, add a b) :: out.1, out.2)

/-- types.cpp:75-80: the fiducial loop; a default fiducial has no initialised pose (types.hpp:345-346) -/
def addFids : UMap (FidState K) → UMap (FidState K) → Res (UMap (FidState K))
  | [], _ => .ok []
  | (k, a) :: l, r =>
    match r.find? k with
    | none => .error .uninitialised
    | some b => do
      let out ← addFids l r
      pure ((k, a.addFid b) :: out)

/-- types.cpp:84-88: the inner clone loop reads the right window at every index of the left one -/
def addWindow : List (AugState K) → List (AugState K) → Res (List (AugState K))
  | [], _ => .ok []
  | _ :: _, [] => .error .outOfRange
  | a :: l, b :: r => do
    let out ← addWindow l r
    pure (a.addAug b :: out)

/-- types.cpp:82-89: the outer clone loop -/
def addWindows : UMap (List (AugState K)) → UMap (List (AugState K)) →
    Res (UMap (List (AugState K)) × UMap (List (AugState K)))
  | [], r => .ok ([], r)
  | (k, w) :: l, r => do
    let r' := match w with | [] => r | _ :: _ => r.touch k []
    let w' ← addWindow w (r.getD k [])
    let (out, r'') ← addWindows l r'
    pure ((k, w') :: out, r'')

/-- types.cpp:50-92 `State += State`: the left and the right operand afterwards -/
def State.addState (l r : State K) : Res (State K × State K) := do
  let imus := addEach ImuState.addImu ImuState.default l.imus r.imus
  let gpss := addEach GpsState.addGps GpsState.default l.gpss r.gpss
  let cams := addEach CamState.addCam CamState.default l.cams r.cams
  let fids ← addFids l.fids r.fids
  let augs ← addWindows l.augs r.augs
  pure (⟨l.body.addBody r.body, imus.1, gpss.1, cams.1, fids, augs.1⟩,
    ⟨r.body, imus.2, gpss.2, cams.2, r.fids, augs.2⟩)

end EkfCal
