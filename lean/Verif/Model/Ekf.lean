import Verif.Model.MathHelper
import Verif.Model.Types

/-!
# Model of the filter object: `src/ekf/ekf.hpp`, `src/ekf/ekf.cpp`, `src/ekf/update/updater.cpp`

Not modelled here: writing log lines (see `Model/Logger.lean`), execution-time measurement.
-/

namespace EkfCal

/-- ekf.hpp:390-448: members of `EKF` (loggers omitted).  `augPrevTime` has no initialiser in the C++ class:
`none` means "never written". -/
structure Ekf (K : Type) where
  state : State K
  cov : Mat K
  stateSize : Nat
  imuStateSize : Nat
  gpsStateSize : Nat
  camStateSize : Nat
  augStateSize : Nat
  fidStateSize : Nat
  currentTime : K
  referenceTime : K
  timeInitialized : Bool
  maxTrackLength : Nat
  processNoise : Mat K
  bodyProcessNoise : Vec K
  gpsInitType : GpsInit
  gpsInitPosThresh : K
  gpsInitAngThresh : K
  gpsInitBaselineDist : K
  isLlaInitialized : Bool
  posEInG : V3 K
  angLToE : K
  gpsTimeVec : List K
  gpsEcefVec : List (V3 K)
  gpsXyzVec : List (V3 K)
  augType : AugType
  augPrevTime : Option K
  augDeltaTime : K
  augPosError : K
  augAngError : K
  primaryCameraId : Nat
  maxFramePeriod : K
  maxTrackDuration : K
  minAugPeriod : K
  imuStateStart : Nat
  gpsStateStart : Nat
  camStateStart : Nat
  augStateStart : Nat
  fidStateStart : Nat
  isGravityInitialized : Bool
  motionDetectionChiSquared : K
  imuNoiseScaleFactor : K
  useRoot : Bool
  useFirstEstimate : Bool
  isZeroAcceleration : Bool
  frameReceived : Bool

/-- ekf.hpp:44-67 `EKF::Parameters` (logging members omitted) -/
structure EkfParams (K : Type) where
  augType : AugType
  augDeltaTime : K
  augPosError : K
  augAngError : K
  processNoise : Vec K
  posBInL : V3 K
  angBToL : Quat K
  posEInG : V3 K
  angLToE : K
  gpsInitType : GpsInit
  gpsInitBaselineDist : K
  gpsInitPosThresh : K
  gpsInitAngThresh : K
  motionDetectionChiSquared : K
  imuNoiseScaleFactor : K
  useRoot : Bool
  useFirstEstimate : Bool

namespace Ekf
variable {K : Type} [Field K] [LinearOrder K]

/-- ekf.cpp:37-87 constructor, with the member initialisers of ekf.hpp:390-448. -/
def init (N : Prim K) (p : EkfParams K) : Ekf K :=
  let cov : Mat K := (Mat.identity bodySize bodySize).smul (1 / 100)
  { state := State.default
    cov := if p.useRoot then cov.map N.sqrt else cov
    stateSize := bodySize
    imuStateSize := 0, gpsStateSize := 0, camStateSize := 0, augStateSize := 0, fidStateSize := 0
    currentTime := 0, referenceTime := 0, timeInitialized := false
    maxTrackLength := 20
    processNoise := Mat.zero bodySize bodySize
    bodyProcessNoise := p.processNoise
    gpsInitType := p.gpsInitType
    gpsInitPosThresh := p.gpsInitPosThresh
    gpsInitAngThresh := p.gpsInitAngThresh
    gpsInitBaselineDist := p.gpsInitBaselineDist
    isLlaInitialized := p.gpsInitType == GpsInit.constant
    posEInG := p.posEInG
    angLToE := p.angLToE
    gpsTimeVec := [], gpsEcefVec := [], gpsXyzVec := []
    augType := p.augType
    augPrevTime := none
    augDeltaTime := p.augDeltaTime
    augPosError := p.augPosError
    augAngError := p.augAngError
    primaryCameraId := 0
    maxFramePeriod := 0, maxTrackDuration := 0, minAugPeriod := 1
    imuStateStart := 0, gpsStateStart := 0, camStateStart := 0, augStateStart := 0, fidStateStart := 0
    isGravityInitialized := false
    motionDetectionChiSquared := p.motionDetectionChiSquared
    imuNoiseScaleFactor := p.imuNoiseScaleFactor
    useRoot := p.useRoot
    useFirstEstimate := p.useFirstEstimate
    isZeroAcceleration := true
    frameReceived := true }

/-! ## RefreshIndices (ekf.cpp:680-757)

`m_process_noise` only ever receives multiples of the identity on diagonal blocks, so while it is being built the model
keeps its diagonal `d : Nat → K`. -/

/-- `m_process_noise.block<3, 3>(i, i) = Identity * v` in an `n`×`n` matrix, on the diagonal (ekf.cpp:694-740). -/
def put3 (n : Nat) (d : Nat → K) (i : Nat) (v : K) : Res (Nat → K) :=
  if i + 3 ≤ n then .ok (fun k => if i ≤ k ∧ k < i + 3 then v else d k) else .error .outOfRange

/-- Loop state of `RefreshIndices`: `current_index` and the diagonal written so far (ekf.cpp:682-688). -/
abbrev Refresh (K : Type) := Nat × (Nat → K)

/-- Loop over map values threading the `Refresh` state: the loops of ekf.cpp:691-743. -/
def refreshLoop {α : Type} (f : α → Refresh K → Res (α × Refresh K)) :
    UMap α → Refresh K → Res (UMap α × Refresh K)
  | [], r => .ok ([], r)
  | (k, a) :: rest, r => do
    let (a', r) ← f a r
    let (rest', r) ← refreshLoop f rest r
    pure ((k, a') :: rest', r)

/-- ekf.cpp:692-708 -/
def refreshImu (n : Nat) (s : ImuState K) (r : Refresh K) : Res (ImuState K × Refresh K) := do
  let s := { s with index := r.1 }
  let (s, r) ← if s.isExtrinsic then do
      let d ← put3 n r.2 (r.1 + 0) s.posStability
      let d ← put3 n d (r.1 + 3) s.angStability
      pure ({ s with indexExtrinsic := r.1 }, (r.1 + imuExtSize, d))
    else pure (s, r)
  if s.isIntrinsic then do
    let d ← put3 n r.2 (r.1 + 0) s.accBiasStability
    let d ← put3 n d (r.1 + 3) s.omgBiasStability
    pure ({ s with indexIntrinsic := r.1 }, (r.1 + imuIntSize, d))
  else pure (s, r)

/-- ekf.cpp:713-718 -/
def refreshGps (n : Nat) (s : GpsState K) (r : Refresh K) : Res (GpsState K × Refresh K) := do
  let s := { s with index := r.1 }
  if s.isExtrinsic then do
    let d ← put3 n r.2 r.1 s.posStability
    pure (s, (r.1 + gpsExtSize, d))
  else pure (s, r)

/-- ekf.cpp:723-730 -/
def refreshCam (n : Nat) (s : CamState K) (r : Refresh K) : Res (CamState K × Refresh K) := do
  let s := { s with index := r.1 }
  if s.isExtrinsic then do
    let d ← put3 n r.2 (r.1 + 0) s.posStability
    let d ← put3 n d (r.1 + 3) s.angStability
    pure (s, (r.1 + camExtSize, d))
  else pure (s, r)

/-- ekf.cpp:735-742 -/
def refreshFid (n : Nat) (s : FidState K) (r : Refresh K) : Res (FidState K × Refresh K) := do
  let s := { s with index := r.1 }
  if s.isExtrinsic then do
    let d ← put3 n r.2 (r.1 + 0) s.posStability
    let d ← put3 n d (r.1 + 3) s.angStability
    pure (s, (r.1 + fidExtSize, d))
  else pure (s, r)

/-- ekf.cpp:748-751: indices of one clone window -/
def refreshAugList : List (AugState K) → Nat → List (AugState K) × Nat
  | [], i => ([], i)
  | a :: rest, i =>
    let (rest', j) := refreshAugList rest (i + augSize)
    ({ a with index := i } :: rest', j)

/-- ekf.cpp:746-752 -/
def refreshAugs : UMap (List (AugState K)) → Nat → UMap (List (AugState K)) × Nat
  | [], i => ([], i)
  | (k, w) :: rest, i =>
    let (w', i) := refreshAugList w i
    let (rest', i) := refreshAugs rest i
    ((k, w') :: rest', i)

/-- Diagonal matrix with the given diagonal: `m_process_noise`, of which only the diagonal is written (ekf.cpp:686-740). -/
def diagMat (n : Nat) (d : Nat → K) : Mat K := ⟨n, n, fun i j => if i = j then d i else 0⟩

/-- ekf.cpp:680-757 `EKF::RefreshIndices` -/
def refreshIndices (N : Prim K) (e : Ekf K) : Res (Ekf K) := do
  let n := e.stateSize
  let body := { e.state.body with index := 0 }
  guardUB (bodySize ≤ n) .outOfRange                          -- 687: block<18,18>(0,0)
  guardUB (e.bodyProcessNoise.size = bodySize) .sizeMismatch  -- 687-688
  let d0 : Nat → K := fun k => if k < bodySize then e.bodyProcessNoise.get k else 0
  let imuStart := bodySize
  let (imus, r) ← refreshLoop (refreshImu n) e.state.imus (bodySize, d0)
  let gpsStart := r.1
  let (gpss, r) ← refreshLoop (refreshGps n) e.state.gpss r
  let camStart := r.1
  let (cams, r) ← refreshLoop (refreshCam n) e.state.cams r
  let fidStart := r.1
  let (fids, r) ← refreshLoop (refreshFid n) e.state.fids r
  let augStart := r.1
  let (augs, _) := refreshAugs e.state.augs r.1
  let noise := diagMat n r.2
  pure { e with
    state := ⟨body, imus, gpss, cams, fids, augs⟩
    processNoise := if e.useRoot then noise.map N.sqrt else noise
    imuStateStart := imuStart, gpsStateStart := gpsStart, camStateStart := camStart
    fidStateStart := fidStart, augStateStart := augStart }

/-! ## Registration -/

/-- ekf.cpp:252-286 `RegisterIMU` -/
def registerIMU (N : Prim K) (e : Ekf K) (id : Nat) (s : ImuState K) (covariance : Mat K) :
    Res (Ekf K) := do
  if (e.state.imus.find? id).isSome then return e
  let imuEnd := bodySize + e.imuStateSize
  let e := { e with state := { e.state with imus := e.state.imus.insert id s } }
  let e ← if s.isExtrinsic || s.isIntrinsic then do
      let c ← insertInMatrix (← covariance.block 0 0 s.size s.size) e.cov imuEnd imuEnd
      pure { e with cov := c }
    else pure e
  let e := if s.isExtrinsic then
      { e with stateSize := e.stateSize + imuExtSize, imuStateSize := e.imuStateSize + imuExtSize }
    else e
  let e := if s.isIntrinsic then
      { e with stateSize := e.stateSize + imuIntSize, imuStateSize := e.imuStateSize + imuIntSize }
    else e
  refreshIndices N e

/-- ekf.cpp:288-315 `RegisterGPS` (the covariance argument is a fixed 3×3 matrix) -/
def registerGPS (N : Prim K) (e : Ekf K) (id : Nat) (s : GpsState K) (covariance : Mat K) :
    Res (Ekf K) := do
  if (e.state.gpss.find? id).isSome then return e
  let gpsEnd := bodySize + e.imuStateSize + e.gpsStateSize
  let e := { e with state := { e.state with gpss := e.state.gpss.insert id s } }
  let e ← if s.isExtrinsic then do
      let c ← insertInMatrix (← covariance.block 0 0 s.size s.size) e.cov gpsEnd gpsEnd
      pure { e with
        cov := c
        stateSize := e.stateSize + gpsExtSize
        gpsStateSize := e.gpsStateSize + gpsExtSize }
    else pure e
  refreshIndices N e

/-- ekf.cpp:317-354 `RegisterCamera`.  A rate of 0 makes `1 / rate` infinite (`nonFinite`). -/
def registerCamera (N : Prim K) (e : Ekf K) (id : Nat) (s : CamState K) (covariance : Mat K) :
    Res (Ekf K) := do
  if (e.state.cams.find? id).isSome then return e
  guardUB (s.rate ≠ 0) .nonFinite
  let period := max e.maxFramePeriod (1 / s.rate)
  let e := { e with
    maxFramePeriod := period
    maxTrackDuration := period * ((e.maxTrackLength : K) + 1)
    minAugPeriod := min e.minAugPeriod (1 / s.rate) }
  let camEnd := bodySize + e.imuStateSize + e.gpsStateSize + e.camStateSize
  let e := if e.primaryCameraId = 0 then { e with primaryCameraId := id } else e
  let e := { e with state := { e.state with cams := e.state.cams.insert id s } }
  let e ← if s.isExtrinsic then do
      let c ← insertInMatrix (← covariance.block 0 0 s.size s.size) e.cov camEnd camEnd
      pure { e with
        cov := c
        stateSize := e.stateSize + camExtSize
        camStateSize := e.camStateSize + camExtSize }
    else pure e
  refreshIndices N e

/-- ekf.cpp:356-379 `RegisterFiducial` -/
def registerFiducial (N : Prim K) (e : Ekf K) (s : FidState K) (covariance : Mat K) :
    Res (Ekf K) := do
  if (e.state.fids.find? s.id).isSome then return e
  let e := { e with state := { e.state with fids := e.state.fids.insert s.id s } }
  let e ← if s.isExtrinsic then do
      let c ← insertInMatrix (← covariance.block 0 0 s.size s.size) e.cov e.stateSize e.stateSize
      pure { e with
        cov := c
        stateSize := e.stateSize + fidExtSize
        fidStateSize := e.fidStateSize + fidExtSize }
    else pure e
  refreshIndices N e

/-! ## Cloning -/

/-- ekf.cpp:381-434 `AugmentCovariance`.  The last two assignments (429-430) copy rows of the matrix onto other rows
of itself; for `index < 12` source and destination can overlap, which Eigen leaves undefined. -/
def augmentCovariance (useRoot : Bool) (inCov : Mat K) (index : Nat) : Res (Mat K) := do
  let inRows := inCov.rows
  let inCols := inCov.cols
  let outCols := inCols + augSize
  let out := Mat.zero (inRows + augSize) outCols
  if useRoot then
    -- 392
    let out ← out.setBlock 0 0 index index (← inCov.block 0 0 index index)
    -- 395-396
    let out ← out.setBlock 0 index 3 3 (← inCov.block 0 0 3 3)
    let out ← out.setBlock 0 (index + 3) 12 3 (← inCov.block 0 9 12 3)
    -- 399-400
    out.setBlock 0 (index + augSize) inRows (inCols - index)
      (← inCov.block 0 index inRows (inCols - index))
  else
    -- 403
    let out ← out.setBlock 0 0 index index (← inCov.block 0 0 index index)
    -- 406-407
    let out ← out.setBlock 0 (index + augSize) index (inCols - index)
      (← inCov.block 0 index index (inCols - index))
    -- 410-411
    let out ← out.setBlock (index + augSize) 0 (inRows - index) index
      (← inCov.block index 0 (inRows - index) index)
    -- 414-416
    let out ← out.setBlock (index + augSize) (index + augSize) (inRows - index) (inCols - index)
      (← inCov.block index index (inRows - index) (inCols - index))
    -- 419-420
    let out ← out.setBlock 0 (index + 0) index 3 (← inCov.block 0 0 index 3)
    let out ← out.setBlock 0 (index + 3) index 3 (← inCov.block 0 9 index 3)
    -- 423-426
    let out ← out.setBlock (index + augSize) (index + 0) (inRows - index) 3
      (← inCov.block index 0 (inRows - index) 3)
    let out ← out.setBlock (index + augSize) (index + 3) (inRows - index) 3
      (← inCov.block index 9 (inRows - index) 3)
    -- 429-430
    guardUB (12 ≤ index) .aliasing
    let out ← out.setBlock (index + 0) 0 3 outCols (← out.block 0 0 3 outCols)
    out.setBlock (index + 3) 0 3 outCols (← out.block 9 0 3 outCols)

/-- The clone of the current body pose, ekf.cpp:503-507 and 536-540. -/
def newClone (e : Ekf K) (frameId : Nat) : AugState K :=
  { (AugState.default : AugState K) with
    time := e.currentTime
    frameId := frameId
    pos := e.state.body.pos
    ang := e.state.body.ang }

/-- ekf.cpp:515 and 559: `m_cov = AugmentCovariance(m_cov, m_state.aug_states[key].back().index)` -/
def augmentAtBack (e : Ekf K) (key : Nat) : Res (Ekf K) :=
  match (e.state.augs.getD key []).getLast? with
  | none => .error .emptyVector
  | some a => do
    let c ← augmentCovariance e.useRoot e.cov a.index
    pure { e with cov := c }

/-- ekf.cpp:526-567 `AugmentStateIfNeeded(camera_id, frame_id)` -/
def augmentFrame (N : Prim K) (e : Ekf K) (cam frame : Nat) : Res (Ekf K) := do
  let e := { e with frameReceived := true }
  if e.augType = .all ∨ (e.augType = .primary ∧ cam = e.primaryCameraId) then
    let w := e.state.augs.getD cam [] ++ [e.newClone frame]
    let e ← if w.length ≤ e.maxTrackLength then
        pure { e with
          state := { e.state with augs := e.state.augs.insert cam w }
          stateSize := e.stateSize + augSize
          augStateSize := e.augStateSize + augSize }
      else
        match w with
        | [] => .error .emptyVector
        | first :: rest => do
          let c ← removeFromMatrix e.cov first.index first.index augSize
          pure { e with
            state := { e.state with augs := e.state.augs.insert cam rest }
            cov := c }
    let e ← refreshIndices N e
    augmentAtBack e cam
  else
    pure e

/-- ekf.cpp:446-479: is a clone due (time- or error-based cloning)?  The vector accessed is `aug_states[0]`. -/
def cloneDue (N : Prim K) (e : Ekf K) (w : List (AugState K)) : Res Bool :=
  match w.getLast? with
  | none => .ok true
  | some last =>
    match e.augType with
    | .time =>
      match e.augPrevTime with
      | none => .error .uninitialised
      | some prev => .ok (decide (|e.currentTime - prev| > e.augDeltaTime))
    | .error =>
      let dt := e.currentTime - last.time
      if dt > e.maxTrackDuration then .ok true
      else if dt > e.minAugPeriod then
        let b := e.state.body
        let deltaPos : V3 K := b.pos - dt • b.vel - last.pos
        let rotVec : V3 K := ![b.angVel 0 * dt, b.angVel 1 * dt, b.angVel 2 * dt]
        let deltaAng : V3 K := N.quatToRotVec
          ((b.ang.mul (N.rotVecToQuat rotVec).inverse).mul last.ang.inverse)
        .ok (decide (norm3 N deltaPos > e.augPosError ∨ norm3 N deltaAng > e.augAngError))
      else .ok false
    | _ => .ok false

/-- ekf.cpp:483-497: one round of the pruning loop for index `i`. -/
def pruneAt (N : Prim K) (e : Ekf K) (i : Nat) : Res (Ekf K) := do
  let w := e.state.augs.getD 0 []
  match w[i + 1]? with
  | none => .error .outOfRange
  | some next =>
    if e.currentTime - next.time > e.maxTrackDuration ∧ i < w.length then
      match w[i]? with
      | none => .error .outOfRange
      | some a => do
        let e := { e with
          stateSize := e.stateSize - augSize
          augStateSize := e.augStateSize - augSize
          state := { e.state with augs := e.state.augs.insert 0 (w.eraseIdx i) } }
        let c ← removeFromMatrix e.cov a.index a.index augSize
        refreshIndices N { e with cov := c }
    else pure e

/-- ekf.cpp:482-498: `for (int i = size - 2; i >= 0; --i)`; `pruneLoop n` runs `i = n-1, …, 0`. -/
def pruneLoop (N : Prim K) : Nat → Ekf K → Res (Ekf K)
  | 0, e => .ok e
  | i + 1, e => do
    let e ← pruneAt N e i
    pruneLoop N i e

/-- ekf.cpp:436-524 `AugmentStateIfNeeded()` -/
def augmentTimed (N : Prim K) (e : Ekf K) : Res (Ekf K) := do
  if e.augType = .none ∨ e.augType = .all ∨ e.augType = .primary then return e
  let due ← cloneDue N e (e.state.augs.getD 0 [])
  -- `m_state.aug_states[0]` creates the window (448)
  let e := { e with state := { e.state with augs := e.state.augs.touch 0 [] } }
  let e ← pruneLoop N ((e.state.augs.getD 0 []).length - 1) e
  if due = true ∧ e.frameReceived = true then
    let w := e.state.augs.getD 0 []
    let e := { e with
      augPrevTime := some e.currentTime
      state := { e.state with augs := e.state.augs.insert 0 (w ++ [e.newClone 0]) }
      stateSize := e.stateSize + augSize
      augStateSize := e.augStateSize + augSize }
    let e ← refreshIndices N e
    let e ← augmentAtBack e 0
    pure { e with frameReceived := false }
  else
    pure e

/-! ## Prediction -/

/-- ekf.cpp:89-95 `GetStateTransition` -/
def stateTransition (dt : K) : Mat K :=
  ⟨bodySize, bodySize, fun i j =>
    if i < 3 ∧ 3 ≤ j ∧ j < 6 then (if i + 3 = j then dt else 0) else if i = j then 1 else 0⟩

/-- ekf.cpp:136-154: propagation of the body state -/
def predictBody (N : Prim K) (isZeroAcc : Bool) (b : BodyState K) (dt : K) : BodyState K :=
  let accLocal : V3 K := if isZeroAcc then 0 else b.acc - gravity
  let rotVec : V3 K := ![b.angVel 0 * dt, b.angVel 1 * dt, b.angVel 2 * dt]
  let vel := b.vel + dt • accLocal
  let pos := b.pos + dt • vel
  { b with vel := vel, pos := pos, ang := (N.rotVecToQuat rotVec).mul b.ang }

/-- ekf.cpp:156-178: propagation of the covariance -/
def predictCov (N : Prim K) (useRoot : Bool) (stateSize : Nat) (cov noise : Mat K) (dt : K) :
    Res (Mat K) := do
  let F : Mat K := stateTransition dt
  guardUB (bodySize ≤ stateSize) .outOfRange        -- 157: unsigned difference
  let alt := stateSize - bodySize
  if useRoot then
    -- 160-161
    let cov ← cov.setBlock 0 0 bodySize bodySize
      (← (← cov.block 0 0 bodySize bodySize).mul F.transpose)
    -- 163-164
    let cov ← cov.setBlock 0 bodySize bodySize alt (← F.mul (← cov.block 0 bodySize bodySize alt))
    -- 166
    qrStack N cov (noise.smul (N.sqrt dt))
  else
    -- 168: the diagonals must have the same length
    guardUB (min cov.rows cov.cols = min noise.rows noise.cols) .sizeMismatch
    let cov : Mat K := ⟨cov.rows, cov.cols, fun i j =>
      if i = j then cov.get i i + noise.get i i * dt else cov.get i j⟩
    -- 169-171
    let cov ← cov.setBlock 0 0 bodySize bodySize
      (← (← F.mul (← cov.block 0 0 bodySize bodySize)).mul F.transpose)
    -- 172-173
    let cov ← cov.setBlock 0 bodySize bodySize alt (← F.mul (← cov.block 0 bodySize bodySize alt))
    -- 174-177
    cov.setBlock bodySize 0 alt bodySize (← (← cov.block bodySize 0 alt bodySize).mul F.transpose)

/-- ekf.cpp:120-188 `PredictModel` -/
def predict (N : Prim K) (e : Ekf K) (localTime : K) : Res (Ekf K) := do
  if localTime < e.currentTime then return e
  let e ← if e.isGravityInitialized then do
      let dt := localTime - e.currentTime
      let c ← predictCov N e.useRoot e.stateSize e.cov e.processNoise dt
      pure { e with
        state := { e.state with body := predictBody N e.isZeroAcceleration e.state.body dt }
        cov := c }
    else pure e
  augmentTimed N { e with currentTime := localTime }

/-! ## Kalman update (src/ekf/update/updater.cpp) -/

/-- updater.cpp:26-64 `KalmanUpdate` -/
def kalmanUpdate (N : Prim K) (e : Ekf K) (jac : Mat K) (residual : Vec K) (noise : Mat K) :
    Res (Ekf K) := do
  let obsNoise := if e.useRoot then noise.map N.sqrt else noise
  -- 38-47
  let gain ← if e.useRoot then do
      let innovation ← qrStack N (← e.cov.mul jac.transpose) obsNoise
      let a ← (← e.cov.transpose.mul e.cov).mul jac.transpose
      a.mul (← (← innovation.transpose.mul innovation).inverse N)
    else do
      let innovation ← (← (← jac.mul e.cov).mul jac.transpose).add obsNoise
      (← e.cov.mul jac.transpose).mul (← innovation.inverse N)
  -- 49-50
  let update ← gain.mulVec residual
  let state ← e.state.addVec N update
  -- 52-63
  let iKH ← (Mat.identity e.cov.rows e.cov.cols).sub (← gain.mul jac)
  let cov ← if e.useRoot then do
      qrStack N (← e.cov.mul iKH.transpose) (← obsNoise.mul gain.transpose)
    else do
      (← (← iKH.mul e.cov).mul iKH.transpose).add (← (← gain.mul obsNoise).mul gain.transpose)
  pure { e with state := state, cov := cov }

/-! ## Getters, setters, time -/

/-- ekf.cpp:195-198 `GetImuState`: value and filter afterwards (`operator[]` inserts) -/
def getImuState (e : Ekf K) (id : Nat) : ImuState K × Ekf K :=
  (e.state.imus.getD id ImuState.default,
   { e with state := { e.state with imus := e.state.imus.touch id ImuState.default } })

/-- ekf.cpp:200-203 `GetGpsState` -/
def getGpsState (e : Ekf K) (id : Nat) : GpsState K × Ekf K :=
  (e.state.gpss.getD id GpsState.default,
   { e with state := { e.state with gpss := e.state.gpss.touch id GpsState.default } })

/-- ekf.cpp:205-208 `GetCamState` -/
def getCamState (e : Ekf K) (id : Nat) : CamState K × Ekf K :=
  (e.state.cams.getD id CamState.default,
   { e with state := { e.state with cams := e.state.cams.touch id CamState.default } })

/-- ekf.cpp:210-213 `GetImuCount` -/
def getImuCount (e : Ekf K) : Nat := e.state.imus.length
/-- ekf.cpp:220-223 `GetGpsCount` -/
def getGpsCount (e : Ekf K) : Nat := e.state.gpss.length
/-- ekf.cpp:235-238 `GetCamCount` -/
def getCamCount (e : Ekf K) : Nat := e.state.cams.length

/-- ekf.cpp:245-250 `Initialize` -/
def initializeAt (e : Ekf K) (t : K) (b : BodyState K) : Ekf K :=
  { e with currentTime := t, timeInitialized := true, state := { e.state with body := b } }

/-- ekf.cpp:569-572 `SetBodyProcessNoise` -/
def setBodyProcessNoise (e : Ekf K) (v : Vec K) : Ekf K := { e with bodyProcessNoise := v }

/-- ekf.cpp:634-638 `SetMaxTrackLength` -/
def setMaxTrackLength (e : Ekf K) (n : Nat) : Ekf K :=
  { e with maxTrackLength := n, maxTrackDuration := e.maxFramePeriod * (n : K) }

/-- ekf.cpp:640-645 `SetGpsReference` -/
def setGpsReference (e : Ekf K) (pos : V3 K) (ang : K) : Ekf K :=
  { e with posEInG := pos, angLToE := ang, isLlaInitialized := true }

/-- ekf.cpp:647-650 `SetZeroAcceleration` -/
def setZeroAcceleration (e : Ekf K) (b : Bool) : Ekf K := { e with isZeroAcceleration := b }

/-- ekf.cpp:675-678 `InitializeGravity` -/
def initializeGravity (e : Ekf K) : Ekf K := { e with isGravityInitialized := true }

/-- ekf.cpp:865-879 `CalculateLocalTime` -/
def calculateLocalTime (e : Ekf K) (time : K) : K × Ekf K :=
  if e.timeInitialized then (time - e.referenceTime, e)
  else (0, { e with referenceTime := time, timeInitialized := true, currentTime := 0 })

/-! ## GetAugState (ekf.cpp:574-632) -/

/-- ekf.cpp:581-585: the frame search keeps the last match; the result starts as a default clone -/
def findFrame (w : List (AugState K)) (frame : Nat) : AugState K :=
  w.foldl (fun acc a => if a.frameId = frame then a else acc) AugState.default

/-- ekf.cpp:601-611: the bracketing search; the last matching pair wins.  The initial value is the pair of default
clones with `alpha = 0`.  Equal neighbouring times make `alpha` a division by zero. -/
def bracket (time : K) : List (AugState K) → K × AugState K × AugState K →
    Res (K × AugState K × AugState K)
  | a :: b :: rest, acc =>
    if a.time ≤ time ∧ time ≤ b.time then
      if b.time - a.time = 0 then .error .nonFinite
      else bracket time (b :: rest) ((time - a.time) / (b.time - a.time), a, b)
    else bracket time (b :: rest) acc
  | _, acc => .ok acc

/-- ekf.cpp:586-629: interpolation in the window `w` -/
def interpolateClone (N : Prim K) (e : Ekf K) (w : List (AugState K)) (time : K) :
    Res (AugState K) :=
  match w.head?, w.getLast? with
  | some first, some last => do
    let (alpha, a0, a1) ←
      if time < first.time then
        (pure (0, first, AugState.default) : Res (K × AugState K × AugState K))
      else if time < last.time then
        bracket time w (0, AugState.default, AugState.default)
      else if e.currentTime - last.time = 0 then .error .nonFinite
      else
        pure ((time - last.time) / (e.currentTime - last.time), last,
          { (AugState.default : AugState K) with pos := e.state.body.pos, ang := e.state.body.ang })
    pure { (AugState.default : AugState K) with
      pos := a0.pos + alpha • (a1.pos - a0.pos)
      ang := N.slerp a0.ang alpha a1.ang
      time := time
      index := a0.index
      alpha := alpha }
  | _, _ => .error .emptyVector

/-- ekf.cpp:574-632 `GetAugState`: value and filter afterwards (`aug_states[...]` inserts an empty window) -/
def getAugState (N : Prim K) (e : Ekf K) (cam frame : Nat) (time : K) :
    Res (AugState K × Ekf K) := do
  if e.augType = .all ∨ (e.augType = .primary ∧ cam = e.primaryCameraId) then
    pure (findFrame (e.state.augs.getD cam []) frame,
      { e with state := { e.state with augs := e.state.augs.touch cam [] } })
  else
    let key := if e.augType = .primary then e.primaryCameraId else 0
    let a ← interpolateClone N e (e.state.augs.getD key []) time
    pure (a, { e with state := { e.state with augs := e.state.augs.touch key [] } })

/-! ## GPS initialisation (ekf.cpp:759-800)

The numeric part (averaging, frame conversion, `kabsch_2d`, hull diameter) is modelled over `ℝ` in
`Model/GpsInit.lean`; here its results are an argument. -/

/-- Results of the numeric part of `AttemptGpsInitialization`, ekf.cpp:768-784 and 792-794. `angStd` is `none` when
`kabsch_2d` leaves the variable unwritten (math_helper.cpp:255). -/
structure GpsFit (K : Type) where
  success : Bool
  posStd : K
  angStd : Option K
  maxDist : K
  tanAngThresh : K
  refPos : V3 K
  refAng : K

/-- ekf.cpp:786-790: the acceptance condition, with `&&`/`||` evaluated left to right -/
def gpsAccept (e : Ekf K) (f : GpsFit K) : Res Bool :=
  if e.gpsInitType = .baselineDist ∧ f.maxDist > e.gpsInitBaselineDist then .ok true
  else if e.gpsInitType = .errorThreshold ∧ f.success = true ∧ f.posStd < e.gpsInitPosThresh then
    match f.angStd with
    | none => .error .uninitialised
    | some a => .ok (decide (a ≠ 0 ∧ a < f.tanAngThresh))
  else .ok false

/-- ekf.cpp:759-800 `AttemptGpsInitialization` -/
def attemptGpsInit (e : Ekf K) (time : K) (ecef : V3 K) (fit : List (V3 K) → List (V3 K) → GpsFit K) :
    Res (Ekf K) := do
  let e := { e with
    gpsTimeVec := e.gpsTimeVec ++ [time]
    gpsEcefVec := e.gpsEcefVec ++ [ecef]
    gpsXyzVec := e.gpsXyzVec ++ [e.state.body.pos] }
  if 4 ≤ e.gpsTimeVec.length then
    let f := fit e.gpsXyzVec e.gpsEcefVec
    if ← gpsAccept e f then pure (e.setGpsReference f.refPos f.refAng) else pure e
  else pure e

/-! ## Histories -/

/-- One call on a filter. -/
inductive Op (K : Type)
  | registerIMU (id : Nat) (s : ImuState K) (cov : Mat K)
  | registerGPS (id : Nat) (s : GpsState K) (cov : Mat K)
  | registerCamera (id : Nat) (s : CamState K) (cov : Mat K)
  | registerFiducial (s : FidState K) (cov : Mat K)
  | predict (t : K)
  | frame (cam frame : Nat)
  | kalman (jac : Mat K) (residual : Vec K) (noise : Mat K)
  | getImu (id : Nat)
  | getGps (id : Nat)
  | getCam (id : Nat)
  | getAug (cam frame : Nat) (t : K)
  | initializeAt (t : K) (b : BodyState K)
  | setMaxTrackLength (n : Nat)
  | setGpsReference (pos : V3 K) (ang : K)
  | setZeroAcceleration (b : Bool)
  | initializeGravity
  | localTime (t : K)
  | setBodyProcessNoise (v : Vec K)
  | attemptGpsInit (t : K) (ecef : V3 K) (fit : List (V3 K) → List (V3 K) → GpsFit K)
  /-- direct writes of the public member `m_state.body_state` by the IMU updater (imu_updater.cpp:102-104 and 247-249;
  405-406 is the same write in the uncalled `AngularUpdate`) -/
  | setBodyMotion (acc angVel angAcc : V3 K)

/-- The filter after one call. -/
def step (N : Prim K) (e : Ekf K) : Op K → Res (Ekf K)
  | .registerIMU id s c => e.registerIMU N id s c
  | .registerGPS id s c => e.registerGPS N id s c
  | .registerCamera id s c => e.registerCamera N id s c
  | .registerFiducial s c => e.registerFiducial N s c
  | .predict t => e.predict N t
  | .frame c f => e.augmentFrame N c f
  | .kalman j r n => e.kalmanUpdate N j r n
  | .getImu id => .ok (e.getImuState id).2
  | .getGps id => .ok (e.getGpsState id).2
  | .getCam id => .ok (e.getCamState id).2
  | .getAug c f t => do let r ← e.getAugState N c f t; pure r.2
  | .initializeAt t b => .ok (e.initializeAt t b)
  | .setMaxTrackLength n => .ok (e.setMaxTrackLength n)
  | .setGpsReference p a => .ok (e.setGpsReference p a)
  | .setZeroAcceleration b => .ok (e.setZeroAcceleration b)
  | .initializeGravity => .ok e.initializeGravity
  | .localTime t => .ok (e.calculateLocalTime t).2
  | .setBodyProcessNoise v => .ok (e.setBodyProcessNoise v)
  | .attemptGpsInit t x f => e.attemptGpsInit t x f
  | .setBodyMotion a w α =>
    .ok { e with state := { e.state with body := { e.state.body with acc := a, angVel := w, angAcc := α } } }

/-- The filter after a sequence of calls. -/
def run (N : Prim K) (e : Ekf K) : List (Op K) → Res (Ekf K)
  | [] => .ok e
  | op :: ops => do
    let e ← e.step N op
    run N e ops

end Ekf

end EkfCal
