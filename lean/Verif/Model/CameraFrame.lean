import Verif.Model.FeatureTracker
import Verif.Model.FidUpdater

/-!
# What a camera does with an image (`src/sensors/camera.cpp`, `src/trackers/fiducial_tracker.cpp`,
`src/sensors/sim/sim_camera.cpp`)

The image operations of OpenCV are inputs: a message carries what detection finds in the image for each tracker.  Drawing,
logging and the output image are left out.  Frame ids come from a counter shared by all cameras (camera.cpp:98-102, see
`Model/Ids.lean`); here the message carries the one drawn for it.
-/

namespace EkfCal
variable {K : Type} [Field K] [LinearOrder K]

/-! ## Board detection -/

/-- fiducial_tracker.hpp:37-41 `FiducialType` -/
inductive BoardKind
  | aruco
  | charuco
  deriving DecidableEq

/-- What OpenCV finds of a board in one image (fiducial_tracker.cpp:81-131, 145-164). -/
structure BoardSight (K : Type) where
  /-- marker ids from `detectMarkers` -/
  markers : List Nat
  /-- corner ids from `interpolateCornersCharuco` -/
  corners : List Nat
  /-- position and orientation of the board as `estimatePoseCharucoBoard` or `estimatePoseBoard` finds it, the rotation
  vector turned into a quaternion (type_helper.cpp:108-117); `none` if they find no pose and leave the vectors alone -/
  pose : Option (V3 K × Quat K)

/-- The members of `FiducialTracker` that `Track` uses (fiducial_tracker.hpp:153-158). -/
structure FidTracker (K : Type) where
  kind : BoardKind
  cameraId : Nat
  posError : V3 K
  angError : V3 K
  updater : FidUpdater K

/-- The `ids` filled in by `FiducialTracker::InterpolateCorners` (fiducial_tracker.cpp:72-93): only for a ChArUco board. -/
def FidTracker.cornerIds (t : FidTracker K) (s : BoardSight K) : List Nat :=
  match t.kind with
  | .charuco => s.corners
  | .aruco => []

/-- `FiducialTracker::Track` (fiducial_tracker.cpp:133-183).  `r_vec` and `t_vec` are zero until OpenCV writes them. -/
def FidTracker.track (N : Num K) (t : FidTracker K) (e : Ekf K) (time : K) (s : BoardSight K) :
    Res (FidTracker K × Ekf K) := do
  let e := (e.getCamState t.cameraId).2                                           -- 141-142: `operator[]`
  if s.markers = [] then return (t, e)
  if t.cornerIds s = [] then return (t, e)
  let p := s.pose.getD (0, Quat.one)
  let (u, e) ← t.updater.update N e time ⟨p.1, p.2, t.posError, t.angError⟩
  pure ({ t with updater := u }, e)

/-! ## Cameras -/

/-- A feature tracker with its updater and the standard deviation of a pixel (feature_tracker.hpp:175-195). -/
structure PointTracker (K : Type) where
  tracker : FeatureTracker K
  updater : MsckfUpdater K
  pxError : K

/-- What image operations find in one image for a feature tracker: key points, matches in both directions and the mask of
`RANSAC` (feature_tracker.cpp:184-216); `drawn` ids have gone to other trackers since the last image. -/
structure PointSight (K : Type) where
  keys : List (KeyPoint K)
  fwd : List (List (DMatch K))
  bwd : List (List (DMatch K))
  mask : List Nat
  drawn : Nat

/-- Where the image the detector works on shows what the received image of `w` times `h` pixels shows at `p`
(feature_tracker.cpp:169-186): the same place, or with down-sampling to the configured size the place `cv::resize` moves it
to, which keeps the corners of the image in place; pixel centres have integer coordinates. -/
def shownAt (down : Option (K × K)) (w h : K) (p : K × K) : K × K :=
  match down with
  | none => p
  | some (w', h') => ((p.1 + 1 / 2) * (w' / w) - 1 / 2, (p.2 + 1 / 2) * (h' / h) - 1 / 2)

/-- What a tracker gets from an image with detectable points `pts` (feature_tracker.cpp:183-201): unmatched key points where
the detector sees them. -/
def PointSight.ofImage (down : Option (K × K)) (w h : K) (pts : List (K × K)) (fwd bwd : List (List (DMatch K)))
    (mask : List Nat) (drawn : Nat) : PointSight K :=
  ⟨pts.map fun p => ⟨(shownAt down w h p).1, (shownAt down w h p).2, none⟩, fwd, bwd, mask, drawn⟩

/-- Tracks handed to the camera updater, with the filter and the updater as they are at that moment (feature_tracker.cpp:262-264). -/
structure Delivery (K : Type) where
  filter : Ekf K
  updater : MsckfUpdater K
  tracks : List (Nat × List (FeaturePoint K))

/-- `FeatureTracker::Track` (feature_tracker.cpp:166-271) with the update at its end; the true positions of the tracks stay
unwritten.  Line 268 reads `m_prev_frame_time` after the update. -/
def PointTracker.track (N : Num K) (t : PointTracker K) (e : Ekf K) (time : K) (frameId : Nat) (intr : Intrinsics K)
    (s : PointSight K) : Res (PointTracker K × Ekf K × List (Delivery K)) := do
  let (tr, out) ← t.tracker.track N.toPrim ⟨frameId, e.currentTime, s.keys, s.fwd, s.bwd, s.mask, s.drawn⟩
  if out = [] then return ({ t with tracker := tr }, e, [])
  let (u, e') ← t.updater.update N e time intr (out.map fun o => ⟨o.2, none⟩) t.pxError
  pure ({ t with tracker := { tr with prevTime := e'.currentTime }, updater := u }, e', [⟨e, t.updater, out⟩])

/-- The members of `Camera` (camera.hpp:88-92): trackers and fiducials by id, and the intrinsics stored in the filter. -/
structure Camera (K : Type) where
  id : Nat
  intr : Intrinsics K
  trackers : List (Nat × PointTracker K)
  fiducials : List (Nat × FidTracker K)

/-- camera_message.hpp: `empty` is `image.empty()`, the rest is what is found in the image, by tracker id. -/
structure CameraMsg (K : Type) where
  time : K
  frameId : Nat
  empty : Bool
  points : Nat → PointSight K
  boards : Nat → BoardSight K

namespace Camera

/-- camera.cpp:73-80: the feature trackers in the order of their ids -/
def trackAll (N : Num K) (intr : Intrinsics K) (m : CameraMsg K) :
    List (Nat × PointTracker K) → Ekf K → Res (List (Nat × PointTracker K) × Ekf K × List (Delivery K))
  | [], e => .ok ([], e, [])
  | (k, t) :: ts, e => do
    let (t, e, d) ← t.track N e m.time m.frameId intr (m.points k)
    let (ts, e, ds) ← trackAll N intr m ts e
    pure ((k, t) :: ts, e, d ++ ds)

/-- camera.cpp:82-87: the fiducial trackers in the order of their ids -/
def boardAll (N : Num K) (m : CameraMsg K) :
    List (Nat × FidTracker K) → Ekf K → Res (List (Nat × FidTracker K) × Ekf K)
  | [], e => .ok ([], e)
  | (k, t) :: ts, e => do
    let (t, e) ← t.track N e m.time (m.boards k)
    let (ts, e) ← boardAll N m ts e
    pure ((k, t) :: ts, e)

/-- `Camera::Callback` (camera.cpp:57-95): the camera and the filter afterwards, and what was handed to the camera
updaters on the way. -/
def callback (N : Num K) (c : Camera K) (e : Ekf K) (m : CameraMsg K) : Res (Camera K × Ekf K × List (Delivery K)) := do
  if m.empty then return (c, e, [])
  if c.trackers = [] ∧ c.fiducials = [] then return (c, e, [])
  let (t, e) := e.calculateLocalTime m.time
  let e ← e.predict N.toPrim t
  let e ← e.augmentFrame N.toPrim c.id m.frameId
  let (ts, e, ds) ← trackAll N c.intr m c.trackers e
  let (fs, e) ← boardAll N m c.fiducials e
  pure ({ c with trackers := ts, fiducials := fs }, e, ds)

/-- What can happen around a camera: one of its images, or a call of anything else on the filter. -/
inductive Event (K : Type)
  | image (m : CameraMsg K)
  | other (op : Ekf.Op K)

/-- A sequence of events. -/
def run (N : Num K) : Camera K → Ekf K → List (Event K) → Res (Camera K × Ekf K × List (Delivery K))
  | c, e, [] => .ok (c, e, [])
  | c, e, .image m :: evs => do
    let (c, e, d) ← c.callback N e m
    let (c, e, ds) ← run N c e evs
    pure (c, e, d ++ ds)
  | c, e, .other op :: evs => do
    let e ← e.step N.toPrim op
    run N c e evs

end Camera

/-! ## Simulated cameras -/

/-- The members of `SimFeatureTracker` (sim_feature_tracker.hpp:103-107) that the feature path uses, with its updater
(feature_tracker.hpp:164). -/
structure SimPointTracker (K : Type) where
  tracker : SimTracker K
  updater : MsckfUpdater K
  pxError : K

/-- The members of `SimCamera` (sim_camera.hpp:84-88) that the feature path uses. -/
structure SimCamera (K : Type) where
  id : Nat
  intr : Intrinsics K
  trackers : List (Nat × SimPointTracker K)

/-- sim_camera_message.hpp with the key points visible to each tracker, and the true feature positions. -/
structure SimCameraMsg (K : Type) where
  time : K
  frameId : Nat
  points : Nat → List (Nat × K × K)
  truth : Nat → V3 K

namespace SimCamera

/-- `SimFeatureTracker::GenerateMessage` and `Callback` (sim_feature_tracker.cpp:137-190) for one image.  The program
generates all messages before it processes the first (simulation.cpp:455, 502-512); generation does not look at the filter, so
the order makes no difference. -/
def track (N : Num K) (t : SimPointTracker K) (e : Ekf K) (time : K) (frameId : Nat) (intr : Intrinsics K)
    (keys : List (Nat × K × K)) (truth : Nat → V3 K) : Res (SimPointTracker K × Ekf K × List (Delivery K)) := do
  let (tr, out) ← t.tracker.generate frameId time keys
  if out = [] then return ({ t with tracker := tr }, e, [])
  let (u, e') ← t.updater.update N e time intr (out.map fun o => ⟨o.2, some (truth o.1)⟩) t.pxError
  pure ({ t with tracker := tr, updater := u }, e', [⟨e, t.updater, out⟩])

/-- sim_camera.cpp:116-121: the tracker messages in order -/
def trackAll (N : Num K) (intr : Intrinsics K) (m : SimCameraMsg K) :
    List (Nat × SimPointTracker K) → Ekf K → Res (List (Nat × SimPointTracker K) × Ekf K × List (Delivery K))
  | [], e => .ok ([], e, [])
  | (k, t) :: ts, e => do
    let (t, e, d) ← track N t e m.time m.frameId intr (m.points k) m.truth
    let (ts, e, ds) ← trackAll N intr m ts e
    pure ((k, t) :: ts, e, d ++ ds)

/-- `SimCamera::Callback` (sim_camera.cpp:110-121) up to the fiducial messages, which are calls on the filter. -/
def callback (N : Num K) (c : SimCamera K) (e : Ekf K) (m : SimCameraMsg K) :
    Res (SimCamera K × Ekf K × List (Delivery K)) := do
  let (t, e) := e.calculateLocalTime m.time
  let e ← e.predict N.toPrim t
  let e ← e.augmentFrame N.toPrim c.id m.frameId
  let (ts, e, ds) ← trackAll N c.intr m c.trackers e
  pure ({ c with trackers := ts }, e, ds)

/-- What can happen around a simulated camera. -/
inductive Event (K : Type)
  | image (m : SimCameraMsg K)
  | other (op : Ekf.Op K)

/-- A sequence of events. -/
def run (N : Num K) : SimCamera K → Ekf K → List (Event K) → Res (SimCamera K × Ekf K × List (Delivery K))
  | c, e, [] => .ok (c, e, [])
  | c, e, .image m :: evs => do
    let (c, e, d) ← c.callback N e m
    let (c, e, ds) ← run N c e evs
    pure (c, e, d ++ ds)
  | c, e, .other op :: evs => do
    let e ← e.step N.toPrim op
    run N c e evs

end SimCamera
end EkfCal
