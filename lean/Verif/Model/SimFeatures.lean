import Verif.Model.Camera
import Verif.Model.Smoother
import Verif.Model.SimMeasure

/-!
# Model of the simulated features (`src/trackers/sim/sim_feature_tracker.cpp`, `src/infrastructure/sim/truth_engine.cpp`)

Pixel coordinates are not rounded to `float`.  The random draws of `GenerateVisibleFeatures` are inputs.  `cv::Rodrigues`
followed by `cv::projectPoints` applies the rotation matrix it was given.
-/

namespace EkfCal
variable {K : Type} [Field K] [LinearOrder K]

/-- The features of a `TruthEngine` (truth_engine.hpp: `m_feature_points`, `m_feature_points_map`). -/
structure TruthFeatures (K : Type) where
  points : List (V3 K)
  map : UMap (V3 K)

/-- `m[i] = v[i]` for all indices from `i` on (truth_engine.cpp:167-169). -/
def mapFrom : Nat → List (V3 K) → UMap (V3 K) → UMap (V3 K)
  | _, [], m => m
  | i, p :: ps, m => mapFrom (i + 1) ps (m.insert i p)

/-- truth_engine.cpp:151-170 `GenerateGridFeatures`, for the points of the grid (153-165) -/
def TruthFeatures.grid (t : TruthFeatures K) (points : List (V3 K)) : TruthFeatures K :=
  ⟨t.points ++ points, mapFrom 0 (t.points ++ points) t.map⟩

/-- The pose of a camera: `rot_c_to_l` as a quaternion and `pos_c_in_l` (sim_feature_tracker.cpp:49-65,
truth_engine.cpp:178-183). -/
structure CameraPose (K : Type) where
  ang : Quat K
  pos : V3 K

/-- The pose of a camera on the body (sim_feature_tracker.cpp:49-53, 65; truth_engine.cpp:178-183). -/
def CameraPose.of (b : TruthBody K) (camPos : V3 K) (camAng : Quat K) : CameraPose K :=
  ⟨b.ang.mul camAng, b.pos + b.ang.rotate camPos⟩

/-- The random numbers drawn for one new feature: the two pixel coordinates, cast to `unsigned int`, and the depth
(truth_engine.cpp:187-189). -/
structure FeatureDraw (K : Type) where
  cx : Nat
  cy : Nat
  depth : K

/-- truth_engine.cpp:191-196: the new feature, first in the camera frame -/
def FeatureDraw.point (d : FeatureDraw K) (c : Intrinsics K) (pose : CameraPose K) : V3 K :=
  pose.ang.rotate ![d.depth * ((d.cx : K) - c.width / 2) / (c.fx / c.pixelSize),
    d.depth * ((d.cy : K) - c.height / 2) / (c.fy / c.pixelSize), d.depth] + pose.pos

/-- truth_engine.cpp:186-202: the loop of `GenerateVisibleFeatures` (172-205), over its draws -/
def TruthFeatures.generate (c : Intrinsics K) (pose : CameraPose K) :
    TruthFeatures K → List (FeatureDraw K) → TruthFeatures K
  | t, [] => t
  | t, d :: ds => generate c pose ⟨t.points ++ [d.point c pose], t.map.insert t.map.length (d.point c pose)⟩ ds

/-- truth_engine.cpp:212-215 `GetFeature`: the point and the features afterwards; `operator[]` inserts (a default
`cv::Point3d` is zero) -/
def TruthFeatures.getFeature (t : TruthFeatures K) (id : Nat) : V3 K × TruthFeatures K :=
  (t.map.getD id 0, { t with map := t.map.touch id 0 })

/-- `cv::projectPoints` (OpenCV) for one point in the camera frame, with the camera matrix and the distortion of
types.cpp:526-549 -/
def cvProject (c : Intrinsics K) (p : V3 K) : K × K :=
  let z := if p 2 = 0 then 1 else 1 / p 2
  let x := p 0 * z
  let y := p 1 * z
  let r2 := x * x + y * y
  let cdist := 1 + c.k1 * r2 + c.k2 * (r2 * r2)
  let xd := x * cdist + c.p1 * (2 * x * y) + c.p2 * (r2 + 2 * x * x)
  let yd := y * cdist + c.p1 * (r2 + 2 * y * y) + c.p2 * (2 * x * y)
  (xd * (c.fx / c.pixelSize) + c.width / 2, yd * (c.fy / c.pixelSize) + c.height / 2)

/-- sim_feature_tracker.cpp:53-54, 64, 80-81: the projection of a feature -/
def projectFeature (c : Intrinsics K) (pose : CameraPose K) (p : V3 K) : K × K :=
  let r := pose.ang.toMat.transpose
  cvProject c (r.mulVec p + r.mulVec (-pose.pos))

/-- `std::round`: halves away from zero. -/
def roundHalf [FloorRing K] (x : K) : K := if 0 ≤ x then ⌊x + 1 / 2⌋ else ⌈x - 1 / 2⌉

variable [FloorRing K]

/-- sim_feature_tracker.cpp:107-133: the loop of `FilterInvisiblePoints` from index `i` on -/
def filterLoop (noErrors : Bool) (c : Intrinsics K) (pose : CameraPose K) (features : List (V3 K)) :
    Nat → List (K × K) → Res (List (Nat × K × K))
  | _, [] => .ok []
  | i, q :: qs => do
    let p ← readAt features i
    let plane : V3 K := pose.ang.toMat.mulVec ![0, 0, 1]
    let v : V3 K := p - pose.pos
    let rest ← filterLoop noErrors c pose features (i + 1) qs
    if plane 0 * v 0 + plane 1 * v 1 + plane 2 * v 2 > 0 ∧ q.1 ≥ 0 ∧ q.2 ≥ 0 ∧ q.1 ≤ c.width ∧ q.2 ≤ c.height then
      pure ((i, if noErrors then q.1 else roundHalf q.1, if noErrors then q.2 else roundHalf q.2) :: rest)
    else pure rest

/-- sim_feature_tracker.cpp:80-83 and 88-90: projecting and filtering (96-135 `FilterInvisiblePoints`) -/
def visibleOf (noErrors : Bool) (c : Intrinsics K) (pose : CameraPose K) (features : List (V3 K)) :
    Res (List (Nat × K × K)) :=
  filterLoop noErrors c pose features 0 (features.map (projectFeature c pose))

/-- sim_feature_tracker.cpp:47-94 `GetVisibleKeypoints`: key points (id and pixel) and the features afterwards -/
def visibleKeypoints (noErrors : Bool) (count : Nat) (c : Intrinsics K) (pose : CameraPose K) (draw : Nat → FeatureDraw K)
    (t : TruthFeatures K) : Res (List (Nat × K × K) × TruthFeatures K) := do
  let keys ← visibleOf noErrors c pose t.points
  if count > keys.length then
    let t' := t.generate c pose ((List.range (count - keys.length)).map draw)
    let keys ← visibleOf noErrors c pose t'.points
    pure (keys, t')
  else pure (keys, t)

/-- One use of the features. -/
inductive FeatureOp (K : Type)
  | grid (points : List (V3 K))
  | frame (noErrors : Bool) (count : Nat) (c : Intrinsics K) (pose : CameraPose K) (draw : Nat → FeatureDraw K)
  | lookup (id : Nat)

/-- The features after one use. -/
def TruthFeatures.step (t : TruthFeatures K) : FeatureOp K → Res (TruthFeatures K)
  | .grid points => .ok (t.grid points)
  | .frame noErrors count c pose draw => do pure (← visibleKeypoints noErrors count c pose draw t).2
  | .lookup id => .ok (t.getFeature id).2

/-- The features after a history. -/
def TruthFeatures.run (t : TruthFeatures K) (h : List (FeatureOp K)) : Res (TruthFeatures K) := h.foldlM TruthFeatures.step t

end EkfCal
