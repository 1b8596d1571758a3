import Verif.Spec.CamRows
import Verif.Spec.Visible

/-!
# Vocabulary for C76: error-free key points of simulated frames
-/

namespace EkfCal
variable {K : Type} [Field K] [LinearOrder K]

/-- Where a lens with the given coefficients shows the direction `(v, 1)`: radial terms `k1`, `k2`, tangential terms `p1`,
`p2` (Brown and Conrady). -/
def Intrinsics.lens (c : Intrinsics K) (v : V2 K) : V2 K :=
  let r2 := v 0 ^ 2 + v 1 ^ 2
  ![v 0 * (1 + c.k1 * r2 + c.k2 * r2 ^ 2) + 2 * c.p1 * v 0 * v 1 + c.p2 * (r2 + 2 * v 0 ^ 2),
    v 1 * (1 + c.k1 * r2 + c.k2 * r2 ^ 2) + c.p1 * (r2 + 2 * v 1 ^ 2) + 2 * c.p2 * v 0 * v 1]

/-- `(x, y)` is a key point that the simulator, with errors disabled, produces for the feature at `F` in some frame taken by
the camera `c` at the given pose. -/
def SimKeypoint [FloorRing K] (c : Intrinsics K) (pose : CameraPose K) (F : V3 K) (x y : K) : Prop :=
  ∃ (count : Nat) (draw : Nat → FeatureDraw K) (t t' : TruthFeatures K) (keys : List (Nat × K × K)) (id : Nat),
    visibleKeypoints true count c pose draw t = .ok (keys, t') ∧ (id, x, y) ∈ keys ∧ t'.points[id]? = some F

/-- The track shows the feature at `F`: every observation is an error-free key point of it, seen from the true pose of the
body at that observation (`body`) by the camera mounted at `camPos` and `camAng`; and that is the pose the filter has for
the observation. -/
structure TrueTrack [FloorRing K] (N : Num K) (e : Ekf K) (cam : Nat) (c : Intrinsics K) (camPos : V3 K) (camAng : Quat K)
    (body : FeaturePoint K → TruthBody K) (F : V3 K) (f : FeatureTrack K) : Prop where
  unit : ∀ p ∈ f.track, (body p).ang.normSq = 1
  seen : ∀ p ∈ f.track, SimKeypoint c (CameraPose.of (body p) camPos camAng) F p.x p.y
  pose : ∀ p ∈ f.track, ∀ a, e.poseFor N.toPrim cam p = .ok a → a.pos = (body p).pos ∧ a.ang = (body p).ang

end EkfCal
