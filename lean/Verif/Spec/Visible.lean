import Verif.Model.SimFeatures

/-!
# What a camera sees
-/

namespace EkfCal
variable {K : Type} [Field K] [LinearOrder K]

/-- The point in the frame of the camera. -/
def CameraPose.local (pose : CameraPose K) (p : V3 K) : V3 K := pose.ang.toMat.transpose.mulVec (p - pose.pos)

/-- In front of the camera, and projected onto the image. -/
def Sees (c : Intrinsics K) (pose : CameraPose K) (p : V3 K) : Prop :=
  0 < pose.local p 2 ∧ 0 ≤ (cvProject c (pose.local p)).1 ∧ (cvProject c (pose.local p)).1 ≤ c.width ∧
    0 ≤ (cvProject c (pose.local p)).2 ∧ (cvProject c (pose.local p)).2 ≤ c.height

/-- The map gives every feature under its index, and holds nothing else. -/
def TruthFeatures.Aligned (t : TruthFeatures K) : Prop := ∀ i, t.map.find? i = t.points[i]?

/-- A history that only looks up features that exist at that moment. -/
def KnownLookups [FloorRing K] : TruthFeatures K → List (FeatureOp K) → Prop
  | _, [] => True
  | t, op :: ops => (∀ id, op = .lookup id → id < t.points.length) ∧ ∀ t', t.step op = .ok t' → KnownLookups t' ops

end EkfCal
