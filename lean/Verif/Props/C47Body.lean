import Verif.Props.C57

/-!
# C47: the pose key points are seen from
-/

namespace EkfCal
variable {K : Type} [Field K] [LinearOrder K] [IsStrictOrderedRing K]

/-- The camera moves with the body: what lies at `u` in the frame of a camera mounted at `camPos` and `camAng` on the body is
at `u` for the pose that key points are computed with, and only that is. -/
theorem C47_body {b : TruthBody K} {camAng : Quat K} (hb : b.ang.normSq = 1) (hc : camAng.normSq = 1) (camPos u p : V3 K) :
    (CameraPose.of b camPos camAng).local p = u ↔ p = b.pos + b.ang.rotate (camPos + camAng.rotate u) := by
  have hq : (CameraPose.of b camPos camAng).ang.normSq = 1 := by
    rw [CameraPose.of, Quat.normSq_mul, hb, hc, _root_.mul_one]
  have key : ∀ u : V3 K, b.pos + b.ang.rotate (camPos + camAng.rotate u) =
      (CameraPose.of b camPos camAng).ang.rotate u + (CameraPose.of b camPos camAng).pos := by
    intro u
    rw [CameraPose.of, Quat.mul_rotate hb hc, Quat.rotate_add]
    ring
  constructor
  · rintro rfl
    rw [key, CameraPose.local, ← Quat.toMat_inverse hq, ← Quat.rotate_toMat, Quat.rotate_inverse_rotate hq]
    ring
  · rintro rfl
    rw [key, local_rotate hq]

/-- A turned body with an offset and turned camera. -/
example : (⟨3 / 5, 4 / 5, 0, 0⟩ : Quat ℚ).normSq = 1 ∧ (⟨1 / 2, 1 / 2, -1 / 2, 1 / 2⟩ : Quat ℚ).normSq = 1 := by
  constructor <;> norm_num [Quat.normSq]

end EkfCal
