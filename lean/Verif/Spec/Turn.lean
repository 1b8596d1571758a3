import Verif.Model.Rotation
import Mathlib.Analysis.SpecialFunctions.Trigonometric.Sinc

/-!
# Specification: small turns of an orientation

A correction of an orientation is a rotation vector in the turned frame.  `turn` is the turn without the threshold of
`RotVecToQuat`, below which the code does not turn at all; above it the two agree (`C61_turn`).
-/

namespace EkfCal

/-- The unit quaternion of the rotation by `|d|` about `d`. -/
noncomputable def expQuat (d : V3 ℝ) : Quat ℝ :=
  ⟨Real.cos (V3.norm d / 2), Real.sinc (V3.norm d / 2) / 2 * d 0, Real.sinc (V3.norm d / 2) / 2 * d 1,
    Real.sinc (V3.norm d / 2) / 2 * d 2⟩

/-- The orientation `q` turned by the rotation vector `d`, given in its own frame. -/
noncomputable def Quat.turn (q : Quat ℝ) (d : V3 ℝ) : Quat ℝ := q.mul (expQuat d)

end EkfCal
