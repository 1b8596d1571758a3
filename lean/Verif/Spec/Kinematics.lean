import Verif.Model.SplineTruth
import Mathlib.Analysis.Calculus.Deriv.Basic

/-!
# Rotational kinematics
-/

namespace EkfCal

/-- At time `t` the orientation `q` turns with the angular rate `ω`, given in the rotating frame: `q' = ½ q ω`. -/
def TurnsAt (q : ℝ → Quat ℝ) (ω : V3 ℝ) (t : ℝ) : Prop :=
  let d := (q t).mul ⟨0, ω 0, ω 1, ω 2⟩
  HasDerivAt (fun s => (q s).w) (d.w / 2) t ∧ HasDerivAt (fun s => (q s).x) (d.x / 2) t ∧
    HasDerivAt (fun s => (q s).y) (d.y / 2) t ∧ HasDerivAt (fun s => (q s).z) (d.z / 2) t

/-- The library's derivatives of a curve are its derivatives at `u`. -/
def Curve.Law (c : Curve) (u : ℝ) : Prop := HasDerivAt c.val (c.d1 u) u ∧ HasDerivAt c.d1 (c.d2 u) u

end EkfCal
