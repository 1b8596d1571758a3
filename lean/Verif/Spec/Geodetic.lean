import Verif.Model.Gps

/-! # What geodetic coordinates are -/

namespace EkfCal

/-- The outward direction that a latitude and a longitude in degrees name. -/
noncomputable def normalOf (lla : V3 ℝ) : V3 ℝ :=
  ![Real.cos (degToRad (lla 0)) * Real.cos (degToRad (lla 1)), Real.cos (degToRad (lla 0)) * Real.sin (degToRad (lla 1)),
    Real.sin (degToRad (lla 0))]

/-- `lla` are geodetic coordinates of `p` over the ellipsoid with semi-major axis `A` and squared eccentricity `e2`: there
is a point `s` of the surface whose outward normal is the named direction, and `p` is `lla 2` along that normal from it. -/
def IsGeodetic (A e2 : ℝ) (lla p : V3 ℝ) : Prop :=
  ∃ s : V3 ℝ, (s 0 ^ 2 + s 1 ^ 2) / A ^ 2 + s 2 ^ 2 / (A ^ 2 * (1 - e2)) = 1 ∧
    (∃ c > 0, normalOf lla 0 = c * (s 0 / A ^ 2) ∧ normalOf lla 1 = c * (s 1 / A ^ 2) ∧ normalOf lla 2 = c * (s 2 / (A ^ 2 * (1 - e2)))) ∧
    ∀ i, p i = s i + lla 2 * normalOf lla i

end EkfCal
