import Verif.Model.Rotation
import Mathlib.Analysis.SpecialFunctions.Pow.Real

/-!
# Model of `src/utility/gps_helper.cpp`, over `ℝ`
-/

namespace EkfCal

/-- gps_helper.cpp:24 -/
noncomputable def wgs84A : ℝ := 6378137
/-- gps_helper.cpp:25 -/
noncomputable def wgs84F : ℝ := 335281066474748071998 / 10 ^ 23
/-- gps_helper.cpp:26 -/
noncomputable def wgs84E : ℝ := 818191908426214947083 / 10 ^ 22

/-- `x * g_deg_to_rad`, gps_helper.cpp:27 -/
noncomputable def degToRad (x : ℝ) : ℝ := x * (Real.pi / 180)

/-- gps_helper.cpp:39 `NAV_E2` -/
noncomputable def navE2 : ℝ := (2 - wgs84F) * wgs84F

/-- gps_helper.cpp:29-50 `lla_to_ecef`.  When the latitude or longitude is out of range the function returns `out`
without having written it (36). -/
noncomputable def llaToEcef (lla : V3 ℝ) : Res (V3 ℝ) :=
  if lla 0 < -90 ∨ lla 0 > 90 ∨ lla 1 < -180 ∨ lla 1 > 180 then .error .uninitialised
  else
    let sinLat := Real.sin (degToRad (lla 0))
    let cosLat := Real.cos (degToRad (lla 0))
    let rN := wgs84A / √(1 - navE2 * sinLat * sinLat)
    .ok ![(rN + lla 2) * cosLat * Real.cos (degToRad (lla 1)),
          (rN + lla 2) * cosLat * Real.sin (degToRad (lla 1)),
          (rN * (1 - navE2) + lla 2) * sinLat]

/-- gps_helper.cpp:59-68: `rot_mat` of `ecef_to_enu` -/
noncomputable def enuRotation (lla : V3 ℝ) : M3 ℝ :=
  let φ := degToRad (lla 0)
  let l := degToRad (lla 1)
  !![-Real.sin l, Real.cos l, 0;
     -Real.cos l * Real.sin φ, -Real.sin l * Real.sin φ, Real.cos φ;
     Real.cos l * Real.cos φ, Real.sin l * Real.cos φ, Real.sin φ]

/-- gps_helper.cpp:52-73 `ecef_to_enu` -/
noncomputable def ecefToEnu (x ref : V3 ℝ) : Res (V3 ℝ) := do
  let r ← llaToEcef ref
  pure (Matrix.mulVec (enuRotation ref) (x - r))

/-- gps_helper.cpp:78-87: `rot_mat` of `enu_to_ecef` -/
noncomputable def ecefRotation (lla : V3 ℝ) : M3 ℝ :=
  let φ := degToRad (lla 0)
  let l := degToRad (lla 1)
  !![-Real.sin l, -Real.cos l * Real.sin φ, Real.cos l * Real.cos φ;
     Real.cos l, -Real.sin l * Real.sin φ, Real.sin l * Real.cos φ;
     0, Real.cos φ, Real.sin φ]

/-- gps_helper.cpp:75-91 `enu_to_ecef` -/
noncomputable def enuToEcef (x ref : V3 ℝ) : Res (V3 ℝ) := do
  let r ← llaToEcef ref
  pure (r + Matrix.mulVec (ecefRotation ref) x)

/-- gps_helper.cpp:93-98 `lla_to_enu` -/
noncomputable def llaToEnu (x ref : V3 ℝ) : Res (V3 ℝ) := do
  let p ← llaToEcef x
  ecefToEnu p ref

/-- gps_helper.cpp:100-166 `ecef_to_lla` for a given semi-major axis `A` and eccentricity `E`.  Where C++ would get an
infinity or NaN (root of a negative number, division by zero) the model has no value. -/
noncomputable def ecefToLlaOf (A E : ℝ) (x : V3 ℝ) : Res (V3 ℝ) := do
  let ww := x 0 * x 0 + x 1 * x 1
  let m := ww / A / A
  let n := x 2 * x 2 * ((1 - E ^ 2) / A ^ 2)
  let mpn := m + n
  let p := (mpn - E ^ 4) / 6
  let G := m * n * E ^ 4 / 4
  let H := 2 * p * p * p + G
  guardUB (0 ≤ H * G) .nonFinite
  let r := H + G + 2 * √(H * G)
  guardUB (0 < r) .nonFinite
  let C := r ^ ((1 : ℝ) / 3) * (1 / 2 ^ ((1 : ℝ) / 3))
  let i := -(E ^ 4 / 4) - 1 / 2 * mpn
  let P := p * p
  let beta := i / 3 - C - P / C
  let k := E ^ 4 / 4 * (E ^ 4 / 4 - mpn)
  let t1 := beta * beta - k
  guardUB (0 ≤ t1) .nonFinite
  let t2 := √t1
  let t3 := t2 - 1 / 2 * (beta + i)
  guardUB (0 ≤ t3) .nonFinite
  let t4 := √t3
  let t5 := |1 / 2 * (beta - i)|
  let t6 := √t5
  let t7 := if m < n then t6 else -t6
  let t := t4 + t7
  let j := E ^ 2 / 2 * (m - n)
  let g := 2 * j
  let tt := t * t
  let ttt := tt * t
  let tttt := tt * tt
  let F := tttt + 2 * i * tt + g * t + k
  let dFdt := 4 * ttt + 4 * i * t + g
  guardUB (dFdt ≠ 0) .nonFinite
  let dt := -F / dFdt
  let u := t + dt + E ^ 2 / 2
  let v := t + dt - E ^ 2 / 2
  let w := √ww
  let zu := x 2 * u
  let wv := w * v
  let lat := atan2 zu wv
  guardUB (u * v ≠ 0) .nonFinite
  let invUv := 1 / (u * v)
  let dw := w - wv * invUv
  let dz := x 2 - zu * (1 - E ^ 2) * invUv
  let da := √(dw * dw + dz * dz)
  let alt := if u < 1 then -da else da
  let lon := atan2 (x 1) (x 0)
  pure ![lat / (Real.pi / 180), lon / (Real.pi / 180), alt]

/-- gps_helper.cpp:100-166 `ecef_to_lla` -/
noncomputable def ecefToLla (x : V3 ℝ) : Res (V3 ℝ) := ecefToLlaOf wgs84A wgs84E x

/-- gps_helper.cpp:168-173 `enu_to_lla` -/
noncomputable def enuToLla (x ref : V3 ℝ) : Res (V3 ℝ) := do
  let e ← enuToEcef x ref
  ecefToLla e

/-- gps_helper.cpp:175-183 `local_to_enu` -/
noncomputable def localToEnu (x : V3 ℝ) (a : ℝ) : V3 ℝ :=
  ![Real.cos a * x 0 + Real.sin a * x 1, -Real.sin a * x 0 + Real.cos a * x 1, x 2]

/-- gps_helper.cpp:185-193 `enu_to_local` -/
noncomputable def enuToLocal (x : V3 ℝ) (a : ℝ) : V3 ℝ :=
  ![Real.cos a * x 0 - Real.sin a * x 1, Real.sin a * x 0 + Real.cos a * x 1, x 2]

/-- gps_helper.cpp:195-198 `wgs84_m_to_deg` -/
noncomputable def wgs84MToDeg (m : ℝ) : ℝ := m / degToRad wgs84A

end EkfCal
