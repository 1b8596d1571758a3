import Verif.Model.Ekf
import Verif.Model.Gps
import Mathlib.LinearAlgebra.Matrix.Determinant.Basic
import Mathlib.LinearAlgebra.Matrix.Trace

/-!
# Model of the averaging and planar alignment helpers of `src/utility/math_helper.cpp`, and of the numeric part of
`AttemptGpsInitialization`, over `ℝ`
-/

namespace EkfCal

/-- math_helper.cpp:163-166: the loop of the weighted `average_vectors`; the weights are indexed in parallel -/
noncomputable def averageLoop : List (V3 ℝ) → List ℝ → V3 ℝ → ℝ → Res (V3 ℝ × ℝ)
  | [], _, s, w => .ok (s, w)
  | _ :: _, [], _, _ => .error .outOfRange
  | v :: vs, c :: cs, s, w => averageLoop vs cs (s + c • v) (w + c)

/-- math_helper.cpp:156-168 `average_vectors` with weights -/
noncomputable def averageWeighted (vs : List (V3 ℝ)) (ws : List ℝ) : Res (V3 ℝ) := do
  let r ← averageLoop vs ws 0 0
  guardUB (r.2 ≠ 0) .nonFinite
  pure (r.2⁻¹ • r.1)

/-- math_helper.cpp:146-154 `average_vectors`: all weights one -/
noncomputable def averageVectors (vs : List (V3 ℝ)) : Res (V3 ℝ) := averageWeighted vs (vs.map fun _ => 1)

/-- math_helper.cpp:289-300 `mean_standard_deviation` -/
noncomputable def meanStdDev (vs : List (V3 ℝ)) : Res ℝ := do
  let mean ← averageVectors vs
  let sum := (vs.map fun v => V3.norm (v - mean) * V3.norm (v - mean)).sum
  guardUB ((vs.length : ℝ) ≠ 0) .nonFinite
  pure (√sum / vs.length)

/-- `Eigen::Matrix2d`. -/
abbrev M2 := Matrix (Fin 2) (Fin 2) ℝ

/-- math_helper.cpp:184-187 `sign` -/
noncomputable def sign (x : ℝ) : ℝ := (if 0 < x then 1 else 0) - (if x < 0 then 1 else 0)

/-- math_helper.cpp:189-197 `matrix2d_from_vectors3d` and the product of two such matrices (226): `Σ a bᵀ` in the plane -/
noncomputable def planarCov (a b : List (V3 ℝ)) : M2 :=
  ((a.zip b).map fun p => !![p.1 0 * p.2 0, p.1 0 * p.2 1; p.1 1 * p.2 0, p.1 1 * p.2 1]).sum

/-- math_helper.cpp:229-232: the rotation from the singular vectors `U`, `V` -/
noncomputable def kabschRotation (U V : M2) : M2 :=
  V * !![1, 0; 0, sign (Matrix.det (V * U.transpose))] * U.transpose

/-- math_helper.cpp:234-235: a planar rotation as a rotation about the vertical axis -/
def liftRotation (R : M2) : M3 ℝ := !![R 0 0, R 0 1, 0; R 1 0, R 1 1, 0; 0, 0, 1]

/-- The outputs of `kabsch_2d` after it returned true (math_helper.cpp:207-209). -/
structure Alignment where
  rot : M3 ℝ
  shift : V3 ℝ
  posStd : ℝ
  /-- `none`: not written -/
  angStd : Option ℝ

/-- math_helper.cpp:241-252: position errors, sum of squared slopes and their count -/
noncomputable def kabschErrors (R : M3 ℝ) (t cs : V3 ℝ) (tgt src : List (V3 ℝ)) : List (V3 ℝ) × ℝ × ℕ :=
  let errs := (tgt.zip src).map fun p => p.1 - (R.mulVec p.2 + t)
  let far := (tgt.zip errs).filter fun p => decide (V3.norm (p.1 - cs) > V3.norm p.2)
  (errs, (far.map fun p => (V3.norm p.2 / V3.norm (p.1 - cs)) ^ 2).sum, far.length)

/-- math_helper.cpp:204-260 `kabsch_2d`; `svd` is `Eigen::JacobiSVD` (matrices `U` and `V`); `none` when it returns false -/
noncomputable def kabsch2d (svd : M2 → M2 × M2) (tgt src : List (V3 ℝ)) : Res (Option Alignment) :=
  if tgt.length ≠ src.length ∨ tgt.length < 4 then .ok none
  else do
    let cs ← averageVectors src
    let ct ← averageVectors tgt
    let cov := planarCov (src.map (· - cs)) (tgt.map (· - ct))
    let uv := svd cov
    let R := liftRotation (kabschRotation uv.1 uv.2)
    let t := ct - R.mulVec cs
    let (errs, slopes, count) := kabschErrors R t cs tgt src
    let pos ← meanStdDev errs
    pure (some ⟨R, t, pos, if count = 0 then none else some (√slopes / count)⟩)

/-- math_helper.cpp:199-202 `affine_angle` -/
noncomputable def affineAngle (R : M3 ℝ) : ℝ := Real.arccos ((Matrix.trace R - 1) / 2)

/-- `static_cast<int>(x)`: towards zero; undefined outside the range of `int` (math_helper.cpp:269-270). -/
noncomputable def toInt (x : ℝ) : Res ℤ :=
  let n := if 0 ≤ x then ⌊x⌋ else ⌈x⌉
  if -2 ^ 31 ≤ n ∧ n < 2 ^ 31 then .ok n else .error .outOfRange

/-- `static_cast<int>` of both planar coordinates, math_helper.cpp:269-270 -/
noncomputable def toPoint (v : V3 ℝ) : Res (ℤ × ℤ) := do pure (← toInt (v 0), ← toInt (v 1))

/-- Distance of two integer points (`cv::norm`, math_helper.cpp:279). -/
noncomputable def pointDist (a b : ℤ × ℤ) : ℝ := √(((a.1 - b.1 : ℤ) : ℝ) ^ 2 + ((a.2 - b.2 : ℤ) : ℝ) ^ 2)

/-- math_helper.cpp:275-286: largest distance of two different hull points; two equal positions contribute zero -/
noncomputable def hullDiameter (h : List (ℤ × ℤ)) : ℝ :=
  h.foldl (fun m a => h.foldl (fun m b => if pointDist a b > m then pointDist a b else m) m) 0

/-- math_helper.cpp:263-287 `maximum_distance`; `hull` is `cv::convexHull` -/
noncomputable def maximumDistance (hull : List (ℤ × ℤ) → List (ℤ × ℤ)) (vs : List (V3 ℝ)) : Res ℝ := do
  let pts ← vs.mapM toPoint
  pure (hullDiameter (hull pts))

/-- ekf.cpp:768-794: the numeric part of `AttemptGpsInitialization` in exact form: averages the earth-fixed fixes, moves
them into the east-north-up frame of the average, aligns, and evaluates.  `xyz` are the body positions.  All parts are
evaluated whether or not the acceptance condition needs them. -/
noncomputable def gpsFit (svd : M2 → M2 × M2) (hull : List (ℤ × ℤ) → List (ℤ × ℤ)) (angThresh : ℝ)
    (xyz ecef : List (V3 ℝ)) : Res (Ekf.GpsFit ℝ) := do
  let ref ← averageVectors ecef
  let refLla ← ecefToLla ref
  let enu ← ecef.mapM fun x => ecefToEnu x refLla
  let al ← kabsch2d svd xyz enu
  let dist ← maximumDistance hull enu
  match al with
  | none => pure ⟨false, 0, none, dist, Real.tan angThresh, 0, 0⟩
  | some al => do
    let pos ← enuToLla (-al.shift) refLla
    pure ⟨true, al.posStd, al.angStd, dist, Real.tan angThresh, pos, affineAngle al.rot⟩

end EkfCal
