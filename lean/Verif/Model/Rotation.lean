import Verif.Model.Linear3
import Mathlib.Analysis.SpecialFunctions.Complex.Arg
import Mathlib.Analysis.SpecialFunctions.Trigonometric.Inverse

/-!
# Model of the rotation conversions in `src/utility/type_helper.cpp`, over `ℝ`
-/

namespace EkfCal

/-- Euclidean norm of a 3-vector (Eigen `norm()`). -/
noncomputable def V3.norm (v : V3 ℝ) : ℝ := Real.sqrt (v 0 * v 0 + v 1 * v 1 + v 2 * v 2)

/-- `std::atan2(y, x)` (libm). -/
noncomputable def atan2 (y x : ℝ) : ℝ := Complex.arg ⟨x, y⟩

/-- `Eigen::Quaterniond(Eigen::AngleAxisd{angle, axis})` (Eigen). -/
noncomputable def Quat.ofAngleAxis (angle : ℝ) (axis : V3 ℝ) : Quat ℝ :=
  ⟨Real.cos (angle / 2), Real.sin (angle / 2) * axis 0, Real.sin (angle / 2) * axis 1, Real.sin (angle / 2) * axis 2⟩

/-- type_helper.cpp:49-61 `RotVecToQuat` -/
noncomputable def rotVecToQuat (v : V3 ℝ) : Quat ℝ :=
  if V3.norm v > 1 / 10 ^ 9 then Quat.ofAngleAxis (V3.norm v) (fun i => v i / V3.norm v) else ⟨1, 0, 0, 0⟩

/-- `Eigen::AngleAxisd{quat}` (Eigen): angle and axis. -/
noncomputable def Quat.toAngleAxis (q : Quat ℝ) : ℝ × V3 ℝ :=
  let n := V3.norm ![q.x, q.y, q.z]
  if n ≠ 0 then
    let m := if q.w < 0 then -n else n
    (2 * atan2 n |q.w|, ![q.x / m, q.y / m, q.z / m])
  else (0, ![1, 0, 0])

/-- type_helper.cpp:63-68 `QuatToRotVec` -/
noncomputable def quatToRotVec (q : Quat ℝ) : V3 ℝ :=
  fun i => q.toAngleAxis.2 i * q.toAngleAxis.1

/-- type_helper.cpp:70-77 `EigVecToQuat`: Euler angles in Z-Y-X order -/
noncomputable def eulerToQuat (e : V3 ℝ) : Quat ℝ :=
  ((Quat.ofAngleAxis (e 2) ![0, 0, 1]).mul (Quat.ofAngleAxis (e 1) ![0, 1, 0])).mul
    (Quat.ofAngleAxis (e 0) ![1, 0, 0])

/-- `q.normalize()` (Eigen): divides by the norm when the squared norm is positive. -/
noncomputable def Quat.normalize (q : Quat ℝ) : Quat ℝ :=
  if 0 < q.normSq then
    ⟨q.w / √q.normSq, q.x / √q.normSq, q.y / √q.normSq, q.z / √q.normSq⟩
  else q

/-- type_helper.cpp:38-47 `StdToEigQuat` -/
noncomputable def stdToEigQuat (l : List ℝ) : Quat ℝ :=
  match l with
  | [w, x, y, z] => Quat.normalize ⟨w, x, y, z⟩
  | _ => ⟨1, 0, 0, 0⟩

/-- `a.slerp(t, b)` (Eigen): `eps` is the machine epsilon 2⁻⁵². -/
noncomputable def slerp (a : Quat ℝ) (t : ℝ) (b : Quat ℝ) : Quat ℝ :=
  let d := a.w * b.w + a.x * b.x + a.y * b.y + a.z * b.z
  let s0 := if |d| ≥ 1 - 1 / 2 ^ 52 then 1 - t else Real.sin ((1 - t) * Real.arccos |d|) / Real.sin (Real.arccos |d|)
  let s1 := if |d| ≥ 1 - 1 / 2 ^ 52 then t else Real.sin (t * Real.arccos |d|) / Real.sin (Real.arccos |d|)
  let s1 := if d < 0 then -s1 else s1
  ⟨s0 * a.w + s1 * b.w, s0 * a.x + s1 * b.x, s0 * a.y + s1 * b.y, s0 * a.z + s1 * b.z⟩

/-- math_helper.cpp:170-182 `QuaternionJacobian` -/
noncomputable def quatJacobian (q : Quat ℝ) : M3 ℝ :=
  let v := quatToRotVec q
  let n := max (V3.norm v) (1 / 10 ^ 9)
  1 - ((1 - Real.cos n) / n ^ 2) • skew v + ((n - Real.sin n) / n ^ 3) • (skew v * skew v)

end EkfCal
