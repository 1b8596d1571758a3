import Verif.Model.Prim
import Mathlib.Data.Matrix.Mul
import Mathlib.LinearAlgebra.Matrix.Notation

/-!
# Fixed-size linear algebra used by the updaters

`Eigen::Matrix3d` is Mathlib's `Matrix (Fin 3) (Fin 3) K`; its product, transpose, sum and negation are the Eigen
operators of the same name.
-/

namespace EkfCal
variable {K : Type}

/-- `Eigen::Matrix3d`. -/
abbrev M3 (K : Type) := Matrix (Fin 3) (Fin 3) K

/-- A `Matrix3d` where Eigen converts it to `MatrixXd`. -/
def M3.toMat [Zero K] (m : M3 K) : Mat K :=
  ⟨3, 3, fun i j => if h : i < 3 ∧ j < 3 then m ⟨i, h.1⟩ ⟨j, h.2⟩ else 0⟩

/-- `a.cross(b)` (Eigen). -/
def V3.cross [Sub K] [Mul K] (a b : V3 K) : V3 K :=
  ![a 1 * b 2 - a 2 * b 1, a 2 * b 0 - a 0 * b 2, a 0 * b 1 - a 1 * b 0]

/-- math_helper.cpp:27-39 `SkewSymmetric` -/
def skew [Zero K] [Neg K] (v : V3 K) : M3 K :=
  !![0, -v 2, v 1; v 2, 0, -v 0; -v 1, v 0, 0]

/-- `q * v` for a vector `v` (Eigen `_transformVector`): `uv = q.vec × v; uv += uv; v + w uv + q.vec × uv`. -/
def Quat.rotate [Add K] [Sub K] [Mul K] (q : Quat K) (v : V3 K) : V3 K :=
  let vec : V3 K := ![q.x, q.y, q.z]
  let uv := V3.cross vec v + V3.cross vec v
  v + (fun i => q.w * uv i) + V3.cross vec uv

/-- `q.toRotationMatrix()` (Eigen). -/
def Quat.toMat [One K] [Add K] [Sub K] [Mul K] (q : Quat K) : M3 K :=
  let t := fun a b : K => (a * b) + (a * b)
  !![1 - (t q.y q.y + t q.z q.z), t q.x q.y - t q.z q.w, t q.x q.z + t q.y q.w;
     t q.x q.y + t q.z q.w, 1 - (t q.x q.x + t q.z q.z), t q.y q.z - t q.x q.w;
     t q.x q.z - t q.y q.w, t q.y q.z + t q.x q.w, 1 - (t q.x q.x + t q.y q.y)]

/-- A `Vector3d` pair stacked into a 6-vector (`segment<3>(0) = a; segment<3>(3) = b`). -/
def Vec.of6 [Zero K] (a b : V3 K) : Vec K :=
  ⟨6, fun i => if h : i < 3 then a ⟨i, h⟩ else if h' : i - 3 < 3 then b ⟨i - 3, h'⟩ else 0⟩

/-- A `Vector3d` where Eigen converts it to `VectorXd`. -/
def Vec.of3 [Zero K] (a : V3 K) : Vec K := ⟨3, fun i => if h : i < 3 then a ⟨i, h⟩ else 0⟩

/-- External numerics of the updaters, in addition to those of the filter. -/
structure Num (K : Type) extends Prim K where
  /-- `QuaternionJacobian`, math_helper.cpp:170-182 (concrete definition over `ℝ` in `Model/Rotation.lean`) -/
  quatJac : Quat K → M3 K
  /-- `Eigen::Quaterniond(Matrix3d)` -/
  ofMat : M3 K → Quat K
  /-- entries of the full orthogonal factor `HouseholderQR::householderQ()` -/
  hq : Mat K → Nat → Nat → K
  /-- `A.colPivHouseholderQr().solve(b)` for `Matrix3d`, `Vector3d` -/
  solve : M3 K → V3 K → V3 K

end EkfCal
