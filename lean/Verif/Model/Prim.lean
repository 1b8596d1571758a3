import Verif.Model.Base

/-!
# External numeric primitives

Square root, trigonometry-based conversions, QR and matrix inverse are external to the code modelled here
(Eigen, libm).  Over a generic field they are parameters, bundled in `Prim K`; what the proofs assume about
them is stated separately (`Prim.QrLaw`, …) and shown to be satisfiable over `ℝ`.
-/

namespace EkfCal

/-- External numeric primitives used by the filter. -/
structure Prim (K : Type) where
  /-- `std::sqrt` -/
  sqrt : K → K
  /-- `RotVecToQuat`, type_helper.cpp:49-61 (concrete definition over `ℝ` in `Model/Rotation.lean`) -/
  rotVecToQuat : V3 K → Quat K
  /-- `QuatToRotVec`, type_helper.cpp:63-68 -/
  quatToRotVec : Quat K → V3 K
  /-- `Eigen::Quaterniond::slerp(t, other)` -/
  slerp : Quat K → K → Quat K → Quat K
  /-- entries of the packed `HouseholderQR::matrixQR()` of the first matrix stacked on the second -/
  qr : Mat K → Mat K → Nat → Nat → K
  /-- entries of `Eigen::MatrixXd::inverse()` -/
  inv : Mat K → Nat → Nat → K

variable {K : Type}

/-- `v.norm()` of a 3-vector (Eigen): square root of the sum of squares. -/
def norm3 [Add K] [Mul K] (N : Prim K) (v : V3 K) : K :=
  N.sqrt (v 0 * v 0 + v 1 * v 1 + v 2 * v 2)

/-- math_helper.cpp:302-312 `QR_r`: the comma initialiser `vert_cat << left, right` needs equal column counts,
and `matrixQR().block(0, 0, cols, cols)` needs at least `cols` stacked rows; `triangularView<Upper>` zeroes
everything below the diagonal. -/
def qrStack [Zero K] (N : Prim K) (left right : Mat K) : Res (Mat K) :=
  if left.cols = right.cols then
    if left.cols ≤ left.rows + right.rows then
      .ok ⟨left.cols, left.cols, fun i j => if i ≤ j then N.qr left right i j else 0⟩
    else .error .outOfRange
  else .error .sizeMismatch

/-- `m.inverse()` (Eigen): defined for square matrices; a singular matrix gives IEEE non-numbers, about which
`Prim.inv` says nothing. -/
def Mat.inverse (N : Prim K) (m : Mat K) : Res (Mat K) :=
  if m.rows = m.cols then .ok ⟨m.rows, m.cols, N.inv m⟩ else .error .sizeMismatch

end EkfCal
