import Verif.Spec.Update
import Verif.Spec.Joint
import Verif.Model.Ekf

/-!
# Specification: what a measurement update should achieve
-/

namespace EkfCal
open Finset
variable {K : Type} [Field K]

/-- What a correction `δ` costs: its own size in units of the uncertainty of the estimate, and the size of the residual `r - H δ` that it
leaves in units of the uncertainty of the measurement.  `Pi` and `Ri` are the inverses of the two covariances. -/
def updateCost (n : Nat) (Pi : Nat → Nat → K) (H : Mat K) (Ri : Nat → Nat → K) (r : Vec K) (δ : Nat → K) : K :=
  quad n Pi δ + quad H.rows Ri fun a => r.get a - ∑ k ∈ range n, H.get a k * δ k

/-- The information in an estimate with information `Pi` and a measurement: `Pi + Hᵀ Ri H`. -/
def information (Pi : Nat → Nat → K) (H : Mat K) (Ri : Nat → Nat → K) (i j : Nat) : K :=
  Pi i j + congr H.rows (fun i a => H.get a i) Ri i j

/-- One matrix above another. -/
def Mat.above (A B : Mat K) : Mat K := ⟨A.rows + B.rows, A.cols, fun i j => if i < A.rows then A.get i j else B.get (i - A.rows) j⟩
/-- Two blocks on the diagonal, zero elsewhere: the errors of two independent measurements. -/
def Mat.beside (A B : Mat K) : Mat K :=
  ⟨A.rows + B.rows, A.cols + B.cols, fun i j =>
    if i < A.rows then (if j < A.cols then A.get i j else 0) else if j < A.cols then 0 else B.get (i - A.rows) (j - A.cols)⟩
/-- One vector after another. -/
def Vec.andThen (v w : Vec K) : Vec K := ⟨v.size + w.size, fun i => if i < v.size then v.get i else w.get (i - v.size)⟩

/-- The block-diagonal function of two matrices, the first with `m` rows. -/
def blocks (m : Nat) (A B : Nat → Nat → K) (i j : Nat) : K :=
  if i < m then (if j < m then A i j else 0) else if j < m then 0 else B (i - m) (j - m)

/-- A correction that the uncertainty `P` of the estimate allows: `P y`. -/
def allowed (n : Nat) (P : Nat → Nat → K) (y : Nat → K) (i : Nat) : K := ∑ k ∈ range n, P i k * y k

/-- What the correction `P y` costs; if `P` has an inverse this is `updateCost` of `P y`. -/
def allowedCost (n : Nat) (P : Nat → Nat → K) (H : Mat K) (Ri : Nat → Nat → K) (r : Vec K) (y : Nat → K) : K :=
  quad n P y + quad H.rows Ri fun a => r.get a - ∑ k ∈ range n, H.get a k * allowed n P y k

/-- The residual, weighed by the certainty of the measurement and by the uncertainty `P'` after it: `P' Hᵀ Ri r`. -/
def weighed (n : Nat) (P' : Nat → Nat → K) (H : Mat K) (Ri : Nat → Nat → K) (r : Vec K) (i : Nat) : K :=
  ∑ k ∈ range n, P' i k * ∑ a ∈ range H.rows, H.get a k * ∑ b ∈ range H.rows, Ri a b * r.get b

variable [LinearOrder K]

/-- The contracts of the external numerics that the measurement update uses. -/
structure Prim.Lawful (N : Prim K) : Prop where
  qr : N.QrLaw
  inv : N.InvLaw
  sqrt : N.SqrtLaw

/-- The filter `e` is corrected by the residual `r` of a measurement with Jacobian `H` and covariance `R`, and becomes `e'`.  In
square-root form the errors are independent (see C11 for what happens to others). -/
structure Ekf.Measured (N : Prim K) (e : Ekf K) (H : Mat K) (r : Vec K) (R : Mat K) (e' : Ekf K) : Prop where
  cov : e.useRoot = false → e.cov.IsCov
  noise : R.IsCov
  takes : e.useRoot = true → R.Diagonal
  update : Ekf.kalmanUpdate N e H r R = .ok e'

/-- A list of measurements (Jacobian and covariance), one after the other, with their residuals.  Lists of different lengths are no
history of measurements; they are an error here. -/
def Ekf.measureAll (N : Prim K) (e : Ekf K) : List (Mat K × Mat K) → List (Vec K) → Res (Ekf K)
  | [], [] => .ok e
  | m :: ms, r :: rs => do
    let e ← Ekf.kalmanUpdate N e m.1 r m.2
    Ekf.measureAll N e ms rs
  | _, _ => .error .sizeMismatch

end EkfCal
