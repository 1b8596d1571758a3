import Verif.Model.Linear3
import Verif.Spec.Joint
import Verif.Spec.Update
import Mathlib.Algebra.Module.LinearMap.Defs
import Mathlib.Algebra.Module.Pi

/-!
# Specification: weighing a measurement with the covariance of its errors
-/

namespace EkfCal
variable {K : Type} [Field K] [LinearOrder K]

/-- `e'` is `e` after the exact Kalman update with Jacobian `H`, residual `r` and measurement noise `R`; `B` is the inverse of
the innovation covariance. -/
def KalmanStep (N : Prim K) (e e' : Ekf K) (H : Mat K) (r : Vec K) (R : Mat K) : Prop :=
  ∀ B, AreInverse H.rows (innovation e.cov.rows e.P H R) B →
    e.state.addVec N (correction e.cov.rows H (kalmanGain e.cov.rows e.P H B) r) = .ok e'.state ∧
    ∀ i j, i < e.cov.rows → j < e.cov.rows →
      e'.P i j = joseph e.cov.rows e.P H R (kalmanGain e.cov.rows e.P H B) i j

/-- A 3×3 matrix `R` with the entries of `A`. -/
structure IsBlock3 (R : Mat K) (A : M3 K) : Prop where
  rows : R.rows = 3
  cols : R.cols = 3
  get : ∀ i j : Fin 3, R.get i j = A i j

/-- A 6×6 matrix `R` with `A` and `B` on the diagonal and zeros elsewhere. -/
structure IsBlocks6 (R : Mat K) (A B : M3 K) : Prop where
  rows : R.rows = 6
  cols : R.cols = 6
  upper : ∀ i j : Fin 3, R.get i j = A i j
  lower : ∀ i j : Fin 3, R.get (3 + i) (3 + j) = B i j
  right : ∀ i j : Fin 3, R.get i (3 + j) = 0
  left : ∀ i j : Fin 3, R.get (3 + i) j = 0

/-! ## Random errors

An expectation is a linear functional on the random quantities; only second moments are used, no particular distribution. -/

/-- The components of `z` are uncorrelated, with variance 1. -/
def IsStandard {Ω : Type} {n : Nat} (E : (Ω → K) →ₗ[K] K) (z : Ω → Fin n → K) : Prop :=
  ∀ i j, E (fun w => z w i * z w j) = if i = j then 1 else 0

/-- The error `x` has covariance `C`. -/
def HasCovariance {Ω : Type} {n : Nat} (E : (Ω → K) →ₗ[K] K) (x : Ω → Fin n → K) (C : Matrix (Fin n) (Fin n) K) : Prop :=
  ∀ i j, E (fun w => x w i * x w j) = C i j

end EkfCal
