import Verif.Spec.Cov

/-!
# Specification: the linear-Gaussian measurement update
-/

namespace EkfCal
open Finset
variable {K : Type} [Field K]

/-- Innovation covariance `S = H P Hᵀ + R` (`n` = size of `P`). -/
def innovation (n : Nat) (P : Nat → Nat → K) (H R : Mat K) (a b : Nat) : K := congr n H.get P a b + R.get a b

/-- `A` and `B` are inverse `m`×`m` matrices. -/
def AreInverse (m : Nat) (A B : Nat → Nat → K) : Prop :=
  (∀ i j, i < m → j < m → ∑ k ∈ range m, A i k * B k j = if i = j then 1 else 0) ∧
  (∀ i j, i < m → j < m → ∑ k ∈ range m, B i k * A k j = if i = j then 1 else 0)

/-- Kalman gain `G = P Hᵀ S⁻¹`, with `B` the inverse of the innovation covariance. -/
def kalmanGain (n : Nat) (P : Nat → Nat → K) (H : Mat K) (B : Nat → Nat → K) (i a : Nat) : K :=
  ∑ b ∈ range H.rows, (∑ k ∈ range n, P i k * H.get b k) * B b a

/-- Joseph form `(I - G H) P (I - G H)ᵀ + G R Gᵀ`. -/
def joseph (n : Nat) (P : Nat → Nat → K) (H R : Mat K) (G : Nat → Nat → K) (i j : Nat) : K :=
  congr n (fun i k => (if i = k then 1 else 0) - ∑ a ∈ range H.rows, G i a * H.get a k) P i j + congr H.rows G R.get i j

/-- The correction `G r`. -/
def correction (n : Nat) (H : Mat K) (G : Nat → Nat → K) (r : Vec K) : Vec K :=
  ⟨n, fun i => ∑ a ∈ range H.rows, G i a * r.get a⟩

end EkfCal
