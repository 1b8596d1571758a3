import Verif.Spec.Optimal
import Verif.Spec.Machine

/-!
# Specification: which of two filters is more certain
-/

namespace EkfCal
variable {K : Type} [Field K] [LinearOrder K]

/-- In every direction the first covariance has at most the variance of the second. -/
def Within (n : Nat) (P Q : Nat → Nat → K) : Prop := ∀ x, quad n P x ≤ quad n Q x

/-- The first filter is at least as certain as the second of every combination of the estimated numbers. -/
structure Ekf.Surer (e f : Ekf K) : Prop where
  size : f.cov.rows = e.cov.rows
  within : Within e.cov.rows e.P f.P

/-- What happens to two filters that are compared. -/
inductive Shared (K : Type)
  /-- both predict to a time -/
  | predict (t : K)
  /-- both measure the same quantity, each with its own reading and its own covariance -/
  | both (H : Mat K) (r₁ r₂ : Vec K) (R₁ R₂ : Mat K)
  /-- the first filter alone measures something -/
  | first (H : Mat K) (r : Vec K) (R : Mat K)

/-- The calls on the first filter. -/
def Shared.left : Shared K → List (Ekf.Op K)
  | .predict t => [.predict t]
  | .both H r₁ _ R₁ _ => [.kalman H r₁ R₁]
  | .first H r R => [.kalman H r R]

/-- The calls on the second filter. -/
def Shared.right : Shared K → List (Ekf.Op K)
  | .predict t => [.predict t]
  | .both H _ r₂ _ R₂ => [.kalman H r₂ R₂]
  | .first .. => []

/-- Measurement covariances are covariances with an inverse, and the first filter measures at least as well as the second. -/
def Shared.OK : Shared K → Prop
  | .predict _ => True
  | .both H _ _ R₁ R₂ => R₁.IsCov ∧ R₂.IsCov ∧ (∃ Ri, AreInverse H.rows R₁.get Ri) ∧ (∃ Ri, AreInverse H.rows R₂.get Ri) ∧
      Within H.rows R₁.get R₂.get
  | .first H _ R => R.IsCov ∧ ∃ Ri, AreInverse H.rows R.get Ri

end EkfCal
