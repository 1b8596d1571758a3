import Verif.Spec.Layout
import Verif.Spec.Cov

/-!
# Specification: which process noise belongs to which rows

Every calibrated quantity is a group of three rows; a sensor state carries one noise density per group.
-/

namespace EkfCal
variable {K : Type}

/-- (first row, noise density) of each three-row group of an IMU: position and orientation of its mounting, then its two
biases. -/
def ImuState.noise (s : ImuState K) : List (Nat × K) :=
  (if s.isExtrinsic then [(s.indexExtrinsic, s.posStability), (s.indexExtrinsic + 3, s.angStability)] else []) ++
  (if s.isIntrinsic then [(s.indexIntrinsic, s.accBiasStability), (s.indexIntrinsic + 3, s.omgBiasStability)] else [])
/-- The three rows of a GPS antenna. -/
def GpsState.noise (s : GpsState K) : List (Nat × K) := if s.isExtrinsic then [(s.index, s.posStability)] else []
/-- Position and orientation rows of a camera. -/
def CamState.noise (s : CamState K) : List (Nat × K) :=
  if s.isExtrinsic then [(s.index, s.posStability), (s.index + 3, s.angStability)] else []
/-- Position and orientation rows of a fiducial. -/
def FidState.noise (s : FidState K) : List (Nat × K) :=
  if s.isExtrinsic then [(s.index, s.posStability), (s.index + 3, s.angStability)] else []

/-- Noise groups of all values of a map. -/
def mapNoise {α : Type} (noise : α → List (Nat × K)) (m : UMap α) : List (Nat × K) := m.flatMap fun kv => noise kv.2

/-- Noise groups of all calibrated sensors, at their published indices. -/
def State.noise (s : State K) : List (Nat × K) :=
  mapNoise ImuState.noise s.imus ++ mapNoise GpsState.noise s.gpss ++ mapNoise CamState.noise s.cams ++
    mapNoise FidState.noise s.fids

/-- All stored clones. -/
def State.clones (s : State K) : List (AugState K) := s.augs.flatMap fun kv => kv.2

/-- The noise matrix `Q` in standard form: diagonal, every sensor group at its published rows, nothing on clones. -/
structure NoisePlaced [Zero K] (Q : Mat K) (s : State K) : Prop where
  diagonal : ∀ i j, i < Q.rows → j < Q.cols → i ≠ j → Q.get i j = 0
  sensors : ∀ x ∈ s.noise, ∀ k, k < 3 → Q.get (x.1 + k) (x.1 + k) = x.2
  clones : ∀ a ∈ s.clones, ∀ k, k < 6 → Q.get (a.index + k) (a.index + k) = 0

/-- Calls whose covariance and noise arguments are covariances and non-negative densities. -/
def Ekf.Op.CovOK [Field K] [LinearOrder K] : Ekf.Op K → Prop
  | .registerIMU _ s c => (⟨s.size, s.size, c.get⟩ : Mat K).IsCov ∧ ∀ x ∈ s.noise, 0 ≤ x.2
  | .registerGPS _ s c => (⟨s.size, s.size, c.get⟩ : Mat K).IsCov ∧ ∀ x ∈ s.noise, 0 ≤ x.2
  | .registerCamera _ s c => (⟨s.size, s.size, c.get⟩ : Mat K).IsCov ∧ ∀ x ∈ s.noise, 0 ≤ x.2
  | .registerFiducial s c => (⟨s.size, s.size, c.get⟩ : Mat K).IsCov ∧ ∀ x ∈ s.noise, 0 ≤ x.2
  | .kalman _ _ n => n.IsCov
  | .setBodyProcessNoise v => ∀ k, k < 18 → 0 ≤ v.get k
  | _ => True

end EkfCal
