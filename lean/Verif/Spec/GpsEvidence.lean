import Verif.Model.Ekf

/-!
# Specification: evidence for a GPS reference
-/

namespace EkfCal
open Ekf
variable {K : Type}

/-- The fixes handed over for initialisation in a history, in order: time stamp and position. -/
def fixes : List (Op K) → List (K × V3 K)
  | [] => []
  | .attemptGpsInit t x _ :: ops => (t, x) :: fixes ops
  | _ :: ops => fixes ops

/-- The configured criterion, for `n` collected fixes whose evaluation is `f`: at least four fixes and, by configuration,
either a long enough baseline or both error estimates (defined, the angular one not zero) below their thresholds.  With
a constant reference no evidence counts. -/
def Evidence [LT K] [Zero K] (p : EkfParams K) (n : Nat) (f : GpsFit K) : Prop :=
  4 ≤ n ∧
  match p.gpsInitType with
  | .constant => False
  | .baselineDist => p.gpsInitBaselineDist < f.maxDist
  | .errorThreshold => f.success = true ∧ f.posStd < p.gpsInitPosThresh ∧
      ∃ a, f.angStd = some a ∧ a ≠ 0 ∧ a < f.tanAngThresh

/-- The published reference: position, heading, and whether it is set. -/
def Ekf.reference (e : Ekf K) : V3 K × K × Bool := (e.posEInG, e.angLToE, e.isLlaInitialized)

end EkfCal
