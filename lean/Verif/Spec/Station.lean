import Verif.Model.Station
import Verif.Spec.Machine
import Verif.Spec.Noise

/-!
# Specification: events on a filter with its updaters
-/

namespace EkfCal
variable {K : Type} [Field K] [LinearOrder K]

/-- A direct call has arguments the public interface can produce; messages are unrestricted. -/
def Call.WF : Call K → Prop
  | .filter op => op.WF
  | _ => True

/-- Every covariance argument is a covariance and every noise density is non-negative. -/
def Call.NoiseIsCov : Call K → Prop
  | .filter op => op.CovOK
  | .imu _ _ _ ac _ wc => (M3.toMat ac).IsCov ∧ (M3.toMat wc).IsCov
  | .gps _ _ _ c => c.IsCov
  | .fid _ _ d => (∀ i, 0 ≤ d.posError i) ∧ ∀ i, 0 ≤ d.angError i
  | _ => True

end EkfCal
