import Verif.Model.Ekf
import Verif.Spec.Cov

/-!
# Specification: the standard-form filter that a square-root filter stands for
-/

namespace EkfCal
variable {K : Type} [Field K]

/-- The standard-form filter with the covariance and the process noise that a square-root filter stands for. -/
def Ekf.standard (e : Ekf K) : Ekf K :=
  { e with
    useRoot := false
    cov := ⟨e.cov.rows, e.cov.cols, gram e.cov⟩
    processNoise := ⟨e.processNoise.rows, e.processNoise.cols, gram e.processNoise⟩ }

/-- The noise a square-root update really uses: `DᵀD`, `D` the entrywise square root. -/
def effectiveNoise (N : Prim K) (R : Mat K) : Mat K := ⟨R.cols, R.cols, gram (R.map N.sqrt)⟩

/-- What a square-root prediction makes of the factor before process noise is added: body columns get `Fᵀ` from the
right, as they should; the body rows of the sensor columns get `F` from the left. -/
def rootMoved (dt : K) (R : Nat → Nat → K) (i j : Nat) : K :=
  if i < 18 then
    if j < 18 then R i j + (if j < 3 then dt * R i (j + 3) else 0)
    else R i j + (if i < 3 then dt * R (i + 3) j else 0)
  else R i j

end EkfCal
