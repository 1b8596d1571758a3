import Verif.Spec.Machine
import Verif.Spec.Window

/-!
# Specification: calls that keep their side of the contract

`Op.Safe e op` is what a caller has to guarantee in filter state `e` so that the call has a defined result.  It only
mentions the arguments of the call, the registered ids, the clone windows, the clock and the configured track length.
-/

namespace EkfCal
variable {K : Type} [Field K] [LinearOrder K]

/-- The covariance argument covers the `n` estimated quantities of the sensor. -/
def Mat.Covers (c : Mat K) (n : Nat) : Prop := n ≤ c.rows ∧ n ≤ c.cols

/-- Neighbouring clones of a window have different times. -/
def DistinctTimes : List (AugState K) → Prop
  | a :: b :: rest => b.time ≠ a.time ∧ DistinctTimes (b :: rest)
  | _ => True

/-- The window that a pose query for a camera interpolates in. -/
def Ekf.queryKey (e : Ekf K) : Nat := if e.augType = .primary then e.primaryCameraId else 0

/-- A pose query that interpolates finds a clone, never two neighbours with the same time, and, if it asks for a time
after the newest clone, a clock that has moved on since that clone. -/
def Ekf.QuerySafe (e : Ekf K) (t : K) : Prop :=
  ∃ first last, (e.window e.queryKey).head? = some first ∧ (e.window e.queryKey).getLast? = some last ∧
    (t < first.time ∨ (t < last.time ∧ DistinctTimes (e.window e.queryKey)) ∨ (last.time ≤ t ∧ e.currentTime ≠ last.time))

/-- The caller's obligations. -/
def Ekf.Op.Safe (e : Ekf K) : Ekf.Op K → Prop
  | .registerIMU id s c => (e.state.imus.find? id).isSome = true ∨ c.Covers s.dim
  | .registerGPS id s c => (e.state.gpss.find? id).isSome = true ∨ c.Covers s.dim
  | .registerCamera id s c => (e.state.cams.find? id).isSome = true ∨ (s.rate ≠ 0 ∧ c.Covers s.dim)
  | .registerFiducial s c => (e.state.fids.find? s.id).isSome = true ∨ c.Covers s.dim
  | .frame cam _ => e.ClonesFrame cam → e.maxTrackLength = 0 → e.window cam ≠ []
  | .kalman J r R => J.cols = e.stateSize ∧ R.rows = J.rows ∧ R.cols = J.rows ∧ r.size = J.rows
  | .getAug cam _ t => ¬ e.ClonesFrame cam → e.QuerySafe t
  | .setBodyProcessNoise v => v.size = 18
  | .attemptGpsInit _ x fit =>
    (fit (e.gpsXyzVec ++ [e.state.body.pos]) (e.gpsEcefVec ++ [x])).angStd.isSome = true
  | _ => True

/-- Every call of the history keeps its side of the contract in the state in which it is made. -/
def Ekf.SafeHistory (N : Prim K) (e : Ekf K) : List (Ekf.Op K) → Prop
  | [] => True
  | op :: ops => op.WF ∧ op.Safe e ∧ ∀ e', Ekf.step N e op = .ok e' → Ekf.SafeHistory N e' ops

end EkfCal
