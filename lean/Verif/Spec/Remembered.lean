import Verif.Spec.Joint
import Verif.Spec.Window
import Verif.Spec.Update

/-!
# Specification: a remembered pose that is still the pose of the body
-/

namespace EkfCal
variable {K : Type}

/-- The newest pose remembered for a camera is the pose of the body: it has the same values, and it is uncertain together with everything
the filter estimates in the same way. -/
def Ekf.RemembersPose [Field K] (e : Ekf K) (cam : Nat) : Prop :=
  ∃ a, (e.window cam).getLast? = some a ∧ a.pos = e.state.body.pos ∧ a.ang = e.state.body.ang ∧
    ∀ k j, k < 6 → j < e.stateSize →
      e.P (a.index + k) j = e.P (poseRow k) j ∧ e.P j (a.index + k) = e.P j (poseRow k)

/-- Calls that take no time, for a filter `e`, and remember nothing further: corrections of any kind, new accelerations and rates, settings,
queries, conversions of time stamps once the clock is set, fixes collected for the reference, images of cameras whose poses are not remembered,
and predictions to a time that is reached. -/
def Ekf.Op.AtOnce [LE K] (e : Ekf K) : Ekf.Op K → Prop
  | .predict t => t ≤ e.currentTime
  | .frame cam _ => ¬ e.ClonesFrame cam
  | .localTime _ => e.timeInitialized = true
  | .kalman .. | .setBodyMotion .. | .setZeroAcceleration .. | .initializeGravity | .setMaxTrackLength .. | .setGpsReference .. | .getImu .. |
    .getGps .. | .getCam .. | .getAug .. | .attemptGpsInit .. => True
  | _ => False

/-- The errors of a measurement are independent, with covariances that have an inverse. -/
def Ekf.Op.Independent [Field K] [LinearOrder K] : Ekf.Op K → Prop
  | .kalman H _ R => R.IsCov ∧ R.Diagonal ∧ ∃ Ri, AreInverse H.rows R.get Ri
  | _ => True

/-- Between two filters a new pose is remembered by the clock: the newest one kept afterwards bears the present time, and none kept before did. -/
def Ekf.RemembersNow (e e' : Ekf K) : Prop := ∃ a, (e'.window 0).getLast? = some a ∧ a.time = e'.currentTime ∧ ∀ b ∈ e.window 0, b.time ≠ a.time

end EkfCal
