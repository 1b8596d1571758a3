import Verif.Model.Ekf

/-!
# Specification: clone windows
-/

namespace EkfCal
variable {K : Type}

/-- The clones stored for a camera (key 0 for time- and error-driven cloning), oldest first. -/
def Ekf.window (e : Ekf K) (k : Nat) : List (AugState K) := UMap.getD e.state.augs k []

/-- What identifies a recorded clone: its frame and the time at which it was taken. -/
def AugState.stamp (a : AugState K) : Nat × K := (a.frameId, a.time)

/-- Everything recorded in a clone except its row index. -/
def AugState.record (a : AugState K) : AugState K := { a with index := 0 }

/-- The times of a window, oldest first. -/
def times (w : List (AugState K)) : List K := w.map AugState.time

/-- Does the filter clone on a frame of this camera? -/
def Ekf.ClonesFrame (e : Ekf K) (cam : Nat) : Prop :=
  e.augType = .all ∨ (e.augType = .primary ∧ cam = e.primaryCameraId)

/-- The clone of the current pose for a frame. -/
def Ekf.poseClone [Zero K] (e : Ekf K) (frame : Nat) : AugState K :=
  ⟨frame, e.currentTime, e.state.body.pos, e.state.body.ang, 0, 0⟩

end EkfCal
