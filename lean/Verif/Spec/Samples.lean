import Verif.Spec.Machine
import Mathlib.Data.Rat.Defs
import Mathlib.Algebra.Order.Ring.Rat
import Mathlib.Algebra.Field.Rat

/-!
# Concrete data over `ℚ` used to show that hypotheses can be met

`Samples.prim` is not a contract-satisfying numeric library; it only makes the model computable.
-/

namespace EkfCal.Samples
open EkfCal

/-- Read off a decidable fact about a defined outcome by evaluating the outcome. -/
theorem ok_of_check {α : Type} {r : Res α} {P : α → Prop} [DecidablePred P]
    (h : (match r with | .ok e => decide (P e) | .error _ => false) = true) : ∃ e, r = .ok e ∧ P e := by
  cases r with
  | ok e => exact ⟨e, rfl, of_decide_eq_true h⟩
  | error u => cases h

/-- Placeholder numerics. -/
def prim : Prim ℚ where
  sqrt := id
  rotVecToQuat := fun v => ⟨1, v 0 / 2, v 1 / 2, v 2 / 2⟩
  quatToRotVec := fun q => ![2 * q.x, 2 * q.y, 2 * q.z]
  slerp := fun a _ _ => a
  qr := fun a _ i j => a.get i j
  inv := fun _ i j => if i = j then 1 else 0

/-- Filter parameters. -/
def params (aug : AugType) (root : Bool) : EkfParams ℚ where
  augType := aug
  augDeltaTime := 1
  augPosError := 1
  augAngError := 1
  processNoise := ⟨18, fun _ => 1⟩
  posBInL := 0
  angBToL := Quat.one
  posEInG := 0
  angLToE := 0
  gpsInitType := .constant
  gpsInitBaselineDist := 100
  gpsInitPosThresh := 1
  gpsInitAngThresh := 1
  motionDetectionChiSquared := 1
  imuNoiseScaleFactor := 100
  useRoot := root
  useFirstEstimate := false

/-- An IMU with the given calibration flags. -/
def imu (ext int : Bool) : ImuState ℚ := ((ImuState.default : ImuState ℚ).setIsExtrinsic ext).setIsIntrinsic int
/-- A calibrated GPS antenna. -/
def gps : GpsState ℚ := (GpsState.default : GpsState ℚ).setIsExtrinsic true
/-- A calibrated camera. -/
def cam : CamState ℚ := (CamState.default : CamState ℚ).setIsExtrinsic true
/-- A calibrated fiducial with the given id. -/
def fid (id : Nat) : FidState ℚ :=
  (⟨0, 0, Quat.one, 1, 1, 0, 0, id, false⟩ : FidState ℚ).setIsExtrinsic true
/-- A covariance argument. -/
def cov (n : Nat) : Mat ℚ := ⟨n, n, fun i j => if i = j then 2 else 0⟩

/-- A history with all kinds of sensors, predictions, frames and an update. -/
def ops : List (Ekf.Op ℚ) :=
  [.registerIMU 3 (imu true true) (cov 12), .registerGPS 7 gps (cov 3), .registerCamera 1 cam (cov 6),
   .registerFiducial (fid 4) (cov 6), .initializeGravity, .predict 1, .frame 1 10, .predict 2, .frame 1 11, .getImu 99,
   .kalman ⟨1, 57, fun _ _ => 1⟩ ⟨1, fun _ => 1⟩ ⟨1, 1, fun _ _ => 1⟩, .registerIMU 2 (imu false true) (cov 6)]

end EkfCal.Samples
