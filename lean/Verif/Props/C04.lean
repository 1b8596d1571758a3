import Verif.Lemmas.Keys
import Verif.Spec.Samples

/-!
# C04 — registering an id twice changes nothing
-/

set_option linter.unusedSectionVars false

namespace EkfCal
open Ekf
variable {K : Type} [Field K] [LinearOrder K]

/-- Registering an IMU under a known id leaves the whole filter untouched, whatever the arguments. -/
theorem C04_imu (N : Prim K) (e : Ekf K) (id : Nat) (s : ImuState K) (c : Mat K) (h : id ∈ UMap.keys e.state.imus) :
    e.registerIMU N id s c = .ok e := by
  cases hf : e.state.imus.find? id with
  | none => exact absurd h (UMap.find?_eq_none_iff.1 hf)
  | some v => simp [registerIMU, hf]

/-- The same for GPS antennas. -/
theorem C04_gps (N : Prim K) (e : Ekf K) (id : Nat) (s : GpsState K) (c : Mat K) (h : id ∈ UMap.keys e.state.gpss) :
    e.registerGPS N id s c = .ok e := by
  cases hf : e.state.gpss.find? id with
  | none => exact absurd h (UMap.find?_eq_none_iff.1 hf)
  | some v => simp [registerGPS, hf]

/-- The same for cameras, including timing limits and primary camera. -/
theorem C04_camera (N : Prim K) (e : Ekf K) (id : Nat) (s : CamState K) (c : Mat K)
    (h : id ∈ UMap.keys e.state.cams) : e.registerCamera N id s c = .ok e := by
  cases hf : e.state.cams.find? id with
  | none => exact absurd h (UMap.find?_eq_none_iff.1 hf)
  | some v => simp [registerCamera, hf]

/-- The same for fiducials. -/
theorem C04_fiducial (N : Prim K) (e : Ekf K) (s : FidState K) (c : Mat K) (h : s.id ∈ UMap.keys e.state.fids) :
    e.registerFiducial N s c = .ok e := by
  cases hf : e.state.fids.find? s.id with
  | none => exact absurd h (UMap.find?_eq_none_iff.1 hf)
  | some v => simp [registerFiducial, hf]

/-- Registering is remembered for good: after a registration of an id and any further calls, registering the same id
again, with whatever state and covariance, changes nothing. -/
theorem C04_again (N : Prim K) (e e1 e2 : Ekf K) (ops : List (Op K)) (hr : run N e1 ops = .ok e2) :
    (∀ id s c s' c', e.registerIMU N id s c = .ok e1 → e2.registerIMU N id s' c' = .ok e2) ∧
    (∀ id s c s' c', e.registerGPS N id s c = .ok e1 → e2.registerGPS N id s' c' = .ok e2) ∧
    (∀ id s c s' c', e.registerCamera N id s c = .ok e1 → e2.registerCamera N id s' c' = .ok e2) ∧
    (∀ s c s' c', s'.id = s.id → e.registerFiducial N s c = .ok e1 → e2.registerFiducial N s' c' = .ok e2) := by
  have hk := keysLE_run hr
  refine ⟨fun id s c s' c' h => ?_, fun id s c s' c' h => ?_, fun id s c s' c' h => ?_, fun s c s' c' hid h => ?_⟩
  · exact C04_imu N e2 id s' c' (hk.imus _ (keysLE_registerIMU h).2)
  · exact C04_gps N e2 id s' c' (hk.gpss _ (keysLE_registerGPS h).2)
  · exact C04_camera N e2 id s' c' (hk.cams _ (keysLE_registerCamera h).2)
  · exact C04_fiducial N e2 s' c' (hid ▸ hk.fids _ (keysLE_registerFiducial h).2)

/-- The hypotheses are met: a registration followed by a long history, then the same ids with other data. -/
example : ∃ e1 e2 : Ekf ℚ,
    (init Samples.prim (Samples.params .all false)).registerIMU Samples.prim 8 (Samples.imu true false) (Samples.cov 6)
      = .ok e1 ∧
    run Samples.prim e1 (Samples.ops.take 10) = .ok e2 ∧ e2.stateSize = 63 ∧
    e2.registerIMU Samples.prim 8 (Samples.imu true true) (Samples.cov 12) = .ok e2 := by
  have h : ∀ e1 e2 : Ekf ℚ, (init Samples.prim (Samples.params .all false)).registerIMU Samples.prim 8
      (Samples.imu true false) (Samples.cov 6) = .ok e1 → run Samples.prim e1 (Samples.ops.take 10) = .ok e2 →
      e2.registerIMU Samples.prim 8 (Samples.imu true true) (Samples.cov 12) = .ok e2 :=
    fun e1 e2 h1 h2 => (C04_again Samples.prim _ e1 e2 _ h2).1 _ _ _ _ _ h1
  exact ⟨_, _, rfl, rfl, rfl, h _ _ rfl rfl⟩

end EkfCal
