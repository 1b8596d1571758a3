import Verif.Spec.Station
import Verif.Spec.Samples
import Verif.Spec.Cov

/-!
# A concrete run of a filter with its updaters over `ℚ`
-/

namespace EkfCal.Samples
open EkfCal

/-- Placeholder numerics for the updaters. -/
def num : Num ℚ where
  toPrim := prim
  quatJac := fun _ => 1
  ofMat := fun _ => Quat.one
  hq := fun _ i j => if i = j then 1 else 0
  solve := fun _ b => b

/-- Placeholder frame conversions. -/
def gpsNum : GpsNum ℚ where
  llaToEcef := .ok
  llaToEnu := fun a b => .ok (a - b)
  ecefToEnu := fun a b => .ok (a - b)
  enuToLocal := fun a _ => a
  fit := fun _ _ => ⟨false, 0, none, 0, 0, 0, 0⟩

/-- A run with an IMU, a GPS antenna, a camera and a fiducial. -/
def calls : List (Call ℚ) :=
  [.filter (.registerIMU 3 (imu true true) (cov 12)), .filter (.registerGPS 7 gps (cov 3)),
   .filter (.registerCamera 1 cam (cov 6)), .filter (.registerFiducial (fid 4) (cov 6)),
   .filter (.setGpsReference 0 0), .filter .initializeGravity,
   .newImu 1 3 true true, .newGps 2 7 true, .newFid 3 4 1 true true, .newCam 4 1 true 1,
   .imu 1 10 ![1000, 0, 0] 1 ![0, 0, 0] 1, .gps 2 11 ![0, 0, 0] (cov 3), .filter (.frame 1 10),
   .fid 3 11 ⟨![1, 0, 0], Quat.one, ![1, 1, 1], ![1, 1, 1]⟩, .imu 1 12 ![0, 0, 49 / 5] 1 ![0, 0, 0] 1,
   .cam 4 12 ⟨1 / 100, 1 / 100, 0, 0, 0, 0, 640, 480, 1 / 200000⟩ [] 1, .imu 9 13 0 1 0 1]

theorem calls_wf : ∀ c ∈ calls, c.WF := by
  intro c h
  simp only [calls, List.mem_cons, List.not_mem_nil, or_false] at h
  rcases h with rfl | rfl | rfl | rfl | rfl | rfl | rfl | rfl | rfl | rfl | rfl | rfl | rfl | rfl | rfl | rfl | rfl <;>
    first | trivial | rfl

end EkfCal.Samples
