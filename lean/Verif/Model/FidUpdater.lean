import Verif.Model.Ekf
import Verif.Model.Linear3

/-!
# Model of `src/ekf/update/fiducial_updater.cpp`

Not modelled: log lines and the execution-time measurement.  `fid_states[m_id]` of an unregistered fiducial inserts a
state whose pose members are unwritten (types.hpp:345-346): modelled as no defined result.
-/

namespace EkfCal

/-- types.hpp:304-312 `BoardDetection` (frame id and time omitted, the update does not use them) -/
structure BoardDetection (K : Type) where
  pos : V3 K
  ang : Quat K
  posError : V3 K
  angError : V3 K

/-- fiducial_updater.hpp:88-96: members (the logger omitted; the poses are unwritten until the first update) -/
structure FidUpdater (K : Type) where
  id : Nat
  cameraId : Nat
  isFidExtrinsic : Bool
  isCamExtrinsic : Bool
  isFirst : Bool
  posF : V3 K
  angF : Quat K
  posC : V3 K
  angC : Quat K

namespace FidUpdater
variable {K : Type} [Field K] [LinearOrder K]

/-- fiducial_updater.cpp:39-71 constructor -/
def new (id cameraId : Nat) (fidExt camExt : Bool) : FidUpdater K :=
  ⟨id, cameraId, fidExt, camExt, true, 0, Quat.one, 0, Quat.one⟩

/-- `ekf.m_state.cam_states[m_camera_id]` as a value (fiducial_updater.cpp:76-77, 109) -/
def camOf (u : FidUpdater K) (e : Ekf K) : CamState K := e.state.cams.getD u.cameraId CamState.default

/-- fiducial_updater.cpp:73-82 `RefreshStates` for a registered fiducial `f` -/
def refresh (u : FidUpdater K) (e : Ekf K) (f : FidState K) : FidUpdater K :=
  if e.useFirstEstimate = false ∨ u.isFirst = true then
    { u with posC := (u.camOf e).pos, angC := (u.camOf e).ang, posF := f.pos, angF := f.ang, isFirst := false }
  else u

/-- fiducial_updater.cpp:84-127 `GetMeasurementJacobian` (updater already refreshed) -/
def jacobianOf (N : Num K) (u : FidUpdater K) (e : Ekf K) (f : FidState K) : Res (Mat K) := do
  let q := e.state.body.ang
  let rBC : M3 K := u.angC.toMat.transpose
  let rFL : M3 K := u.angF.toMat
  let rLB : M3 K := q.toMat.transpose
  let rLC : M3 K := rBC * rLB
  let jac : Mat K := Mat.zero 6 e.stateSize
  let jac ← jac.setBlock 0 0 3 3 (M3.toMat (-rLC))
  let jac ← jac.setBlock 0 9 3 3 (M3.toMat (rLC * skew (u.posF - e.state.body.pos) * (N.quatJac q).transpose))
  let jac ← jac.setBlock 3 9 3 3 (M3.toMat (-rLC * rFL * (N.quatJac q).transpose))
  let jac ← if u.isCamExtrinsic then do
      let jac ← jac.setBlock 0 ((u.camOf e).index + 0) 3 3 (M3.toMat (-rBC))
      let jac ← jac.setBlock 0 ((u.camOf e).index + 3) 3 3
        (M3.toMat (rBC * skew (rLB.mulVec (u.posF - e.state.body.pos) - u.posC) * (N.quatJac u.angC).transpose))
      jac.setBlock 3 ((u.camOf e).index + 3) 3 3
        (M3.toMat (-rBC * (N.quatJac u.angC).transpose * rLB * rFL))
    else pure jac
  if u.isFidExtrinsic then do
    let jac ← jac.setBlock 0 (f.index + 0) 3 3 (M3.toMat 1)
    jac.setBlock 3 (f.index + 3) 3 3 (M3.toMat 1)
  else pure jac

/-- fiducial_updater.cpp:129-148 `PredictMeasurement` (updater already refreshed): position and rotation vector -/
def predictOf (N : Num K) (u : FidUpdater K) (e : Ekf K) : V3 K × V3 K :=
  let rBC : M3 K := u.angC.toMat.transpose
  let rLB : M3 K := e.state.body.ang.toMat.transpose
  (rBC.mulVec (rLB.mulVec (u.posF - e.state.body.pos) - u.posC),
   N.quatToRotVec ((N.ofMat (rBC * rLB)).mul u.angF))

/-- fiducial_updater.cpp:177-179: block-diagonal measurement noise -/
def noiseOf (d : BoardDetection K) : Res (Mat K) := do
  let n : Mat K := Mat.zero 6 6
  let n ← n.setBlock 0 0 3 3 (M3.toMat (Matrix.diagonal d.posError))
  n.setBlock 3 3 3 3 (M3.toMat (Matrix.diagonal d.angError))

/-- fiducial_updater.cpp:150-218 `UpdateEKF`: the updater and the filter afterwards -/
def update (N : Num K) (u : FidUpdater K) (e : Ekf K) (time : K) (d : BoardDetection K) :
    Res (FidUpdater K × Ekf K) := do
  let (t, e) := e.calculateLocalTime time
  let e ← e.predict N.toPrim t
  let e := (e.getCamState u.cameraId).2                                           -- 76: `operator[]`
  match e.state.fids.find? u.id with
  | none => .error .uninitialised                                                 -- 78-79
  | some f =>
    let u := u.refresh e f
    let pred := u.predictOf N e
    let resid : Vec K := Vec.of6 (d.pos - pred.1)
      (N.quatToRotVec ((N.rotVecToQuat pred.2).mul d.ang.inverse))
    let jac ← u.jacobianOf N e f
    let noise ← noiseOf d
    let e ← e.kalmanUpdate N.toPrim jac resid noise
    pure (u, e)

end FidUpdater
end EkfCal
