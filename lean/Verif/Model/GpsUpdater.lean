import Verif.Model.Ekf
import Verif.Model.Compress

/-!
# Model of `src/ekf/update/gps_updater.cpp`

Not modelled: log lines and the execution-time measurement.
-/

namespace EkfCal

/-- The frame conversions and the alignment used by the GPS updater (`gps_helper.cpp`, `math_helper.cpp`); concrete over
`ℝ` in `Model/Gps.lean` and `Model/GpsInit.lean`.  Conversions of an illegal latitude or longitude are undefined. -/
structure GpsNum (K : Type) where
  /-- `lla_to_ecef` -/
  llaToEcef : V3 K → Res (V3 K)
  /-- `lla_to_enu` -/
  llaToEnu : V3 K → V3 K → Res (V3 K)
  /-- `ecef_to_enu` -/
  ecefToEnu : V3 K → V3 K → Res (V3 K)
  /-- `enu_to_local` -/
  enuToLocal : V3 K → K → V3 K
  /-- numeric part of `AttemptGpsInitialization` -/
  fit : List (V3 K) → List (V3 K) → Ekf.GpsFit K

/-- gps_updater.hpp:85-88: members (the logger omitted) -/
structure GpsUpdater (K : Type) where
  id : Nat
  isExtrinsic : Bool
  isFirst : Bool
  posAInB : V3 K

namespace GpsUpdater
variable {K : Type} [Field K] [LinearOrder K]

/-- gps_updater.cpp:34-57 constructor -/
def new (id : Nat) (isExtrinsic : Bool) : GpsUpdater K := ⟨id, isExtrinsic, true, 0⟩

/-- `ekf.m_state.gps_states[m_id]` as a value (gps_updater.cpp:62, 74, 83); the insertion of a missing entry is `Ekf.getGpsState`. -/
def gpsOf (u : GpsUpdater K) (e : Ekf K) : GpsState K := e.state.gpss.getD u.id GpsState.default

/-- gps_updater.cpp:61-64 and 82-85: choice of the linearisation point -/
def refresh (u : GpsUpdater K) (e : Ekf K) : GpsUpdater K :=
  if e.useFirstEstimate = false ∨ u.isFirst = true then
    { u with posAInB := (u.gpsOf e).pos, isFirst := false }
  else u

/-- gps_updater.cpp:59-78 `GetMeasurementJacobian`: the Jacobian for the (already refreshed) updater -/
def jacobianOf (N : Num K) (u : GpsUpdater K) (e : Ekf K) : Res (Mat K) := do
  let q := e.state.body.ang
  let jac : Mat K := Mat.zero 3 e.stateSize
  let jac ← jac.setBlock 0 0 3 3 (M3.toMat 1)
  let jac ← jac.setBlock 0 9 3 3 (M3.toMat (-q.toMat * skew u.posAInB * N.quatJac q))
  if u.isExtrinsic then jac.setBlock 0 (u.gpsOf e).index 3 3 (M3.toMat q.toMat) else pure jac

/-- gps_updater.cpp:59-78 `GetMeasurementJacobian`: the Jacobian and the updater afterwards -/
def measurementJacobian (N : Num K) (u : GpsUpdater K) (e : Ekf K) : Res (Mat K × GpsUpdater K) := do
  let u := u.refresh e
  pure (← u.jacobianOf N e, u)

/-- gps_updater.cpp:80-88 `PredictMeasurement`: the antenna position and the updater afterwards -/
def predictMeasurement (u : GpsUpdater K) (e : Ekf K) : V3 K × GpsUpdater K :=
  let u := u.refresh e
  (e.state.body.pos + e.state.body.ang.rotate u.posAInB, u)

/-- gps_updater.cpp:163-169: the loop of `MultiUpdateEKF` over the stored fixes -/
def multiLoop (N : Num K) (G : GpsNum K) (e : Ekf K) :
    Nat → List (V3 K) → List (V3 K) → GpsUpdater K → Mat K → Vec K → Res (GpsUpdater K × Mat K × Vec K)
  | _, [], _, u, jac, resid => .ok (u, jac, resid)
  | _, _ :: _, [], _, _, _ => .error .outOfRange
  | i, x :: xs, p :: ps, u, jac, resid => do
    let loc := G.enuToLocal (← G.ecefToEnu x e.posEInG) e.angLToE
    let (row, u) ← u.measurementJacobian N e
    let jac ← jac.setBlock (3 * i) 0 3 e.stateSize row
    guardUB (3 * i + 3 ≤ resid.size) .outOfRange
    let d := Vec.of3 (loc - p)
    let resid : Vec K := ⟨resid.size, fun k => if 3 * i ≤ k ∧ k < 3 * i + 3 then d.get (k - 3 * i) else resid.get k⟩
    multiLoop N G e (i + 1) xs ps u jac resid

/-- gps_updater.cpp:150-183 `MultiUpdateEKF`.  The loop runs over `gps_time_vec.size()` fixes; the three vectors are
always extended together. -/
def multiUpdate (N : Num K) (G : GpsNum K) (u : GpsUpdater K) (e : Ekf K) : Res (GpsUpdater K × Ekf K) := do
  let e := (e.getGpsState u.id).2
  let m := 3 * e.gpsTimeVec.length
  let (u, jac, resid) ← multiLoop N G e 0 e.gpsEcefVec e.gpsXyzVec u (Mat.zero m e.stateSize) ⟨m, fun _ => 0⟩
  let (jac, resid) ← compressMeasurements N.toPrim jac resid
  if resid.size ≤ 1 then return (u, e)
  let e ← e.kalmanUpdate N.toPrim jac resid (Mat.identity resid.size resid.size)
  pure (u, e)

/-- gps_updater.cpp:90-148 `UpdateEKF`: the updater and the filter afterwards -/
def update (N : Num K) (G : GpsNum K) (u : GpsUpdater K) (e : Ekf K) (time : K) (lla : V3 K) (cov : Mat K) :
    Res (GpsUpdater K × Ekf K) := do
  let (t, e) := e.calculateLocalTime time
  let e ← e.predict N.toPrim t
  if e.isLlaInitialized = false then
    let e ← e.attemptGpsInit t (← G.llaToEcef lla) G.fit
    if e.isLlaInitialized then u.multiUpdate N G e else pure (u, e)
  else
    let e := (e.getGpsState u.id).2                                               -- 83: `operator[]`
    let loc := G.enuToLocal (← G.llaToEnu lla e.posEInG) e.angLToE
    let (pred, u) := u.predictMeasurement e
    let (jac, u) ← u.measurementJacobian N e
    let e ← e.kalmanUpdate N.toPrim jac (Vec.of3 (loc - pred)) cov
    pure (u, e)

end GpsUpdater
end EkfCal
