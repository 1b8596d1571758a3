import Verif.Model.Ekf
import Verif.Model.Linear3

/-!
# Model of `src/ekf/update/imu_updater.cpp`

Not modelled: the log lines (`Model/LogRows.lean` has their field counts) and the execution-time measurement.
`AngularUpdate` (394-431) is never called and not modelled.
-/

namespace EkfCal

/-- imu_updater.hpp:122-129: members (the unused `m_pos_i_in_g`, `m_ang_i_to_b` and the logger omitted) -/
structure ImuUpdater where
  id : Nat
  isExtrinsic : Bool
  isIntrinsic : Bool
  motionDetected : Bool

/-- imu_updater.cpp:35-64 constructor -/
def ImuUpdater.new (id : Nat) (isExtrinsic isIntrinsic : Bool) : ImuUpdater :=
  ⟨id, isExtrinsic, isIntrinsic, false⟩

namespace ImuUpdater
variable {K : Type} [Field K] [LinearOrder K]

/-- `ekf.m_state.imu_states[m_id]` as a value (imu_updater.cpp:96-98, 308-311); the insertion of a missing entry is `Ekf.getImuState`. -/
def imuOf (u : ImuUpdater) (e : Ekf K) : ImuState K := e.state.imus.getD u.id ImuState.default

/-- imu_updater.cpp:161-167 and 217-218: gravity as the resting IMU sees it -/
def gravityInImu (u : ImuUpdater) (e : Ekf K) : V3 K :=
  ((u.imuOf e).ang.inverse.mul e.state.body.ang.inverse).rotate gravity

/-- imu_updater.cpp:156-183 `GetZeroAccelerationJacobian` -/
def zeroAccJacobian (N : Num K) (u : ImuUpdater) (e : Ekf K) : Res (Mat K) := do
  let jac : Mat K := Mat.zero (if u.isIntrinsic then 6 else 3) e.stateSize
  let jac ← jac.setBlock 0 9 3 3
    (M3.toMat (-(skew (u.gravityInImu e)) * (N.quatJac e.state.body.ang).transpose))
  let jac ← if u.isExtrinsic then
      jac.setBlock 0 (u.imuOf e).indexExtrinsic 3 3 (M3.toMat (-(skew (u.gravityInImu e))))
    else pure jac
  if u.isIntrinsic then do
    let jac ← jac.setBlock 0 ((u.imuOf e).indexIntrinsic + 0) 3 3 (M3.toMat (-1))
    jac.setBlock 3 ((u.imuOf e).indexIntrinsic + 3) 3 3 (M3.toMat (-1))
  else pure jac

/-- imu_updater.cpp:206-210: measurement noise of the stationary update -/
def zeroAccNoise (u : ImuUpdater) (accCov omgCov : M3 K) : Res (Mat K) := do
  let n : Mat K := Mat.zero (if u.isIntrinsic then 6 else 3) (if u.isIntrinsic then 6 else 3)
  let n ← n.setBlock 0 0 3 3 (M3.toMat accCov)
  if u.isIntrinsic then n.setBlock 3 3 3 3 (M3.toMat omgCov) else pure n

/-- imu_updater.cpp:212-221: residual of the stationary update -/
def zeroAccResidual (u : ImuUpdater) (e : Ekf K) (acc omg : V3 K) : Vec K :=
  let ra : V3 K := -(acc - (u.imuOf e).accBias - u.gravityInImu e)
  if u.isIntrinsic then Vec.of6 ra (-(omg - (u.imuOf e).omgBias)) else Vec.of3 ra

/-- imu_updater.cpp:223-227: `score`.  The filter matrix `m_cov` is used as it is, also in square-root mode. -/
def score (N : Num K) (e : Ekf K) (jac : Mat K) (resid : Vec K) (noise : Mat K) : Res K := do
  let s ← (← (← jac.mul e.cov).mul jac.transpose).add (noise.smul e.imuNoiseScaleFactor)
  let w ← (← s.inverse N.toPrim).transpose.mulVec resid     -- residᵀ S⁻¹, as a vector
  guardUB (w.size = resid.size) .sizeMismatch
  pure |sumTo resid.size fun i => w.get i * resid.get i|

/-- imu_updater.cpp:185-303 `ZeroAccelerationUpdate`: the returned flag, the updater and the filter afterwards -/
def zeroAccUpdate (N : Num K) (u : ImuUpdater) (e : Ekf K) (t : K) (acc : V3 K) (accCov : M3 K) (omg : V3 K)
    (omgCov : M3 K) : Res (Bool × ImuUpdater × Ekf K) := do
  if u.motionDetected then return (false, u, e)                                   -- 196-198
  let e := (e.getImuState u.id).2                                                 -- 201: `operator[]`
  let jac ← u.zeroAccJacobian N e
  let noise ← u.zeroAccNoise accCov omgCov
  let resid := u.zeroAccResidual e acc omg
  let sc ← score N e jac resid noise
  if sc > e.motionDetectionChiSquared ∧ e.isGravityInitialized = true then        -- 228-230
    return (false, { u with motionDetected := true }, e)
  let e := if sc < e.motionDetectionChiSquared then e.initializeGravity else e    -- 231-233
  let e ← e.predict N.toPrim t                                                    -- 238
  let jac ← u.zeroAccJacobian N e                                                 -- 241
  let e ← e.kalmanUpdate N.toPrim jac resid noise                                 -- 245
  let e := { e with state := { e.state with                                       -- 247-249
    body := { e.state.body with acc := gravity, angVel := 0, angAcc := 0 } } }
  pure (true, u, e)

/-- imu_updater.cpp:306-331 `PredictMeasurement` -/
def predictMeasurement (u : ImuUpdater) (e : Ekf K) : Vec K :=
  let s := u.imuOf e
  let b := e.state.body
  let accB : V3 K := b.acc + V3.cross b.angAcc s.pos + V3.cross b.angVel (V3.cross b.angVel s.pos) +
    (2 : K) • V3.cross b.angVel b.vel
  let omgB : V3 K := b.ang.inverse.rotate b.angVel
  Vec.of6 (s.accBias + s.ang.inverse.rotate accB) (s.omgBias + s.ang.inverse.rotate omgB)

/-- imu_updater.cpp:333-392 `GetMeasurementJacobian` -/
def measurementJacobian (u : ImuUpdater) (e : Ekf K) : Res (Mat K) := do
  let s := u.imuOf e
  let b := e.state.body
  let rIB : M3 K := s.ang.inverse.toMat
  let rBL : M3 K := b.ang.inverse.toMat
  let jac : Mat K := Mat.zero 6 e.stateSize
  let jac ← jac.setBlock 0 6 3 3 (M3.toMat (rIB * rBL))
  let jac ← jac.setBlock 0 12 3 3 (M3.toMat (rIB * (skew b.angVel * (skew s.pos).transpose +
    (skew (V3.cross b.angVel s.pos)).transpose)))
  let jac ← jac.setBlock 0 15 3 3 (M3.toMat (-rIB * skew s.pos))
  let jac ← jac.setBlock 3 12 3 3 (M3.toMat (rIB * rBL))
  let jac ← if u.isExtrinsic then do
      let jac ← jac.setBlock 0 (s.indexExtrinsic + 0) 3 3
        (M3.toMat (rIB * (skew b.angAcc + skew b.angVel * skew b.angVel)))
      let jac ← jac.setBlock 0 (s.indexExtrinsic + 3) 3 3
        (M3.toMat (skew (s.ang.inverse.rotate (V3.cross b.angAcc s.pos +
          V3.cross b.angVel (V3.cross b.angVel s.pos) + b.ang.inverse.rotate b.acc))))
      jac.setBlock 3 (s.indexExtrinsic + 3) 3 3
        (M3.toMat (skew ((s.ang.inverse.mul b.ang.inverse).rotate b.angVel)))
    else pure jac
  if u.isIntrinsic then do
    let jac ← jac.setBlock 0 (s.indexIntrinsic + 0) 3 3 (M3.toMat 1)
    jac.setBlock 3 (s.indexIntrinsic + 3) 3 3 (M3.toMat 1)
  else pure jac

/-- imu_updater.cpp:115-117: block-diagonal measurement noise -/
def measurementNoise (accCov omgCov : M3 K) : Res (Mat K) := do
  let n : Mat K := Mat.zero 6 6
  let n ← n.setBlock 0 0 3 3 (M3.toMat accCov)
  n.setBlock 3 3 3 3 (M3.toMat omgCov)

/-- imu_updater.cpp:66-154 `UpdateEKF`: the updater and the filter afterwards -/
def update (N : Num K) (u : ImuUpdater) (e : Ekf K) (time : K) (acc : V3 K) (accCov : M3 K) (omg : V3 K)
    (omgCov : M3 K) : Res (ImuUpdater × Ekf K) := do
  let (t, e) := e.calculateLocalTime time
  let (applied, u, e) ← u.zeroAccUpdate N e t acc accCov omg omgCov
  if applied then return (u, e.setZeroAcceleration true)
  let e := e.setZeroAcceleration false
  let e := (e.getImuState u.id).2                                                 -- 96: `operator[]`
  let s := u.imuOf e
  let b := e.state.body
  let e ← if e.state.imus.length = 1 then
      pure { e with state := { e.state with body := { b with                      -- 102-104
        acc := (b.ang.mul s.ang).rotate (acc - s.accBias)
        angVel := (b.ang.mul s.ang).rotate (omg - s.omgBias)
        angAcc := 0 } } }
    else do
      let pred := u.predictMeasurement e
      let meas : Vec K := Vec.of6 acc omg
      let resid : Vec K := ⟨6, fun i => meas.get i - pred.get i⟩
      let jac ← u.measurementJacobian e
      let noise ← measurementNoise accCov omgCov
      e.kalmanUpdate N.toPrim jac resid noise
  let e ← e.predict N.toPrim t                                                    -- 123
  pure (u, e)

end ImuUpdater
end EkfCal
