import Verif.Model.SimMeasure
import Verif.Model.ImuUpdater
import Verif.Model.GpsUpdater
import Verif.Lemmas.QuatMat

/-!
# Specification vocabulary for C53
-/

namespace EkfCal
variable {K : Type} [Field K] [LinearOrder K]

/-- The filter's body estimate is the truth.  The filter's acceleration includes gravity (ekf.cpp:452 takes it off). -/
structure Ekf.AtTruth (e : Ekf K) (b : TruthBody K) : Prop where
  pos : e.state.body.pos = b.pos
  vel : e.state.body.vel = b.vel
  acc : e.state.body.acc = b.acc + gravity
  ang : e.state.body.ang = b.ang
  angVel : e.state.body.angVel = b.angVel
  angAcc : e.state.body.angAcc = b.angAcc

/-- The calibration the filter holds for an IMU is the truth. -/
structure ImuState.AtTruth (s : ImuState K) (t : TruthImu K) : Prop where
  pos : s.pos = t.pos
  ang : s.ang = t.ang
  accBias : s.accBias = t.accBias
  omgBias : s.omgBias = t.omgBias

/-- `Eigen::Quaterniond(Matrix3d)` of the rotation matrix of a unit quaternion is that quaternion or its opposite. -/
def Num.OfMatLaw (N : Num K) : Prop :=
  ∀ q : Quat K, q.normSq = 1 → N.ofMat q.toMat = q ∨ N.ofMat q.toMat = q.opp

end EkfCal
