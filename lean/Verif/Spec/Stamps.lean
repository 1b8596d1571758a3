import Verif.Model.Station

/-!
# Specification: the stamp of a message
-/

namespace EkfCal
variable {K : Type}

/-- The same message with another stamp. -/
def Call.stamped (t : K) : Call K → Call K
  | .imu k _ a ac w wc => .imu k t a ac w wc
  | .gps k _ x c => .gps k t x c
  | .fid k _ d => .fid k t d
  | .cam k _ i fs px => .cam k t i fs px
  | c => c

/-- A stamp that lies before the time of the filter. -/
def Ekf.IsLate [Sub K] [LT K] (e : Ekf K) (stamp : K) : Prop := e.timeInitialized = true ∧ stamp - e.referenceTime < e.currentTime

/-- Where the filter expects the antenna of a GPS receiver to be. -/
def Ekf.expectedFix [Field K] (e : Ekf K) (id : Nat) : V3 K :=
  e.state.body.pos + e.state.body.ang.rotate (e.state.gpss.getD id GpsState.default).pos

/-- The fix is where the filter expects the antenna. -/
def Ekf.Agrees [Field K] (G : GpsNum K) (e : Ekf K) (id : Nat) (lla : V3 K) : Prop :=
  ∃ enu, G.llaToEnu lla e.posEInG = .ok enu ∧ G.enuToLocal enu e.angLToE = e.expectedFix id

end EkfCal
