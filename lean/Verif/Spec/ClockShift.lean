import Verif.Model.Station
import Verif.Spec.Window

/-!
# Specification: the same messages from a clock with another origin
-/

namespace EkfCal
variable {K : Type}

/-- An observation with its time stamp later by `δ`. -/
def FeaturePoint.later [Add K] (δ : K) (p : FeaturePoint K) : FeaturePoint K := { p with time := p.time + δ }

/-- A track with all time stamps later by `δ`. -/
def FeatureTrack.later [Add K] (δ : K) (f : FeatureTrack K) : FeatureTrack K := { f with track := f.track.map (·.later δ) }

/-- An event with its time stamps later by `δ`, and the times of the observations in tracks later by `ε`.  Direct calls on the
filter speak of the time of the filter and not of stamps, except the question which local time belongs to a stamp. -/
def Call.shift [Add K] (δ ε : K) : Call K → Call K
  | .filter (.localTime t) => .filter (.localTime (t + δ))
  | .imu k t a ac w wc => .imu k (t + δ) a ac w wc
  | .gps k t x c => .gps k (t + δ) x c
  | .fid k t d => .fid k (t + δ) d
  | .cam k t i fs px => .cam k (t + δ) i (fs.map (·.later ε)) px
  | c => c

/-- The event from a clock that started `δ` earlier, when observations carry the stamp of their image: simulated tracks, and
callers of the updater that do the same (sim_feature_tracker.cpp:147). -/
def Call.later [Add K] (δ : K) : Call K → Call K := Call.shift δ δ

/-- The event from a clock that started `δ` earlier, when observations carry the time of the filter: tracks of the feature
tracker (feature_tracker.cpp:230, 237). -/
def Call.laterLive [AddZeroClass K] (δ : K) : Call K → Call K := Call.shift δ 0

/-- The same filter, if it has seen a message, with the stamp that counts as time zero later by `δ`. -/
def Ekf.later [Add K] (δ : K) (e : Ekf K) : Ekf K :=
  { e with referenceTime := if e.timeInitialized then e.referenceTime + δ else e.referenceTime }

/-- The same station, if it has seen a message, with the stamp that counts as time zero later by `δ`. -/
def Station.later [Add K] (δ : K) (s : Station K) : Station K := { s with ekf := s.ekf.later δ }

/-- The filter is not told its start time by hand. -/
def Call.KeepsClock : Call K → Prop
  | .filter (.initializeAt _ _) => False
  | _ => True

/-- A camera message whose tracks, if any, come from a camera whose frames are cloned; or another event. -/
def Call.TracksCloned (s : Station K) : Call K → Prop
  | .cam k _ _ fs _ => fs = [] ∨ ∀ u, s.cams.find? k = some u → s.ekf.ClonesFrame u.id
  | _ => True

/-- A camera message without tracks, or another event. -/
def Call.Trackless : Call K → Prop
  | .cam _ _ _ fs _ => fs = []
  | _ => True

end EkfCal
