import Verif.Model.Base

/-!
# Model of the id counters (`sensors/sensor.cpp`, `trackers/tracker.cpp`, `sensors/camera.cpp`, `trackers/feature_tracker.cpp`)

The first three counters are static `unsigned int` variables: 32 bits, wrapping. The feature counter is a static `int`,
whose overflow at 2³¹ is undefined behaviour: the model's counter does not stop there, and theorems stay below it.
-/

namespace EkfCal

/-- `x + 1` for `unsigned int x`. -/
def succ32 (x : Nat) : Nat := (x + 1) % 2 ^ 32

/-- The four static counters of a process (sensor.cpp:24, tracker.cpp:19, camera.cpp:100, feature_tracker.cpp:275). -/
structure IdCounters where
  sensor : Nat := 0
  tracker : Nat := 0
  frame : Nat := 0
  feature : Nat := 0

/-- What an id is handed out to (sensor.cpp:26-31, tracker.cpp:21-22, camera.cpp:98-102, feature_tracker.cpp:273-277). -/
inductive IdKind
  | sensor
  | tracker
  | frame
  | feature
  deriving DecidableEq

namespace IdCounters

/-- sensor.cpp:26-31 (`++m_sensor_count`), tracker.cpp:21-22 (`++m_tracker_count`), camera.cpp:98-102 `GenerateFrameID`
(`frame_id++`) and feature_tracker.cpp:273-277 `GenerateFeatureID` (`featureID++`): the id and the counters afterwards -/
def next (c : IdCounters) : IdKind → Nat × IdCounters
  | .sensor => (succ32 c.sensor, { c with sensor := succ32 c.sensor })
  | .tracker => (succ32 c.tracker, { c with tracker := succ32 c.tracker })
  | .frame => (c.frame, { c with frame := succ32 c.frame })
  | .feature => (c.feature, { c with feature := c.feature + 1 })

/-- A sequence of requests: the ids handed out, with their kinds. -/
def run (c : IdCounters) : List IdKind → List (IdKind × Nat)
  | [] => []
  | k :: ks => (k, (c.next k).1) :: (c.next k).2.run ks

end IdCounters
end EkfCal
