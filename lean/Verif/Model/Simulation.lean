import Verif.Model.Ids
import Mathlib.Algebra.Order.Floor.Defs

/-!
# Model of the simulated schedule (`sensors/sim/sim_sensor.cpp`, `application/sim/simulation.cpp`)

Random draws are inputs: the start offset and the time error of each measurement of each sensor.  Message contents are
represented by their number within the sensor.
-/

namespace EkfCal

/-- `SensorType` (sensors/types.hpp). -/
inductive SensorKind
  | imu
  | camera
  | gps
  deriving DecidableEq

/-- A simulated sensor: its class, its rate, whether errors are off (sim_sensor.hpp), and the draws it will get:
`UniRand(0, 1/rate)` and the error `NormRand` adds to each time. -/
structure SimSensor (K : Type) where
  kind : SensorKind
  rate : K
  noErrors : Bool
  offset : K
  jitter : Nat → K

/-- `SensorMessage` (sensors/sensor_message.hpp), with the number of the measurement in place of its contents. -/
structure SimMsg (K : Type) where
  time : K
  sensorId : Nat
  kind : SensorKind
  number : Nat
  deriving DecidableEq

section
variable {K : Type} [Field K] [LinearOrder K]

/-- sim_sensor.cpp:44-53 `ApplyTimeError` -/
def SimSensor.applyTimeError (s : SimSensor K) (i : Nat) (t : K) : K := if s.noErrors then t else t + s.jitter i

variable [FloorRing K]

/-- sim_sensor.cpp:32-42 `GenerateMeasurementTimes`: the conversion of the floor to `unsigned int` is undefined when it
does not fit. -/
def SimSensor.times (s : SimSensor K) (maxTime : K) : Res (List K) := do
  let n := ⌊maxTime * s.rate⌋
  guardUB (0 ≤ n ∧ n < 2 ^ 32) .badCast
  let init : K := if s.noErrors then 0 else s.offset
  return (List.range n.toNat).map fun i => s.applyTimeError i ((i : K) / s.rate + init)

/-- sim_imu.cpp:67-113, sim_camera.cpp:66-98, sim_gps.cpp:46-81 `GenerateMessages`: time, sensor id and type of each
message. -/
def SimSensor.messages (s : SimSensor K) (maxTime : K) (id : Nat) : Res (List (SimMsg K)) := do
  let ts ← s.times maxTime
  return ts.mapIdx fun i t => ⟨t, id, s.kind, i⟩

/-- simulation.cpp:154-155, 320-324, 452-456, 486-490: each sensor in loading order gets an id, enters the sensor map and
appends its messages. -/
def loadSensors (maxTime : K) : List (SimSensor K) → IdCounters → UMap SensorKind → List (SimMsg K) →
    Res (UMap SensorKind × List (SimMsg K))
  | [], _, map, msgs => .ok (map, msgs)
  | s :: ss, c, map, msgs => do
    let new ← s.messages maxTime (c.next .sensor).1
    loadSensors maxTime ss (c.next .sensor).2 (map.insert (c.next .sensor).1 s.kind) (msgs ++ new)

/-- sensor.cpp:43-46 `MessageCompare` -/
def messageCompare (l r : SimMsg K) : Bool := decide (l.time < r.time)

/-- simulation.cpp:502-521: a message goes to the callback of the sensor with its id, cast to the class its type names;
messages with an unknown id are skipped. -/
def deliver (map : UMap SensorKind) : List (SimMsg K) → Res (List (Nat × SimMsg K))
  | [] => .ok []
  | m :: ms => do
    match map.find? m.sensorId with
    | none => deliver map ms
    | some k =>
      guardUB (k = m.kind) .badCast
      let rest ← deliver map ms
      return (m.sensorId, m) :: rest

/-- simulation.cpp:154-521: load, sort (simulation.cpp:497, `std::sort` passed as a function), deliver. -/
def simulate (sort : List (SimMsg K) → List (SimMsg K)) (maxTime : K) (ss : List (SimSensor K)) :
    Res (List (Nat × SimMsg K)) := do
  let (map, msgs) ← loadSensors maxTime ss {} [] []
  deliver map (sort msgs)

end
end EkfCal
