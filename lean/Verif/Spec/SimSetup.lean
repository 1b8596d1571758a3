import Verif.Model.SimSetup

/-!
# Specification for C71: what a simulated sensor, its truth and the filter are to know after loading
-/

namespace EkfCal
variable {K : Type} [Field K] [LinearOrder K]

/-- `y` is `x` disturbed by a normal error of standard deviations `std`, for the standard draws `z`. -/
def Disturbed (std z x y : V3 K) : Prop := ∀ i, y i = x i + std i * z i

/-- The orientation `y` is `x` turned by a rotation vector of standard deviations `std`, of which no component exceeds
`limit`. -/
def Turned (N : Prim K) (limit : K) (std z : V3 K) (x y : Quat K) : Prop :=
  y = (N.rotVecToQuat fun i => min (std i * z i) limit).mul x

/-- The true calibration of an IMU is the configured one, or that one with the configured errors. -/
def SimImuConfig.TrueIs (N : Prim K) (limit : K) (c : SimImuConfig K) (t : TruthImu K) : Prop :=
  if c.noErrors then t.pos = c.config.calib.pos ∧ t.ang = c.config.calib.ang ∧ t.accBias = c.config.calib.accBias ∧
    t.omgBias = c.config.calib.omgBias
  else Disturbed c.posError c.zPos c.config.calib.pos t.pos ∧ Turned N limit c.angError c.zAng c.config.calib.ang t.ang ∧
    Disturbed c.accBiasError c.zAcc c.config.calib.accBias t.accBias ∧
    Disturbed c.omgBiasError c.zOmg c.config.calib.omgBias t.omgBias

/-- The same for a camera. -/
def SimCamConfig.TrueIs (N : Prim K) (limit : K) (c : SimCamConfig K) (t : V3 K × Quat K) : Prop :=
  if c.noErrors then t = (c.config.calib.pos, c.config.calib.ang)
  else Disturbed c.posError c.zPos c.config.calib.pos t.1 ∧ Turned N limit c.angError c.zAng c.config.calib.ang t.2

/-- The same for an antenna. -/
def SimGpsConfig.TrueIs (c : SimGpsConfig K) (t : V3 K) : Prop :=
  if c.noErrors then t = c.config.pos else Disturbed c.posError c.zPos c.config.pos t

/-- The same for a board; the errors are also switched off by the camera that watches it. -/
def SimFidConfig.TrueIs (N : Prim K) (limit : K) (f : SimFidConfig K) (noErrors : Bool) (t : V3 K × Quat K) : Prop :=
  if f.noErrors = true ∨ noErrors = true then t = (f.config.pos, f.config.ang)
  else Disturbed f.posError f.zPos f.config.pos t.1 ∧ Turned N limit f.angError f.zAng f.config.ang t.2

/-- The board a sensor of the configuration watches, and whether that sensor is free of errors. -/
def SimItem.board : SimItem K → Option (SimFidConfig K)
  | .cam c => c.board
  | _ => none

/-- Trackers a sensor of the configuration brings along. -/
def SimItem.trackers : SimItem K → Nat
  | .cam c => (if c.tracker then 1 else 0) + if c.board.isSome then 1 else 0
  | _ => 0

/-- Trackers of a whole configuration. -/
def trackersIn (xs : List (SimItem K)) : Nat := (xs.map SimItem.trackers).sum

/-- `g` is the first board of the configuration with the id `id`. -/
def FirstBoard (xs : List (SimItem K)) (id : Nat) (g : SimFidConfig K) : Prop :=
  ∃ pre x post, xs = pre ++ x :: post ∧ x.board = some g ∧ g.config.id = id ∧
    ∀ y ∈ pre, ∀ f, y.board = some f → f.config.id ≠ id

end EkfCal
