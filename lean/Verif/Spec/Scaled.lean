import Verif.Model.Station
import Verif.Spec.Displaced

/-!
# Specification: the same situation with all uncertainties larger by one factor

`s` is the factor of all standard deviations; variances are larger by `s * s`.
-/

namespace EkfCal
variable {K : Type} [Field K] [LinearOrder K]

/-- A vector multiplied by a number. -/
def Vec.times (v : Vec K) (c : K) : Vec K := ⟨v.size, fun k => v.get k * c⟩

/-- An IMU whose drift has `c` times the variance.  The drift of what is not calibrated is not used, and stays. -/
def ImuState.scaled (c : K) (i : ImuState K) : ImuState K :=
  { i with
    posStability := if i.isExtrinsic then i.posStability * c else i.posStability
    angStability := if i.isExtrinsic then i.angStability * c else i.angStability
    accBiasStability := if i.isIntrinsic then i.accBiasStability * c else i.accBiasStability
    omgBiasStability := if i.isIntrinsic then i.omgBiasStability * c else i.omgBiasStability }

/-- An antenna whose drift has `c` times the variance. -/
def GpsState.scaled (c : K) (i : GpsState K) : GpsState K :=
  { i with posStability := if i.isExtrinsic then i.posStability * c else i.posStability }

/-- A camera whose drift has `c` times the variance. -/
def CamState.scaled (c : K) (i : CamState K) : CamState K :=
  { i with
    posStability := if i.isExtrinsic then i.posStability * c else i.posStability
    angStability := if i.isExtrinsic then i.angStability * c else i.angStability }

/-- A board whose drift has `c` times the variance. -/
def FidState.scaled (c : K) (i : FidState K) : FidState K :=
  { i with
    posStability := if i.isExtrinsic then i.posStability * c else i.posStability
    angStability := if i.isExtrinsic then i.angStability * c else i.angStability }

/-- The same estimates, with drifts of `c` times the variance. -/
def State.scaled (c : K) (x : State K) : State K :=
  { x with
    imus := x.imus.mapValues (·.scaled c)
    gpss := x.gpss.mapValues (·.scaled c)
    cams := x.cams.mapValues (·.scaled c)
    fids := x.fids.mapValues (·.scaled c) }

/-- What the matrices of the filter are multiplied by: variances in standard form, standard deviations in square-root form. -/
def scaleOf (s : K) (root : Bool) : K := if root then s else s * s

/-- The filter with the same estimates and all standard deviations larger by the factor `s`.  The limit of the test for rest is
a squared error in units of the uncertainty, and is smaller by `s * s`. -/
def Ekf.scaled (s : K) (e : Ekf K) : Ekf K :=
  { e with
    state := e.state.scaled (s * s)
    cov := e.cov.smul (scaleOf s e.useRoot)
    processNoise := e.processNoise.smul (scaleOf s e.useRoot)
    bodyProcessNoise := e.bodyProcessNoise.times (s * s)
    motionDetectionChiSquared := e.motionDetectionChiSquared / (s * s) }

/-- The station with all standard deviations larger by the factor `s`. -/
def Station.scaled (s : K) (x : Station K) : Station K := { x with ekf := x.ekf.scaled s }

/-- A call with all standard deviations larger by the factor `s`. -/
def Ekf.Op.scaled (s : K) (root : Bool) : Ekf.Op K → Ekf.Op K
  | .registerIMU id x c => .registerIMU id (x.scaled (s * s)) (c.smul (scaleOf s root))
  | .registerGPS id x c => .registerGPS id (x.scaled (s * s)) (c.smul (scaleOf s root))
  | .registerCamera id x c => .registerCamera id (x.scaled (s * s)) (c.smul (scaleOf s root))
  | .registerFiducial x c => .registerFiducial (x.scaled (s * s)) (c.smul (scaleOf s root))
  | .kalman j r n => .kalman j r (n.smul (s * s))
  | .setBodyProcessNoise v => .setBodyProcessNoise (v.times (s * s))
  | op => op

/-- A board found in an image, with larger errors. -/
def BoardDetection.scaled (c : K) (d : BoardDetection K) : BoardDetection K :=
  { d with posError := fun i => d.posError i * c, angError := fun i => d.angError i * c }

/-- An event with all standard deviations larger by the factor `s`. -/
def Call.scaled (s : K) (root : Bool) : Call K → Call K
  | .filter op => .filter (op.scaled s root)
  | .imu k t a ac w wc => .imu k t a (fun i j => ac i j * (s * s)) w (fun i j => wc i j * (s * s))
  | .gps k t x c => .gps k t x (c.smul (s * s))
  | .fid k t d => .fid k t (d.scaled (s * s))
  | .cam k t i fs px => .cam k t i fs (px * s)
  | c => c

/-- The numeric library computes with a common factor of all numbers as with a unit: square roots of `s * s` times the variance are
`s` times the square roots, the triangular factor and the inverse of a multiple are multiples. -/
structure Prim.Scales (N : Prim K) (s : K) : Prop where
  pos : 0 < s
  sqrt : ∀ x, N.sqrt (x * (s * s)) = N.sqrt x * s
  qr : ∀ l r i j, N.qr (l.smul s) (r.smul s) i j = N.qr l r i j * s
  inv : ∀ m i j, N.inv (m.smul (s * s)) i j = N.inv m i j * (s * s)⁻¹

/-- Where a common factor of all uncertainties can be left out: readings of IMUs in standard form (the test for rest takes the square
root for the covariance), fixes once the reference is known (the first correction has a fixed weight), tracks with pixel errors that
the filter does not replace by half a pixel. -/
def Call.Free (s : K) (root : Bool) : Call K → Prop
  | .imu .. => root = false
  | .cam _ _ _ _ px => 1 / 2 ≤ px ∧ 1 / 2 ≤ px * s
  | _ => True

/-- The event is a fix of a GPS receiver. -/
def Call.IsFix : Call K → Prop
  | .gps .. => True
  | _ => False

end EkfCal
