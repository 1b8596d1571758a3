import Verif.Model.Station

/-!
# Specification: what is kept of a sensor's configuration
-/

namespace EkfCal
variable {K : Type}

/-- Which parts are calibrated, the drifts, and every part that is not calibrated are as before. -/
structure ImuState.Keeps (s t : ImuState K) : Prop where
  calibrated : t.isExtrinsic = s.isExtrinsic ∧ t.isIntrinsic = s.isIntrinsic
  drift : t.posStability = s.posStability ∧ t.angStability = s.angStability ∧ t.accBiasStability = s.accBiasStability ∧
    t.omgBiasStability = s.omgBiasStability
  mounting : s.isExtrinsic = false → t.pos = s.pos ∧ t.ang = s.ang
  biases : s.isIntrinsic = false → t.accBias = s.accBias ∧ t.omgBias = s.omgBias

structure GpsState.Keeps (s t : GpsState K) : Prop where
  calibrated : t.isExtrinsic = s.isExtrinsic
  drift : t.posStability = s.posStability
  mounting : s.isExtrinsic = false → t.pos = s.pos

structure CamState.Keeps (s t : CamState K) : Prop where
  calibrated : t.isExtrinsic = s.isExtrinsic
  drift : t.posStability = s.posStability ∧ t.angStability = s.angStability
  rate : t.rate = s.rate
  mounting : s.isExtrinsic = false → t.pos = s.pos ∧ t.ang = s.ang

structure FidState.Keeps (s t : FidState K) : Prop where
  calibrated : t.isExtrinsic = s.isExtrinsic
  drift : t.posStability = s.posStability ∧ t.angStability = s.angStability
  id : t.id = s.id
  place : s.isExtrinsic = false → t.pos = s.pos ∧ t.ang = s.ang

/-- Everything that is kept, and the calibrated parts too. -/
structure ImuState.Still (s t : ImuState K) : Prop extends s.Keeps t where
  all : t.pos = s.pos ∧ t.ang = s.ang ∧ t.accBias = s.accBias ∧ t.omgBias = s.omgBias
structure GpsState.Still (s t : GpsState K) : Prop extends s.Keeps t where
  all : t.pos = s.pos
structure CamState.Still (s t : CamState K) : Prop extends s.Keeps t where
  all : t.pos = s.pos ∧ t.ang = s.ang
structure FidState.Still (s t : FidState K) : Prop extends s.Keeps t where
  all : t.pos = s.pos ∧ t.ang = s.ang

/-- Every entry of the first map has an entry in the second to which it is related. -/
def UMap.Into {V : Type} (R : V → V → Prop) (m m' : UMap V) : Prop :=
  ∀ k s, m.find? k = some s → ∃ t, m'.find? k = some t ∧ R s t

/-- Every sensor of the first state is in the second and keeps its configuration. -/
structure State.Keeps (a b : State K) : Prop where
  imus : UMap.Into ImuState.Keeps a.imus b.imus
  gpss : UMap.Into GpsState.Keeps a.gpss b.gpss
  cams : UMap.Into CamState.Keeps a.cams b.cams
  fids : UMap.Into FidState.Keeps a.fids b.fids

/-- Every sensor of the first state is in the second with the same calibration. -/
structure State.Still (a b : State K) : Prop where
  imus : UMap.Into ImuState.Still a.imus b.imus
  gpss : UMap.Into GpsState.Still a.gpss b.gpss
  cams : UMap.Into CamState.Still a.cams b.cams
  fids : UMap.Into FidState.Still a.fids b.fids

/-- A measurement update. -/
def Ekf.Op.IsUpdate : Ekf.Op K → Prop
  | .kalman .. => True
  | _ => False

end EkfCal
