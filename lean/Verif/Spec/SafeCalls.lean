import Verif.Spec.Safe
import Verif.Model.Station

/-!
# Specification: messages that keep their side of the contract

`Call.Safe` is what the creator of a sensor and the sender of a message have to guarantee so that the message has a defined
effect.  IMU messages and marker detections carry no obligation of their own.
-/

namespace EkfCal
variable {K : Type} [Field K] [LinearOrder K]

/-- The coordinate conversions are defined for legal coordinates. -/
structure GpsNum.LegalLaw (G : GpsNum K) (Legal : V3 K → Prop) : Prop where
  toEcef : ∀ x, Legal x → ∃ y, G.llaToEcef x = .ok y
  toEnu : ∀ x r, Legal x → Legal r → ∃ y, G.llaToEnu x r = .ok y
  fromEcef : ∀ x r, Legal r → ∃ y, G.ecefToEnu x r = .ok y

/-- The sensor of an updater is registered in the filter, calibrated at least as far as the updater assumes. -/
def ImuUpdater.Fits (u : ImuUpdater) (s : State K) : Prop :=
  (u.isExtrinsic = true → ∃ i, s.imus.find? u.id = some i ∧ i.isExtrinsic = true) ∧
  (u.isIntrinsic = true → ∃ i, s.imus.find? u.id = some i ∧ i.isIntrinsic = true)
def GpsUpdater.Fits (u : GpsUpdater K) (s : State K) : Prop :=
  u.isExtrinsic = true → ∃ i, s.gpss.find? u.id = some i ∧ i.isExtrinsic = true
def FidUpdater.Fits (u : FidUpdater K) (s : State K) : Prop :=
  (∃ f, s.fids.find? u.id = some f ∧ (u.isFidExtrinsic = true → f.isExtrinsic = true)) ∧
  (u.isCamExtrinsic = true → ∃ i, s.cams.find? u.cameraId = some i ∧ i.isExtrinsic = true)
def MsckfUpdater.Fits (u : MsckfUpdater K) (s : State K) : Prop :=
  u.isCamExtrinsic = true → ∃ i, s.cams.find? u.id = some i ∧ i.isExtrinsic = true

/-- The filter at the time of a message: its clock has been set by the first message and it has been predicted. -/
def Ekf.PredictedTo (N : Prim K) (e : Ekf K) (time : K) (e1 : Ekf K) : Prop :=
  (e.calculateLocalTime time).2.predict N (e.calculateLocalTime time).1 = .ok e1

/-- A direct call only sets legal reference positions. -/
def Ekf.Op.LegalReference (Legal : V3 K → Prop) (e : Ekf K) : Ekf.Op K → Prop
  | .setGpsReference q _ => Legal q
  | .attemptGpsInit _ x fit => Legal (fit (e.gpsXyzVec ++ [e.state.body.pos]) (e.gpsEcefVec ++ [x])).refPos
  | _ => True

/-- A track that can be used: two observations or more, each of a moment the filter can give a pose for, and a known true
position if the updater is to use it. -/
def FeatureTrack.Usable (u : MsckfUpdater K) (e : Ekf K) (f : FeatureTrack K) : Prop :=
  2 ≤ f.track.length ∧ (u.useTruth = true → ∃ F, f.truth = some F) ∧
  ∀ p ∈ f.track, ¬ e.ClonesFrame u.id → e.QuerySafe p.time

/-- The obligations. -/
def Call.Safe (N : Num K) (G : GpsNum K) (Legal : V3 K → Prop) (s : Station K) : Call K → Prop
  | .filter op => op.WF ∧ op.Safe s.ekf ∧ op.LegalReference Legal s.ekf
  | .newImu _ id ext int => (ImuUpdater.new id ext int).Fits s.ekf.state
  | .newGps _ id ext => (GpsUpdater.new id ext : GpsUpdater K).Fits s.ekf.state
  | .newFid _ id camId fe ce => (FidUpdater.new id camId fe ce : FidUpdater K).Fits s.ekf.state
  | .newCam _ id ext d => (MsckfUpdater.new id ext d).Fits s.ekf.state
  | .imu _ _ _ _ _ _ => True
  | .fid _ _ _ => True
  | .gps _ t x c => Legal x ∧ c.rows = 3 ∧ c.cols = 3 ∧
      ∀ e1 y, s.ekf.PredictedTo N.toPrim t e1 → e1.isLlaInitialized = false → G.llaToEcef x = .ok y →
        (Ekf.Op.attemptGpsInit t y G.fit).Safe e1 ∧ (Ekf.Op.attemptGpsInit t y G.fit).LegalReference Legal e1
  | .cam k t _ fs _ =>
      ∀ u e1, s.cams.find? k = some u → s.ekf.PredictedTo N.toPrim t e1 → ∀ f ∈ fs, f.Usable u e1

/-- Every event of the history keeps its side of the contract in the situation in which it happens. -/
def Station.SafeHistory (N : Num K) (G : GpsNum K) (Legal : V3 K → Prop) (s : Station K) : List (Call K) → Prop
  | [] => True
  | c :: cs => c.Safe N G Legal s ∧ ∀ s', s.step N G c = .ok s' → Station.SafeHistory N G Legal s' cs

end EkfCal
