import Verif.Model.Station
import Verif.Spec.Window

/-!
# Specification: the same situation in a local frame with another origin
-/

namespace EkfCal
variable {K : Type}

/-- A map with its values changed. -/
def UMap.mapValues {V W : Type} (f : V → W) (m : UMap V) : UMap W := m.map fun kv => (kv.1, f kv.2)

section
variable [Add K]

/-- The body displaced by `d`. -/
def BodyState.displaced (d : V3 K) (b : BodyState K) : BodyState K := { b with pos := b.pos + d }
/-- A board displaced by `d`. -/
def FidState.displaced (d : V3 K) (s : FidState K) : FidState K := { s with pos := s.pos + d }
/-- A clone displaced by `d`. -/
def AugState.displaced (d : V3 K) (a : AugState K) : AugState K := { a with pos := a.pos + d }

/-- Body, boards and clones displaced by `d`.  The positions of sensors are relative to the body and stay. -/
def State.displaced (d : V3 K) (s : State K) : State K :=
  { s with
    body := s.body.displaced d
    fids := s.fids.mapValues (·.displaced d)
    augs := s.augs.mapValues (List.map (·.displaced d)) }

/-- The filter with body, boards and clones displaced by `d`: everything else, the covariance in particular, is the same. -/
def Ekf.displaced (d : V3 K) (e : Ekf K) : Ekf K := { e with state := e.state.displaced d }

/-- An updater of a board; it remembers the position of the board from its first update on. -/
def FidUpdater.displaced (d : V3 K) (u : FidUpdater K) : FidUpdater K := if u.isFirst then u else { u with posF := u.posF + d }

/-- The station with body, boards and clones displaced by `d`. -/
def Station.displaced (d : V3 K) (s : Station K) : Station K :=
  { s with ekf := s.ekf.displaced d, fids := s.fids.mapValues (·.displaced d) }

/-- A track with its true position, which the simulator fills in, displaced by `d`. -/
def FeatureTrack.displaced (d : V3 K) (f : FeatureTrack K) : FeatureTrack K := { f with truth := f.truth.map (· + d) }

/-- A call with the positions in the local frame that it speaks of displaced by `d`. -/
def Ekf.Op.displaced (d : V3 K) : Ekf.Op K → Ekf.Op K
  | .registerFiducial s c => .registerFiducial (s.displaced d) c
  | .initializeAt t b => .initializeAt t (b.displaced d)
  | op => op

/-- An event with the positions in the local frame that it speaks of displaced by `d`.  What sensors measure is the same. -/
def Call.displaced (d : V3 K) : Call K → Call K
  | .filter op => .filter (op.displaced d)
  | .cam k t i fs px => .cam k t i (fs.map (·.displaced d)) px
  | c => c
end

/-- Not a position fix. -/
def Call.NoFix : Call K → Prop
  | .gps _ _ _ _ => False
  | .filter (.attemptGpsInit _ _ _) => False
  | _ => True

/-- Where frames are cloned, the frame has a clone. -/
def Ekf.Knows (e : Ekf K) (cam frame : Nat) : Prop := e.ClonesFrame cam → ∃ a ∈ e.window cam, a.frameId = frame

/-- The frames that the event speaks of have clones, where frames are cloned. -/
def Call.Known (s : Station K) : Call K → Prop
  | .cam k _ _ fs _ => ∀ u, s.cams.find? k = some u → ∀ f ∈ fs, ∀ p ∈ f.track, s.ekf.Knows u.id p.frameId
  | .filter (.getAug id n _) => s.ekf.Knows id n
  | _ => True

end EkfCal
