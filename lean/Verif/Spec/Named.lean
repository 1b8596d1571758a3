import Verif.Model.Station
import Verif.Model.CameraFrame
import Verif.Spec.Displaced

/-!
# Specification: the same frames under other numbers
-/

namespace EkfCal
variable {K : Type}

/-- A clone whose frame has the number `f n` instead of `n`. -/
def AugState.named (f : Nat → Nat) (a : AugState K) : AugState K := { a with frameId := f a.frameId }

/-- Clones whose frames have other numbers. -/
def State.named (f : Nat → Nat) (s : State K) : State K :=
  { s with augs := s.augs.mapValues (List.map (·.named f)) }

/-- Where frames are cloned, a clone has the number of its frame.  Elsewhere clones are not of frames, and all have the number zero. -/
def Ekf.naming (f : Nat → Nat) (e : Ekf K) : Nat → Nat :=
  match e.augType with
  | .all => f
  | .primary => f
  | _ => id

/-- The filter under the other numbers: only the numbers that clones carry differ. -/
def Ekf.named (f : Nat → Nat) (e : Ekf K) : Ekf K := { e with state := e.state.named (e.naming f) }

/-- The station under the other numbers. -/
def Station.named (f : Nat → Nat) (s : Station K) : Station K := { s with ekf := s.ekf.named f }

/-- An observation in a frame with another number. -/
def FeaturePoint.named (f : Nat → Nat) (p : FeaturePoint K) : FeaturePoint K := { p with frameId := f p.frameId }
/-- A track over frames with other numbers. -/
def FeatureTrack.named (f : Nat → Nat) (t : FeatureTrack K) : FeatureTrack K := { t with track := t.track.map (·.named f) }

/-- A call with the number `f n` in place of the frame number `n`. -/
def Ekf.Op.named (f : Nat → Nat) : Ekf.Op K → Ekf.Op K
  | .frame c n => .frame c (f n)
  | .getAug c n t => .getAug c (f n) t
  | op => op

/-- An event with the number `f n` in place of the frame number `n`. -/
def Call.named (f : Nat → Nat) : Call K → Call K
  | .filter op => .filter (op.named f)
  | .cam k t i fs px => .cam k t i (fs.map (·.named f)) px
  | c => c

/-- What a clone says about the body, without the number. -/
def AugState.unnamed (a : AugState K) : AugState K := { a with frameId := 0 }

/-- Different frames get different numbers. -/
def Renumbers (f : Nat → Nat) : Prop := ∀ m n, f m = f n → m = n

/-- Later frames get greater numbers. -/
def Increases (f : Nat → Nat) : Prop := ∀ m n, m < n → f m < f n

/-! ## Trackers and cameras -/

/-- Tracks with their ids, over frames with other numbers. -/
def namedTracks (f : Nat → Nat) (l : List (Nat × List (FeaturePoint K))) : List (Nat × List (FeaturePoint K)) :=
  l.map fun o => (o.1, o.2.map (·.named f))

/-- A feature tracker under the other numbers. -/
def FeatureTracker.named (f : Nat → Nat) (t : FeatureTracker K) : FeatureTracker K :=
  { t with prevFrameId := f t.prevFrameId, map := namedTracks f t.map }
/-- An image under another number. -/
def TrackFrame.named (f : Nat → Nat) (x : TrackFrame K) : TrackFrame K := { x with frameId := f x.frameId }
/-- A simulated feature tracker under the other numbers. -/
def SimTracker.named (f : Nat → Nat) (t : SimTracker K) : SimTracker K := { t with map := namedTracks f t.map }
/-- A feature tracker with its updater. -/
def PointTracker.named (f : Nat → Nat) (t : PointTracker K) : PointTracker K := { t with tracker := t.tracker.named f }
/-- A camera under the other numbers. -/
def Camera.named (f : Nat → Nat) (c : Camera K) : Camera K := { c with trackers := c.trackers.map fun kt => (kt.1, kt.2.named f) }
/-- What is handed to an updater, under the other numbers. -/
def Delivery.named (f : Nat → Nat) (d : Delivery K) : Delivery K := ⟨d.filter.named f, d.updater, namedTracks f d.tracks⟩
/-- An image message under another number. -/
def CameraMsg.named (f : Nat → Nat) (m : CameraMsg K) : CameraMsg K := { m with frameId := f m.frameId }
/-- What happens around a camera, under the other numbers. -/
def Camera.Event.named (f : Nat → Nat) : Camera.Event K → Camera.Event K
  | .image m => .image (m.named f)
  | .other op => .other (op.named f)

end EkfCal
