import Verif.Model.CameraFrame
import Verif.Spec.Window
import Verif.Spec.Tracks

/-!
# Specification: what a camera hands to the filter
-/

namespace EkfCal
variable {K : Type} [Field K] [LinearOrder K]

/-- OpenCV finds the pose of a board only from what it detected of it: from markers, and for a ChArUco board from corners
between them. -/
def BoardSight.Consistent (kind : BoardKind) (s : BoardSight K) : Prop :=
  s.pose.isSome → s.markers ≠ [] ∧ (kind = .charuco → s.corners ≠ [])

/-- The board update belonging to a pose. -/
def FidTracker.updateWith (N : Num K) (t : FidTracker K) (e : Ekf K) (time : K) (p : V3 K × Quat K) :
    Res (FidUpdater K × Ekf K) :=
  t.updater.update N e time ⟨p.1, p.2, t.posError, t.angError⟩

/-- **What a user expects of a board in view**: if its pose was found the filter is updated with that pose, and if not the
filter is left alone. -/
def FidTracker.UsesPose (N : Num K) (t : FidTracker K) (e : Ekf K) (time : K) (s : BoardSight K) : Prop :=
  (∀ p, s.pose = some p →
    t.track N e time s = (t.updateWith N e time p).map fun r => ({ t with updater := r.1 }, r.2)) ∧
  (s.pose = none → t.track N e time s = .ok (t, e))

/-- The key points one image gives a feature tracker, as `GridFeatures` and the matcher leave them. -/
def PointSight.WF (s : PointSight K) : Prop :=
  KnnLists s.fwd ∧ KnnLists s.bwd ∧ (∀ k ∈ s.keys, k.classId = none) ∧
  s.keys.Pairwise fun a b => (a.x, a.y) ≠ (b.x, b.y)

/-- **Every observation handed over still has its pose**: the filter, asked for the pose of the image the observation was
made in, answers with a clone it stored for that very image. -/
def Delivery.Posed (N : Num K) (d : Delivery K) : Prop :=
  ∀ o ∈ d.tracks, ∀ p ∈ o.2, ∃ a e', d.filter.getAugState N.toPrim d.updater.id p.frameId p.time = .ok (a, e') ∧
    a ∈ d.filter.window d.updater.id ∧ a.frameId = p.frameId

/-- Frame ids of the images that reach the trackers, in order. -/
def Camera.frames (evs : List (Camera.Event K)) : List Nat :=
  evs.filterMap fun ev => match ev with
    | .image m => if m.empty then none else some m.frameId
    | .other _ => none

/-- Frame ids of the images of a simulated camera, in order. -/
def SimCamera.frames (evs : List (SimCamera.Event K)) : List Nat :=
  evs.filterMap fun ev => match ev with
    | .image m => some m.frameId
    | .other _ => none

/-- Calls on the filter that are neither an image of this camera nor a change of the configured length. -/
def Ekf.Op.Elsewhere (cam : Nat) (op : Ekf.Op K) : Prop := (∀ f, op ≠ .frame cam f) ∧ ∀ n, op ≠ .setMaxTrackLength n

end EkfCal
