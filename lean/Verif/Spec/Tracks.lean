import Verif.Spec.Matches

/-!
# What feature tracks should look like
-/

namespace EkfCal

variable {K : Type} [Field K] [LinearOrder K]

/-- All observations of a collection of tracks. -/
def observations (l : List (Nat × List (FeaturePoint K))) : List (FeaturePoint K) := l.flatMap Prod.snd

/-- All observations of a collection of tracks, each with the id of its track. -/
def labelled (l : List (Nat × List (FeaturePoint K))) : List (Nat × FeaturePoint K) :=
  l.flatMap fun e => e.2.map fun p => (e.1, p)

/-- Frame ids strictly increase along a track. -/
def Increasing (pts : List (FeaturePoint K)) : Prop := (pts.map FeaturePoint.frameId).Pairwise (· < ·)

/-- What the image operations hand to the tracker: nearest neighbour lists, and fresh key points at different places
(`GridFeatures` leaves at most one in each cell). -/
def TrackFrame.WF (f : TrackFrame K) : Prop :=
  KnnLists f.fwd ∧ KnnLists f.bwd ∧ (∀ k ∈ f.keys, k.classId = none) ∧
  f.keys.Pairwise fun a b => (a.x, a.y) ≠ (b.x, b.y)

/-- A tracker as constructed (feature_tracker.cpp:35-54), whatever the counter and the unset members hold. -/
def FeatureTracker.Fresh (t : FeatureTracker K) : Prop := t.prevKeys = [] ∧ t.map = []

end EkfCal
