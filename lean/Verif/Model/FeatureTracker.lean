import Mathlib.Algebra.Order.Floor.Defs
import Verif.Model.MsckfUpdater

/-!
# Feature trackers (`src/trackers/feature_tracker.cpp`, `src/trackers/sim/sim_feature_tracker.cpp`)

The image operations of OpenCV are inputs: the detected key points, the two lists of nearest neighbours `knnMatch` returns
and the mask of `findFundamentalMat`.  Everything the trackers do with them is modelled.  Pixel coordinates are exact
numbers, and casting one to `int` does not overflow.
-/

namespace EkfCal

/-- `cv::KeyPoint`: the position and `class_id`, where `none` is the default `-1` (feature_tracker.cpp:228). -/
structure KeyPoint (K : Type) where
  x : K
  y : K
  classId : Option Nat
  deriving DecidableEq

/-- `cv::DMatch`.  OpenCV fills the indices in, so they are not negative (feature_tracker.cpp:206-207). -/
structure DMatch (K : Type) where
  query : Nat
  train : Nat
  distance : K
  deriving DecidableEq

/-- `static_cast<int>` of a floating point number: towards zero (feature_tracker.cpp:145-148). -/
def truncInt {K : Type} [Field K] [LinearOrder K] [FloorRing K] (x : K) : Int := if 0 ≤ x then ⌊x⌋ else ⌈x⌉

section Grid
variable {K : Type} [Field K] [LinearOrder K] [FloorRing K]

/-- The loop of `GridFeatures` (feature_tracker.cpp:142-162).  `occupied` is the image `grid_2d`, by row and column. -/
def gridLoop (rows cols : Nat) : (Int → Int → Bool) → List (KeyPoint K) → List (KeyPoint K)
  | _, [] => []
  | occupied, kpt :: rest =>
    let ptX := truncInt kpt.x
    let ptY := truncInt kpt.y
    let xGrid := truncInt (kpt.x / 10)
    let yGrid := truncInt (kpt.y / 10)
    let gridCols := truncInt ((cols : K) / 10)
    let gridRows := truncInt ((rows : K) / 10)
    if xGrid < 0 ∨ xGrid ≥ gridCols ∨ yGrid < 0 ∨ yGrid ≥ gridRows ∨ ptX < 0 ∨ ptX ≥ cols ∨ ptY < 0 ∨ ptY ≥ rows then
      gridLoop rows cols occupied rest
    else if occupied yGrid xGrid then gridLoop rows cols occupied rest
    else kpt :: gridLoop rows cols (fun r c => if r = yGrid ∧ c = xGrid then true else occupied r c) rest

/-- `FeatureTracker::GridFeatures` (feature_tracker.cpp:120-164). -/
def gridFeatures (keyPoints : List (KeyPoint K)) (rows cols : Nat) : List (KeyPoint K) :=
  gridLoop rows cols (fun _ _ => false) keyPoints

end Grid

section Filters
variable {K : Type} [Field K] [LinearOrder K]

/-- `a / b > r` for distances in IEEE arithmetic: a positive number over zero is infinite, zero over zero is not a number
and compares false (feature_tracker.cpp:285). -/
def ratioAbove (a b r : K) : Bool := if b = 0 then decide (0 < a) else decide (r < a / b)

/-- `FeatureTracker::RatioTest` (feature_tracker.cpp:279-290). -/
def ratioTest (knnRatio : K) (ms : List (List (DMatch K))) : List (List (DMatch K)) :=
  ms.map fun m => match m with
    | [_] => []
    | [a, b] => if ratioAbove a.distance b.distance knnRatio then [] else m
    | _ => m

/-- Two nearest neighbour lists that name each other (feature_tracker.cpp:303-308). -/
def symmetric (f b : List (DMatch K)) : Bool :=
  match f, b with
  | [f0, _], [b0, _] => f0.query = b0.train ∧ b0.query = f0.train
  | _, _ => false

/-- `FeatureTracker::SymmetryTest` (feature_tracker.cpp:292-316): the inner loop stops at the first confirmation. -/
def symmetryTest (fwd bwd : List (List (DMatch K))) : List (DMatch K) :=
  fwd.filterMap fun f => if bwd.any (symmetric f) then f.head? else none

/-- The end of `FeatureTracker::RANSAC` (feature_tracker.cpp:344-349): `mask[i]` is not bounds checked. -/
def applyMask : List (DMatch K) → List Nat → Res (List (DMatch K))
  | [], _ => .ok []
  | _ :: _, [] => .error .outOfRange
  | m :: ms, b :: bs => do
    let r ← applyMask ms bs
    pure (if b = 1 then m :: r else r)

/-- Reading key points through an index with `operator[]` (feature_tracker.cpp:228-241). -/
def keyAt (keys : List (KeyPoint K)) (i : Nat) : Res (KeyPoint K) :=
  match keys[i]? with
  | none => .error .outOfRange
  | some k => .ok k

/-- `FeatureTracker::RANSAC` (feature_tracker.cpp:318-350); the mask is the one `findFundamentalMat` writes. -/
def ransac (prev curr : List (KeyPoint K)) (mask : List Nat) (ms : List (DMatch K)) : Res (List (DMatch K)) := do
  if ms.length < 10 then return []
  let _ ← ms.mapM fun m => do
    let a ← keyAt prev m.query
    let b ← keyAt curr m.train
    pure (a, b)
  applyMask ms mask

/-- How far a match moved between two images (feature_tracker.cpp:368-370). -/
def motion (N : Prim K) (prev curr : List (KeyPoint K)) (m : DMatch K) : Res K := do
  let p ← keyAt prev m.query
  let c ← keyAt curr m.train
  pure (N.sqrt ((c.x - p.x) ^ 2 + (c.y - p.y) ^ 2))

/-- `FeatureTracker::DistanceTest` (feature_tracker.cpp:352-387).  Without matches the mean is not a number, and is not
used. -/
def distanceTest (N : Prim K) (prev curr : List (KeyPoint K)) (ms : List (DMatch K)) : Res (List (DMatch K)) := do
  let ds ← ms.mapM (motion N prev curr)
  let mean := ds.foldl (· + ·) 0 / (ms.length : K)
  pure (((ms.zip ds).filter fun p => p.2 < mean * 3).map Prod.fst)

/-- All tests of one frame (feature_tracker.cpp:209-217). -/
def filterMatches (N : Prim K) (knnRatio : K) (prev curr : List (KeyPoint K)) (fwd bwd : List (List (DMatch K)))
    (mask : List Nat) : Res (List (DMatch K)) := do
  let sym := symmetryTest (ratioTest knnRatio fwd) (ratioTest knnRatio bwd)
  let ran ← ransac prev curr mask sym
  distanceTest N prev curr ran

end Filters

/-! ## Tracks -/

section Tracks
variable {K : Type} [Field K] [LinearOrder K]

/-- The map from feature ids to the observations gathered so far (feature_tracker.hpp:184, sim_feature_tracker.hpp:107). -/
abbrev TrackMap (K : Type) := UMap (List (FeaturePoint K))

/-- `m_feature_points_map[id].push_back(point)` (feature_tracker.cpp:232, 239; sim_feature_tracker.cpp:148). -/
def TrackMap.push (m : TrackMap K) (id : Nat) (p : FeaturePoint K) : TrackMap K :=
  m.insert id (m.getD id [] ++ [p])

/-- The loop that takes finished tracks out of the map (feature_tracker.cpp:246-261, sim_feature_tracker.cpp:152-172): the
tracks delivered, with their ids, and the map left over.  `back()` of an empty vector is undefined. -/
def flushTracks (minLen maxLen frameId : Nat) : TrackMap K → Res (List (Nat × List (FeaturePoint K)) × TrackMap K)
  | [] => .ok ([], [])
  | (id, pts) :: rest =>
    match pts.getLast? with
    | none => .error .emptyVector
    | some last => do
      let (out, left) ← flushTracks minLen maxLen frameId rest
      if last.frameId < frameId ∨ pts.length ≥ maxLen then
        pure (if pts.length ≥ minLen then (id, pts) :: out else out, left)
      else pure (out, (id, pts) :: left)

/-- The members of `FeatureTracker` that `Track` uses (feature_tracker.hpp:170-190), and the feature counter.  The counter
is shared by all trackers of the process (feature_tracker.cpp:273-277). -/
structure FeatureTracker (K : Type) where
  minLen : Nat
  maxLen : Nat
  knnRatio : K
  prevFrameId : Nat
  prevTime : K
  /-- the key points of the previous image; there are as many descriptors -/
  prevKeys : List (KeyPoint K)
  map : TrackMap K
  nextId : Nat

/-- What one image brings in (feature_tracker.cpp:184-217). -/
structure TrackFrame (K : Type) where
  frameId : Nat
  /-- `m_ekf->GetCurrentTime()` -/
  now : K
  /-- key points detected and described, after `GridFeatures` -/
  keys : List (KeyPoint K)
  fwd : List (List (DMatch K))
  bwd : List (List (DMatch K))
  mask : List Nat
  /-- feature ids other trackers have drawn since the last image -/
  drawn : Nat

namespace FeatureTracker

/-- The state inside the loop over the matches: previous and current key points, the map and the counter
(feature_tracker.cpp:227-242). -/
structure Matching (K : Type) where
  prev : List (KeyPoint K)
  curr : List (KeyPoint K)
  map : TrackMap K
  nextId : Nat

/-- One pass of the loop over the final matches (feature_tracker.cpp:227-242). -/
def matchStep (prevFrameId : Nat) (prevTime : K) (frameId : Nat) (now : K) (s : Matching K) (m : DMatch K) :
    Res (Matching K) := do
  let p ← keyAt s.prev m.query
  let (id, s) := match p.classId with
    | some id => (id, s)
    | none => (s.nextId, { s with
        prev := s.prev.set m.query { p with classId := some s.nextId },
        map := s.map.push s.nextId ⟨prevFrameId, prevTime, p.x, p.y⟩,
        nextId := s.nextId + 1 })
  let c ← keyAt s.curr m.train
  pure { s with
    curr := s.curr.set m.train { c with classId := some id },
    map := s.map.push id ⟨frameId, now, c.x, c.y⟩ }

/-- `FeatureTracker::Track` (feature_tracker.cpp:166-271) on the results of the image operations: the tracker afterwards
and the tracks handed to the filter update, with their ids.  Drawing and logging are left out. -/
def track (N : Prim K) (t : FeatureTracker K) (f : TrackFrame K) :
    Res (FeatureTracker K × List (Nat × List (FeaturePoint K))) := do
  let next := t.nextId + f.drawn
  if t.prevKeys.length > 0 ∧ f.keys.length > 0 then
    let ms ← filterMatches N t.knnRatio t.prevKeys f.keys f.fwd f.bwd f.mask
    let s ← ms.foldlM (matchStep t.prevFrameId t.prevTime f.frameId f.now) ⟨t.prevKeys, f.keys, t.map, next⟩
    let (out, left) ← flushTracks t.minLen t.maxLen f.frameId s.map
    pure ({ t with prevFrameId := f.frameId, prevTime := f.now, prevKeys := s.curr, map := left, nextId := s.nextId }, out)
  else
    pure ({ t with prevFrameId := f.frameId, prevTime := f.now, prevKeys := f.keys, nextId := next }, [])

/-- A sequence of images: the tracker afterwards and all tracks delivered, in order. -/
def runTrack (N : Prim K) (t : FeatureTracker K) : List (TrackFrame K) →
    Res (FeatureTracker K × List (Nat × List (FeaturePoint K)))
  | [] => .ok (t, [])
  | f :: fs => do
    let (t', out) ← t.track N f
    let (t'', outs) ← runTrack N t' fs
    pure (t'', out ++ outs)

end FeatureTracker

/-! ## The simulated tracker -/

/-- The members of `SimFeatureTracker` that `GenerateMessage` uses (sim_feature_tracker.hpp:103-112). -/
structure SimTracker (K : Type) where
  minLen : Nat
  maxLen : Nat
  map : TrackMap K

namespace SimTracker

/-- `SimFeatureTracker::GenerateMessage` (sim_feature_tracker.cpp:137-181) for the visible key points of one image, each
with the id of its feature. -/
def generate (t : SimTracker K) (frameId : Nat) (time : K) (keys : List (Nat × K × K)) :
    Res (SimTracker K × List (Nat × List (FeaturePoint K))) := do
  let m := keys.foldl (fun (m : TrackMap K) k => m.push k.1 ⟨frameId, time, k.2.1, k.2.2⟩) t.map
  let (out, left) ← flushTracks t.minLen t.maxLen frameId m
  pure ({ t with map := left }, out)

/-- A sequence of images. -/
def run (t : SimTracker K) : List (Nat × K × List (Nat × K × K)) →
    Res (SimTracker K × List (Nat × List (FeaturePoint K)))
  | [] => .ok (t, [])
  | f :: fs => do
    let (t', out) ← t.generate f.1 f.2.1 f.2.2
    let (t'', outs) ← run t' fs
    pure (t'', out ++ outs)

end SimTracker
end Tracks
end EkfCal
