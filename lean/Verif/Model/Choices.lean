import Verif.Model.Params

/-!
# Model of the image methods of a feature tracker

src/trackers/feature_tracker.cpp:50-52, 57-117 and the places where the methods are used (184, 196, 201-207), with
ekf_cal_node.cpp:354-369, where their numbers are read.  What OpenCV finds in an image is an input: the number of described features.
-/

namespace EkfCal.Choices
variable {K : Type}

/-- A detector of features as OpenCV creates it, with its arguments (feature_tracker.cpp:61-82). -/
inductive Detector
  | brisk (threshold octaves : Int) (scale : Int)
  | fast (threshold : Int) (suppress : Bool)
  | gftt
  | mser
  | orb (features : Nat) (threshold : Int)
  | sift
  deriving DecidableEq

/-- A method of description, with its arguments (feature_tracker.cpp:91-99). -/
inductive Extractor
  | orb (features : Nat) (threshold : Int)
  | sift
  deriving DecidableEq

/-- A method of matching (feature_tracker.cpp:107-114). -/
inductive Matcher
  | bruteForce
  | flann
  deriving DecidableEq

/-- `static_cast` of an `int64_t` to an enumeration that is stored in an `int`: every `int` is a value of it, named or not
(ekf_cal_node.cpp:366-368, feature_tracker.hpp:36-62). -/
def castEnum (i : Int) : Int := if i % 2 ^ 32 < 2 ^ 31 then i % 2 ^ 32 else i % 2 ^ 32 - 2 ^ 32

/-- feature_tracker.cpp:57-85 `InitFeatureDetector`; `none` is the null pointer that is left where no case applies.  The scale of BRISK
and the settings of ORB that are the same everywhere are left out but for one. -/
def initDetector (d threshold : Int) : Option Detector :=
  if d = 0 then some (.brisk threshold 3 1)
  else if d = 1 then some (.fast threshold true)
  else if d = 2 then some .gftt
  else if d = 3 then some .mser
  else if d = 4 then some (.orb 1000 threshold)
  else if d = 5 then some .sift
  else none

/-- feature_tracker.cpp:87-102 `InitDescriptorExtractor` -/
def initExtractor (d threshold : Int) : Option Extractor :=
  if d = 0 then some (.orb 500 threshold)
  else if d = 1 then some .sift
  else none

/-- feature_tracker.cpp:104-117 `InitDescriptorMatcher` -/
def initMatcher (m : Int) : Option Matcher :=
  if m = 0 then some .bruteForce
  else if m = 1 then some .flann
  else none

/-- The methods of a tracker (feature_tracker.hpp:175-177) and the number of rows of `m_prev_descriptors` (181). -/
structure Pipeline where
  detector : Option Detector
  extractor : Option Extractor
  matcher : Option Matcher
  prev : Nat
  deriving DecidableEq

/-- feature_tracker.cpp:50-52 constructor -/
def Pipeline.new (detector extractor matcher threshold : Int) : Pipeline :=
  ⟨initDetector detector threshold, initExtractor extractor threshold, initMatcher matcher, 0⟩

/-- ekf_cal_node.cpp:354-357, 366-369 `GetTrackerParameters`, the image methods, with the constructor -/
def nodePipeline (s : Server K) (name : String) : Start Pipeline := do
  let detector ← fetch s (.of .tracker name .featureDetector) PVal.int?
  let extractor ← fetch s (.of .tracker name .descriptorExtractor) PVal.int?
  let matcher ← fetch s (.of .tracker name .descriptorMatcher) PVal.int?
  let threshold ← fetch s (.of .tracker name .detectorThreshold) PVal.int?
  pure (Pipeline.new (castEnum detector) (castEnum extractor) (castEnum matcher) (castEnum threshold))

/-- What is done with the methods. -/
inductive Work
  | detect (d : Detector)
  | describe (d : Extractor)
  | match (m : Matcher)
  deriving DecidableEq

/-- A call through a null pointer. -/
inductive Null | nullPointer
  deriving DecidableEq

/-- `p->…` -/
def deref {α : Type} : Option α → Except Null α
  | none => .error .nullPointer
  | some a => .ok a

/-- feature_tracker.cpp:166-271 `Track` on one image in which `n` features are described: the methods called, and the tracker
afterwards. -/
def Pipeline.track (p : Pipeline) (n : Nat) : Except Null (List Work × Pipeline) := do
  let d ← deref p.detector                                                        -- 184
  let x ← deref p.extractor                                                       -- 196
  if 0 < p.prev ∧ 0 < n then                                                      -- 201
    let m ← deref p.matcher                                                       -- 206-207
    pure ([.detect d, .describe x, .match m, .match m], { p with prev := n })
  else pure ([.detect d, .describe x], { p with prev := n })

/-- A sequence of images. -/
def Pipeline.run (p : Pipeline) : List Nat → Except Null (List Work × Pipeline)
  | [] => .ok ([], p)
  | n :: ns => do
    let (w, p) ← p.track n
    let (ws, p) ← p.run ns
    pure (w ++ ws, p)

end EkfCal.Choices
