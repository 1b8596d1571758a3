import Verif.Model.Choices

/-!
# Specification: the documented numbers of image methods

docs/parameters.md:203-215, config/example.yaml:158-170.
-/

namespace EkfCal.Choices

/-- `feature_detector`: 0 BRISK, 1 FAST, 2 GFTT, 3 MSER, 4 ORB, 5 SIFT. -/
def detectors : List String := ["BRISK", "FAST", "GFTT", "MSER", "ORB", "SIFT"]

/-- `descriptor_extractor`: 0 ORB, 1 SIFT. -/
def extractors : List String := ["ORB", "SIFT"]

/-- `descriptor_matcher`: 0 BRUTE_FORCE, 1 FLANN. -/
def matchers : List String := ["BRUTE_FORCE", "FLANN"]

/-- The name of a method. -/
def Detector.name : Detector → String
  | .brisk .. => "BRISK" | .fast .. => "FAST" | .gftt => "GFTT" | .mser => "MSER" | .orb .. => "ORB" | .sift => "SIFT"

/-- The name of a method. -/
def Extractor.name : Extractor → String
  | .orb .. => "ORB" | .sift => "SIFT"

/-- The name of a method. -/
def Matcher.name : Matcher → String
  | .bruteForce => "BRUTE_FORCE" | .flann => "FLANN"

/-- The sensitivity a method was given, where it has one. -/
def Detector.threshold : Detector → Option Int
  | .brisk t _ _ => some t | .fast t _ => some t | .orb _ t => some t | _ => none

/-- The work is of the methods with these names. -/
def Work.Of (d x m : String) : Work → Prop
  | .detect a => a.name = d
  | .describe a => a.name = x
  | .match a => a.name = m

/-- The parameters of a tracker that a node has declared and read. -/
def Declares {K : Type} (s : Server K) (name : String) (d x m t : Int) : Prop :=
  s.find? (fun a => a.1 = .of .tracker name .featureDetector) = some (.of .tracker name .featureDetector, .int d) ∧
  s.find? (fun a => a.1 = .of .tracker name .descriptorExtractor) = some (.of .tracker name .descriptorExtractor, .int x) ∧
  s.find? (fun a => a.1 = .of .tracker name .descriptorMatcher) = some (.of .tracker name .descriptorMatcher, .int m) ∧
  s.find? (fun a => a.1 = .of .tracker name .detectorThreshold) = some (.of .tracker name .detectorThreshold, .int t)

/-- Two images in a row in each of which features are described. -/
def TwoInARow : List Nat → Prop
  | a :: b :: l => (0 < a ∧ 0 < b) ∨ TwoInARow (b :: l)
  | _ => False

end EkfCal.Choices
