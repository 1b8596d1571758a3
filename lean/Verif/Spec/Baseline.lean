import Mathlib.Analysis.Normed.Module.Convex
import Mathlib.Analysis.Complex.Norm
import Verif.Model.GpsInit

/-!
# Specification: the baseline of a set of positions
-/

namespace EkfCal

/-- Horizontal distance of two positions. -/
noncomputable def planarDist (u v : V3 ℝ) : ℝ := √((u 0 - v 0) ^ 2 + (u 1 - v 1) ^ 2)

/-- `D` is the greatest horizontal distance between any two of the positions. -/
def IsBaseline (vs : List (V3 ℝ)) (D : ℝ) : Prop :=
  (∃ u ∈ vs, ∃ v ∈ vs, planarDist u v = D) ∧ ∀ u ∈ vs, ∀ v ∈ vs, planarDist u v ≤ D

/-- A point with integer coordinates, in the plane of complex numbers. -/
def planePoint (p : ℤ × ℤ) : ℂ := ⟨p.1, p.2⟩

/-- What `cv::convexHull` promises: some of the points, such that all of them lie in the convex hull of those. -/
def HullLaw (hull : List (ℤ × ℤ) → List (ℤ × ℤ)) : Prop :=
  ∀ pts, (∀ p ∈ hull pts, p ∈ pts) ∧ ∀ p ∈ pts, planePoint p ∈ convexHull ℝ {z | ∃ q ∈ hull pts, planePoint q = z}

end EkfCal
