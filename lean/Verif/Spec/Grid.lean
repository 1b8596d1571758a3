import Verif.Model.FeatureTracker

/-!
# Cells of 10 by 10 pixels
-/

namespace EkfCal.KeyPoint

variable {K : Type} [Field K] [LinearOrder K] [FloorRing K]

/-- The key point lies in an image of the given size. -/
def InImage (rows cols : Nat) (k : KeyPoint K) : Prop := 0 ≤ k.x ∧ k.x < cols ∧ 0 ≤ k.y ∧ k.y < rows

/-- The 10-pixel cell a key point lies in. -/
def cell (k : KeyPoint K) : Int × Int := (⌊k.x / 10⌋, ⌊k.y / 10⌋)

/-- The cell lies in the image, with all its pixels. -/
def CellInImage (rows cols : Nat) (c : Int × Int) : Prop :=
  0 ≤ c.1 ∧ (c.1 + 1) * 10 ≤ cols ∧ 0 ≤ c.2 ∧ (c.2 + 1) * 10 ≤ rows

end EkfCal.KeyPoint
