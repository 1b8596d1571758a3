import Verif.Model.Ekf

/-!
# Specification: size and layout of the filter state

Written in terms of the published data only: which sensors exist, their calibration flags, the stored clones, and the
index fields of each state.
-/

namespace EkfCal
variable {K : Type}

/-- Number of estimated quantities of an IMU: 6 for its pose if calibrated extrinsically, 6 for its biases if
calibrated intrinsically. -/
def ImuState.dim (s : ImuState K) : Nat := (if s.isExtrinsic then 6 else 0) + (if s.isIntrinsic then 6 else 0)
/-- Number of estimated quantities of a GPS antenna. -/
def GpsState.dim (s : GpsState K) : Nat := if s.isExtrinsic then 3 else 0
/-- Number of estimated quantities of a camera. -/
def CamState.dim (s : CamState K) : Nat := if s.isExtrinsic then 6 else 0
/-- Number of estimated quantities of a fiducial. -/
def FidState.dim (s : FidState K) : Nat := if s.isExtrinsic then 6 else 0

/-- Total of `dim` over the values of a map. -/
def mapDim {α : Type} (dim : α → Nat) (m : UMap α) : Nat := (m.map fun kv => dim kv.2).sum

/-- Number of estimated quantities of a state: 18 for the body, plus all sensors, plus 6 per clone. -/
def State.dim (s : State K) : Nat :=
  18 + mapDim ImuState.dim s.imus + mapDim GpsState.dim s.gpss + mapDim CamState.dim s.cams
    + mapDim FidState.dim s.fids + mapDim (fun w => 6 * w.length) s.augs

/-- Index ranges (first index, length) published for one IMU. -/
def ImuState.blocks (s : ImuState K) : List (Nat × Nat) :=
  (if s.isExtrinsic then [(s.indexExtrinsic, 6)] else []) ++
  (if s.isIntrinsic then [(s.indexIntrinsic, 6)] else [])
/-- Index range published for one GPS antenna. -/
def GpsState.blocks (s : GpsState K) : List (Nat × Nat) := if s.isExtrinsic then [(s.index, 3)] else []
/-- Index range published for one camera. -/
def CamState.blocks (s : CamState K) : List (Nat × Nat) := if s.isExtrinsic then [(s.index, 6)] else []
/-- Index range published for one fiducial. -/
def FidState.blocks (s : FidState K) : List (Nat × Nat) := if s.isExtrinsic then [(s.index, 6)] else []
/-- Index ranges published for the clones of one window, oldest first. -/
def augBlocks (w : List (AugState K)) : List (Nat × Nat) := w.map fun a => (a.index, 6)

/-- Index ranges of all values of a map, in iteration (key) order. -/
def mapBlocks {α : Type} (blocks : α → List (Nat × Nat)) (m : UMap α) : List (Nat × Nat) :=
  m.flatMap fun kv => blocks kv.2

/-- All published index ranges: body, IMUs, GPS antennas, cameras, fiducials, clones. -/
def State.blocks (s : State K) : List (Nat × Nat) :=
  [(s.body.index, 18)] ++ mapBlocks ImuState.blocks s.imus ++ mapBlocks GpsState.blocks s.gpss
    ++ mapBlocks CamState.blocks s.cams ++ mapBlocks FidState.blocks s.fids ++ mapBlocks augBlocks s.augs

/-- The ranges follow each other without gap or overlap from `a` up to `b`. -/
def Tiles : List (Nat × Nat) → Nat → Nat → Prop
  | [], a, b => a = b
  | (i, n) :: rest, a, b => i = a ∧ Tiles rest (a + n) b

/-- All maps of the state are ordered maps. -/
structure State.MapsSorted (s : State K) : Prop where
  imus : UMap.Sorted s.imus
  gpss : UMap.Sorted s.gpss
  cams : UMap.Sorted s.cams
  fids : UMap.Sorted s.fids
  augs : UMap.Sorted s.augs

end EkfCal
