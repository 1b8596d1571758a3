import Verif.Spec.Correct
import Verif.Spec.Layout
import Verif.Model.StateVector

/-!
# Specification: corrections of a collection of sensors, and sums of states

A collection takes consecutive slices of the vector, in order: an element starts where the slices of the elements before
it end.
-/

namespace EkfCal
variable {K : Type} [Field K]

/-- Where the slice of the `i`-th element starts. -/
def startOf {α : Type} (dim : α → Nat) (m : UMap α) (i : Nat) : Nat := ((m.take i).map fun kv => dim kv.2).sum

/-- An IMU moved by the slice from `o` on: pose first, then biases, as far as they are calibrated. -/
def ImuState.movedFrom (N : Prim K) (v : Vec K) (o : Nat) (s : ImuState K) : ImuState K :=
  let o' := if s.isExtrinsic then o + 6 else o
  { s with
    pos := if s.isExtrinsic then s.pos + v.at3 o else s.pos
    ang := if s.isExtrinsic then s.ang.moved N (v.at3 (o + 3)) else s.ang
    accBias := if s.isIntrinsic then s.accBias + v.at3 o' else s.accBias
    omgBias := if s.isIntrinsic then s.omgBias + v.at3 (o' + 3) else s.omgBias }

/-- A camera moved by the slice from `o` on, if it is calibrated. -/
def CamState.movedFrom (N : Prim K) (v : Vec K) (o : Nat) (s : CamState K) : CamState K :=
  { s with
    pos := if s.isExtrinsic then s.pos + v.at3 o else s.pos
    ang := if s.isExtrinsic then s.ang.moved N (v.at3 (o + 3)) else s.ang }

/-- A clone moved by the slice from `o` on. -/
def AugState.movedFrom (N : Prim K) (v : Vec K) (o : Nat) (s : AugState K) : AugState K :=
  { s with pos := s.pos + v.at3 o, ang := s.ang.moved N (v.at3 (o + 3)) }

/-- The right operand has every sensor of the left one and windows at least as long. -/
structure State.CoveredBy (l r : State K) : Prop where
  imus : ∀ k s, l.imus.find? k = some s → (r.imus.find? k).isSome
  gpss : ∀ k s, l.gpss.find? k = some s → (r.gpss.find? k).isSome
  cams : ∀ k s, l.cams.find? k = some s → (r.cams.find? k).isSome
  fids : ∀ k s, l.fids.find? k = some s → (r.fids.find? k).isSome
  augs : ∀ k w, l.augs.find? k = some w → ∃ w', r.augs.find? k = some w' ∧ w.length ≤ w'.length

end EkfCal
