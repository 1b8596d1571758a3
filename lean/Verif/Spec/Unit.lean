import Verif.Model.Ekf

/-!
# Specification: unit orientations
-/

namespace EkfCal
variable {K : Type}

/-- Every orientation stored in the state satisfies `U`. -/
structure State.AllAng (U : Quat K → Prop) (s : State K) : Prop where
  body : U s.body.ang
  imus : ∀ x ∈ s.imus, U x.2.ang
  cams : ∀ x ∈ s.cams, U x.2.ang
  fids : ∀ x ∈ s.fids, U x.2.ang
  augs : ∀ x ∈ s.augs, ∀ a ∈ x.2, U a.ang

/-- Unit quaternion. -/
def Quat.IsUnit [Field K] (q : Quat K) : Prop := q.normSq = 1

/-- Contract of the rotation conversion: its results are unit quaternions (met by `RotVecToQuat`, `C23_unit`). -/
def Prim.UnitLaw [Field K] (N : Prim K) : Prop := ∀ v, (N.rotVecToQuat v).IsUnit

/-- Orientations given to a call satisfy `U`. -/
def Ekf.Op.AngOK (U : Quat K → Prop) : Ekf.Op K → Prop
  | .registerIMU _ s _ => U s.ang
  | .registerCamera _ s _ => U s.ang
  | .registerFiducial s _ => U s.ang
  | .initializeAt _ b => U b.ang
  | _ => True

end EkfCal
