import Verif.Spec.Window
import Verif.Spec.Joint
import Verif.Model.GpsUpdater
import Verif.Spec.Kept
import Verif.Spec.Machine
import Verif.Spec.Update
import Verif.Spec.Cov

/-!
# Specification: a filter that is part of a larger one

`σ` says under which index the larger filter keeps the number with a given index of the smaller one.
-/

namespace EkfCal
variable {K : Type}

/-- The `n` numbers from index `i` on are those from index `i'` on. -/
def Moves (σ : Nat → Nat) (n i i' : Nat) : Prop := ∀ k, k < n → σ (i + k) = i' + k

/-- The same IMU under other indices. -/
def ImuState.Renumbered (σ : Nat → Nat) (s s' : ImuState K) : Prop :=
  s' = { s with index := s'.index, indexExtrinsic := s'.indexExtrinsic, indexIntrinsic := s'.indexIntrinsic } ∧
  (s.isExtrinsic = true → Moves σ 6 s.indexExtrinsic s'.indexExtrinsic) ∧
  (s.isIntrinsic = true → Moves σ 6 s.indexIntrinsic s'.indexIntrinsic)
/-- The same antenna under another index. -/
def GpsState.Renumbered (σ : Nat → Nat) (s s' : GpsState K) : Prop :=
  s' = { s with index := s'.index } ∧ (s.isExtrinsic = true → Moves σ 3 s.index s'.index)
/-- The same camera under another index. -/
def CamState.Renumbered (σ : Nat → Nat) (s s' : CamState K) : Prop :=
  s' = { s with index := s'.index } ∧ (s.isExtrinsic = true → Moves σ 6 s.index s'.index)
/-- The same fiducial under another index. -/
def FidState.Renumbered (σ : Nat → Nat) (s s' : FidState K) : Prop :=
  s' = { s with index := s'.index } ∧ (s.isExtrinsic = true → Moves σ 6 s.index s'.index)
/-- The same clone under another index. -/
def AugState.Renumbered (σ : Nat → Nat) (s s' : AugState K) : Prop := s' = { s with index := s'.index } ∧ Moves σ 6 s.index s'.index

/-- All that is in one state is in the other one. -/
structure State.Inside (σ : Nat → Nat) (s s' : State K) : Prop where
  body : s'.body = s.body
  imus : UMap.Into (ImuState.Renumbered σ) s.imus s'.imus
  gpss : UMap.Into (GpsState.Renumbered σ) s.gpss s'.gpss
  cams : UMap.Into (CamState.Renumbered σ) s.cams s'.cams
  fids : UMap.Into (FidState.Renumbered σ) s.fids s'.fids
  augs : UMap.Into (List.Forall₂ (AugState.Renumbered σ)) s.augs s'.augs

/-- All that one filter estimates is estimated by the other one, with the same values, variances and covariances. -/
structure Ekf.Inside [Field K] (σ : Nat → Nat) (e f : Ekf K) : Prop where
  state : e.state.Inside σ f.state
  cov : ∀ i j, i < e.stateSize → j < e.stateSize → f.P (σ i) (σ j) = e.P i j

/-- Different indices stay different, the body stays where it is. -/
structure Renumbering (σ : Nat → Nat) (n n' : Nat) : Prop where
  lt : ∀ i, i < n → σ i < n'
  inj : ∀ i j, i < n → j < n → σ i = σ j → i = j
  body : ∀ i, i < 18 → σ i = i

/-- The two Jacobians ask for the same numbers of their filters, and for no others. -/
structure Mat.Spread [Zero K] (σ : Nat → Nat) (n : Nat) (H H' : Mat K) : Prop where
  rows : H'.rows = H.rows
  same : ∀ a i, i < n → H'.get a (σ i) = H.get a i
  rest : ∀ a k, (∀ i, i < n → σ i ≠ k) → H'.get a k = 0

/-- What happens to both filters. -/
inductive Paired (K : Type)
  | predict (t : K)
  | measure (H H' : Mat K) (r : Vec K) (R : Mat K)

/-- The calls on the small filter. -/
def Paired.small : Paired K → Ekf.Op K
  | .predict t => .predict t
  | .measure H _ r R => .kalman H r R
/-- The calls on the large filter. -/
def Paired.large : Paired K → Ekf.Op K
  | .predict t => .predict t
  | .measure _ H' r R => .kalman H' r R

/-- Measurement covariances are covariances with an inverse, and the two Jacobians ask for the same numbers. -/
def Paired.OK [Field K] [LinearOrder K] (σ : Nat → Nat) (n : Nat) : Paired K → Prop
  | .predict _ => True
  | .measure H H' _ R => R.IsCov ∧ (∃ Ri, AreInverse H.rows R.get Ri) ∧ H.Spread σ n H'

/-- Registration of a sensor that was not there, behind the others of its kind (for a fiducial moreover: before any clone). -/
def Ekf.Op.Further (e : Ekf K) : Ekf.Op K → Prop
  | .registerIMU id s _ => e.state.imus.find? id = none ∧ (s.dim = 0 ∨ ∀ x ∈ e.state.imus, id < x.1 → x.2.dim = 0)
  | .registerGPS id s _ => e.state.gpss.find? id = none ∧ (s.dim = 0 ∨ ∀ x ∈ e.state.gpss, id < x.1 → x.2.dim = 0)
  | .registerCamera id s _ => e.state.cams.find? id = none ∧ (s.dim = 0 ∨ ∀ x ∈ e.state.cams, id < x.1 → x.2.dim = 0)
  | .registerFiducial s _ => e.state.fids.find? s.id = none ∧
      (s.dim = 0 ∨ ((∀ x ∈ e.state.fids, s.id < x.1 → x.2.dim = 0) ∧ ∀ k, e.window k = []))
  | _ => False

/-- A message of a GPS antenna. -/
structure Fix (K : Type) where
  time : K
  lla : V3 K
  cov : Mat K

/-- Messages of one antenna, one after the other. -/
def GpsUpdater.fixes [Field K] [LinearOrder K] (N : Num K) (G : GpsNum K) (u : GpsUpdater K) (e : Ekf K) : List (Fix K) → Res (GpsUpdater K × Ekf K)
  | [] => .ok (u, e)
  | m :: ms => do
    let r ← u.update N G e m.time m.lla m.cov
    GpsUpdater.fixes N G r.1 r.2 ms

end EkfCal
