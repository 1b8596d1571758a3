import Verif.Spec.Layout
import Verif.Spec.Cov

/-!
# Specification: the covariance between two components, located through the published indices
-/

namespace EkfCal
variable {K : Type}

/-- A component of the filter state, named by what it is, not by where it is stored. -/
inductive Label
  | body
  | imuExt (id : Nat)
  | imuInt (id : Nat)
  | gps (id : Nat)
  | cam (id : Nat)
  | fid (id : Nat)
  /-- the `pos`-th oldest clone of a window -/
  | clone (key pos : Nat)
  deriving DecidableEq

/-- The index range (first index, length) published for a component, if it is part of the estimated state. -/
def State.comp (s : State K) : Label → Option (Nat × Nat)
  | .body => some (s.body.index, 18)
  | .imuExt id => (UMap.find? s.imus id).bind fun x => if x.isExtrinsic then some (x.indexExtrinsic, 6) else none
  | .imuInt id => (UMap.find? s.imus id).bind fun x => if x.isIntrinsic then some (x.indexIntrinsic, 6) else none
  | .gps id => (UMap.find? s.gpss id).bind fun x => if x.isExtrinsic then some (x.index, 3) else none
  | .cam id => (UMap.find? s.cams id).bind fun x => if x.isExtrinsic then some (x.index, 6) else none
  | .fid id => (UMap.find? s.fids id).bind fun x => if x.isExtrinsic then some (x.index, 6) else none
  | .clone key pos => ((UMap.getD s.augs key [])[pos]?).map fun a => (a.index, 6)

/-- The covariance the filter stands for: the stored matrix, or `RᵀR` in square-root mode. -/
def Ekf.P [Field K] (e : Ekf K) (i j : Nat) : K := if e.useRoot then gram e.cov i j else e.cov.get i j

/-- Covariance, in the matrix `P`, between entry `k` of component `a` and entry `l` of component `b`, if both exist. -/
def State.joint (s : State K) (P : Nat → Nat → K) (a b : Label) (k l : Nat) : Option K :=
  match s.comp a, s.comp b with
  | some x, some y => if k < x.2 ∧ l < y.2 then some (P (x.1 + k) (y.1 + l)) else none
  | _, _ => none

/-- The same, in the filter's covariance. -/
def Ekf.joint [Field K] (e : Ekf K) : Label → Label → Nat → Nat → Option K := e.state.joint e.P

/-- Nothing is lost and nothing is mixed up: every covariance between two components before is the covariance between
the same two components after. `kept a a'` says that component `a` is called `a'` afterwards. -/
def KeepsJoint (s : State K) (P : Nat → Nat → K) (s' : State K) (P' : Nat → Nat → K) (kept : Label → Label → Prop) : Prop :=
  ∀ a a' b b' k l v, kept a a' → kept b b' → s.joint P a b k l = some v → s'.joint P' a' b' k l = some v

/-- The same, for two filters. -/
def Ekf.Keeps [Field K] (e e' : Ekf K) (kept : Label → Label → Prop) : Prop := KeepsJoint e.state e.P e'.state e'.P kept

/-- The name a component had before, if the clone now at position `p` of window `key` was at position `σ p`. -/
def reloc (key : Nat) (σ : Nat → Nat) : Label → Label
  | .clone k p => if k = key then .clone k (σ p) else .clone k p
  | a => a

/-- The row of the body from which entry `k` of a new clone is copied: position first, then orientation. -/
def poseRow (k : Nat) : Nat := if k < 3 then k else 9 + (k - 3)

/-- The covariance a registered component starts with: the caller's matrix; in square-root mode the code stores the
caller's matrix as a factor. -/
def startCov [Field K] (root : Bool) (n : Nat) (c : Mat K) (k l : Nat) : K :=
  if root then gram ⟨n, n, c.get⟩ k l else c.get k l

/-- The components of a sensor (name, offset in the caller's covariance, size). -/
def ImuState.parts (id : Nat) (s : ImuState K) : List (Label × Nat × Nat) :=
  (if s.isExtrinsic then [(.imuExt id, 0, 6)] else []) ++
  (if s.isIntrinsic then [(.imuInt id, if s.isExtrinsic then 6 else 0, 6)] else [])

/-- What a registration must do to the covariance: keep everything that was there, give the new components the
covariance `C`, and make them uncorrelated with everything else. -/
structure Ekf.Registers [Field K] (e e' : Ekf K) (parts : List (Label × Nat × Nat)) (C : Nat → Nat → K) : Prop where
  keeps : e.Keeps e' Eq
  start : ∀ a o p b o' q, (a, o, p) ∈ parts → (b, o', q) ∈ parts → ∀ k l, k < p → l < q →
    e'.joint a b k l = some (C (o + k) (o' + l))
  fresh : ∀ a o p b k l v, (a, o, p) ∈ parts → e.state.comp b ≠ none →
    (e'.joint a b k l = some v ∨ e'.joint b a l k = some v) → v = 0

/-- What cloning must do to the covariance: the clone `c` has, with itself and with every component (called `b` before,
`b'` after), the covariances of the body's position and orientation. -/
structure Ekf.Clones [Field K] (e e' : Ekf K) (c : Label) (kept : Label → Label → Prop) : Prop where
  keeps : e.Keeps e' kept
  row : ∀ b b' k l v, kept b b' → k < 6 → e.joint .body b (poseRow k) l = some v → e'.joint c b' k l = some v
  col : ∀ b b' k l v, kept b b' → k < 6 → e.joint b .body l (poseRow k) = some v → e'.joint b' c l k = some v
  self : ∀ k l v, k < 6 → l < 6 → e.joint .body .body (poseRow k) (poseRow l) = some v → e'.joint c c k l = some v

end EkfCal
