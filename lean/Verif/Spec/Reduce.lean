import Verif.Model.Compress
import Verif.Spec.Update

/-!
# Specification: reducing a stack of measurements without changing what it says
-/

namespace EkfCal
open Finset
variable {K : Type} [Field K]

/-- Entries of `Hᵀ r`. -/
def crossTerm (H : Mat K) (r : Vec K) (a : Nat) : K := ∑ i ∈ range H.rows, H.get i a * r.get i

/-- Two stacks carry the same information about the state: same number of states, same `HᵀH`, same `Hᵀr`. -/
structure SameInformation (H : Mat K) (r : Vec K) (H' : Mat K) (r' : Vec K) : Prop where
  states : H'.cols = H.cols
  gram : ∀ a b, a < H.cols → b < H.cols → gram H' a b = EkfCal.gram H a b
  cross : ∀ a, a < H.cols → crossTerm H' r' a = crossTerm H r a

/-- Isotropic noise: `v` times the identity of size `m`. -/
def isotropic (m : Nat) (v : K) : Mat K := ⟨m, m, fun i j => if i = j then v else 0⟩

/-- `|H x|²`. -/
def imageNorm2 (H : Mat K) (x : Nat → K) : K :=
  ∑ i ∈ range H.rows, (∑ j ∈ range H.cols, H.get i j * x j) * (∑ j ∈ range H.cols, H.get i j * x j)

/-- Contract of the full orthogonal factor `Q` of `A = Q R`: rows and columns of `Q` are orthonormal, and `QᵀA` is zero
below the diagonal. -/
def Num.HqLaw (N : Num K) : Prop :=
  ∀ A : Mat K,
    (∀ i j, i < A.rows → j < A.rows → ∑ k ∈ range A.rows, N.hq A i k * N.hq A j k = if i = j then 1 else 0) ∧
    (∀ i j, i < A.rows → j < A.rows → ∑ k ∈ range A.rows, N.hq A k i * N.hq A k j = if i = j then 1 else 0) ∧
    (∀ i j, i < A.rows → j < A.cols → j < i → ∑ k ∈ range A.rows, N.hq A k i * A.get k j = 0)

end EkfCal
