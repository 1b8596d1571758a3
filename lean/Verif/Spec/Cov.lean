import Verif.Model.Prim
import Mathlib.Algebra.BigOperators.Group.Finset.Basic
import Mathlib.Algebra.Order.BigOperators.Group.Finset
import Mathlib.Algebra.BigOperators.Ring.Finset

/-!
# Specification: covariances, factors, contracts of the external numerics
-/

namespace EkfCal
open Finset
variable {K : Type}

/-- The quadratic form `xᵀ P x` of the leading `n`×`n` entries. -/
def quad [Field K] (n : Nat) (P : Nat → Nat → K) (x : Nat → K) : K :=
  ∑ i ∈ range n, ∑ j ∈ range n, x i * P i j * x j

/-- A covariance matrix: square, symmetric, positive semidefinite. -/
structure Mat.IsCov [Field K] [LinearOrder K] (P : Mat K) : Prop where
  square : P.rows = P.cols
  symm : ∀ i j, i < P.rows → j < P.rows → P.get i j = P.get j i
  psd : ∀ x : Nat → K, 0 ≤ quad P.rows P.get x

/-- Entries of `Rᵀ R`, the covariance represented by a factor `R`. -/
def gram [Field K] (R : Mat K) (i j : Nat) : K := ∑ k ∈ range R.rows, R.get k i * R.get k j

/-- Upper triangular: zero below the diagonal. -/
def Mat.Upper [Zero K] (R : Mat K) : Prop := ∀ i j, i < R.rows → j < R.cols → j < i → R.get i j = 0

/-- Diagonal. -/
def Mat.Diagonal [Zero K] (R : Mat K) : Prop := ∀ i j, i < R.rows → j < R.cols → i ≠ j → R.get i j = 0

/-- Entry of `T A Tᵀ`, with inner dimension `m`. -/
def congr [Field K] (m : Nat) (T A : Nat → Nat → K) (i j : Nat) : K :=
  ∑ k ∈ range m, ∑ l ∈ range m, T i k * A k l * T j l

/-- Which row of the old covariance a row of the augmented covariance repeats: rows `index … index+5` are the clone, its
position repeats the body position (rows 0-2), its orientation the body orientation (rows 9-11); rows before keep their
place, rows from `index` on move up by 6. -/
def cloneSource (index i : Nat) : Nat :=
  if i < index then i
  else if i < index + 3 then i - index
  else if i < index + 6 then 9 + (i - (index + 3))
  else i - 6

/-- The constant-velocity transition on the body, extended by the identity: position gains `dt` times velocity. -/
def transition [Field K] (dt : K) (i j : Nat) : K := if i = j then 1 else if i < 3 ∧ j = i + 3 then dt else 0

/-- Contract of the stacked QR: the upper-triangular result `R` satisfies `RᵀR = LᵀL + MᵀM`. -/
def Prim.QrLaw [Field K] (N : Prim K) : Prop :=
  ∀ left right out : Mat K, qrStack N left right = .ok out →
    ∀ i j, i < left.cols → j < left.cols → gram out i j = gram left i j + gram right i j

/-- Contract of the matrix inverse: if the square matrix `m` has an inverse `b`, that is what is returned. -/
def Prim.InvLaw [Field K] (N : Prim K) : Prop :=
  ∀ (m : Mat K) (b : Nat → Nat → K), m.rows = m.cols →
    (∀ i j, i < m.rows → j < m.rows → ∑ k ∈ range m.rows, m.get i k * b k j = if i = j then 1 else 0) →
    (∀ i j, i < m.rows → j < m.rows → ∑ k ∈ range m.rows, b i k * m.get k j = if i = j then 1 else 0) →
    ∀ i j, i < m.rows → j < m.rows → N.inv m i j = b i j

/-- Contract of the square root: non-negative, and its square is the argument, for non-negative arguments. -/
def Prim.SqrtLaw [Field K] [LinearOrder K] (N : Prim K) : Prop :=
  ∀ x : K, 0 ≤ x → 0 ≤ N.sqrt x ∧ N.sqrt x * N.sqrt x = x

end EkfCal
