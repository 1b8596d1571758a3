import Verif.Model.Rotation
import Verif.Spec.Cov
import Verif.Lemmas.Matrix
import Mathlib.Analysis.InnerProductSpace.GramSchmidtOrtho
import Mathlib.LinearAlgebra.Matrix.NonsingularInverse
import Mathlib.Data.Real.Sqrt

/-! # The contracts of the external numerics can be met over `ℝ` -/

namespace EkfCal
open Finset

/-- The stacked matrix. -/
def stackGet (l r : Mat ℝ) (i j : Nat) : ℝ := if i < l.rows then l.get i j else r.get (i - l.rows) j

/-- Columns of the stacked matrix as vectors, filled up with zero columns. -/
noncomputable def stackCols (l r : Mat ℝ) (j : Fin (l.rows + r.rows)) : EuclideanSpace ℝ (Fin (l.rows + r.rows)) :=
  WithLp.toLp 2 fun i => if j.1 < l.cols then stackGet l r i j else 0

/-- An orthonormal basis adapted to the columns. -/
noncomputable def stackBasis (l r : Mat ℝ) :
    OrthonormalBasis (Fin (l.rows + r.rows)) ℝ (EuclideanSpace ℝ (Fin (l.rows + r.rows))) :=
  InnerProductSpace.gramSchmidtOrthonormalBasis (by simp) (stackCols l r)

/-- The triangular factor. -/
noncomputable def qrEntry (l r : Mat ℝ) (i j : Nat) : ℝ :=
  if h : i < l.rows + r.rows ∧ j < l.rows + r.rows then
    inner ℝ (stackBasis l r ⟨i, h.1⟩) (stackCols l r ⟨j, h.2⟩)
  else 0

/-- A concrete numeric library over `ℝ`. -/
noncomputable def realPrim : Prim ℝ where
  sqrt := Real.sqrt
  rotVecToQuat := rotVecToQuat
  quatToRotVec := quatToRotVec
  slerp := slerp
  qr := qrEntry
  inv := fun m i j =>
    if h : i < m.rows ∧ j < m.rows then ((toM m.rows m.rows m.get)⁻¹) ⟨i, h.1⟩ ⟨j, h.2⟩ else 0

theorem realPrim_sqrt : realPrim.SqrtLaw := fun x hx => ⟨Real.sqrt_nonneg x, Real.mul_self_sqrt hx⟩

theorem realPrim_inv : realPrim.InvLaw := by
  intro m b hsq h1 h2 i j hi hj
  have e1 : toM m.rows m.rows m.get * toM m.rows m.rows b = 1 := by
    rw [← toM_mul, ← toM_one]; exact toM_eq_iff.2 h1
  have e2 := Matrix.inv_eq_right_inv e1
  show (if h : i < m.rows ∧ j < m.rows then ((toM m.rows m.rows m.get)⁻¹) ⟨i, h.1⟩ ⟨j, h.2⟩ else 0) = b i j
  rw [dif_pos ⟨hi, hj⟩, e2]
  rfl

theorem qrEntry_lower (l r : Mat ℝ) {i j : Nat} (h : j < i) : qrEntry l r i j = 0 := by
  unfold qrEntry
  split
  · exact InnerProductSpace.gramSchmidtOrthonormalBasis_inv_triangular _ _ (by exact h)
  · rfl

theorem realPrim_qr : realPrim.QrLaw := by
  intro l r out h i j hi hj
  unfold qrStack at h
  split at h
  · rename_i hc
    split at h
    · rename_i hr
      cases h
      have hu : ∀ k j, (if k ≤ j then qrEntry l r k j else 0) = qrEntry l r k j := by
        intro k j
        split
        · rfl
        · rw [qrEntry_lower l r (by omega)]
      show ∑ k ∈ range l.cols, (if k ≤ i then qrEntry l r k i else 0) * (if k ≤ j then qrEntry l r k j else 0) = _
      simp only [hu]
      have hext : ∑ k ∈ range l.cols, qrEntry l r k i * qrEntry l r k j =
          ∑ k ∈ range (l.rows + r.rows), qrEntry l r k i * qrEntry l r k j := by
        refine sum_subset (range_subset_range.2 hr) fun k _ hk => ?_
        rw [qrEntry_lower l r (j := i) (by simp at hk; omega), zero_mul]
      rw [hext, Finset.sum_range]
      have hi' : i < l.rows + r.rows := by omega
      have hj' : j < l.rows + r.rows := by omega
      have e1 : ∀ k : Fin (l.rows + r.rows), qrEntry l r k i * qrEntry l r k j =
          inner ℝ (stackCols l r ⟨i, hi'⟩) (stackBasis l r k) * inner ℝ (stackBasis l r k) (stackCols l r ⟨j, hj'⟩) := by
        intro k
        unfold qrEntry
        rw [dif_pos ⟨k.2, hi'⟩, dif_pos ⟨k.2, hj'⟩]
        rw [real_inner_comm (stackCols l r ⟨i, hi'⟩)]
      rw [sum_congr rfl fun k _ => e1 k, OrthonormalBasis.sum_inner_mul_inner]
      rw [PiLp.inner_apply]
      have e2 : ∀ k : Fin (l.rows + r.rows), inner ℝ ((stackCols l r ⟨i, hi'⟩).ofLp k) ((stackCols l r ⟨j, hj'⟩).ofLp k) =
          stackGet l r k i * stackGet l r k j := by
        intro k
        simp [stackCols, hi, hj, mul_comm]
      rw [sum_congr rfl fun k _ => e2 k, ← Finset.sum_range (fun k => stackGet l r k i * stackGet l r k j),
        sum_range_add]
      unfold gram stackGet
      congr 1
      · exact sum_congr rfl fun k hk => by rw [if_pos (mem_range.1 hk), if_pos (mem_range.1 hk)]
      · exact sum_congr rfl fun k _ => by
          rw [if_neg (by omega), if_neg (by omega), Nat.add_sub_cancel_left]
    · cases h
  · cases h

theorem realPrim_rot_zero : realPrim.rotVecToQuat 0 = Quat.one := by
  show rotVecToQuat 0 = _
  unfold rotVecToQuat V3.norm
  rw [if_neg (by simp)]
  rfl

end EkfCal
