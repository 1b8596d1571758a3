import Verif.Spec.Reduce
import Verif.Lemmas.Matrix
import Verif.Lemmas.RealPrim
import Verif.Model.Types
import Verif.Lemmas.Mat
import Mathlib.LinearAlgebra.Matrix.SchurComplement

/-! # Measurement reduction: the update depends on `HᵀH` and `Hᵀr` only; the QR contract can be met -/

set_option linter.unusedSectionVars false

namespace EkfCal
open Finset

section addVec
variable {K : Type} [Field K]

theorem Vec.segment3_congr {v w : Vec K} (hs : w.size = v.size) (h : ∀ i, i < v.size → w.get i = v.get i) (i : Nat) :
    w.segment3 i = v.segment3 i := by
  unfold Vec.segment3
  rw [hs]
  split
  · rename_i hi
    rw [h i (by omega), h (i + 1) (by omega), h (i + 2) (by omega)]
  · rfl

theorem BodyState.addVec_congr {N : Prim K} {v w : Vec K} (hs : w.size = v.size)
    (h : ∀ i, i < v.size → w.get i = v.get i) (b : BodyState K) : b.addVec N w = b.addVec N v := by
  unfold BodyState.addVec
  simp only [Vec.segment3_congr hs h]

/-- Adding a vector to the state reads only the entries of the vector. -/
theorem State.addVec_congr {N : Prim K} {v w : Vec K} (hs : w.size = v.size)
    (h : ∀ i, i < v.size → w.get i = v.get i) (s : State K) : s.addVec N w = s.addVec N v := by
  have h3 := Vec.segment3_congr hs h
  have hb : (w.segment 0 bodySize >>= fun x => s.body.addVec N x) = (v.segment 0 bodySize >>= fun x => s.body.addVec N x) := by
    unfold Vec.segment
    rw [hs]
    split
    · rename_i hi
      simp only [ok_bind]
      exact BodyState.addVec_congr (v := ⟨bodySize, fun k => v.get (0 + k)⟩) (w := ⟨bodySize, fun k => w.get (0 + k)⟩) rfl
        (fun i hi' => h (0 + i) (by have : i < bodySize := hi'; omega)) _
    · rfl
  have e1 : ∀ (x : ImuState K) i, ImuState.addVecAt N x w i = ImuState.addVecAt N x v i := by
    intro x i; unfold ImuState.addVecAt; simp only [h3]
  have e2 : ∀ (x : GpsState K) i, GpsState.addVecAt x w i = GpsState.addVecAt x v i := by
    intro x i; unfold GpsState.addVecAt; simp only [h3]
  have e3 : ∀ (x : CamState K) i, CamState.addVecAt N x w i = CamState.addVecAt N x v i := by
    intro x i; unfold CamState.addVecAt; simp only [h3]
  have e4 : ∀ (x : FidState K) i, FidState.addVecAt N x w i = FidState.addVecAt N x v i := by
    intro x i; unfold FidState.addVecAt; simp only [h3]
  have e5 : ∀ (x : AugState K) i, AugState.addVecAt N x w i = AugState.addVecAt N x v i := by
    intro x i; unfold AugState.addVecAt; simp only [h3]
  unfold State.addVec
  simp only [e1, e2, e3, e4, e5]
  rw [← bind_assoc, ← bind_assoc, hb]

end addVec

section info
variable {K : Type} [Field K]

/-- The gain applied to `H` and to `r` depends on `HᵀH` and `Hᵀr` only, for isotropic noise. -/
theorem gain_info {n m p : Type} [Fintype n] [DecidableEq n] [Fintype m] [DecidableEq m] [Fintype p]
    (P : Matrix n n K) (H : Matrix m n K) (B : Matrix m m K) (v : K) (hv : v ≠ 0)
    (hB : (H * P * H.transpose + v • 1) * B = 1) (X : Matrix m p K) :
    IsUnit (H.transpose * H * P + v • (1 : Matrix n n K)).det ∧
    P * H.transpose * B * X = P * (H.transpose * H * P + v • (1 : Matrix n n K))⁻¹ * (H.transpose * X) := by
  have hS : IsUnit (H * P * H.transpose + v • (1 : Matrix m m K)).det := by
    rw [← Matrix.isUnit_iff_isUnit_det]
    exact IsUnit.of_mul_eq_one B hB
  have hdet : IsUnit (H.transpose * H * P + v • (1 : Matrix n n K)).det := by
    have f1 : H * P * H.transpose + v • (1 : Matrix m m K) = v • (1 + (v⁻¹ • (H * P)) * H.transpose) := by
      rw [smul_add, Matrix.smul_mul, smul_smul, mul_inv_cancel₀ hv, one_smul, add_comm]
    have f2 : H.transpose * H * P + v • (1 : Matrix n n K) = v • (1 + H.transpose * (v⁻¹ • (H * P))) := by
      rw [smul_add, Matrix.mul_smul, smul_smul, mul_inv_cancel₀ hv, one_smul, add_comm, Matrix.mul_assoc]
    rw [f1, Matrix.det_smul, Matrix.det_one_add_mul_comm] at hS
    rw [f2, Matrix.det_smul]
    have hu : IsUnit (1 + H.transpose * v⁻¹ • (H * P)).det := (IsUnit.mul_iff.1 hS).2
    exact (IsUnit.mk0 _ (pow_ne_zero _ hv)).mul hu
  refine ⟨hdet, ?_⟩
  have key : H.transpose * (H * P * H.transpose + v • (1 : Matrix m m K)) =
      (H.transpose * H * P + v • (1 : Matrix n n K)) * H.transpose := by
    rw [Matrix.mul_add, Matrix.add_mul, Matrix.mul_smul, Matrix.smul_mul, Matrix.mul_one, Matrix.one_mul]
    simp only [Matrix.mul_assoc]
  have k2 : H.transpose * B = (H.transpose * H * P + v • (1 : Matrix n n K))⁻¹ * H.transpose := by
    have e : (H.transpose * H * P + v • (1 : Matrix n n K)) * (H.transpose * B) = H.transpose := by
      rw [← Matrix.mul_assoc, ← key, Matrix.mul_assoc, hB, Matrix.mul_one]
    generalize H.transpose * H * P + v • (1 : Matrix n n K) = M at hdet e ⊢
    rw [← Matrix.one_mul (H.transpose * B), ← Matrix.nonsing_inv_mul _ hdet, Matrix.mul_assoc, e]
  rw [Matrix.mul_assoc P, k2]
  simp only [Matrix.mul_assoc]

end info

section hq

/-- An orthogonal factor over `ℝ`. -/
noncomputable def realHq (A : Mat ℝ) (k i : Nat) : ℝ :=
  if h : i < A.rows + 0 ∧ k < A.rows + 0 then (stackBasis A ⟨0, A.cols, fun _ _ => 0⟩ ⟨i, h.1⟩).ofLp ⟨k, h.2⟩ else 0

theorem realHq_law (A : Mat ℝ) :
    (∀ i j, i < A.rows → j < A.rows → ∑ k ∈ range A.rows, realHq A i k * realHq A j k = if i = j then 1 else 0) ∧
    (∀ i j, i < A.rows → j < A.rows → ∑ k ∈ range A.rows, realHq A k i * realHq A k j = if i = j then 1 else 0) ∧
    (∀ i j, i < A.rows → j < A.cols → j < i → ∑ k ∈ range A.rows, realHq A k i * A.get k j = 0) := by
  have hcol : ∀ i j, i < A.rows → j < A.rows →
      ∑ k ∈ range A.rows, realHq A k i * realHq A k j = if i = j then 1 else 0 := by
    intro i j hi hj
    have h := orthonormal_iff_ite.1 (stackBasis A ⟨0, A.cols, fun _ _ => 0⟩).orthonormal ⟨i, hi⟩ ⟨j, hj⟩
    rw [PiLp.inner_apply] at h
    simp only [Fin.mk.injEq] at h
    rw [← h, Finset.sum_range]
    refine sum_congr rfl fun k _ => ?_
    unfold realHq
    rw [dif_pos ⟨by exact hi, by exact k.2⟩, dif_pos ⟨by exact hj, by exact k.2⟩]
    exact (mul_comm _ _)
  refine ⟨?_, hcol, ?_⟩
  · intro i j hi hj
    have e1 : (toM A.rows A.rows (realHq A)).transpose * toM A.rows A.rows (realHq A) = 1 := by
      rw [← toM_transpose, ← toM_mul, ← toM_one]
      exact toM_eq_iff.2 hcol
    have e2 := mul_eq_one_comm.1 e1
    rw [← toM_transpose, ← toM_mul, ← toM_one] at e2
    exact toM_eq_iff.1 e2 i j hi hj
  · intro i j hi hj hji
    have hj' : j < A.rows := by omega
    have h : inner ℝ (stackBasis A ⟨0, A.cols, fun _ _ => 0⟩ ⟨i, hi⟩) (stackCols A ⟨0, A.cols, fun _ _ => 0⟩ ⟨j, hj'⟩) = (0 : ℝ) :=
      InnerProductSpace.gramSchmidtOrthonormalBasis_inv_triangular _ _ (by exact hji)
    rw [PiLp.inner_apply] at h
    rw [← h, Finset.sum_range]
    refine sum_congr rfl fun k _ => ?_
    have hk : k.1 < A.rows := k.2
    unfold realHq
    rw [dif_pos ⟨by exact hi, by exact k.2⟩]
    simp only [stackCols, stackGet, hj, if_true]
    rw [if_pos (by exact hk)]
    exact mul_comm _ _

/-- A numeric library for the updaters over `ℝ`. -/
noncomputable def realNum : Num ℝ :=
  { realPrim with quatJac := quatJacobian, ofMat := fun _ => Quat.one, hq := realHq, solve := fun _ b => b }

theorem realNum_hq : realNum.HqLaw := realHq_law

end hq

end EkfCal
