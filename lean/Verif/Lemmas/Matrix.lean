import Verif.Lemmas.Alg
import Mathlib.Data.Matrix.Mul
import Mathlib.LinearAlgebra.Matrix.NonsingularInverse
import Mathlib.Tactic.Abel

/-! # Bridge to `Matrix` for the noncommutative algebra -/

set_option linter.unusedSectionVars false

namespace EkfCal
open Finset
variable {K : Type} [Field K]

/-- The leading `n`×`m` entries as a `Matrix`. -/
def toM (n m : Nat) (f : Nat → Nat → K) : Matrix (Fin n) (Fin m) K := fun i j => f i j

theorem toM_eq_iff {n m : Nat} {f g : Nat → Nat → K} :
    toM n m f = toM n m g ↔ ∀ i j, i < n → j < m → f i j = g i j := by
  constructor
  · intro h i j hi hj
    exact congrFun (congrFun h ⟨i, hi⟩) ⟨j, hj⟩
  · intro h
    funext i j
    exact h i j i.2 j.2

theorem toM_mul (n m p : Nat) (f g : Nat → Nat → K) :
    toM n p (fun i j => ∑ k ∈ range m, f i k * g k j) = toM n m f * toM m p g := by
  funext i j
  simp only [toM, Matrix.mul_apply, Finset.sum_range]

theorem toM_transpose (n m : Nat) (f : Nat → Nat → K) : toM n m (fun i j => f j i) = (toM m n f).transpose := rfl

theorem toM_add (n m : Nat) (f g : Nat → Nat → K) : toM n m (fun i j => f i j + g i j) = toM n m f + toM n m g := rfl
theorem toM_sub (n m : Nat) (f g : Nat → Nat → K) : toM n m (fun i j => f i j - g i j) = toM n m f - toM n m g := rfl

theorem toM_one (n : Nat) : toM n n (fun i j => if i = j then (1 : K) else 0) = 1 := by
  funext i j
  simp only [toM, Matrix.one_apply, Fin.ext_iff]

theorem toM_congr (n m : Nat) (T A : Nat → Nat → K) :
    toM n n (congr m T A) = toM n m T * toM m m A * (toM n m T).transpose := by
  funext i j
  simp only [toM, congr, Matrix.mul_apply, Matrix.transpose_apply, Finset.sum_range, sum_mul]
  rw [sum_comm]

theorem toM_gram (n : Nat) (R : Mat K) :
    toM n n (gram R) = (toM R.rows n R.get).transpose * toM R.rows n R.get := by
  funext i j
  simp only [toM, gram, Matrix.mul_apply, Matrix.transpose_apply, Finset.sum_range]

theorem quad_toM (n : Nat) (P : Nat → Nat → K) (x : Nat → K) :
    quad n P x = dotProduct (fun i : Fin n => x i) ((toM n n P).mulVec fun i => x i) := by
  simp only [quad, dotProduct, Matrix.mulVec, toM, Finset.sum_range, mul_sum]
  refine sum_congr rfl fun i _ => sum_congr rfl fun j _ => by ring

theorem quad_eq_of_toM {n : Nat} {P Q : Nat → Nat → K} (h : toM n n P = toM n n Q) (x : Nat → K) :
    quad n P x = quad n Q x := quad_ext (fun i j hi hj => toM_eq_iff.1 h i j hi hj) x

/-- With the optimal gain the Joseph form subtracts `G S Gᵀ`. -/
theorem joseph_eq {n m : Type} [Fintype n] [DecidableEq n] [Fintype m] [DecidableEq m]
    (P : Matrix n n K) (H : Matrix m n K) (R S B : Matrix m m K) (G : Matrix n m K)
    (hP : P.transpose = P) (hR : R.transpose = R) (hS : S = H * P * H.transpose + R) (hB : B * S = 1)
    (hG : G = P * H.transpose * B) :
    (1 - G * H) * P * (1 - G * H).transpose + G * R * G.transpose = P - G * S * G.transpose := by
  have hSt : S.transpose = S := by
    rw [hS]; simp [Matrix.transpose_mul, hP, hR, Matrix.mul_assoc]
  have hGS : G * S = P * H.transpose := by rw [hG, Matrix.mul_assoc, hB, Matrix.mul_one]
  have hSG : S * G.transpose = H * P := by
    have := _root_.congrArg Matrix.transpose hGS
    simpa [Matrix.transpose_mul, hSt, hP] using this
  have h1 : G * S * G.transpose = G * H * P := by rw [Matrix.mul_assoc, hSG, Matrix.mul_assoc]
  have h2 : G * S * G.transpose = P * H.transpose * G.transpose := by rw [hGS]
  have h3 : G * S * G.transpose = G * H * P * H.transpose * G.transpose + G * R * G.transpose := by
    rw [hS]; simp only [Matrix.mul_add, Matrix.add_mul, ← Matrix.mul_assoc]
  have h4 : (1 - G * H) * P * (1 - G * H).transpose + G * R * G.transpose =
      P - G * H * P - P * H.transpose * G.transpose + (G * H * P * H.transpose * G.transpose + G * R * G.transpose) := by
    simp only [Matrix.transpose_sub, Matrix.transpose_one, Matrix.transpose_mul]
    simp only [Matrix.mul_sub, Matrix.sub_mul, Matrix.one_mul, Matrix.mul_one, ← Matrix.mul_assoc]
    abel
  rw [h4, ← h3, ← h1, ← h2]
  abel

end EkfCal
