import Verif.Lemmas.Matrix
import Verif.Spec.Optimal
import Mathlib.LinearAlgebra.Matrix.ToLin
import Mathlib.Tactic.LinearCombination
import Mathlib.Tactic.Positivity
import Mathlib.Tactic.FieldSimp

/-!
# The algebra of the measurement update
-/

set_option linter.unusedSectionVars false

namespace EkfCal
open Matrix

section Algebra
variable {K : Type} [Field K] {n m : Type} [Fintype n] [DecidableEq n] [Fintype m] [DecidableEq m]

/-- Any other gain gives more: the excess is `(G' - G) S (G' - G)ᵀ`. -/
theorem joseph_excess (P : Matrix n n K) (H : Matrix m n K) (R S B : Matrix m m K) (G G' : Matrix n m K)
    (hP : Pᵀ = P) (hR : Rᵀ = R) (hS : S = H * P * Hᵀ + R) (hB : B * S = 1) (hG : G = P * Hᵀ * B) :
    (1 - G' * H) * P * (1 - G' * H)ᵀ + G' * R * G'ᵀ =
      ((1 - G * H) * P * (1 - G * H)ᵀ + G * R * Gᵀ) + (G' - G) * S * (G' - G)ᵀ := by
  rw [joseph_eq P H R S B G hP hR hS hB hG]
  have hSt : Sᵀ = S := by
    rw [hS]; simp [Matrix.transpose_mul, hP, hR, Matrix.mul_assoc]
  have hGS : G * S = P * Hᵀ := by rw [hG, Matrix.mul_assoc, hB, Matrix.mul_one]
  have hSG : S * Gᵀ = H * P := by
    have := _root_.congrArg Matrix.transpose hGS
    simpa [Matrix.transpose_mul, hSt, hP] using this
  have h1 : (1 - G' * H) * P * (1 - G' * H)ᵀ + G' * R * G'ᵀ =
      P - G' * (H * P) - P * Hᵀ * G'ᵀ + G' * S * G'ᵀ := by
    rw [hS]
    simp only [Matrix.transpose_sub, Matrix.transpose_one, Matrix.transpose_mul]
    simp only [Matrix.mul_sub, Matrix.sub_mul, Matrix.one_mul, Matrix.mul_one, Matrix.mul_add, Matrix.add_mul, ← Matrix.mul_assoc]
    abel
  have h2 : (G' - G) * S * (G' - G)ᵀ = G' * S * G'ᵀ - G' * (S * Gᵀ) - G * S * G'ᵀ + G * S * Gᵀ := by
    simp only [Matrix.transpose_sub, Matrix.mul_sub, Matrix.sub_mul, ← Matrix.mul_assoc]
    abel
  rw [h1, h2, hSG, hGS]
  abel

/-- The updated covariance, without the gain. -/
theorem joseph_sub (P : Matrix n n K) (H : Matrix m n K) (R S B : Matrix m m K) (G : Matrix n m K)
    (hP : Pᵀ = P) (hR : Rᵀ = R) (hS : S = H * P * Hᵀ + R) (hB : B * S = 1) (hG : G = P * Hᵀ * B) :
    (1 - G * H) * P * (1 - G * H)ᵀ + G * R * Gᵀ = P * (1 - Hᵀ * B * H * P) := by
  rw [joseph_eq P H R S B G hP hR hS hB hG]
  have hSt : Sᵀ = S := by
    rw [hS]; simp [Matrix.transpose_mul, hP, hR, Matrix.mul_assoc]
  have hGS : G * S = P * Hᵀ := by rw [hG, Matrix.mul_assoc, hB, Matrix.mul_one]
  have hSG : S * Gᵀ = H * P := by
    have := _root_.congrArg Matrix.transpose hGS
    simpa [Matrix.transpose_mul, hSt, hP] using this
  rw [Matrix.mul_assoc G, hSG, hG, Matrix.mul_sub, Matrix.mul_one]
  simp only [Matrix.mul_assoc]

theorem between (P : Matrix n n K) (H : Matrix m n K) (R Ri S : Matrix m m K) (hRi : Ri * R = 1)
    (hS : S = H * P * Hᵀ + R) (X : Matrix m n K) :
    Hᵀ * Ri * H * P * (Hᵀ * X) = Hᵀ * Ri * (S * X) - Hᵀ * X := by
  have hH : H * (P * Hᵀ) = S - R := by rw [hS, Matrix.mul_assoc]; abel
  have : Hᵀ * Ri * H * P * (Hᵀ * X) = Hᵀ * Ri * ((H * (P * Hᵀ)) * X) := by simp only [Matrix.mul_assoc]
  rw [this, hH, Matrix.sub_mul, Matrix.mul_sub]
  congr 1
  rw [Matrix.mul_assoc, ← Matrix.mul_assoc Ri R, hRi, Matrix.one_mul]

/-- The updated covariance is `P (1 + Hᵀ R⁻¹ H P)⁻¹`; nothing is asked of `P`. -/
theorem gather_inv (P : Matrix n n K) (H : Matrix m n K) (R Ri S B : Matrix m m K) (hRi : Ri * R = 1)
    (hS : S = H * P * Hᵀ + R) (hB' : S * B = 1) :
    (1 + Hᵀ * Ri * H * P) * (1 - Hᵀ * B * H * P) = 1 := by
  have h := between P H R Ri S hRi hS (B * (H * P))
  rw [← Matrix.mul_assoc S B, hB', Matrix.one_mul] at h
  have e1 : Hᵀ * (B * (H * P)) = Hᵀ * B * H * P := by simp only [Matrix.mul_assoc]
  have e2 : Hᵀ * Ri * (H * P) = Hᵀ * Ri * H * P := by simp only [Matrix.mul_assoc]
  rw [e1, e2] at h
  rw [Matrix.add_mul, Matrix.one_mul, Matrix.mul_sub, Matrix.mul_one, h]
  abel

/-- The updated covariance, with what the measurement says, gives back the covariance before. -/
theorem gather_mul (P : Matrix n n K) (H : Matrix m n K) (R Ri S B : Matrix m m K) (hRi : Ri * R = 1)
    (hS : S = H * P * Hᵀ + R) (hB' : S * B = 1) :
    P * (1 - Hᵀ * B * H * P) * (1 + Hᵀ * Ri * H * P) = P := by
  rw [Matrix.mul_assoc, mul_eq_one_comm.1 (gather_inv P H R Ri S B hRi hS hB'), Matrix.mul_one]

theorem gather_gain (P : Matrix n n K) (H : Matrix m n K) (R Ri S B : Matrix m m K) (hRi : R * Ri = 1)
    (hS : S = H * P * Hᵀ + R) (hB : B * S = 1) :
    P * (1 - Hᵀ * B * H * P) * (Hᵀ * Ri) = P * Hᵀ * B := by
  have hH : H * (P * Hᵀ) = S - R := by rw [hS, Matrix.mul_assoc]; abel
  have : P * (1 - Hᵀ * B * H * P) * (Hᵀ * Ri) = P * Hᵀ * Ri - P * Hᵀ * (B * ((H * (P * Hᵀ)) * Ri)) := by
    rw [Matrix.mul_sub, Matrix.sub_mul, Matrix.mul_one]
    simp only [Matrix.mul_assoc]
  rw [this, hH, Matrix.sub_mul, hRi, Matrix.mul_sub, ← Matrix.mul_assoc B S, hB, Matrix.one_mul, Matrix.mul_one, Matrix.mul_sub]
  abel

/-- The normal equations. -/
theorem gather_normal (P : Matrix n n K) (H : Matrix m n K) (R Ri S B : Matrix m m K) (hRi : Ri * R = 1)
    (hS : S = H * P * Hᵀ + R) (hB' : S * B = 1) :
    (1 + Hᵀ * Ri * H * P) * (Hᵀ * B) = Hᵀ * Ri := by
  have hH : H * (P * Hᵀ) = S - R := by rw [hS, Matrix.mul_assoc]; abel
  have : Hᵀ * Ri * H * P * (Hᵀ * B) = Hᵀ * (Ri * ((H * (P * Hᵀ)) * B)) := by simp only [Matrix.mul_assoc]
  rw [Matrix.add_mul, Matrix.one_mul, this, hH, Matrix.sub_mul, hB', Matrix.mul_sub, Matrix.mul_one, ← Matrix.mul_assoc Ri R, hRi,
    Matrix.one_mul, Matrix.mul_sub]
  abel

/-- Two updates in a row use the sum of what the measurements say. -/
theorem gather_twice (P P' P'' J₁ J₂ : Matrix n n K) (h₁ : P' * (1 + J₁ * P) = P) (h₂ : P'' * (1 + J₂ * P') = P') :
    P'' * (1 + (J₁ + J₂) * P) = P := by
  have : 1 + (J₁ + J₂) * P = (1 + J₂ * P') * (1 + J₁ * P) := by
    rw [Matrix.add_mul 1, Matrix.one_mul, Matrix.mul_assoc, h₁, Matrix.add_mul]
    abel
  rw [this, ← Matrix.mul_assoc, h₂, h₁]

theorem gather_unit (P P' J₁ J₂ : Matrix n n K) (h₁ : P' * (1 + J₁ * P) = P) (u₁ : IsUnit (1 + J₁ * P)) (u₂ : IsUnit (1 + J₂ * P')) :
    IsUnit (1 + (J₁ + J₂) * P) := by
  have : 1 + (J₁ + J₂) * P = (1 + J₂ * P') * (1 + J₁ * P) := by
    rw [Matrix.add_mul 1, Matrix.one_mul, Matrix.mul_assoc, h₁, Matrix.add_mul]
    abel
  rw [this]
  exact u₂.mul u₁

theorem gather_unique {P A B M : Matrix n n K} (u : IsUnit M) (hA : A * M = P) (hB : B * M = P) : A = B :=
  u.mul_left_injective (hA.trans hB.symm)

theorem symm_form (A : Matrix n n K) (hA : Aᵀ = A) (x y : n → K) : x ⬝ᵥ A *ᵥ y = y ⬝ᵥ A *ᵥ x := by
  rw [Matrix.dotProduct_mulVec, ← Matrix.mulVec_transpose, hA, dotProduct_comm]

theorem form_add (A : Matrix n n K) (hA : Aᵀ = A) (x y : n → K) :
    (x + y) ⬝ᵥ A *ᵥ (x + y) = x ⬝ᵥ A *ᵥ x + 2 * (y ⬝ᵥ A *ᵥ x) + y ⬝ᵥ A *ᵥ y := by
  rw [Matrix.mulVec_add, add_dotProduct, dotProduct_add, dotProduct_add, symm_form A hA x y]
  ring

/-- Completing the square: the cost of a correction that differs by `d` from the one that solves the normal equations. -/
theorem cost_square (Pi : Matrix n n K) (H : Matrix m n K) (Ri : Matrix m m K) (hPi : Piᵀ = Pi) (hRi : Riᵀ = Ri) (r : m → K) (x d : n → K)
    (hx : (Pi + Hᵀ * Ri * H) *ᵥ x = (Hᵀ * Ri) *ᵥ r) :
    (x + d) ⬝ᵥ Pi *ᵥ (x + d) + (r - H *ᵥ (x + d)) ⬝ᵥ Ri *ᵥ (r - H *ᵥ (x + d)) =
      (x ⬝ᵥ Pi *ᵥ x + (r - H *ᵥ x) ⬝ᵥ Ri *ᵥ (r - H *ᵥ x)) + d ⬝ᵥ (Pi + Hᵀ * Ri * H) *ᵥ d := by
  have h0 : r - H *ᵥ (x + d) = (r - H *ᵥ x) + (-(H *ᵥ d)) := by rw [Matrix.mulVec_add]; abel
  rw [h0, form_add Pi hPi, form_add Ri hRi]
  have h1 : (-(H *ᵥ d)) ⬝ᵥ Ri *ᵥ (r - H *ᵥ x) = -(d ⬝ᵥ (Hᵀ * Ri) *ᵥ r) + d ⬝ᵥ (Hᵀ * Ri * H) *ᵥ x := by
    rw [neg_dotProduct, Matrix.mulVec_sub, dotProduct_sub]
    have e1 : ∀ v : m → K, (H *ᵥ d) ⬝ᵥ v = d ⬝ᵥ Hᵀ *ᵥ v := fun v => by
      rw [Matrix.dotProduct_mulVec, Matrix.vecMul_transpose]
    rw [e1, e1, Matrix.mulVec_mulVec, Matrix.mulVec_mulVec, Matrix.mulVec_mulVec]
    ring
  have h2 : (-(H *ᵥ d)) ⬝ᵥ Ri *ᵥ (-(H *ᵥ d)) = d ⬝ᵥ (Hᵀ * Ri * H) *ᵥ d := by
    have e1 : ∀ v : m → K, (H *ᵥ d) ⬝ᵥ v = d ⬝ᵥ Hᵀ *ᵥ v := fun v => by
      rw [Matrix.dotProduct_mulVec, Matrix.vecMul_transpose]
    rw [Matrix.mulVec_neg, neg_dotProduct, dotProduct_neg, neg_neg, e1, Matrix.mulVec_mulVec, Matrix.mulVec_mulVec]
  have h3 : d ⬝ᵥ Pi *ᵥ x + d ⬝ᵥ (Hᵀ * Ri * H) *ᵥ x = d ⬝ᵥ (Hᵀ * Ri) *ᵥ r := by
    rw [← dotProduct_add, ← Matrix.add_mulVec, hx]
  have h4 : d ⬝ᵥ (Pi + Hᵀ * Ri * H) *ᵥ d = d ⬝ᵥ Pi *ᵥ d + d ⬝ᵥ (Hᵀ * Ri * H) *ᵥ d := by
    rw [Matrix.add_mulVec, dotProduct_add]
  rw [h1, h2, h4]
  linear_combination 2 * h3

end Algebra

section Order
variable {K : Type} [Field K] [LinearOrder K] [IsStrictOrderedRing K] {n m : Type} [Fintype n] [DecidableEq n] [Fintype m] [DecidableEq m]

theorem dot_self_zero (x : n → K) (h : x ⬝ᵥ x = 0) : x = 0 := by
  funext i
  have := (Finset.sum_eq_zero_iff_of_nonneg fun i _ => mul_self_nonneg (x i)).1 h i (Finset.mem_univ i)
  exact mul_self_eq_zero.1 this

/-- A positive semidefinite matrix maps vectors on which its form vanishes to zero. -/
theorem form_zero (A : Matrix n n K) (hA : Aᵀ = A) (hp : ∀ x : n → K, 0 ≤ x ⬝ᵥ A *ᵥ x) (x : n → K) (h : x ⬝ᵥ A *ᵥ x = 0) : A *ᵥ x = 0 := by
  set y := A *ᵥ x with hy
  set a := y ⬝ᵥ y with ha
  set b := y ⬝ᵥ A *ᵥ y with hb
  have hb0 : 0 ≤ b := hp y
  have ht : ∀ t : K, 0 ≤ 2 * t * a + t * t * b := by
    intro t
    have h1 := hp (x + t • y)
    rw [form_add A hA, h, smul_dotProduct, Matrix.mulVec_smul, smul_dotProduct, dotProduct_smul] at h1
    simp only [smul_eq_mul] at h1
    rw [← hy, ← ha, ← hb] at h1
    linarith
  have h1 := ht (-(a / (b + 1)))
  have hb1 : 0 < b + 1 := by linarith
  have h2 : 2 * -(a / (b + 1)) * a + -(a / (b + 1)) * -(a / (b + 1)) * b = -(a / (b + 1)) ^ 2 * (b + 2) := by
    field_simp
    ring
  rw [h2] at h1
  have h3 : (a / (b + 1)) ^ 2 * (b + 2) = 0 := by
    have : 0 ≤ (a / (b + 1)) ^ 2 * (b + 2) := by positivity
    linarith
  have h4 : a = 0 := by
    rcases mul_eq_zero.1 h3 with h4 | h4
    · have := pow_eq_zero_iff (two_ne_zero) |>.1 h4
      rcases div_eq_zero_iff.1 this with h5 | h5
      · exact h5
      · linarith
    · linarith
  exact dot_self_zero y h4

/-- If the covariance of the measurement has an inverse, so has that of the innovation. -/
theorem innovation_unit (P : Matrix n n K) (H : Matrix m n K) (R Ri : Matrix m m K) (hR : Rᵀ = R)
    (hp : ∀ x : n → K, 0 ≤ x ⬝ᵥ P *ᵥ x) (hr : ∀ x : m → K, 0 ≤ x ⬝ᵥ R *ᵥ x) (hRi : Ri * R = 1) :
    IsUnit (H * P * Hᵀ + R) := by
  rw [← Matrix.mulVec_injective_iff_isUnit]
  refine (injective_iff_map_eq_zero (Matrix.mulVecLin (H * P * Hᵀ + R))).2 fun x h => ?_
  have h' : (H * P * Hᵀ + R) *ᵥ x = 0 := h
  have h1 : x ⬝ᵥ (H * P * Hᵀ + R) *ᵥ x = (Hᵀ *ᵥ x) ⬝ᵥ P *ᵥ (Hᵀ *ᵥ x) + x ⬝ᵥ R *ᵥ x := by
    rw [Matrix.add_mulVec, dotProduct_add]
    congr 1
    rw [← Matrix.mulVec_mulVec, ← Matrix.mulVec_mulVec, Matrix.dotProduct_mulVec x H, ← Matrix.mulVec_transpose]
  rw [h', dotProduct_zero] at h1
  have h2 : x ⬝ᵥ R *ᵥ x = 0 := by
    have := hp (Hᵀ *ᵥ x)
    have := hr x
    linarith
  have h3 := form_zero R hR hr x h2
  have : x = Ri *ᵥ (R *ᵥ x) := by rw [Matrix.mulVec_mulVec, hRi, Matrix.one_mulVec]
  rw [this, h3, Matrix.mulVec_zero]

/-- The inverse of a covariance is one. -/
theorem inverse_form (P Pi : Matrix n n K) (hP : Pᵀ = P) (hp : ∀ x : n → K, 0 ≤ x ⬝ᵥ P *ᵥ x) (h : P * Pi = 1) :
    Piᵀ = Pi ∧ ∀ x : n → K, 0 ≤ x ⬝ᵥ Pi *ᵥ x := by
  have hs : Piᵀ = Pi := by
    have h1 : Piᵀ * P = 1 := by
      have := _root_.congrArg Matrix.transpose h
      rwa [Matrix.transpose_mul, hP, Matrix.transpose_one] at this
    calc Piᵀ = Piᵀ * (P * Pi) := by rw [h, Matrix.mul_one]
      _ = Pi := by rw [← Matrix.mul_assoc, h1, Matrix.one_mul]
  refine ⟨hs, fun x => ?_⟩
  have h1 := hp (Pi *ᵥ x)
  have h2 : (Pi *ᵥ x) ⬝ᵥ P *ᵥ (Pi *ᵥ x) = x ⬝ᵥ Pi *ᵥ x := by
    rw [Matrix.mulVec_mulVec, h, Matrix.one_mulVec, dotProduct_comm]
  rwa [h2] at h1

end Order
end EkfCal
