import Verif.Lemmas.Rotation
import Verif.Model.Linear3
import Mathlib.Tactic.FinCases
import Mathlib.Tactic.LinearCombination
import Mathlib.Tactic.Linarith

/-! # Unit quaternions and their rotation matrices -/

namespace EkfCal
variable {K : Type} [Field K] [LinearOrder K] [IsStrictOrderedRing K]

/-- The opposite quaternion, the same rotation. -/
def Quat.opp (q : Quat K) : Quat K := ⟨-q.w, -q.x, -q.y, -q.z⟩

theorem Quat.inverse_of_unit {q : Quat K} (h : q.normSq = 1) : q.inverse = ⟨q.w, -q.x, -q.y, -q.z⟩ := by
  simp [Quat.inverse, h]

theorem Quat.inverse_unit {q : Quat K} (h : q.normSq = 1) : q.inverse.normSq = 1 := by
  rw [Quat.inverse_of_unit h, ← h]
  simp [Quat.normSq]

theorem Quat.toMat_inverse {q : Quat K} (h : q.normSq = 1) : q.inverse.toMat = q.toMat.transpose := by
  rw [Quat.inverse_of_unit h]
  funext i j
  fin_cases i <;> fin_cases j <;> simp [Quat.toMat] <;> ring

/-- Rotation matrix with the unit norm used to make its entries homogeneous. -/
theorem Quat.toMat_hom {q : Quat K} (h : q.normSq = 1) : q.toMat =
    !![q.w * q.w + q.x * q.x - q.y * q.y - q.z * q.z, 2 * (q.x * q.y - q.z * q.w), 2 * (q.x * q.z + q.y * q.w);
       2 * (q.x * q.y + q.z * q.w), q.w * q.w - q.x * q.x + q.y * q.y - q.z * q.z, 2 * (q.y * q.z - q.x * q.w);
       2 * (q.x * q.z - q.y * q.w), 2 * (q.y * q.z + q.x * q.w), q.w * q.w - q.x * q.x - q.y * q.y + q.z * q.z] := by
  unfold Quat.normSq at h
  funext i j
  fin_cases i <;> fin_cases j <;> simp [Quat.toMat] <;> first | linear_combination -h | ring

theorem Quat.toMat_mul {a b : Quat K} (ha : a.normSq = 1) (hb : b.normSq = 1) :
    a.toMat * b.toMat = (a.mul b).toMat := by
  rw [Quat.toMat_hom (q := a.mul b) (by rw [Quat.normSq_mul, ha, hb, _root_.mul_one]), Quat.toMat_hom ha, Quat.toMat_hom hb]
  funext i j
  fin_cases i <;> fin_cases j <;> simp [Quat.mul, Matrix.mul_apply, Fin.sum_univ_three] <;> ring

/-- A rotation matrix determines its unit quaternion up to sign. -/
theorem Quat.toMat_inj {p q : Quat K} (hp : p.normSq = 1) (hq : q.normSq = 1) (h : p.toMat = q.toMat) :
    p = q ∨ p = q.opp := by
  rw [Quat.toMat_hom hp, Quat.toMat_hom hq] at h
  have e : ∀ i j, _ := fun i j => congrFun (congrFun h i) j
  have h00 := e 0 0; have h01 := e 0 1; have h02 := e 0 2
  have h10 := e 1 0; have h11 := e 1 1; have h12 := e 1 2
  have h20 := e 2 0; have h21 := e 2 1; have h22 := e 2 2
  simp at h00 h01 h02 h10 h11 h12 h20 h21 h22
  unfold Quat.normSq at hp hq
  have ww : p.w * p.w = q.w * q.w := by linarith
  have xx : p.x * p.x = q.x * q.x := by linarith
  have yy : p.y * p.y = q.y * q.y := by linarith
  have zz : p.z * p.z = q.z * q.z := by linarith
  have xy : p.x * p.y = q.x * q.y := by linarith
  have xz : p.x * p.z = q.x * q.z := by linarith
  have yz : p.y * p.z = q.y * q.z := by linarith
  have zw : p.z * p.w = q.z * q.w := by linarith
  have yw : p.y * p.w = q.y * q.w := by linarith
  have xw : p.x * p.w = q.x * q.w := by linarith
  have kw : (p.w * q.w + p.x * q.x + p.y * q.y + p.z * q.z) * q.w = p.w := by
    linear_combination p.w * hp - p.w * ww - p.x * xw - p.y * yw - p.z * zw
  have kx : (p.w * q.w + p.x * q.x + p.y * q.y + p.z * q.z) * q.x = p.x := by
    linear_combination p.x * hp - p.w * xw - p.x * xx - p.y * xy - p.z * xz
  have ky : (p.w * q.w + p.x * q.x + p.y * q.y + p.z * q.z) * q.y = p.y := by
    linear_combination p.y * hp - p.w * yw - p.x * xy - p.y * yy - p.z * yz
  have kz : (p.w * q.w + p.x * q.x + p.y * q.y + p.z * q.z) * q.z = p.z := by
    linear_combination p.z * hp - p.w * zw - p.x * xz - p.y * yz - p.z * zz
  generalize p.w * q.w + p.x * q.x + p.y * q.y + p.z * q.z = s at kw kx ky kz
  have hs : (s - 1) * (s + 1) = 0 := by
    rw [← kw, ← kx, ← ky, ← kz] at hp
    linear_combination hp - s * s * hq
  rcases mul_eq_zero.1 hs with hs | hs
  · left
    have : s = 1 := by linarith
    subst this
    apply Quat.ext <;> simp_all
  · right
    have : s = -1 := by linarith
    subst this
    apply Quat.ext <;> simp_all [Quat.opp]

theorem Quat.mul_inverse_self {q : Quat K} (h : q.normSq = 1) : q.mul q.inverse = Quat.one := by
  rw [Quat.inverse_of_unit h]
  unfold Quat.normSq at h
  apply Quat.ext <;> simp [Quat.mul, Quat.one] <;> first | linear_combination h | ring

theorem Quat.inverse_mul_self {q : Quat K} (h : q.normSq = 1) : q.inverse.mul q = Quat.one := by
  rw [Quat.inverse_of_unit h]
  unfold Quat.normSq at h
  apply Quat.ext <;> simp [Quat.mul, Quat.one] <;> first | linear_combination h | ring

theorem Quat.opp_mul (a b : Quat K) : a.opp.mul b = (a.mul b).opp := by
  apply Quat.ext <;> simp [Quat.mul, Quat.opp] <;> ring

theorem Quat.opp_opp (a : Quat K) : a.opp.opp = a := by simp [Quat.opp]

theorem Quat.opp_unit {q : Quat K} (h : q.normSq = 1) : q.opp.normSq = 1 := by rw [← h]; simp [Quat.normSq, Quat.opp]

theorem Quat.rotate_toMat (q : Quat K) (v : V3 K) : q.rotate v = q.toMat.mulVec v := by
  have h : (fun j => q.w * (V3.cross ![q.x, q.y, q.z] v + V3.cross ![q.x, q.y, q.z] v) j) =
      (q.w • (V3.cross ![q.x, q.y, q.z] v + V3.cross ![q.x, q.y, q.z] v) : V3 K) := rfl
  funext i
  simp only [Quat.rotate, h, Pi.add_apply, Pi.smul_apply]
  fin_cases i <;>
    simp [Quat.toMat, V3.cross, Matrix.mulVec, dotProduct, Fin.sum_univ_three] <;> ring

theorem Quat.one_rotate (v : V3 K) : (Quat.one : Quat K).rotate v = v := by
  rw [Quat.rotate_toMat]
  funext i
  fin_cases i <;> simp [Quat.toMat, Quat.one, Matrix.mulVec, dotProduct, Fin.sum_univ_three]

theorem Quat.rotate_add (q : Quat K) (v w : V3 K) : q.rotate (v + w) = q.rotate v + q.rotate w := by
  simp only [Quat.rotate_toMat, Matrix.mulVec_add]

theorem Quat.rotate_zero (q : Quat K) : q.rotate (0 : V3 K) = 0 := by
  simp only [Quat.rotate_toMat, Matrix.mulVec_zero]

theorem Quat.mul_rotate {a b : Quat K} (ha : a.normSq = 1) (hb : b.normSq = 1) (v : V3 K) :
    (a.mul b).rotate v = a.rotate (b.rotate v) := by
  rw [Quat.rotate_toMat, Quat.rotate_toMat, Quat.rotate_toMat, Matrix.mulVec_mulVec, Quat.toMat_mul ha hb]

theorem Quat.rotate_inverse_rotate {q : Quat K} (h : q.normSq = 1) (v : V3 K) : q.rotate (q.inverse.rotate v) = v := by
  rw [← Quat.mul_rotate h (Quat.inverse_unit h), Quat.mul_inverse_self h, Quat.one_rotate]

end EkfCal
