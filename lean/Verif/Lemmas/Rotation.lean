import Verif.Model.Rotation
import Mathlib.Tactic.FieldSimp
import Mathlib.Tactic.LinearCombination
import Mathlib.Tactic.Linarith
import Mathlib.Analysis.SpecialFunctions.Trigonometric.Basic

/-! # Facts about the rotation conversions -/

namespace EkfCal

theorem V3.norm_nonneg (v : V3 ℝ) : 0 ≤ V3.norm v := Real.sqrt_nonneg _

theorem V3.norm_sq (v : V3 ℝ) : V3.norm v * V3.norm v = v 0 * v 0 + v 1 * v 1 + v 2 * v 2 :=
  Real.mul_self_sqrt (by nlinarith [mul_self_nonneg (v 0), mul_self_nonneg (v 1), mul_self_nonneg (v 2)])

theorem V3.norm_zero : V3.norm 0 = 0 := by simp [V3.norm]

theorem V3.norm_eq_of_sq {v : V3 ℝ} {a : ℝ} (ha : 0 ≤ a) (h : v 0 * v 0 + v 1 * v 1 + v 2 * v 2 = a * a) : V3.norm v = a := by
  unfold V3.norm
  rw [h, Real.sqrt_mul_self ha]

theorem V3.unit_sq {v : V3 ℝ} (h : V3.norm v ≠ 0) :
    v 0 / V3.norm v * (v 0 / V3.norm v) + v 1 / V3.norm v * (v 1 / V3.norm v) + v 2 / V3.norm v * (v 2 / V3.norm v) = 1 := by
  have := V3.norm_sq v
  field_simp
  nlinarith [this]

theorem Quat.normSq_mul {K : Type} [Field K] (a b : Quat K) : (a.mul b).normSq = a.normSq * b.normSq := by
  simp only [Quat.mul, Quat.normSq]; ring

theorem Quat.ofAngleAxis_unit (θ : ℝ) (u : V3 ℝ) (hu : u 0 * u 0 + u 1 * u 1 + u 2 * u 2 = 1) :
    (Quat.ofAngleAxis θ u).normSq = 1 := by
  simp only [Quat.ofAngleAxis, Quat.normSq]
  have h := Real.sin_sq_add_cos_sq (θ / 2)
  linear_combination (Real.sin (θ / 2)) ^ 2 * hu + h

theorem rotVecToQuat_unit (v : V3 ℝ) : (rotVecToQuat v).normSq = 1 := by
  unfold rotVecToQuat
  split
  · rename_i h
    refine Quat.ofAngleAxis_unit _ _ (V3.unit_sq ?_)
    intro h0
    rw [h0] at h
    norm_num at h
  · simp [Quat.normSq]

/-- A unit quaternion rotates without changing lengths. -/
theorem Quat.rotate_normSq {K : Type} [Field K] (q : Quat K) (hq : q.normSq = 1) (v : V3 K) :
    q.rotate v 0 * q.rotate v 0 + q.rotate v 1 * q.rotate v 1 + q.rotate v 2 * q.rotate v 2 =
      v 0 * v 0 + v 1 * v 1 + v 2 * v 2 := by
  obtain ⟨w, x, y, z⟩ := q
  simp only [Quat.normSq] at hq
  simp only [Quat.rotate, V3.cross, Pi.add_apply, Pi.smul_apply, smul_eq_mul, Matrix.cons_val_zero, Matrix.cons_val_one,
    Matrix.cons_val]
  linear_combination 4 * (x^2 * v 1^2 + x^2 * v 2^2 + y^2 * v 0^2 + y^2 * v 2^2 + z^2 * v 0^2 + z^2 * v 1^2 -
    2 * x * y * v 0 * v 1 - 2 * x * z * v 0 * v 2 - 2 * y * z * v 1 * v 2) * hq

theorem Quat.rotate_norm (q : Quat ℝ) (hq : q.normSq = 1) (v : V3 ℝ) : V3.norm (q.rotate v) = V3.norm v := by
  unfold V3.norm
  rw [Quat.rotate_normSq q hq v]

/-- Rodrigues' formula. -/
noncomputable def rodrigues (θ : ℝ) (u w : V3 ℝ) : V3 ℝ := fun i =>
  Real.cos θ * w i + Real.sin θ * V3.cross u w i + (1 - Real.cos θ) * (u 0 * w 0 + u 1 * w 1 + u 2 * w 2) * u i

theorem Quat.ofAngleAxis_rotate (θ : ℝ) (u w : V3 ℝ) (hu : u 0 * u 0 + u 1 * u 1 + u 2 * u 2 = 1) :
    (Quat.ofAngleAxis θ u).rotate w = rodrigues θ u w := by
  have hs : Real.sin θ = 2 * Real.sin (θ / 2) * Real.cos (θ / 2) := by rw [← Real.sin_two_mul]; ring_nf
  have hc : Real.cos θ = 1 - 2 * Real.sin (θ / 2) ^ 2 := by
    rw [show θ = 2 * (θ / 2) by ring, Real.cos_two_mul, Real.cos_sq']; ring_nf
  funext i
  simp only [rodrigues, hs, hc]
  fin_cases i <;>
  simp only [Quat.rotate, Quat.ofAngleAxis, V3.cross, Pi.add_apply, Pi.smul_apply, smul_eq_mul, Matrix.cons_val_zero,
    Matrix.cons_val_one, Matrix.cons_val, Fin.zero_eta, Fin.mk_one, Fin.reduceFinMk, Fin.isValue]
  · linear_combination (-2 * Real.sin (θ / 2) ^ 2 * w 0) * hu
  · linear_combination (-2 * Real.sin (θ / 2) ^ 2 * w 1) * hu
  · linear_combination (-2 * Real.sin (θ / 2) ^ 2 * w 2) * hu

theorem atan2_pos {s : ℝ} (h0 : 0 ≤ s) (h1 : s ≤ Real.pi) : atan2 (Real.sin s) (Real.cos s) = s := by
  unfold atan2
  have : (⟨Real.cos s, Real.sin s⟩ : ℂ) = Complex.cos s + Complex.sin s * Complex.I := by
    apply Complex.ext <;> simp [← Complex.ofReal_cos, ← Complex.ofReal_sin]
  rw [this]
  exact Complex.arg_cos_add_sin_mul_I ⟨by linarith [Real.pi_pos], h1⟩

theorem quatToRotVec_ofAngleAxis (θ : ℝ) (u : V3 ℝ) (hu : u 0 * u 0 + u 1 * u 1 + u 2 * u 2 = 1) (h0 : 0 < θ)
    (h1 : θ ≤ Real.pi) : quatToRotVec (Quat.ofAngleAxis θ u) = fun i => u i * θ := by
  have hs : 0 < Real.sin (θ / 2) := Real.sin_pos_of_pos_of_lt_pi (by linarith) (by linarith [Real.pi_pos])
  have hc : 0 ≤ Real.cos (θ / 2) := Real.cos_nonneg_of_mem_Icc ⟨by linarith [Real.pi_pos], by linarith⟩
  have hn : V3.norm ![Real.sin (θ / 2) * u 0, Real.sin (θ / 2) * u 1, Real.sin (θ / 2) * u 2] = Real.sin (θ / 2) :=
    V3.norm_eq_of_sq hs.le (by
      simp only [Matrix.cons_val_zero, Matrix.cons_val_one, Matrix.cons_val]
      linear_combination Real.sin (θ / 2) ^ 2 * hu)
  have ht : (Quat.ofAngleAxis θ u).toAngleAxis = (θ, u) := by
    unfold Quat.toAngleAxis Quat.ofAngleAxis
    simp only [hn]
    rw [if_pos hs.ne', if_neg (not_lt.2 hc), abs_of_nonneg hc, atan2_pos (by linarith) (by linarith [Real.pi_pos])]
    refine Prod.ext (by ring) ?_
    funext i
    fin_cases i <;> simp <;> field_simp
  funext i
  simp only [quatToRotVec, ht]

theorem rotVecToQuat_large {v : V3 ℝ} (h : 1 / 10 ^ 9 < V3.norm v) :
    rotVecToQuat v = Quat.ofAngleAxis (V3.norm v) (fun i => v i / V3.norm v) := if_pos h

theorem norm_pos_of_large {v : V3 ℝ} (h : 1 / 10 ^ 9 < V3.norm v) : 0 < V3.norm v :=
  lt_trans (by positivity) h

theorem quatToRotVec_rotVecToQuat {v : V3 ℝ} (h : 1 / 10 ^ 9 < V3.norm v) (h1 : V3.norm v ≤ Real.pi) :
    quatToRotVec (rotVecToQuat v) = v := by
  have hp := norm_pos_of_large h
  rw [rotVecToQuat_large h, quatToRotVec_ofAngleAxis _ _ (V3.unit_sq hp.ne') hp h1]
  funext i
  show v i / V3.norm v * V3.norm v = v i
  field_simp

theorem Quat.normalize_unit (q : Quat ℝ) (hq : q ≠ ⟨0, 0, 0, 0⟩) : q.normalize.normSq = 1 := by
  have hpos : 0 < q.normSq := by
    obtain ⟨w, x, y, z⟩ := q
    have h : 0 ≤ w * w + x * x + y * y + z * z := by
      nlinarith [mul_self_nonneg w, mul_self_nonneg x, mul_self_nonneg y, mul_self_nonneg z]
    rcases h.lt_or_eq with h | h
    · exact h
    · exfalso
      apply hq
      have hw : w = 0 := by nlinarith [mul_self_nonneg w, mul_self_nonneg x, mul_self_nonneg y, mul_self_nonneg z]
      have hx : x = 0 := by nlinarith [mul_self_nonneg w, mul_self_nonneg x, mul_self_nonneg y, mul_self_nonneg z]
      have hy : y = 0 := by nlinarith [mul_self_nonneg w, mul_self_nonneg x, mul_self_nonneg y, mul_self_nonneg z]
      have hz : z = 0 := by nlinarith [mul_self_nonneg w, mul_self_nonneg x, mul_self_nonneg y, mul_self_nonneg z]
      rw [hw, hx, hy, hz]
  unfold Quat.normalize
  rw [if_pos hpos]
  have hs : √q.normSq ≠ 0 := (Real.sqrt_pos.2 hpos).ne'
  have hss : √q.normSq * √q.normSq = q.normSq := Real.mul_self_sqrt hpos.le
  generalize √q.normSq = t at hs hss
  simp only [Quat.normSq] at hss ⊢
  field_simp
  nlinarith [hss]

end EkfCal
