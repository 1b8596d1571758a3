import Verif.Spec.Turn
import Verif.Lemmas.Rotation
import Verif.Lemmas.QuatMat
import Verif.Lemmas.Columns
import Mathlib.Analysis.Asymptotics.Lemmas

/-!
# Derivatives of turns, and the rotation Jacobian
-/

namespace EkfCal
open Matrix

theorem norm_eq_zero_iff {d : V3 ℝ} : V3.norm d = 0 ↔ d = 0 := by
  constructor
  · intro h
    have h2 := V3.norm_sq d
    rw [h] at h2
    have h0 : d 0 = 0 := by nlinarith [mul_self_nonneg (d 0), mul_self_nonneg (d 1), mul_self_nonneg (d 2)]
    have h1 : d 1 = 0 := by nlinarith [mul_self_nonneg (d 0), mul_self_nonneg (d 1), mul_self_nonneg (d 2)]
    have h3 : d 2 = 0 := by nlinarith [mul_self_nonneg (d 0), mul_self_nonneg (d 1), mul_self_nonneg (d 2)]
    funext i; fin_cases i <;> assumption
  · rintro rfl; exact V3.norm_zero

theorem expQuat_unit (d : V3 ℝ) : (expQuat d).normSq = 1 := by
  have hn := V3.norm_sq d
  have hs : Real.sinc (V3.norm d / 2) * (V3.norm d / 2) = Real.sin (V3.norm d / 2) := by
    by_cases h : V3.norm d / 2 = 0
    · rw [h]; simp
    · rw [Real.sinc_of_ne_zero h, div_mul_cancel₀ _ h]
  have ht := Real.sin_sq_add_cos_sq (V3.norm d / 2)
  rw [← hs] at ht
  simp only [expQuat, Quat.normSq]
  linear_combination ht - Real.sinc (V3.norm d / 2) ^ 2 / 4 * hn

theorem expQuat_large {d : V3 ℝ} (h : 1 / 10 ^ 9 < V3.norm d) : expQuat d = rotVecToQuat d := by
  have hp := norm_pos_of_large h
  rw [rotVecToQuat_large h, expQuat, Quat.ofAngleAxis, Real.sinc_of_ne_zero (by linarith)]
  congr 1 <;> field_simp

theorem continuous_norm : Continuous V3.norm := by
  unfold V3.norm
  fun_prop

theorem IsJacobian.scaled {h : (Fin 3 → ℝ) → ℝ} {f : (Fin 3 → ℝ) → Fin 3 → ℝ} {A : Matrix (Fin 3) (Fin 3) ℝ}
    (hh : ContinuousAt h 0) (hf : IsJacobian f 0 A) (h0 : f 0 = 0) : IsJacobian (fun d => h d • f d) 0 (h 0 • A) := by
  unfold IsJacobian at *
  have h1 : (fun d => (h d - h 0) • f d) =o[nhds 0] fun d : Fin 3 → ℝ => d := by
    have a1 : (fun d => h d - h 0) =o[nhds 0] fun _ : Fin 3 → ℝ => (1 : ℝ) := by
      rw [Asymptotics.isLittleO_one_iff]
      have := hh.tendsto.sub_const (h 0)
      rwa [sub_self] at this
    have a2 : f =O[nhds 0] fun d : Fin 3 → ℝ => d := by
      have := hf.isBigO_sub
      simpa [h0] using this
    simpa using a1.smul_isBigO a2
  have h2 : HasFDerivAt (fun d => (h d - h 0) • f d) (0 : (Fin 3 → ℝ) →L[ℝ] Fin 3 → ℝ) 0 := by
    rw [hasFDerivAt_iff_isLittleO_nhds_zero]
    simpa [h0] using h1
  have h3 := (hf.const_smul (h 0)).add h2
  refine (h3.congr_of_eventuallyEq (.of_forall fun d => ?_)).congr_fderiv ?_
  · simp only [Pi.add_apply, Pi.smul_apply]
    rw [← add_smul]; congr 1; ring
  · ext y; simp

theorem expQuat_mulVec (d u : V3 ℝ) : (expQuat d).toMat.mulVec u = u + (Real.cos (V3.norm d / 2) * Real.sinc (V3.norm d / 2)) • V3.cross d u +
    (Real.sinc (V3.norm d / 2) ^ 2 / 2) • V3.cross d (V3.cross d u) := by
  generalize hc : Real.cos (V3.norm d / 2) = c
  generalize hs : Real.sinc (V3.norm d / 2) = s
  funext i
  fin_cases i <;>
    simp [expQuat, hc, hs, Quat.toMat, Matrix.mulVec, dotProduct, Fin.sum_univ_three, V3.cross, vecHead, vecTail] <;> ring

theorem isJacobian_exp (u : V3 ℝ) : IsJacobian (fun d => (expQuat d).toMat.mulVec u) 0 (-skew u) := by
  simp only [expQuat_mulVec]
  have c1 : ContinuousAt (fun d => Real.cos (V3.norm d / 2) * Real.sinc (V3.norm d / 2)) (0 : V3 ℝ) := by
    have := continuous_norm
    have h2 := Real.continuous_sinc
    exact ((Real.continuous_cos.comp (this.div_const 2)).mul (h2.comp (this.div_const 2))).continuousAt
  have c2 : ContinuousAt (fun d => Real.sinc (V3.norm d / 2) ^ 2 / 2) (0 : V3 ℝ) := by
    have := continuous_norm
    have h2 := Real.continuous_sinc
    exact (((h2.comp (this.div_const 2)).pow 2).div_const 2).continuousAt
  have l1 : IsJacobian (fun d => V3.cross d u) 0 (-skew u) := by
    simp only [cross_eq_mulVec']; exact isJacobian_linear _ _
  have l2 := IsJacobian.cross (isJacobian_id (0 : V3 ℝ)) l1
  have z1 : V3.cross 0 u = 0 := by funext i; fin_cases i <;> simp [V3.cross]
  have z2 : V3.cross 0 (V3.cross 0 u) = 0 := by rw [z1]; funext i; fin_cases i <;> simp [V3.cross]
  have s1 := IsJacobian.scaled c1 l1 z1
  have s2 := IsJacobian.scaled c2 l2 z2
  refine (((isJacobian_const u 0).add s1).add s2).congr ?_
  have : skew (0 : V3 ℝ) = 0 := by ext i j; fin_cases i <;> fin_cases j <;> simp [skew]
  simp [V3.norm_zero, z1, this]

theorem expQuat_neg (d : V3 ℝ) : (expQuat (-d)).toMat = (expQuat d).toMat.transpose := by
  have hn : V3.norm (-d) = V3.norm d := by simp [V3.norm]
  generalize hc : Real.cos (V3.norm d / 2) = c
  generalize hs : Real.sinc (V3.norm d / 2) = s
  ext i j
  fin_cases i <;> fin_cases j <;> simp [expQuat, hn, hc, hs, Quat.toMat] <;> ring

theorem isJacobian_exp_transpose (u : V3 ℝ) : IsJacobian (fun d => (expQuat d).toMat.transpose.mulVec u) 0 (skew u) := by
  have h := isJacobian_exp u
  unfold IsJacobian at *
  have hn : HasFDerivAt (fun d : Fin 3 → ℝ => -d) (-ContinuousLinearMap.id ℝ (Fin 3 → ℝ)) 0 := (hasFDerivAt_id 0).neg
  have h' : HasFDerivAt (fun d => (expQuat d).toMat.mulVec u) (LinearMap.toContinuousLinearMap (Matrix.toLin' (-skew u)))
      (-(0 : Fin 3 → ℝ)) := by rw [neg_zero]; exact h
  refine ((h'.comp (0 : Fin 3 → ℝ) hn).congr_of_eventuallyEq (.of_forall fun d => ?_)).congr_fderiv ?_
  · show _ = (expQuat (-d)).toMat.mulVec u
    rw [expQuat_neg]
  · ext y; simp

theorem Quat.turn_toMat {q : Quat ℝ} (h : q.normSq = 1) (d : V3 ℝ) : (q.turn d).toMat = q.toMat * (expQuat d).toMat :=
  (Quat.toMat_mul h (expQuat_unit d)).symm

theorem Quat.turn_unit {q : Quat ℝ} (h : q.normSq = 1) (d : V3 ℝ) : (q.turn d).normSq = 1 := by
  rw [Quat.turn, Quat.normSq_mul, h, expQuat_unit, _root_.mul_one]

/-- A vector given in a turning frame. -/
theorem isJacobian_turn {q : Quat ℝ} (h : q.normSq = 1) (u : V3 ℝ) :
    IsJacobian (fun d => (q.turn d).toMat.mulVec u) 0 (-(q.toMat * skew u)) := by
  simp only [Quat.turn_toMat h, ← Matrix.mulVec_mulVec]
  exact ((isJacobian_exp u).mulLeft q.toMat).congr (by rw [Matrix.mul_neg])

/-- A fixed vector seen from a turning frame. -/
theorem isJacobian_turn_transpose {q : Quat ℝ} (h : q.normSq = 1) (u : V3 ℝ) :
    IsJacobian (fun d => (q.turn d).toMat.transpose.mulVec u) 0 (skew (q.toMat.transpose.mulVec u)) := by
  simp only [Quat.turn_toMat h, Matrix.transpose_mul, ← Matrix.mulVec_mulVec]
  exact isJacobian_exp_transpose _

/-! ## The rotation Jacobian -/

theorem skew_cube (v : V3 ℝ) : skew v * (skew v * skew v) = -(V3.norm v * V3.norm v) • skew v := by
  rw [V3.norm_sq]
  ext i j
  fin_cases i <;> fin_cases j <;> simp [skew, Matrix.mul_apply, Fin.sum_univ_three] <;> ring

theorem skew_transpose' (v : V3 ℝ) : (skew v).transpose = -skew v := by
  ext i j; fin_cases i <;> fin_cases j <;> simp [skew]

/-- Turning a cross product. -/
theorem transpose_skew {q : Quat ℝ} (h : q.normSq = 1) (x : V3 ℝ) :
    q.toMat.transpose * skew x = skew (q.toMat.transpose.mulVec x) * q.toMat.transpose := by
  rw [Quat.toMat_hom h]
  simp only [Quat.normSq] at h
  generalize q.w = w at *
  generalize q.x = a at *
  generalize q.y = b at *
  generalize q.z = c at *
  ext i j
  fin_cases i <;> fin_cases j <;>
    simp [skew, Matrix.mul_apply, Matrix.mulVec, dotProduct, Fin.sum_univ_three, vecHead, vecTail] <;> grind

theorem atan2_unit {m w : ℝ} (hm : 0 < m) (h : w * w + m * m = 1) :
    Real.cos (atan2 m |w|) = |w| ∧ Real.sin (atan2 m |w|) = m ∧ 0 < atan2 m |w| := by
  have hn : ‖(⟨|w|, m⟩ : ℂ)‖ = 1 := by
    rw [Complex.norm_def, Complex.normSq_mk, abs_mul_abs_self, h, Real.sqrt_one]
  have h0 : (⟨|w|, m⟩ : ℂ) ≠ 0 := by intro h0; rw [h0] at hn; simp at hn
  have hs : Real.sin (atan2 m |w|) = m := by unfold atan2; rw [Complex.sin_arg, hn, div_one]
  refine ⟨by unfold atan2; rw [Complex.cos_arg h0, hn, div_one], hs, ?_⟩
  have h1 : 0 ≤ atan2 m |w| := Complex.arg_nonneg_iff.2 hm.le
  rcases h1.lt_or_eq with h2 | h2
  · exact h2
  · rw [← h2, Real.sin_zero] at hs; linarith

/-- Angle and axis of a unit quaternion. -/
theorem rotVec_axis {q : Quat ℝ} (h : q.normSq = 1) (hv : quatToRotVec q ≠ 0) :
    ∃ (t : ℝ) (a : V3 ℝ), 0 < t ∧ quatToRotVec q = t • a ∧ V3.norm (quatToRotVec q) = t ∧ a 0 * a 0 + a 1 * a 1 + a 2 * a 2 = 1 ∧
      q.toMat = 1 + Real.sin t • skew a + (1 - Real.cos t) • (skew a * skew a) := by
  obtain ⟨w, x, y, z⟩ := q
  simp only [Quat.normSq] at h
  have hsq : V3.norm ![x, y, z] * V3.norm ![x, y, z] = x * x + y * y + z * z := V3.norm_sq _
  have h0 := V3.norm_nonneg ![x, y, z]
  generalize hm : V3.norm ![x, y, z] = m at *
  have hm0 : m ≠ 0 := by
    rintro rfl
    apply hv
    funext i
    simp [quatToRotVec, Quat.toAngleAxis, hm]
  have hmp : 0 < m := lt_of_le_of_ne h0 (Ne.symm hm0)
  obtain ⟨hc, hs, hp⟩ := atan2_unit (w := w) hmp (by linarith)
  have ht : (⟨w, x, y, z⟩ : Quat ℝ).toAngleAxis = (2 * atan2 m |w|, ![x / (if w < 0 then -m else m), y / (if w < 0 then -m else m),
      z / (if w < 0 then -m else m)]) := by
    simp only [Quat.toAngleAxis, hm]
    rw [if_pos hm0]
  obtain ⟨k, hk, hkw, hkm⟩ : ∃ k : ℝ, (if w < 0 then -m else m) = k ∧ k * |w| = m * w ∧ k * k = m * m := by
    refine ⟨_, rfl, ?_, ?_⟩ <;> split
    · rename_i hw; rw [abs_of_neg hw]; ring
    · rename_i hw; rw [abs_of_nonneg (not_lt.1 hw)]
    · ring
    · rfl
  have hk0 : k ≠ 0 := by rintro rfl; apply hm0; nlinarith
  rw [hk] at ht
  have hunit : x / k * (x / k) + y / k * (y / k) + z / k * (z / k) = 1 := by
    field_simp; nlinarith
  have hr : quatToRotVec ⟨w, x, y, z⟩ = (2 * atan2 m |w|) • (![x / k, y / k, z / k] : V3 ℝ) := by
    funext i
    simp only [quatToRotVec, ht, Pi.smul_apply, smul_eq_mul]; ring
  refine ⟨2 * atan2 m |w|, ![x / k, y / k, z / k], by linarith, hr, ?_, by simpa using hunit, ?_⟩
  · rw [hr]
    refine V3.norm_eq_of_sq (by linarith) ?_
    simp only [Pi.smul_apply, smul_eq_mul, Matrix.cons_val_zero, Matrix.cons_val_one, Matrix.cons_val]
    linear_combination (2 * atan2 m |w|) ^ 2 * hunit
  · rw [Real.sin_two_mul, Real.cos_two_mul, hc, hs]
    have hw2 : |w| ^ 2 = w * w := by rw [sq_abs]; ring
    rw [hw2]
    obtain ⟨r, hr, hrk⟩ : ∃ r, r = k⁻¹ ∧ r * k = 1 := ⟨_, rfl, inv_mul_cancel₀ hk0⟩
    simp only [div_eq_mul_inv, ← hr]
    generalize hav : |w| = av at *
    have e2 : m * m * r * r = 1 := by rw [← hkm]; linear_combination (r * k + 1) * hrk
    have e1 : m * av * r = w := by linear_combination (m * r * r) * hkw - m * av * r * hrk + w * e2
    have hmm : w * w = 1 - m * m := by linarith
    ext i j
    fin_cases i <;> fin_cases j <;> simp [Quat.toMat, skew, Matrix.mul_apply, Fin.sum_univ_three, vecHead, vecTail] <;> grind

/-- The rotation matrix in terms of the rotation vector (Rodrigues). -/
theorem toMat_rotVec {q : Quat ℝ} (h : q.normSq = 1) (hv : quatToRotVec q ≠ 0) :
    q.toMat = 1 + (Real.sin (V3.norm (quatToRotVec q)) / V3.norm (quatToRotVec q)) • skew (quatToRotVec q) +
      ((1 - Real.cos (V3.norm (quatToRotVec q))) / V3.norm (quatToRotVec q) ^ 2) • (skew (quatToRotVec q) * skew (quatToRotVec q)) := by
  obtain ⟨t, a, ht, hr, hn, _, hm⟩ := rotVec_axis h hv
  rw [hm, hn, hr]
  have hs : skew (t • a) = t • skew a := by ext i j; fin_cases i <;> fin_cases j <;> simp [skew]
  rw [hs]
  simp only [smul_smul, Matrix.smul_mul, Matrix.mul_smul]
  congr 2
  · congr 1; field_simp
  · congr 1; field_simp

theorem toMat_of_rotVec_zero {q : Quat ℝ} (h : q.normSq = 1) (hv : quatToRotVec q = 0) : q.toMat = 1 := by
  obtain ⟨w, x, y, z⟩ := q
  simp only [Quat.normSq] at h
  have hsq : V3.norm ![x, y, z] * V3.norm ![x, y, z] = x * x + y * y + z * z := V3.norm_sq _
  have h0 := V3.norm_nonneg ![x, y, z]
  generalize hm : V3.norm ![x, y, z] = m at *
  have hm0 : m = 0 := by
    by_contra hm0
    have hmp : 0 < m := lt_of_le_of_ne h0 (Ne.symm hm0)
    obtain ⟨_, _, hp⟩ := atan2_unit (w := w) hmp (by linarith)
    have hk0 : (if w < 0 then -m else m) ≠ 0 := by split <;> simpa using hm0
    have e : ∀ i, quatToRotVec ⟨w, x, y, z⟩ i = (![x, y, z] : V3 ℝ) i / (if w < 0 then -m else m) * (2 * atan2 m |w|) := by
      intro i
      simp only [quatToRotVec, Quat.toAngleAxis, hm]
      rw [if_pos hm0]
      fin_cases i <;> rfl
    have z0 : ∀ i, (![x, y, z] : V3 ℝ) i = 0 := by
      intro i
      have := (e i).symm.trans (congrFun hv i)
      rcases mul_eq_zero.1 this with h1 | h1
      · rcases div_eq_zero_iff.1 h1 with h2 | h2
        · exact h2
        · exact absurd h2 hk0
      · linarith
    have a0 : x = 0 := z0 0
    have a1 : y = 0 := z0 1
    have a2 : z = 0 := z0 2
    subst a0 a1 a2
    apply hm0; nlinarith
  have hx : x = 0 := by subst hm0; nlinarith [mul_self_nonneg x, mul_self_nonneg y, mul_self_nonneg z]
  have hy : y = 0 := by subst hm0; nlinarith [mul_self_nonneg x, mul_self_nonneg y, mul_self_nonneg z]
  have hz : z = 0 := by subst hm0; nlinarith [mul_self_nonneg x, mul_self_nonneg y, mul_self_nonneg z]
  subst hx hy hz
  ext i j; fin_cases i <;> fin_cases j <;> simp [Quat.toMat]

theorem quatJacobian_zero {q : Quat ℝ} (hv : quatToRotVec q = 0) : quatJacobian q = 1 := by
  have : skew (0 : V3 ℝ) = 0 := by ext i j; fin_cases i <;> fin_cases j <;> simp [skew]
  simp [quatJacobian, hv, this]

/-- The left and the right Jacobian differ by the rotation. -/
theorem quatJacobian_transpose {q : Quat ℝ} (h : q.normSq = 1) (hv : quatToRotVec q = 0 ∨ 1 / 10 ^ 9 ≤ V3.norm (quatToRotVec q)) :
    (quatJacobian q).transpose = q.toMat * quatJacobian q := by
  by_cases h0 : quatToRotVec q = 0
  · rw [quatJacobian_zero h0, toMat_of_rotVec_zero h h0]; simp
  have hn : 1 / 10 ^ 9 ≤ V3.norm (quatToRotVec q) := hv.resolve_left h0
  have hR := toMat_rotVec h h0
  have hc := skew_cube (quatToRotVec q)
  unfold quatJacobian
  dsimp only
  rw [max_eq_left hn, hR]
  have hp : 0 < V3.norm (quatToRotVec q) := lt_of_lt_of_le (by norm_num) hn
  generalize V3.norm (quatToRotVec q) = n at *
  have ht := skew_transpose' (quatToRotVec q)
  generalize skew (quatToRotVec q) = S at *
  have hS : (S * S).transpose = S * S := by rw [Matrix.transpose_mul, ht]; simp
  simp only [Matrix.transpose_add, Matrix.transpose_sub, Matrix.transpose_one, Matrix.transpose_smul, hS, ht]
  have h3 : S * S * S = -(n * n) • S := by rw [Matrix.mul_assoc, hc]
  have h4 : S * S * (S * S) = -(n * n) • (S * S) := by rw [← Matrix.mul_assoc, h3, Matrix.smul_mul]
  obtain ⟨a, ha⟩ : ∃ a, Real.sin n / n = a := ⟨_, rfl⟩
  obtain ⟨b, hb⟩ : ∃ b, (1 - Real.cos n) / n ^ 2 = b := ⟨_, rfl⟩
  obtain ⟨c, hcc⟩ : ∃ c, (n - Real.sin n) / n ^ 3 = c := ⟨_, rfl⟩
  have e1 : n * n * c = 1 - a := by rw [← hcc, ← ha]; field_simp
  have e2 : a * a + n * n * b * b = 2 * b := by
    have := Real.sin_sq_add_cos_sq n
    rw [← ha, ← hb]; field_simp; linear_combination this
  rw [ha, hb, hcc]
  simp only [Matrix.add_mul, Matrix.mul_add, Matrix.mul_sub, Matrix.one_mul, Matrix.mul_one, Matrix.smul_mul, Matrix.mul_smul, hc,
    h3, h4, smul_smul]
  have k1 : b = -b + a + a * c * (-(n * n)) - b * b * (-(n * n)) := by linear_combination a * e1 - e2
  have k2 : c = c - b * a + b + b * c * (-(n * n)) := by linear_combination b * e1
  match_scalars
  · ring
  · linear_combination k1
  · linear_combination k2

theorem mul_poly {n : Nat} (M : Matrix (Fin n) (Fin 3) ℝ) (v : V3 ℝ) {b c : ℝ} (hc : 0 < c) :
    M * (1 + b • skew v + c • (skew v * skew v)) = M ↔ M * skew v = 0 := by
  constructor
  · intro h
    by_cases hv : v = 0
    · have : skew v = 0 := by rw [hv]; ext i j; fin_cases i <;> fin_cases j <;> simp [skew]
      rw [this, Matrix.mul_zero]
    have hcube := skew_cube v
    have hvp : 0 < V3.norm v := lt_of_le_of_ne (V3.norm_nonneg _) fun h => hv (norm_eq_zero_iff.1 h.symm)
    generalize V3.norm v = m at *
    have h1 : M * (b • skew v + c • (skew v * skew v)) = 0 := by
      have : M * (1 + b • skew v + c • (skew v * skew v)) = M + M * (b • skew v + c • (skew v * skew v)) := by
        simp only [Matrix.mul_add, Matrix.mul_one]; abel
      rw [this] at h
      simpa using h
    have h3 : skew v * skew v * skew v = -(m * m) • skew v := by rw [Matrix.mul_assoc, hcube]
    have h4 : skew v * skew v * (skew v * skew v) = -(m * m) • (skew v * skew v) := by rw [← Matrix.mul_assoc, h3, Matrix.smul_mul]
    have h2 : (-(b * b) - c * c * (m * m)) • (M * (skew v * skew v)) = 0 := by
      have h5 : M * (b • skew v + c • (skew v * skew v)) * (-b • skew v + c • (skew v * skew v)) = 0 := by rw [h1, Matrix.zero_mul]
      rw [Matrix.mul_assoc] at h5
      have h6 : (b • skew v + c • (skew v * skew v)) * (-b • skew v + c • (skew v * skew v)) =
          (-(b * b) - c * c * (m * m)) • (skew v * skew v) := by
        simp only [Matrix.add_mul, Matrix.mul_add, Matrix.smul_mul, Matrix.mul_smul, hcube, h3, h4, smul_smul]
        module
      rw [h6, Matrix.mul_smul] at h5
      exact h5
    have hz : M * (skew v * skew v) = 0 := by
      rcases smul_eq_zero.1 h2 with h5 | h5
      · have : 0 < c * c * (m * m) := by positivity
        nlinarith [mul_self_nonneg b]
      · exact h5
    have h7 : M * (skew v * (skew v * skew v)) = 0 := by
      rw [← Matrix.mul_assoc (skew v), ← Matrix.mul_assoc M, hz, Matrix.zero_mul]
    rw [hcube, Matrix.mul_smul] at h7
    exact (smul_eq_zero.1 h7).resolve_left (by have : 0 < m * m := by positivity
                                               linarith)
  · intro h
    rw [Matrix.mul_add, Matrix.mul_add, Matrix.mul_one, Matrix.mul_smul, Matrix.mul_smul, ← Matrix.mul_assoc, h]
    simp

/-- The rotation Jacobian makes no difference to a derivative exactly when the derivative is zero for all turns about axes
perpendicular to the rotation's own. -/
theorem mul_quatJacobian {n : Nat} (M : Matrix (Fin n) (Fin 3) ℝ) (q : Quat ℝ) :
    M * quatJacobian q = M ↔ M * skew (quatToRotVec q) = 0 := by
  have hnp : 0 < max (V3.norm (quatToRotVec q)) (1 / 10 ^ 9) := lt_of_lt_of_le (by norm_num) (le_max_right _ _)
  have hlt := Real.sin_lt hnp
  rw [← mul_poly M (quatToRotVec q) (b := -((1 - Real.cos (max (V3.norm (quatToRotVec q)) (1 / 10 ^ 9))) / max (V3.norm (quatToRotVec q)) (1 / 10 ^ 9) ^ 2))
    (c := (max (V3.norm (quatToRotVec q)) (1 / 10 ^ 9) - Real.sin (max (V3.norm (quatToRotVec q)) (1 / 10 ^ 9))) /
      max (V3.norm (quatToRotVec q)) (1 / 10 ^ 9) ^ 3) (div_pos (by linarith) (by positivity))]
  rw [show quatJacobian q = 1 + -((1 - Real.cos (max (V3.norm (quatToRotVec q)) (1 / 10 ^ 9))) / max (V3.norm (quatToRotVec q)) (1 / 10 ^ 9) ^ 2) •
      skew (quatToRotVec q) + ((max (V3.norm (quatToRotVec q)) (1 / 10 ^ 9) - Real.sin (max (V3.norm (quatToRotVec q)) (1 / 10 ^ 9))) /
      max (V3.norm (quatToRotVec q)) (1 / 10 ^ 9) ^ 3) • (skew (quatToRotVec q) * skew (quatToRotVec q)) by
    rw [neg_smul, ← sub_eq_add_neg]; rfl]

theorem mul_quatJacobian_transpose {n : Nat} (M : Matrix (Fin n) (Fin 3) ℝ) (q : Quat ℝ) :
    M * (quatJacobian q).transpose = M ↔ M * skew (quatToRotVec q) = 0 := by
  have hnp : 0 < max (V3.norm (quatToRotVec q)) (1 / 10 ^ 9) := lt_of_lt_of_le (by norm_num) (le_max_right _ _)
  have hlt := Real.sin_lt hnp
  rw [← mul_poly M (quatToRotVec q) (b := ((1 - Real.cos (max (V3.norm (quatToRotVec q)) (1 / 10 ^ 9))) / max (V3.norm (quatToRotVec q)) (1 / 10 ^ 9) ^ 2))
    (c := (max (V3.norm (quatToRotVec q)) (1 / 10 ^ 9) - Real.sin (max (V3.norm (quatToRotVec q)) (1 / 10 ^ 9))) /
      max (V3.norm (quatToRotVec q)) (1 / 10 ^ 9) ^ 3) (div_pos (by linarith) (by positivity))]
  unfold quatJacobian
  dsimp only
  rw [Matrix.transpose_add, Matrix.transpose_sub, Matrix.transpose_smul, Matrix.transpose_smul, Matrix.transpose_mul,
    skew_transpose', Matrix.transpose_one, Matrix.neg_mul, Matrix.mul_neg, neg_neg, smul_neg, sub_neg_eq_add]

theorem skew_mul_skew {a v : V3 ℝ} : skew a * skew v = 0 ↔ a = 0 ∨ v = 0 := by
  constructor
  · intro h
    by_contra hne
    push Not at hne
    obtain ⟨ha, hv⟩ := hne
    have E : ∀ i j, (skew a * skew v) i j = 0 := fun i j => by rw [h]; rfl
    have E01 := E 0 1; have E02 := E 0 2; have E10 := E 1 0; have E12 := E 1 2; have E20 := E 2 0; have E21 := E 2 1
    have E00 := E 0 0; have E11 := E 1 1; have E22 := E 2 2
    simp [skew, Matrix.mul_apply, Fin.sum_univ_three] at E01 E02 E10 E12 E20 E21 E00 E11 E22
    have hp : ∀ i j, a i * v j = 0 := by
      intro i j
      fin_cases i <;> fin_cases j <;> simp <;> grind
    refine ha (funext fun i => ?_)
    by_contra hi
    exact hv (funext fun j => (mul_eq_zero.1 (hp i j)).resolve_left hi)
  · rintro (rfl | rfl)
    · have : skew (0 : V3 ℝ) = 0 := by ext i j; fin_cases i <;> fin_cases j <;> simp [skew]
      rw [this, Matrix.zero_mul]
    · have : skew (0 : V3 ℝ) = 0 := by ext i j; fin_cases i <;> fin_cases j <;> simp [skew]
      rw [this, Matrix.mul_zero]

end EkfCal
