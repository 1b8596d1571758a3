import Verif.Lemmas.Cyclic
import Verif.Props.C40

/-!
# C55: the cyclic truth is kinematically consistent in rotation

The angular acceleration is violated: it leaves out the change of the Euler transform.
-/

namespace EkfCal
namespace CyclicTruth

/-- The angular rate is that of the orientation, at every time but the start of motion, and there too without offset. -/
theorem C55_rate_partial (e : CyclicTruth) (t : ℝ) (h : t ≠ e.stationary ∨ e.angOffset = 0) :
    TurnsAt e.orientation (e.angularRate t) t := by
  rw [angularRate_eq]
  exact turnsAt_euler e.rollPitchYaw _ t (hasDerivAt_rollPitchYaw e t h)

/-- The angle of an axis without frequency stays at its offset. -/
theorem rollPitchYaw_still (e : CyclicTruth) (i : Fin 3) (h : e.angFreq i = 0) (t : ℝ) (ht : e.stationary < t) :
    e.rollPitchYaw t i = e.angOffset i := by
  rw [rollPitchYaw, if_neg (not_lt.2 (sub_pos.2 ht).le)]
  simp [h]

theorem hasDerivAt_rpyRate (e : CyclicTruth) (t : ℝ) (ht : e.stationary < t) (i : Fin 3) :
    HasDerivAt (fun t => e.angAmp * e.angFreq i * Real.pi * Real.sin (e.angFreq i * 2 * Real.pi * (t - e.stationary)))
      (e.angAmp * 2 * Real.pi * Real.pi * e.angFreq i * e.angFreq i *
        Real.cos (e.angFreq i * 2 * Real.pi * (t - e.stationary))) t := hasDerivAt_speed _ _ _ _

/-- For a motion about a single one of the three angles, the angular acceleration is the derivative of the angular rate. -/
theorem C55_acceleration_partial (e : CyclicTruth) (k : Fin 3) (hk : ∀ i, i ≠ k → e.angFreq i = 0) (t : ℝ)
    (ht : e.stationary < t) : HasDerivAt e.angularRate (e.angularAcceleration t) t := by
  -- the column of the transform the motion uses is constant
  have hcol (u : ℝ) (hu : e.stationary < u) (i : Fin 3) :
      eulerTransform (e.rollPitchYaw u) i k = eulerTransform (e.rollPitchYaw t) i k := by
    have hs (j : Fin 3) (hj : j ≠ k) : e.rollPitchYaw u j = e.rollPitchYaw t j := by
      rw [rollPitchYaw_still e j (hk j hj) u hu, rollPitchYaw_still e j (hk j hj) t ht]
    fin_cases k
    · fin_cases i <;> simp [eulerTransform]
    · have := hs 0 (by decide)
      fin_cases i <;> simp [eulerTransform, this]
    · have h0 := hs 0 (by decide)
      have h1 := hs 1 (by decide)
      fin_cases i <;> simp [eulerTransform, h0, h1]
  have hsum (M : M3 ℝ) (v : V3 ℝ) (hv : ∀ i, i ≠ k → v i = 0) : M.mulVec v = fun i => M i k * v k := by
    funext i
    show ∑ j, M i j * v j = M i k * v k
    exact Finset.sum_eq_single k (fun j _ hj => by rw [hv j hj, mul_zero]) (fun h => absurd (Finset.mem_univ k) h)
  have hrate (u : ℝ) (hu : e.stationary < u) : e.angularRate u = fun i => eulerTransform (e.rollPitchYaw t) i k *
      (e.angAmp * e.angFreq k * Real.pi * Real.sin (e.angFreq k * 2 * Real.pi * (u - e.stationary))) := by
    rw [angularRate, if_neg (not_lt.2 (sub_pos.2 hu).le), hsum _ _ (fun i hi => by simp [hk i hi])]
    funext i
    rw [hcol u hu]
  have hacc : e.angularAcceleration t = fun i => eulerTransform (e.rollPitchYaw t) i k *
      (e.angAmp * 2 * Real.pi * Real.pi * e.angFreq k * e.angFreq k *
        Real.cos (e.angFreq k * 2 * Real.pi * (t - e.stationary))) := by
    rw [angularAcceleration, if_neg (not_lt.2 (sub_pos.2 ht).le), hsum _ _ (fun i hi => by simp [hk i hi])]
  rw [hacc]
  have hd : HasDerivAt (fun u (i : Fin 3) => eulerTransform (e.rollPitchYaw t) i k *
      (e.angAmp * e.angFreq k * Real.pi * Real.sin (e.angFreq k * 2 * Real.pi * (u - e.stationary)))) (fun i =>
      eulerTransform (e.rollPitchYaw t) i k * (e.angAmp * 2 * Real.pi * Real.pi * e.angFreq k * e.angFreq k *
        Real.cos (e.angFreq k * 2 * Real.pi * (t - e.stationary)))) t :=
    hasDerivAt_pi.2 fun i => (hasDerivAt_rpyRate e t ht k).const_mul _
  refine hd.congr_of_eventuallyEq ?_
  filter_upwards [lt_mem_nhds ht] with u hu
  exact hrate u hu

/-- With motion about two angles the angular acceleration is not the derivative of the angular rate. -/
theorem C55_acceleration_violated : ∃ (e : CyclicTruth) (t : ℝ), e.stationary < t ∧
    ¬HasDerivAt e.angularRate (e.angularAcceleration t) t := by
  let e : CyclicTruth := ⟨0, ![0, 1, 1], 0, 0, 2, 1, 0⟩
  refine ⟨e, 1 / 4, by norm_num [e], fun h => ?_⟩
  -- first component: rate = -sin (pitch) * yaw rate
  have h0 := hasDerivAt_pi.1 h 0
  have hr : (fun u => e.angularRate u 0) =ᶠ[nhds (1 / 4)] fun u =>
      -Real.sin (1 - Real.cos (2 * Real.pi * u)) * (2 * Real.pi * Real.sin (2 * Real.pi * u)) := by
    filter_upwards [lt_mem_nhds (show (0 : ℝ) < 1 / 4 by norm_num)] with u hu
    have : ¬u < 0 := not_lt.2 hu.le
    simp [e, angularRate, rollPitchYaw, eulerTransform, Matrix.mulVec, dotProduct, Fin.sum_univ_three, this]
  have hin : HasDerivAt (fun u : ℝ => 2 * Real.pi * u) (2 * Real.pi) (1 / 4) := by
    simpa using (hasDerivAt_id (1 / 4 : ℝ)).const_mul (2 * Real.pi)
  have hd := (((hin.cos).const_sub 1).sin.neg).fun_mul ((hin.sin).const_mul (2 * Real.pi))
  have hu := (h0.congr_of_eventuallyEq hr.symm).unique hd
  have h2 : (2 * Real.pi * (1 / 4) : ℝ) = Real.pi / 2 := by ring
  have ha : e.angularAcceleration (1 / 4) 0 = 0 := by
    have hlt : ¬((4 : ℝ) < 0) := by norm_num
    have h3 : (2 * Real.pi * 4⁻¹ : ℝ) = Real.pi / 2 := by ring
    simp [e, angularAcceleration, rollPitchYaw, eulerTransform, Matrix.mulVec, dotProduct, Fin.sum_univ_three, hlt, h3]
  rw [ha, h2] at hu
  simp only [Real.cos_pi_div_two, Real.sin_pi_div_two] at hu
  have hc : 0 < Real.cos 1 := Real.cos_one_pos
  have hp := Real.pi_pos
  simp at hu
  exact hc.ne' hu

/-! ## Concrete motions -/

example : ∃ (e : CyclicTruth) (t : ℝ), e.angularRate t ≠ 0 ∧ TurnsAt e.orientation (e.angularRate t) t := by
  let e : CyclicTruth := ⟨0, ![1, 1, 1], 0, 0, 2, 1, 0⟩
  refine ⟨e, 1 / 4, fun h => ?_, C55_rate_partial e _ (.inr rfl)⟩
  have hlt : ¬((4 : ℝ) < 0) := by norm_num
  have h3 : (2 * Real.pi * 4⁻¹ : ℝ) = Real.pi / 2 := by ring
  have h1 := congrFun h 1
  simp [e, angularRate, rollPitchYaw, eulerTransform, Matrix.mulVec, dotProduct, Fin.sum_univ_three, hlt, h3] at h1
  have hp := Real.pi_pos
  have hc : 0 < Real.cos 1 := Real.cos_one_pos
  have hs := Real.sin_sq_add_cos_sq 1
  have h4 : Real.cos 1 * (2 * Real.pi) * (1 + Real.sin 1) = 0 := by linarith
  rcases mul_eq_zero.1 h4 with h5 | h5
  · exact absurd h5 (by positivity)
  · nlinarith

example : ∃ (e : CyclicTruth) (t : ℝ), e.stationary < t ∧ e.angAmp ≠ 0 ∧ e.angFreq 1 ≠ 0 ∧
    HasDerivAt e.angularRate (e.angularAcceleration t) t := by
  let e : CyclicTruth := ⟨0, ![0, 3, 0], 0, ![1, 2, 3], 2, 1, 0⟩
  refine ⟨e, 1, by norm_num [e], by norm_num [e], by norm_num [e], C55_acceleration_partial e 1 (fun i hi => ?_) 1 (by norm_num [e])⟩
  fin_cases i
  · rfl
  · exact absurd rfl hi
  · rfl

end CyclicTruth
end EkfCal
