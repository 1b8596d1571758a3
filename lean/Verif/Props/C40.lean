import Verif.Lemmas.Cyclic

/-!
# C40: the cyclic truth is kinematically consistent in translation

The start of motion is violated for the orientation: with an angular offset it jumps.
-/

namespace EkfCal
namespace CyclicTruth

/-- Velocity is the time derivative of position at every time, the start of motion included. -/
theorem C40_velocity (e : CyclicTruth) (t : ℝ) : HasDerivAt e.position (e.velocity t) t := by
  have hg (t : ℝ) : HasDerivAt (fun t (i : Fin 3) =>
      e.posAmp / 2 * (1 - Real.cos (e.posFreq i * 2 * Real.pi * (t - e.stationary))) + e.posOffset i)
      (fun i => e.posAmp * e.posFreq i * Real.pi * Real.sin (e.posFreq i * 2 * Real.pi * (t - e.stationary))) t :=
    hasDerivAt_pi.2 fun i => hasDerivAt_swing _ _ _ _ _
  unfold velocity
  rcases lt_trichotomy t e.stationary with ht | ht | ht
  · rw [if_pos (sub_neg.2 ht)]
    exact hasDerivAt_before ht
  · rw [if_neg (by simp [ht])]
    have h1 := hg t
    have hz : (fun i => e.posAmp * e.posFreq i * Real.pi * Real.sin (e.posFreq i * 2 * Real.pi * (t - e.stationary))) =
        (0 : V3 ℝ) := by
      funext i; simp [ht]
    rw [hz] at h1 ⊢
    subst ht
    exact hasDerivAt_join (by funext i; simp) h1
  · rw [if_neg (not_lt.2 (sub_pos.2 ht).le)]
    exact hasDerivAt_after ht (hg t)

/-- Acceleration is the time derivative of velocity at every time other than the start of motion. -/
theorem C40_acceleration (e : CyclicTruth) (t : ℝ) (h : t ≠ e.stationary) : HasDerivAt e.velocity (e.acceleration t) t := by
  have hg (t : ℝ) : HasDerivAt (fun t (i : Fin 3) =>
      e.posAmp * e.posFreq i * Real.pi * Real.sin (e.posFreq i * 2 * Real.pi * (t - e.stationary)))
      (fun i => e.posAmp * 2 * Real.pi * Real.pi * e.posFreq i * e.posFreq i *
        Real.cos (e.posFreq i * 2 * Real.pi * (t - e.stationary))) t :=
    hasDerivAt_pi.2 fun i => hasDerivAt_speed _ _ _ _
  unfold acceleration
  rcases lt_or_gt_of_ne h with ht | ht
  · rw [if_pos (sub_neg.2 ht)]
    exact hasDerivAt_before ht
  · rw [if_neg (not_lt.2 (sub_pos.2 ht).le)]
    exact hasDerivAt_after ht (hg t)

/-- In the stationary phase the pose does not change and all rates are zero. -/
theorem C40_rest (e : CyclicTruth) (t : ℝ) (h : t < e.stationary) :
    e.position t = e.posOffset ∧ e.velocity t = 0 ∧ e.acceleration t = 0 ∧ e.orientation t = ⟨1, 0, 0, 0⟩ ∧
      e.angularRate t = 0 ∧ e.angularAcceleration t = 0 := by
  have h' : t - e.stationary < 0 := sub_neg.2 h
  refine ⟨if_pos h', if_pos h', if_pos h', ?_, if_pos h', if_pos h'⟩
  rw [orientation, rollPitchYaw, if_pos h']
  simp [eulerToQuat, Quat.ofAngleAxis, Quat.mul]

/-- Position and velocity never jump; the angles do not when they have no offset. -/
theorem C40_start_partial (e : CyclicTruth) :
    Continuous e.position ∧ Continuous e.velocity ∧ (e.angOffset = 0 → Continuous e.rollPitchYaw) := by
  refine ⟨continuous_iff_continuousAt.2 fun t => (C40_velocity e t).continuousAt, continuous_iff_continuousAt.2 fun t => ?_,
    fun h => continuous_iff_continuousAt.2 fun t => (hasDerivAt_rollPitchYaw e t (.inr h)).continuousAt⟩
  by_cases h : t = e.stationary
  · subst h
    have hg : ContinuousAt (fun t (i : Fin 3) =>
        e.posAmp * e.posFreq i * Real.pi * Real.sin (e.posFreq i * 2 * Real.pi * (t - e.stationary))) e.stationary :=
      (hasDerivAt_pi.2 fun i => hasDerivAt_speed _ _ _ _).continuousAt
    have hv : e.velocity e.stationary = 0 := by
      unfold velocity
      split_ifs
      · rfl
      · funext i; simp
    unfold ContinuousAt at hg ⊢
    dsimp only at hg
    rw [hv]
    have hz : (fun i : Fin 3 => e.posAmp * e.posFreq i * Real.pi *
        Real.sin (e.posFreq i * 2 * Real.pi * (e.stationary - e.stationary))) = (0 : V3 ℝ) := by funext i; simp
    rw [hz] at hg
    exact Filter.Tendsto.if' tendsto_const_nhds hg
  · exact (C40_acceleration e t h).continuousAt

/-- With an angular offset the orientation jumps when motion starts. -/
theorem C40_start_violated : ∃ e : CyclicTruth, ¬ContinuousAt (fun t => (e.orientation t).w) e.stationary := by
  let e : CyclicTruth := ⟨fun _ => 1, fun _ => 1, 0, ![Real.pi, 0, 0], 1, 1, 1⟩
  refine ⟨e, fun h => ?_⟩
  have h1 : (e.orientation 1).w = 0 := by
    simp [e, orientation, rollPitchYaw, eulerToQuat, Quat.ofAngleAxis, Quat.mul]
  have hev : (fun t => (e.orientation t).w) =ᶠ[nhdsWithin 1 (Set.Iio 1)] fun _ => (1 : ℝ) := by
    filter_upwards [self_mem_nhdsWithin] with t ht
    exact congrArg Quat.w (C40_rest e t ht).2.2.2.1
  have hl : Filter.Tendsto (fun t => (e.orientation t).w) (nhdsWithin 1 (Set.Iio 1)) (nhds 0) := by
    have := (show Filter.Tendsto _ (nhds (1 : ℝ)) (nhds (e.orientation 1).w) from h).mono_left
      (nhdsWithin_le_nhds (s := Set.Iio 1))
    rwa [h1] at this
  have hr : Filter.Tendsto (fun t => (e.orientation t).w) (nhdsWithin 1 (Set.Iio 1)) (nhds 1) :=
    tendsto_const_nhds.congr' hev.symm
  exact zero_ne_one (tendsto_nhds_unique hl hr)

/-! ## A concrete engine -/

example : ∃ (e : CyclicTruth) (t : ℝ), t ≠ e.stationary ∧ e.velocity t ≠ 0 ∧ HasDerivAt e.position (e.velocity t) t ∧
    HasDerivAt e.velocity (e.acceleration t) t := by
  let e : CyclicTruth := ⟨fun _ => 1, fun _ => 1, 0, 0, 1, 1, 1⟩
  refine ⟨e, 1 + 1 / 4, by simp [e], fun h => ?_, C40_velocity e _, C40_acceleration e _ (by simp [e])⟩
  have h0 := congrFun h 0
  have h2 : (2 * Real.pi * 4⁻¹ : ℝ) = Real.pi / 2 := by ring
  have hlt : ¬((4 : ℝ) < 0) := by norm_num
  simp [e, velocity, h2, hlt] at h0

end CyclicTruth
end EkfCal
