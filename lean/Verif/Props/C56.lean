import Verif.Lemmas.Cyclic
import Verif.Lemmas.Rotation
import Mathlib.Analysis.Calculus.Deriv.Comp

/-!
# C56: the spline truth is kinematically consistent

Violated for the angular rate, which is the rate of the Euler angles, and at the start of motion.
-/

namespace EkfCal
namespace SplineTruth

/-- While the engine follows its curves, the condition of the getters is false in a neighbourhood. -/
theorem eventually_valid (e : SplineTruth) (c : Curve) (hc : c.isNan = false) {t : ℝ} (h0 : e.stationary < t)
    (h1 : t - e.stationary < e.maxTime) :
    ∀ᶠ u in nhds t, ¬(e.timeInvalid (u - e.stationary) ∨ c.isNan = true) := by
  filter_upwards [lt_mem_nhds h0, gt_mem_nhds (show t < e.maxTime + e.stationary by linarith)] with u hu hu'
  rintro ((h | h) | h)
  · linarith
  · linarith
  · rw [hc] at h
    exact absurd h Bool.false_ne_true

theorem hasDerivAt_param (e : SplineTruth) (t : ℝ) : HasDerivAt e.param (1 / (e.maxTime - e.stationary)) t :=
  ((hasDerivAt_id t).sub_const e.stationary).div_const _

/-- Along a curve followed with this parameter, the derivative is the one of the curve divided by the duration. -/
theorem hasDerivAt_follow (e : SplineTruth) {f : ℝ → V3 ℝ} {d : V3 ℝ} (t : ℝ) (h : HasDerivAt f d (e.param t)) :
    HasDerivAt (fun u => f (e.param u)) (fun i => d i / (e.maxTime - e.stationary)) t := by
  refine (h.scomp t (e.hasDerivAt_param t)).congr_deriv ?_
  funext i
  simp [div_eq_inv_mul]

/-- Velocity is the derivative of position and acceleration that of velocity, wherever the curve is twice differentiable. -/
theorem C56_translation (e : SplineTruth) (t : ℝ) (h0 : e.stationary < t) (h1 : t - e.stationary < e.maxTime)
    (hn : e.pos.isNan = false) (hl : e.pos.Law (e.param t)) (_hd : e.maxTime ≠ e.stationary) :
    HasDerivAt e.position (e.velocity t) t ∧ HasDerivAt e.velocity (e.acceleration t) t := by
  have hev := e.eventually_valid e.pos hn h0 h1
  have ht := hev.self_of_nhds
  constructor
  · rw [velocity, if_neg ht]
    refine (e.hasDerivAt_follow t hl.1).congr_of_eventuallyEq ?_
    filter_upwards [hev] with u hu
    exact if_neg hu
  · rw [acceleration, if_neg ht]
    have h := e.hasDerivAt_follow (f := fun u i => e.pos.d1 u i / (e.maxTime - e.stationary)) t
      (hasDerivAt_pi.2 fun i => (hasDerivAt_pi.1 hl.2 i).div_const _)
    refine h.congr_of_eventuallyEq ?_
    filter_upwards [hev] with u hu
    exact if_neg hu

/-- Angular acceleration is the derivative of the reported angular rate. -/
theorem C56_acceleration_partial (e : SplineTruth) (t : ℝ) (h0 : e.stationary < t) (h1 : t - e.stationary < e.maxTime)
    (hn : e.ang.isNan = false) (hl : e.ang.Law (e.param t)) (_hd : e.maxTime ≠ e.stationary) :
    HasDerivAt e.angularRate (e.angularAcceleration t) t := by
  have hev := e.eventually_valid e.ang hn h0 h1
  have ht := hev.self_of_nhds
  rw [angularAcceleration, if_neg ht]
  have h := e.hasDerivAt_follow (f := fun u i => e.ang.d1 u i / (e.maxTime - e.stationary)) t
    (hasDerivAt_pi.2 fun i => (hasDerivAt_pi.1 hl.2 i).div_const _)
  refine h.congr_of_eventuallyEq ?_
  filter_upwards [hev] with u hu
  exact if_neg hu

/-- The orientation turns with the rate the Euler transform makes of the rates of the angles. -/
theorem orientation_turns (e : SplineTruth) (t : ℝ) (h0 : e.stationary < t) (h1 : t - e.stationary < e.maxTime)
    (hn : e.ang.isNan = false) (hl : e.ang.Law (e.param t)) :
    TurnsAt e.orientation ((CyclicTruth.eulerTransform (e.ang.val (e.param t))).mulVec (e.angularRate t)) t := by
  have hev := e.eventually_valid e.ang hn h0 h1
  have ht := hev.self_of_nhds
  have hr : e.angularRate t = fun i => e.ang.d1 (e.param t) i / (e.maxTime - e.stationary) := if_neg ht
  have h := turnsAt_euler (fun u => e.ang.val (e.param u)) _ t (e.hasDerivAt_follow t hl.1)
  rw [hr]
  have hq : e.orientation =ᶠ[nhds t] fun u => eulerToQuat (e.ang.val (e.param u)) := by
    filter_upwards [hev] with u hu
    exact if_neg hu
  obtain ⟨a, b, c, d⟩ := h
  unfold TurnsAt
  rw [hq.self_of_nhds]
  exact ⟨a.congr_of_eventuallyEq (hq.fun_comp Quat.w), b.congr_of_eventuallyEq (hq.fun_comp Quat.x),
    c.congr_of_eventuallyEq (hq.fun_comp Quat.y), d.congr_of_eventuallyEq (hq.fun_comp Quat.z)⟩

/-- For a curve that turns about one angle and keeps the others at zero, the angular rate is that of the orientation. -/
theorem C56_rate_partial (e : SplineTruth) (t : ℝ) (k : Fin 3) (h0 : e.stationary < t) (h1 : t - e.stationary < e.maxTime)
    (hn : e.ang.isNan = false) (hl : e.ang.Law (e.param t)) (_hd : e.maxTime ≠ e.stationary)
    (hk : ∀ u i, i ≠ k → e.ang.val u i = 0) : TurnsAt e.orientation (e.angularRate t) t := by
  have h := e.orientation_turns t h0 h1 hn hl
  have hz (i : Fin 3) (hi : i ≠ k) : e.angularRate t i = 0 := by
    have h2 := hasDerivAt_pi.1 hl.1 i
    have h3 : (fun u => e.ang.val u i) = fun _ => (0 : ℝ) := by funext u; exact hk u i hi
    rw [h3] at h2
    have h4 := h2.unique (hasDerivAt_const _ _)
    rw [angularRate, if_neg (e.eventually_valid e.ang hn h0 h1).self_of_nhds, h4, zero_div]
  have he : (CyclicTruth.eulerTransform (e.ang.val (e.param t))).mulVec (e.angularRate t) = e.angularRate t := by
    funext i
    simp only [CyclicTruth.eulerTransform, Matrix.mulVec, dotProduct, Fin.sum_univ_three]
    fin_cases k
    · have a1 := hz 1 (by decide); have a2 := hz 2 (by decide)
      fin_cases i <;> simp [a1, a2]
    · have a1 := hz 0 (by decide); have a2 := hz 2 (by decide); have a3 := hk (e.param t) 0 (by decide)
      fin_cases i <;> simp [a1, a2, a3]
    · have a1 := hz 0 (by decide); have a2 := hz 1 (by decide); have a3 := hk (e.param t) 0 (by decide)
      have a4 := hk (e.param t) 1 (by decide)
      fin_cases i <;> simp [a1, a2, a3, a4]
  rwa [he] at h

/-- An engine whose angles are `a + u • b`, and whose position stays at `p`. -/
def straight (a b p : V3 ℝ) : SplineTruth :=
  ⟨⟨fun _ => p, fun _ => 0, fun _ => 0, false⟩, ⟨fun u i => a i + u * b i, fun _ => b, fun _ => 0, false⟩, 1, 10⟩

theorem straight_law (a b p : V3 ℝ) (u : ℝ) : (straight a b p).pos.Law u ∧ (straight a b p).ang.Law u := by
  refine ⟨⟨hasDerivAt_const _ _, hasDerivAt_const _ _⟩, hasDerivAt_pi.2 fun i => ?_, hasDerivAt_const _ _⟩
  show HasDerivAt (fun u => a i + u * b i) (b i) u
  simpa using ((hasDerivAt_id u).mul_const (b i)).const_add (a i)

theorem eulerToQuat_normSq (r : V3 ℝ) : (eulerToQuat r).normSq = 1 := by
  rw [eulerToQuat, Quat.normSq_mul, Quat.normSq_mul, Quat.ofAngleAxis_unit _ _ (by simp), Quat.ofAngleAxis_unit _ _ (by simp),
    Quat.ofAngleAxis_unit _ _ (by simp)]
  norm_num

/-- At a pitch of 90° a change of yaw turns the body about its first axis, but the reported rate is about the third. -/
theorem C56_rate_violated : ∃ (e : SplineTruth) (t : ℝ), e.stationary < t ∧ t - e.stationary < e.maxTime ∧
    (∀ u, e.ang.Law u) ∧ ¬TurnsAt e.orientation (e.angularRate t) t := by
  let e := straight ![0, Real.pi / 2, 0] ![0, 0, 1] 0
  have h0 : e.stationary < 2 := by norm_num [e, straight]
  have h1 : 2 - e.stationary < e.maxTime := by norm_num [e, straight]
  refine ⟨e, 2, h0, h1, fun u => (straight_law _ _ _ u).2, fun h => ?_⟩
  have h' := e.orientation_turns 2 h0 h1 rfl (straight_law _ _ _ _).2
  have hr : e.angularRate 2 = ![0, 0, 1 / 9] := by
    rw [angularRate, if_neg (e.eventually_valid e.ang rfl h0 h1).self_of_nhds]
    funext i
    fin_cases i <;> norm_num [e, straight]
  have hm : (CyclicTruth.eulerTransform (e.ang.val (e.param 2))).mulVec (e.angularRate 2) = ![-(1 / 9), 0, 0] := by
    rw [hr]
    funext i
    fin_cases i <;> simp [e, straight, CyclicTruth.eulerTransform, Matrix.mulVec, dotProduct, Fin.sum_univ_three]
  rw [hm] at h'
  rw [hr] at h
  have hw := h.1.unique h'.1
  have hx := h.2.1.unique h'.2.1
  have hy := h.2.2.1.unique h'.2.2.1
  have hz := h.2.2.2.unique h'.2.2.2
  have hq : (e.orientation 2).normSq = 1 := by
    rw [orientation, if_neg (e.eventually_valid e.ang rfl h0 h1).self_of_nhds]
    exact eulerToQuat_normSq _
  simp [Quat.mul] at hw hx hy hz
  simp only [Quat.normSq] at hq
  nlinarith

/-- Before the start of motion the position is zero, whatever the first control point: the position jumps. -/
theorem C56_start_violated : ∃ e : SplineTruth, (∀ u, e.pos.Law u) ∧ ¬ContinuousAt e.position e.stationary := by
  let e := straight 0 0 ![1, 0, 0]
  refine ⟨e, fun u => (straight_law _ _ _ u).1, fun h => ?_⟩
  have h1 : e.position 1 = ![1, 0, 0] := by
    rw [position, if_neg]
    · rfl
    · rintro ((h | h) | h) <;> norm_num [e, straight] at h
  have hev : e.position =ᶠ[nhdsWithin 1 (Set.Iio 1)] fun _ => 0 := by
    filter_upwards [self_mem_nhdsWithin] with u hu
    exact if_pos (Or.inl (Or.inl (sub_neg.2 hu)))
  have hl : Filter.Tendsto e.position (nhdsWithin 1 (Set.Iio 1)) (nhds (e.position 1)) :=
    (show Filter.Tendsto _ (nhds (1 : ℝ)) _ from h).mono_left nhdsWithin_le_nhds
  have hr : Filter.Tendsto e.position (nhdsWithin 1 (Set.Iio 1)) (nhds 0) := tendsto_const_nhds.congr' hev.symm
  have := congrFun (tendsto_nhds_unique hl hr) 0
  rw [h1] at this
  simp at this

/-! ## Concrete motions -/

example : ∃ e : SplineTruth, HasDerivAt e.position (e.velocity 5) 5 ∧ TurnsAt e.orientation (e.angularRate 5) 5 ∧
    e.angularRate 5 ≠ 0 := by
  let e := straight 0 ![0, 3, 0] ![1, 2, 3]
  have h0 : e.stationary < 5 := by norm_num [e, straight]
  have h1 : 5 - e.stationary < e.maxTime := by norm_num [e, straight]
  have hd : e.maxTime ≠ e.stationary := by norm_num [e, straight]
  refine ⟨e, (e.C56_translation 5 h0 h1 rfl (straight_law _ _ _ _).1 hd).1,
    e.C56_rate_partial 5 1 h0 h1 rfl (straight_law _ _ _ _).2 hd ?_, fun h => ?_⟩
  · intro u i hi
    fin_cases i
    · simp [e, straight]
    · exact absurd rfl hi
    · simp [e, straight]
  · rw [angularRate, if_neg (e.eventually_valid e.ang rfl h0 h1).self_of_nhds] at h
    have := congrFun h 1
    norm_num [e, straight] at this

end SplineTruth
end EkfCal
