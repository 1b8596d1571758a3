import Verif.Model.Cyclic
import Verif.Spec.Kinematics
import Mathlib.Analysis.SpecialFunctions.Trigonometric.Deriv
import Mathlib.Analysis.Calculus.Deriv.Mul
import Mathlib.Analysis.Calculus.Deriv.Add
import Mathlib.Analysis.Calculus.Deriv.Prod
import Mathlib.Tactic.FinCases
import Mathlib.Tactic.LinearCombination

/-!
# Lemmas about the cyclic truth
-/

namespace EkfCal
open Filter Topology

section
variable {E : Type} [NormedAddCommGroup E] [NormedSpace ℝ E]

/-- A function that is `c` before `s` and `g` from `s` on has at `s` the derivative 0 that `g` has there. -/
theorem hasDerivAt_join {g : ℝ → E} {c : E} {s : ℝ} (hc : g s = c) (hg : HasDerivAt g 0 s) :
    HasDerivAt (fun t => if t - s < 0 then c else g t) 0 s := by
  have h1 : HasDerivWithinAt (fun t => if t - s < 0 then c else g t) 0 (Set.Iic s) s := by
    refine (hasDerivWithinAt_const s (Set.Iic s) c).congr (fun t ht => ?_) (by simp [hc])
    rcases lt_or_eq_of_le (Set.mem_Iic.1 ht) with h | h
    · exact if_pos (sub_neg.2 h)
    · subst h; simp [hc]
  have h2 : HasDerivWithinAt (fun t => if t - s < 0 then c else g t) 0 (Set.Ici s) s :=
    hg.hasDerivWithinAt.congr (fun t ht => if_neg (not_lt.2 (sub_nonneg.2 ht))) (by simp)
  have := h1.union h2
  rwa [Set.Iic_union_Ici, hasDerivWithinAt_univ] at this

theorem hasDerivAt_after {g : ℝ → E} {c d : E} {s t : ℝ} (ht : s < t) (hg : HasDerivAt g d t) :
    HasDerivAt (fun t => if t - s < 0 then c else g t) d t := by
  refine hg.congr_of_eventuallyEq ?_
  filter_upwards [lt_mem_nhds ht] with u hu
  exact if_neg (not_lt.2 (sub_pos.2 hu).le)

theorem hasDerivAt_before {g : ℝ → E} {c : E} {s t : ℝ} (ht : t < s) :
    HasDerivAt (fun t => if t - s < 0 then c else g t) 0 t := by
  refine (hasDerivAt_const t c).congr_of_eventuallyEq ?_
  filter_upwards [gt_mem_nhds ht] with u hu
  exact if_pos (sub_neg.2 hu)

end

theorem hasDerivAt_phase (f s t : ℝ) : HasDerivAt (fun t => f * 2 * Real.pi * (t - s)) (f * 2 * Real.pi) t := by
  simpa using ((hasDerivAt_id t).sub_const s).const_mul (f * 2 * Real.pi)

theorem hasDerivAt_swing (a f s o t : ℝ) :
    HasDerivAt (fun t => a / 2 * (1 - Real.cos (f * 2 * Real.pi * (t - s))) + o)
      (a * f * Real.pi * Real.sin (f * 2 * Real.pi * (t - s))) t := by
  have h := ((((hasDerivAt_phase f s t).cos).const_sub 1).const_mul (a / 2)).add_const o
  refine h.congr_deriv ?_
  ring

theorem hasDerivAt_speed (a f s t : ℝ) :
    HasDerivAt (fun t => a * f * Real.pi * Real.sin (f * 2 * Real.pi * (t - s)))
      (a * 2 * Real.pi * Real.pi * f * f * Real.cos (f * 2 * Real.pi * (t - s))) t := by
  have h := ((hasDerivAt_phase f s t).sin).const_mul (a * f * Real.pi)
  refine h.congr_deriv ?_
  ring

namespace CyclicTruth

/-- The velocity of the three angles. -/
noncomputable def rpyRate (e : CyclicTruth) (time : ℝ) : V3 ℝ :=
  if time - e.stationary < 0 then 0
  else fun i => e.angAmp * e.angFreq i * Real.pi * Real.sin (e.angFreq i * 2 * Real.pi * (time - e.stationary))

theorem angularRate_eq (e : CyclicTruth) (t : ℝ) :
    e.angularRate t = (eulerTransform (e.rollPitchYaw t)).mulVec (e.rpyRate t) := by
  unfold angularRate rpyRate
  split_ifs <;> simp

theorem hasDerivAt_rollPitchYaw (e : CyclicTruth) (t : ℝ) (h : t ≠ e.stationary ∨ e.angOffset = 0) :
    HasDerivAt e.rollPitchYaw (e.rpyRate t) t := by
  have hg (t : ℝ) : HasDerivAt (fun t (i : Fin 3) =>
      e.angAmp / 2 * (1 - Real.cos (e.angFreq i * 2 * Real.pi * (t - e.stationary))) + e.angOffset i)
      (fun i => e.angAmp * e.angFreq i * Real.pi * Real.sin (e.angFreq i * 2 * Real.pi * (t - e.stationary))) t :=
    hasDerivAt_pi.2 fun i => hasDerivAt_swing _ _ _ _ _
  unfold rpyRate
  rcases lt_trichotomy t e.stationary with ht | ht | ht
  · rw [if_pos (sub_neg.2 ht)]
    exact hasDerivAt_before ht
  · have h0 : e.angOffset = 0 := h.resolve_left fun hne => hne ht
    rw [if_neg (by simp [ht])]
    have h1 := hg t
    have hz : (fun i => e.angAmp * e.angFreq i * Real.pi * Real.sin (e.angFreq i * 2 * Real.pi * (t - e.stationary))) =
        (0 : V3 ℝ) := by
      funext i; simp [ht]
    rw [hz] at h1 ⊢
    subst ht
    exact hasDerivAt_join (by funext i; simp [h0]) h1
  · rw [if_neg (not_lt.2 (sub_pos.2 ht).le)]
    exact hasDerivAt_after ht (hg t)

end CyclicTruth

/-- Euler angles that move with the rates `d` turn the body with the rate the transform gives. -/
theorem turnsAt_euler (r : ℝ → V3 ℝ) (d : V3 ℝ) (t : ℝ) (h : HasDerivAt r d t) :
    TurnsAt (fun s => eulerToQuat (r s)) ((CyclicTruth.eulerTransform (r t)).mulVec d) t := by
  have hi (i : Fin 3) : HasDerivAt (fun s => r s i) (d i) t := hasDerivAt_pi.1 h i
  have hc (i : Fin 3) : HasDerivAt (fun s => Real.cos (r s i / 2)) (-Real.sin (r t i / 2) * (d i / 2)) t :=
    ((hi i).div_const 2).cos
  have hs (i : Fin 3) : HasDerivAt (fun s => Real.sin (r s i / 2)) (Real.cos (r t i / 2) * (d i / 2)) t :=
    ((hi i).div_const 2).sin
  have e0 (i : Fin 3) : Real.sin (r t i) = 2 * Real.sin (r t i / 2) * Real.cos (r t i / 2) := by
    rw [← Real.sin_two_mul]; congr 1; ring
  have e1 (i : Fin 3) : Real.cos (r t i) = Real.cos (r t i / 2) ^ 2 - Real.sin (r t i / 2) ^ 2 := by
    rw [← Real.cos_two_mul']; congr 1; ring
  have e2 (i : Fin 3) : Real.sin (r t i / 2) ^ 2 + Real.cos (r t i / 2) ^ 2 = 1 := Real.sin_sq_add_cos_sq _
  refine ⟨?_, ?_, ?_, ?_⟩
  · have H := (((hc 2).fun_mul (hc 1)).fun_mul (hc 0)).fun_add (((hs 2).fun_mul (hs 1)).fun_mul (hs 0))
    refine (H.congr_of_eventuallyEq (.of_forall fun s => ?_)).congr_deriv ?_
    · simp [eulerToQuat, Quat.ofAngleAxis, Quat.mul]
    · simp [eulerToQuat, Quat.ofAngleAxis, Quat.mul, CyclicTruth.eulerTransform, Matrix.mulVec, dotProduct,
        Fin.sum_univ_three, e0, e1]
      have q0 := e2 0; have q1 := e2 1; have q2 := e2 2
      clear e0 e1 e2 hc hs hi h H
      generalize Real.cos (r t 0 / 2) = c0, Real.sin (r t 0 / 2) = s0, Real.cos (r t 1 / 2) = c1,
        Real.sin (r t 1 / 2) = s1, Real.cos (r t 2 / 2) = c2, Real.sin (r t 2 / 2) = s2, d 0 = d0, d 1 = d1, d 2 = d2 at *
      grind
  · have H := (((hc 2).fun_mul (hc 1)).fun_mul (hs 0)).fun_sub (((hs 2).fun_mul (hs 1)).fun_mul (hc 0))
    refine (H.congr_of_eventuallyEq (.of_forall fun s => ?_)).congr_deriv ?_
    · simp [eulerToQuat, Quat.ofAngleAxis, Quat.mul]
      ring
    · simp [eulerToQuat, Quat.ofAngleAxis, Quat.mul, CyclicTruth.eulerTransform, Matrix.mulVec, dotProduct,
        Fin.sum_univ_three, e0, e1]
      have q0 := e2 0; have q1 := e2 1; have q2 := e2 2
      clear e0 e1 e2 hc hs hi h H
      generalize Real.cos (r t 0 / 2) = c0, Real.sin (r t 0 / 2) = s0, Real.cos (r t 1 / 2) = c1,
        Real.sin (r t 1 / 2) = s1, Real.cos (r t 2 / 2) = c2, Real.sin (r t 2 / 2) = s2, d 0 = d0, d 1 = d1, d 2 = d2 at *
      grind
  · have H := (((hc 2).fun_mul (hs 1)).fun_mul (hc 0)).fun_add (((hs 2).fun_mul (hc 1)).fun_mul (hs 0))
    refine (H.congr_of_eventuallyEq (.of_forall fun s => ?_)).congr_deriv ?_
    · simp [eulerToQuat, Quat.ofAngleAxis, Quat.mul]
    · simp [eulerToQuat, Quat.ofAngleAxis, Quat.mul, CyclicTruth.eulerTransform, Matrix.mulVec, dotProduct,
        Fin.sum_univ_three, e0, e1]
      have q0 := e2 0; have q1 := e2 1; have q2 := e2 2
      clear e0 e1 e2 hc hs hi h H
      generalize Real.cos (r t 0 / 2) = c0, Real.sin (r t 0 / 2) = s0, Real.cos (r t 1 / 2) = c1,
        Real.sin (r t 1 / 2) = s1, Real.cos (r t 2 / 2) = c2, Real.sin (r t 2 / 2) = s2, d 0 = d0, d 1 = d1, d 2 = d2 at *
      grind
  · have H := (((hs 2).fun_mul (hc 1)).fun_mul (hc 0)).fun_sub (((hc 2).fun_mul (hs 1)).fun_mul (hs 0))
    refine (H.congr_of_eventuallyEq (.of_forall fun s => ?_)).congr_deriv ?_
    · simp [eulerToQuat, Quat.ofAngleAxis, Quat.mul]
    · simp [eulerToQuat, Quat.ofAngleAxis, Quat.mul, CyclicTruth.eulerTransform, Matrix.mulVec, dotProduct,
        Fin.sum_univ_three, e0, e1]
      have q0 := e2 0; have q1 := e2 1; have q2 := e2 2
      clear e0 e1 e2 hc hs hi h H
      generalize Real.cos (r t 0 / 2) = c0, Real.sin (r t 0 / 2) = s0, Real.cos (r t 1 / 2) = c1,
        Real.sin (r t 1 / 2) = s1, Real.cos (r t 2 / 2) = c2, Real.sin (r t 2 / 2) = s2, d 0 = d0, d 1 = d1, d 2 = d2 at *
      grind

end EkfCal
