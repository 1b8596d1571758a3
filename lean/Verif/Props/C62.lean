import Verif.Props.C61
import Verif.Props.C21
import Verif.Props.C50
import Verif.Props.C60
import Mathlib.LinearAlgebra.Matrix.Determinant.Basic

/-!
# C62 — a marker's observed orientation pulls the estimate towards it

The orientation part of a marker's residual should shrink when the estimate is corrected: its columns in the Jacobian have to
be minus the derivative of the residual.
-/

set_option linter.unusedSectionVars false

namespace EkfCal
open Ekf CamRowsSample Matrix

/-! ## Rotation vectors of small turns -/

theorem quatToRotVec_exp {d : V3 ℝ} (h : V3.norm d < Real.pi) : quatToRotVec (expQuat d) = d := by
  by_cases h0 : V3.norm d = 0
  · rw [norm_eq_zero_iff.1 h0, expQuat_zero]; exact quatToRotVec_one.1
  have hp : 0 < V3.norm d := lt_of_le_of_ne (V3.norm_nonneg d) (Ne.symm h0)
  have he : expQuat d = Quat.ofAngleAxis (V3.norm d) (fun i => d i / V3.norm d) := by
    rw [expQuat, Quat.ofAngleAxis, Real.sinc_of_ne_zero (by linarith)]
    congr 1 <;> field_simp
  rw [he, quatToRotVec_ofAngleAxis _ _ (V3.unit_sq h0) hp h.le]
  funext i
  show d i / V3.norm d * V3.norm d = d i
  field_simp

theorem expQuat_w {d : V3 ℝ} (h : V3.norm d < Real.pi) : 0 < (expQuat d).w :=
  Real.cos_pos_of_mem_Ioo ⟨by have := V3.norm_nonneg d; have := Real.pi_pos; linarith, by linarith⟩

theorem quatToRotVec_opp {q : Quat ℝ} (h : q.w ≠ 0) : quatToRotVec q.opp = quatToRotVec q := by
  have hn : V3.norm ![q.opp.x, q.opp.y, q.opp.z] = V3.norm ![q.x, q.y, q.z] := by simp [V3.norm, Quat.opp]
  unfold quatToRotVec Quat.toAngleAxis
  rw [hn]
  by_cases h0 : V3.norm ![q.x, q.y, q.z] = 0
  · simp [h0]
  rcases lt_or_gt_of_ne h with hw | hw
  · have hw' : ¬ q.opp.w < 0 := by simp [Quat.opp]; exact hw.le
    funext i
    simp only [ne_eq, h0, not_false_eq_true, if_true, hw, hw', if_false]
    fin_cases i <;> simp [Quat.opp, neg_div, div_neg]
  · have hw' : q.opp.w < 0 := by simpa [Quat.opp] using hw
    have hw2 : ¬ q.w < 0 := not_lt.2 hw.le
    funext i
    simp only [ne_eq, h0, not_false_eq_true, if_true, hw', hw2, if_false]
    fin_cases i <;> simp [Quat.opp]

theorem norm_mulVec {q : Quat ℝ} (h : q.normSq = 1) (d : V3 ℝ) : V3.norm (q.toMat.mulVec d) = V3.norm d := by
  rw [← Quat.rotate_eq_mulVec]
  exact Quat.rotate_norm q h d

/-- A turn seen from another frame is the turn by the turned vector. -/
theorem expQuat_conj {q : Quat ℝ} (h : q.normSq = 1) (d : V3 ℝ) : (q.mul (expQuat d)).mul q.inverse = expQuat (q.toMat.mulVec d) := by
  have hn := norm_mulVec h d
  unfold expQuat
  rw [hn, Quat.toMat_hom h]
  generalize Real.cos (V3.norm d / 2) = c
  generalize Real.sinc (V3.norm d / 2) / 2 = s
  obtain ⟨w, x, y, z⟩ := q
  simp only [Quat.inverse, h, div_one]
  simp only [Quat.normSq] at h
  have e1 : w * w + x * x + y * y + z * z = 1 := h
  simp only [Quat.mul, Quat.mk.injEq]
  simp [Matrix.mulVec, dotProduct, Fin.sum_univ_three]
  refine ⟨?_, ?_, ?_, ?_⟩ <;> grind

theorem expQuat_inverse (d : V3 ℝ) : (expQuat d).inverse = expQuat (-d) := by
  have hn : V3.norm (-d) = V3.norm d := by simp [V3.norm]
  have hu := expQuat_unit d
  simp only [Quat.inverse, hu, div_one]
  simp [expQuat, hn]

theorem rotVec_norm {q : Quat ℝ} (h : q.normSq = 1) (hm0 : V3.norm ![q.x, q.y, q.z] ≠ 0) :
    V3.norm (quatToRotVec q) = 2 * atan2 (V3.norm ![q.x, q.y, q.z]) |q.w| := by
  obtain ⟨w, x, y, z⟩ := q
  simp only [Quat.normSq] at h hm0 ⊢
  have hsq : V3.norm ![x, y, z] * V3.norm ![x, y, z] = x * x + y * y + z * z := V3.norm_sq _
  have h0 := V3.norm_nonneg ![x, y, z]
  have hm : 0 < V3.norm ![x, y, z] := lt_of_le_of_ne h0 (Ne.symm hm0)
  obtain ⟨a1, a2, a3⟩ := atan2_unit (w := w) hm (by rw [hsq]; linarith)
  refine V3.norm_eq_of_sq (by linarith) ?_
  simp only [quatToRotVec, Quat.toAngleAxis, ne_eq, hm0, not_false_eq_true, if_true]
  generalize V3.norm ![x, y, z] = m at *
  generalize atan2 m |w| = t at *
  split <;> simp [Matrix.cons_val] <;> field_simp <;> nlinarith

theorem rotVec_of_zero {q : Quat ℝ} (hm0 : V3.norm ![q.x, q.y, q.z] = 0) : quatToRotVec q = 0 := by
  funext i; simp [quatToRotVec, Quat.toAngleAxis, hm0]

/-- The angle of a rotation vector. -/
theorem rotVec_cos {q : Quat ℝ} (h : q.normSq = 1) : Real.cos (V3.norm (quatToRotVec q) / 2) = |q.w| ∧ V3.norm (quatToRotVec q) ≤ Real.pi := by
  have hsq : V3.norm ![q.x, q.y, q.z] * V3.norm ![q.x, q.y, q.z] = q.x * q.x + q.y * q.y + q.z * q.z := V3.norm_sq _
  have h0 := V3.norm_nonneg ![q.x, q.y, q.z]
  have hu : q.w * q.w + q.x * q.x + q.y * q.y + q.z * q.z = 1 := h
  by_cases hm0 : V3.norm ![q.x, q.y, q.z] = 0
  · rw [rotVec_of_zero hm0, V3.norm_zero]
    have hw : |q.w| = 1 := by
      rw [hm0] at hsq
      have : |q.w| * |q.w| = 1 := by rw [abs_mul_abs_self]; linarith
      nlinarith [abs_nonneg q.w]
    exact ⟨by simp [hw], Real.pi_pos.le⟩
  · have hm : 0 < V3.norm ![q.x, q.y, q.z] := lt_of_le_of_ne h0 (Ne.symm hm0)
    obtain ⟨a1, a2, a3⟩ := atan2_unit (w := q.w) hm (by rw [hsq]; linarith)
    have hle : atan2 (V3.norm ![q.x, q.y, q.z]) |q.w| ≤ Real.pi / 2 := by
      unfold atan2
      exact (Complex.arg_le_pi_div_two_iff.2 (.inl (abs_nonneg q.w)))
    rw [rotVec_norm h hm0]
    refine ⟨by rw [mul_div_cancel_left₀ _ two_ne_zero]; exact a1, by linarith⟩

/-- Back and forth through the rotation vector, for any angle the code does not treat as none. -/
theorem rotVec_back {q : Quat ℝ} (h : q.normSq = 1) (hl : 1 / 10 ^ 9 < V3.norm (quatToRotVec q)) :
    rotVecToQuat (quatToRotVec q) = q ∨ rotVecToQuat (quatToRotVec q) = q.opp := by
  by_cases hm0 : V3.norm ![q.x, q.y, q.z] = 0
  · rw [rotVec_of_zero hm0, V3.norm_zero] at hl
    norm_num at hl
  · exact rotVec_round q h (by rw [← rotVec_norm h hm0]; exact hl)

theorem rotVec_large_iff {q : Quat ℝ} (h : q.normSq = 1) : 1 / 10 ^ 9 < V3.norm (quatToRotVec q) ↔ q.w * q.w < Real.cos (1 / 10 ^ 9 / 2) ^ 2 := by
  obtain ⟨h1, h2⟩ := rotVec_cos h
  have h0 := V3.norm_nonneg (quatToRotVec q)
  have hpi := Real.two_le_pi
  have hc : 0 < Real.cos (1 / 10 ^ 9 / 2) := Real.cos_pos_of_mem_Ioo ⟨by norm_num; linarith, by norm_num; linarith⟩
  rw [← abs_mul_abs_self q.w, ← pow_two, ← h1, pow_lt_pow_iff_left₀ (by rw [h1]; positivity) hc.le (by norm_num)]
  rw [Real.strictAntiOn_cos.lt_iff_gt ⟨by linarith, by linarith⟩ ⟨by norm_num, by norm_num; linarith⟩]
  constructor <;> intro h <;> linarith

/-! ## The residual -/

/-- The orientation residual of a detected orientation: predicted after the inverse of observed, as `UpdateEKF` forms it. -/
noncomputable def FidUpdater.turnResidual (N : Num ℝ) (u : FidUpdater ℝ) (e : Ekf ℝ) (f : FidState ℝ) (ang : Quat ℝ) : V3 ℝ :=
  N.quatToRotVec ((N.rotVecToQuat (u.pred N e f).2).mul ang.inverse)

theorem Quat.inverse_mul_unit {a b : Quat ℝ} (ha : a.normSq = 1) (hb : b.normSq = 1) :
    (a.mul b).inverse = b.inverse.mul a.inverse := by
  rw [Quat.inverse_of_unit ha, Quat.inverse_of_unit hb, Quat.inverse_of_unit (by rw [Quat.normSq_mul, ha, hb, _root_.mul_one])]
  simp only [Quat.mul, Quat.mk.injEq]
  refine ⟨?_, ?_, ?_, ?_⟩ <;> ring

theorem Quat.inverse_inverse_unit {a : Quat ℝ} (ha : a.normSq = 1) : a.inverse.inverse = a := by
  rw [Quat.inverse_of_unit (Quat.inverse_unit ha), Quat.inverse_of_unit ha]
  simp

theorem Quat.mul_inverse_cancel {a : Quat ℝ} (ha : a.normSq = 1) (b : Quat ℝ) : a.mul (a.inverse.mul b) = b := by
  rw [← Quat.mul_assoc', Quat.mul_inverse_self ha]; simp [Quat.mul, Quat.one]

theorem Quat.inverse_mul_cancel {a : Quat ℝ} (ha : a.normSq = 1) (b : Quat ℝ) : a.inverse.mul (a.mul b) = b := by
  rw [← Quat.mul_assoc', Quat.inverse_mul_self ha]; simp [Quat.mul, Quat.one]

/-- The orientation of a marker `f` seen from a camera `c` on a body `q`. -/
noncomputable def seenTurn (c q f : Quat ℝ) : Quat ℝ := (c.inverse.mul q.inverse).mul f

theorem seenTurn_unit {c q f : Quat ℝ} (hc : c.normSq = 1) (hq : q.normSq = 1) (hf : f.normSq = 1) : (seenTurn c q f).normSq = 1 := by
  rw [seenTurn, Quat.normSq_mul, Quat.normSq_mul, Quat.inverse_unit hc, Quat.inverse_unit hq, hf]; norm_num

section
variable (N : Num ℝ) (hof : N.OfMatLaw) (h1 : N.rotVecToQuat = rotVecToQuat) (h2 : N.quatToRotVec = quatToRotVec)
  (u : FidUpdater ℝ) (e : Ekf ℝ) (s : CamState ℝ) (f : FidState ℝ) (hf : e.useFirstEstimate = false)
  (hs : e.state.cams.find? u.cameraId = some s)
include hof h1 h2 hf hs

theorem pred_turn (hq : e.state.body.ang.normSq = 1) (hc : s.ang.normSq = 1) :
    (u.pred N e f).2 = quatToRotVec (seenTurn s.ang e.state.body.ang f.ang) ∨
    (u.pred N e f).2 = quatToRotVec (seenTurn s.ang e.state.body.ang f.ang).opp := by
  have hg : u.camOf e = s := by simp [FidUpdater.camOf, UMap.getD, hs]
  have hr : u.refresh e f = { u with posC := s.pos, angC := s.ang, posF := f.pos, angF := f.ang, isFirst := false } := by
    simp [FidUpdater.refresh, hf, hg]
  simp only [FidUpdater.pred, hr, FidUpdater.predictOf, h2]
  rcases board_quat N hof (f := f.ang) hc hq with h | h
  · exact .inl (congrArg quatToRotVec h)
  · exact .inr (congrArg quatToRotVec h)

/-- The residual is the turn from the observed to the predicted orientation. -/
theorem turnResidual_eq (hq : e.state.body.ang.normSq = 1) (hc : s.ang.normSq = 1) (hfu : f.ang.normSq = 1) (ang : Quat ℝ)
    (hl : 1 / 10 ^ 9 < V3.norm (u.pred N e f).2)
    (hw : ((seenTurn s.ang e.state.body.ang f.ang).mul ang.inverse).w ≠ 0) :
    u.turnResidual N e f ang = quatToRotVec ((seenTurn s.ang e.state.body.ang f.ang).mul ang.inverse) := by
  have hu := seenTurn_unit hc hq hfu
  have key : N.rotVecToQuat (u.pred N e f).2 = seenTurn s.ang e.state.body.ang f.ang ∨
      N.rotVecToQuat (u.pred N e f).2 = (seenTurn s.ang e.state.body.ang f.ang).opp := by
    rw [h1]
    rcases pred_turn N hof h1 h2 u e s f hf hs hq hc with h | h
    · rw [h] at hl ⊢
      exact rotVec_back hu hl
    · rw [h] at hl ⊢
      have := rotVec_back (Quat.opp_unit hu) hl
      rw [Quat.opp_opp] at this
      exact this.symm
  rw [FidUpdater.turnResidual, h2]
  rcases key with h | h
  · rw [h]
  · rw [h, Quat.opp_mul, quatToRotVec_opp hw]

end

theorem seen_body {c q f : Quat ℝ} (hc : c.normSq = 1) (hq : q.normSq = 1) (hf : f.normSq = 1) (d : V3 ℝ) :
    (seenTurn c (q.turn d) f).mul (seenTurn c q f).inverse = expQuat (-(c.toMat.transpose.mulVec d)) := by
  have hcq : (c.inverse.mul q.inverse).normSq = 1 := by rw [Quat.normSq_mul, Quat.inverse_unit hc, Quat.inverse_unit hq, _root_.mul_one]
  rw [seenTurn, seenTurn, Quat.inverse_mul_unit hcq hf, Quat.inverse_mul_unit (Quat.inverse_unit hc) (Quat.inverse_unit hq),
    Quat.inverse_inverse_unit hc, Quat.inverse_inverse_unit hq, Quat.turn, Quat.inverse_mul_unit hq (expQuat_unit d), expQuat_inverse]
  simp only [Quat.mul_assoc', Quat.mul_inverse_cancel hf, Quat.inverse_mul_cancel hq]
  have := expQuat_conj (Quat.inverse_unit hc) (-d)
  rw [Quat.inverse_inverse_unit hc, Quat.mul_assoc', Quat.toMat_inverse hc, Matrix.mulVec_neg] at this
  exact this

theorem seen_camera {c q f : Quat ℝ} (hc : c.normSq = 1) (hq : q.normSq = 1) (hf : f.normSq = 1) (d : V3 ℝ) :
    (seenTurn (c.turn d) q f).mul (seenTurn c q f).inverse = expQuat (-d) := by
  have hcq : (c.inverse.mul q.inverse).normSq = 1 := by rw [Quat.normSq_mul, Quat.inverse_unit hc, Quat.inverse_unit hq, _root_.mul_one]
  rw [seenTurn, seenTurn, Quat.inverse_mul_unit hcq hf, Quat.inverse_mul_unit (Quat.inverse_unit hc) (Quat.inverse_unit hq),
    Quat.inverse_inverse_unit hc, Quat.inverse_inverse_unit hq, Quat.turn, Quat.inverse_mul_unit hc (expQuat_unit d), expQuat_inverse]
  simp only [Quat.mul_assoc', Quat.mul_inverse_cancel hf, Quat.inverse_mul_cancel hq, Quat.inverse_mul_self hc]
  simp [Quat.mul, Quat.one]

theorem seen_marker {c q f : Quat ℝ} (hc : c.normSq = 1) (hq : q.normSq = 1) (hf : f.normSq = 1) (d : V3 ℝ) :
    (seenTurn c q (f.turn d)).mul (seenTurn c q f).inverse = expQuat ((seenTurn c q f).toMat.mulVec d) := by
  rw [← expQuat_conj (seenTurn_unit hc hq hf) d]
  congr 1
  simp only [seenTurn, Quat.turn, Quat.mul_assoc']

/-- **What the residual is**: for a detection of the orientation the filter predicts, the residual after the estimate is turned
by `d` is exactly linear in `d`: the turn from the observed to the predicted orientation. -/
theorem C62_residual_partial (N : Num ℝ) (hof : N.OfMatLaw) (h1 : N.rotVecToQuat = rotVecToQuat) (h2 : N.quatToRotVec = quatToRotVec)
    (u : FidUpdater ℝ) (e : Ekf ℝ) (s : CamState ℝ) (f : FidState ℝ) (hf : e.useFirstEstimate = false)
    (hs : e.state.cams.find? u.cameraId = some s) (hq : e.state.body.ang.normSq = 1) (hc : s.ang.normSq = 1) (hfu : f.ang.normSq = 1)
    (d : V3 ℝ) (hd : V3.norm d < Real.pi) :
    (1 / 10 ^ 9 < V3.norm (u.pred N (e.withBody { e.state.body with ang := e.state.body.ang.turn d }) f).2 →
      u.turnResidual N (e.withBody { e.state.body with ang := e.state.body.ang.turn d }) f (seenTurn s.ang e.state.body.ang f.ang) =
        -(s.ang.toMat.transpose.mulVec d)) ∧
    (1 / 10 ^ 9 < V3.norm (u.pred N (e.withCam u.cameraId { s with ang := s.ang.turn d }) f).2 →
      u.turnResidual N (e.withCam u.cameraId { s with ang := s.ang.turn d }) f (seenTurn s.ang e.state.body.ang f.ang) = -d) ∧
    (1 / 10 ^ 9 < V3.norm (u.pred N e { f with ang := f.ang.turn d }).2 →
      u.turnResidual N e { f with ang := f.ang.turn d } (seenTurn s.ang e.state.body.ang f.ang) =
        (seenTurn s.ang e.state.body.ang f.ang).toMat.mulVec d) := by
  refine ⟨fun hl => ?_, fun hl => ?_, fun hl => ?_⟩
  · have hn : V3.norm (-(s.ang.toMat.transpose.mulVec d)) < Real.pi := by
      rw [← Matrix.mulVec_neg, ← Quat.toMat_inverse hc, norm_mulVec (Quat.inverse_unit hc)]
      have : V3.norm (-d) = V3.norm d := by simp [V3.norm]
      rw [this]; exact hd
    have he := seen_body hc hq hfu d
    have := turnResidual_eq N hof h1 h2 u (e.withBody { e.state.body with ang := e.state.body.ang.turn d }) s f hf hs (Quat.turn_unit hq d) hc hfu
      (seenTurn s.ang e.state.body.ang f.ang) hl (by show ((seenTurn s.ang (e.state.body.ang.turn d) f.ang).mul _).w ≠ 0; rw [he]; exact (expQuat_w hn).ne')
    refine this.trans ?_
    show quatToRotVec ((seenTurn s.ang (e.state.body.ang.turn d) f.ang).mul _) = _
    rw [he, quatToRotVec_exp hn]
  · have hn : V3.norm (-d) < Real.pi := by
      have : V3.norm (-d) = V3.norm d := by simp [V3.norm]
      rw [this]; exact hd
    have he := seen_camera hc hq hfu d
    have hs' : (e.withCam u.cameraId { s with ang := s.ang.turn d }).state.cams.find? u.cameraId = some { s with ang := s.ang.turn d } := by
      simp [Ekf.withCam, UMap.find?_insert_self]
    have := turnResidual_eq N hof h1 h2 u (e.withCam u.cameraId { s with ang := s.ang.turn d }) { s with ang := s.ang.turn d } f hf hs' hq (Quat.turn_unit hc d) hfu
      (seenTurn s.ang e.state.body.ang f.ang) hl (by show ((seenTurn (s.ang.turn d) e.state.body.ang f.ang).mul _).w ≠ 0; rw [he]; exact (expQuat_w hn).ne')
    refine this.trans ?_
    show quatToRotVec ((seenTurn (s.ang.turn d) e.state.body.ang f.ang).mul _) = _
    rw [he, quatToRotVec_exp hn]
  · have hn : V3.norm ((seenTurn s.ang e.state.body.ang f.ang).toMat.mulVec d) < Real.pi := by
      rw [norm_mulVec (seenTurn_unit hc hq hfu)]; exact hd
    have he := seen_marker hc hq hfu d
    have := turnResidual_eq N hof h1 h2 u e s { f with ang := f.ang.turn d } hf hs hq hc (Quat.turn_unit hfu d)
      (seenTurn s.ang e.state.body.ang f.ang) hl (by show ((seenTurn s.ang e.state.body.ang (f.ang.turn d)).mul _).w ≠ 0; rw [he]; exact (expQuat_w hn).ne')
    refine this.trans ?_
    show quatToRotVec ((seenTurn s.ang e.state.body.ang (f.ang.turn d)).mul _) = _
    rw [he, quatToRotVec_exp hn]

/-! ## The columns -/

theorem continuous_expQuat : Continuous (fun d : V3 ℝ => (expQuat d).w) ∧ Continuous (fun d : V3 ℝ => (expQuat d).x) ∧
    Continuous (fun d : V3 ℝ => (expQuat d).y) ∧ Continuous (fun d : V3 ℝ => (expQuat d).z) := by
  have h := continuous_norm
  have h2 : Continuous fun d : V3 ℝ => Real.sinc (V3.norm d / 2) / 2 := (Real.continuous_sinc.comp (h.div_const 2)).div_const 2
  refine ⟨Real.continuous_cos.comp (h.div_const 2), ?_, ?_, ?_⟩
  · exact h2.mul (continuous_apply 0)
  · exact h2.mul (continuous_apply 1)
  · exact h2.mul (continuous_apply 2)

/-- A turn the code does not treat as none stays so nearby. -/
theorem large_nearby {m : Quat ℝ} (hm : m.normSq = 1) (hl : 1 / 10 ^ 9 < V3.norm (quatToRotVec m)) (A : M3 ℝ) :
    ∀ᶠ d in nhds (0 : V3 ℝ), 1 / 10 ^ 9 < V3.norm (quatToRotVec ((expQuat (A.mulVec d)).mul m)) ∧
      1 / 10 ^ 9 < V3.norm (quatToRotVec ((expQuat (A.mulVec d)).mul m).opp) ∧ V3.norm d < Real.pi := by
  obtain ⟨c1, c2, c3, c4⟩ := continuous_expQuat
  have cA : Continuous fun d : V3 ℝ => A.mulVec d := Continuous.matrix_mulVec continuous_const continuous_id
  have cw : Continuous fun d : V3 ℝ => ((expQuat (A.mulVec d)).mul m).w := by
    show Continuous fun d : V3 ℝ => (expQuat (A.mulVec d)).w * m.w - (expQuat (A.mulVec d)).x * m.x - (expQuat (A.mulVec d)).y * m.y -
      (expQuat (A.mulVec d)).z * m.z
    exact ((((c1.comp cA).mul continuous_const).sub ((c2.comp cA).mul continuous_const)).sub ((c3.comp cA).mul continuous_const)).sub
      ((c4.comp cA).mul continuous_const)
  have h0 : ((expQuat (A.mulVec 0)).mul m).w * ((expQuat (A.mulVec 0)).mul m).w < Real.cos (1 / 10 ^ 9 / 2) ^ 2 := by
    rw [Matrix.mulVec_zero, expQuat_zero, show (Quat.one : Quat ℝ).mul m = m by simp [Quat.mul, Quat.one]]
    exact (rotVec_large_iff hm).1 hl
  have e1 := (cw.mul cw).continuousAt.eventually_lt (continuousAt_const (y := Real.cos (1 / 10 ^ 9 / 2) ^ 2)) (x₀ := (0 : V3 ℝ)) h0
  have e2 := continuous_norm.continuousAt.eventually_lt (continuousAt_const (y := Real.pi)) (x₀ := (0 : V3 ℝ))
    (by rw [V3.norm_zero]; exact Real.pi_pos)
  filter_upwards [e1, e2] with d hd1 hd2
  have hu : ((expQuat (A.mulVec d)).mul m).normSq = 1 := by rw [Quat.normSq_mul, expQuat_unit, hm, _root_.mul_one]
  refine ⟨(rotVec_large_iff hu).2 hd1, (rotVec_large_iff (Quat.opp_unit hu)).2 ?_, hd2⟩
  simpa [Quat.opp] using hd1

theorem det_toMat {q : Quat ℝ} (h : q.normSq = 1) : q.toMat.det = 1 := by
  rw [Quat.toMat_hom h]
  have e1 : q.w * q.w + q.x * q.x + q.y * q.y + q.z * q.z = 1 := h
  rw [Matrix.det_fin_three]
  simp
  generalize q.w = w at *
  generalize q.x = x at *
  generalize q.y = y at *
  generalize q.z = z at *
  grind

/-- The rotation Jacobian never reverses orientation. -/
theorem det_quatJacobian (q : Quat ℝ) : 0 ≤ (quatJacobian q).det := by
  unfold quatJacobian
  dsimp only
  generalize (1 - Real.cos (max (V3.norm (quatToRotVec q)) (1 / 10 ^ 9))) / max (V3.norm (quatToRotVec q)) (1 / 10 ^ 9) ^ 2 = b
  generalize (max (V3.norm (quatToRotVec q)) (1 / 10 ^ 9) - Real.sin (max (V3.norm (quatToRotVec q)) (1 / 10 ^ 9))) /
      max (V3.norm (quatToRotVec q)) (1 / 10 ^ 9) ^ 3 = c
  generalize quatToRotVec q = v
  have : (1 - b • skew v + c • (skew v * skew v)).det =
      (1 - c * (v 0 * v 0 + v 1 * v 1 + v 2 * v 2)) ^ 2 + b ^ 2 * (v 0 * v 0 + v 1 * v 1 + v 2 * v 2) := by
    rw [Matrix.det_fin_three]
    simp [skew]
    ring
  rw [this]
  nlinarith [mul_self_nonneg (v 0), mul_self_nonneg (v 1), mul_self_nonneg (v 2), sq_nonneg b, sq_nonneg (1 - c * (v 0 * v 0 + v 1 * v 1 + v 2 * v 2)),
    mul_nonneg (sq_nonneg b) (mul_self_nonneg (v 0)), mul_nonneg (sq_nonneg b) (mul_self_nonneg (v 1)), mul_nonneg (sq_nonneg b) (mul_self_nonneg (v 2))]

theorem det_neg_one : (-1 : M3 ℝ).det = -1 := by
  rw [Matrix.det_neg, Matrix.det_one]; norm_num

theorem isJacobian_of_nearby {f : V3 ℝ → V3 ℝ} {A : M3 ℝ} (h : ∀ᶠ d in nhds (0 : V3 ℝ), f d = A.mulVec d) : IsJacobian f 0 A := by
  have h1 : IsJacobian (fun d => A.mulVec d) (0 : V3 ℝ) A := isJacobian_linear A 0
  unfold IsJacobian at *
  exact h1.congr_of_eventuallyEq h

/-- **The columns have the wrong sign**: whatever the poses, as long as the predicted orientation is a turn the code does not treat
as none, none of the orientation columns of a marker measurement is minus the derivative of its orientation residual: not for
the body, not for the camera, not for the marker. -/
theorem C62_columns_violated (N : Num ℝ) (hof : N.OfMatLaw) (h1 : N.rotVecToQuat = rotVecToQuat) (h2 : N.quatToRotVec = quatToRotVec)
    (hN : N.quatJac = quatJacobian) (u : FidUpdater ℝ) (e : Ekf ℝ) (s : CamState ℝ) (f : FidState ℝ) (J : Mat ℝ)
    (h : (u.refresh e f).jacobianOf N e f = .ok J) (hf : e.useFirstEstimate = false)
    (hs : e.state.cams.find? u.cameraId = some s) (hm : e.state.fids.find? u.id = some f)
    (hflag : u.isCamExtrinsic = s.isExtrinsic) (hflag' : u.isFidExtrinsic = f.isExtrinsic)
    (hT : Tiles e.state.blocks 0 e.stateSize) (hq : e.state.body.ang.normSq = 1) (hc : s.ang.normSq = 1) (hfu : f.ang.normSq = 1)
    (hl : 1 / 10 ^ 9 < V3.norm (quatToRotVec (seenTurn s.ang e.state.body.ang f.ang))) :
    ¬ IsJacobian (fun d => u.turnResidual N (e.withBody { e.state.body with ang := e.state.body.ang.turn d }) f (seenTurn s.ang e.state.body.ang f.ang)) 0
      (-J.block3 3 9) ∧
    (s.isExtrinsic = true → ¬ IsJacobian (fun d => u.turnResidual N (e.withCam u.cameraId { s with ang := s.ang.turn d }) f
      (seenTurn s.ang e.state.body.ang f.ang)) 0 (-J.block3 3 (s.index + 3))) ∧
    (f.isExtrinsic = true → ¬ IsJacobian (fun d => u.turnResidual N e { f with ang := f.ang.turn d } (seenTurn s.ang e.state.body.ang f.ang)) 0
      (-J.block3 3 (f.index + 3))) := by
  obtain ⟨_, b1, b2, b3⟩ := fiducial_turn_blocks N u e s f J h hf hs hm hflag hflag' hT
  have hu := seenTurn_unit hc hq hfu
  have hdc : s.ang.toMat.transpose.det = 1 := by rw [Matrix.det_transpose, det_toMat hc]
  have hdq : e.state.body.ang.toMat.transpose.det = 1 := by rw [Matrix.det_transpose, det_toMat hq]
  have back : ∀ {X : Quat ℝ} {v : V3 ℝ}, X.mul (seenTurn s.ang e.state.body.ang f.ang).inverse = expQuat v →
      X = (expQuat v).mul (seenTurn s.ang e.state.body.ang f.ang) := by
    intro X v hX
    rw [← hX, Quat.mul_assoc', Quat.inverse_mul_self hu]
    simp [Quat.mul, Quat.one]
  refine ⟨fun hJ => ?_, fun hx hJ => ?_, fun hx hJ => ?_⟩
  · have hA : IsJacobian (fun d => u.turnResidual N (e.withBody { e.state.body with ang := e.state.body.ang.turn d }) f
        (seenTurn s.ang e.state.body.ang f.ang)) 0 (-s.ang.toMat.transpose) := by
      refine isJacobian_of_nearby ?_
      filter_upwards [large_nearby hu hl (-s.ang.toMat.transpose)] with d hd
      rw [Matrix.neg_mulVec] at hd ⊢
      have hX := back (seen_body hc hq hfu d)
      refine (C62_residual_partial N hof h1 h2 u e s f hf hs hq hc hfu d hd.2.2).1 ?_
      rcases pred_turn N hof h1 h2 u (e.withBody { e.state.body with ang := e.state.body.ang.turn d }) s f hf hs (Quat.turn_unit hq d) hc with g | g
      · rw [g]; show _ < V3.norm (quatToRotVec (seenTurn s.ang (e.state.body.ang.turn d) f.ang)); rw [hX]; exact hd.1
      · rw [g]; show _ < V3.norm (quatToRotVec (seenTurn s.ang (e.state.body.ang.turn d) f.ang).opp); rw [hX]; exact hd.2.1
    have hE := (isJacobian_iff_eq hA).1 hJ
    rw [b1, hN, neg_inj, Matrix.neg_mul, Matrix.neg_mul, neg_eq_iff_eq_neg] at hE
    have := congrArg Matrix.det hE
    rw [Matrix.det_mul, Matrix.det_mul, Matrix.det_mul, hdc, hdq, det_toMat hfu, Matrix.det_transpose, Matrix.det_neg, hdc] at this
    have hp := det_quatJacobian e.state.body.ang
    norm_num at this
    linarith
  · have hA : IsJacobian (fun d => u.turnResidual N (e.withCam u.cameraId { s with ang := s.ang.turn d }) f
        (seenTurn s.ang e.state.body.ang f.ang)) 0 (-1) := by
      refine isJacobian_of_nearby ?_
      filter_upwards [large_nearby hu hl (-1)] with d hd
      rw [Matrix.neg_mulVec, Matrix.one_mulVec] at hd ⊢
      have hX := back (seen_camera hc hq hfu d)
      have hs' : (e.withCam u.cameraId { s with ang := s.ang.turn d }).state.cams.find? u.cameraId = some { s with ang := s.ang.turn d } := by
        simp [Ekf.withCam, UMap.find?_insert_self]
      refine (C62_residual_partial N hof h1 h2 u e s f hf hs hq hc hfu d hd.2.2).2.1 ?_
      rcases pred_turn N hof h1 h2 u (e.withCam u.cameraId { s with ang := s.ang.turn d }) { s with ang := s.ang.turn d } f hf hs' hq (Quat.turn_unit hc d) with g | g
      · rw [g]; show _ < V3.norm (quatToRotVec (seenTurn (s.ang.turn d) e.state.body.ang f.ang)); rw [hX]; exact hd.1
      · rw [g]; show _ < V3.norm (quatToRotVec (seenTurn (s.ang.turn d) e.state.body.ang f.ang).opp); rw [hX]; exact hd.2.1
    have hE := (isJacobian_iff_eq hA).1 hJ
    rw [(b2 hx).2, hN, neg_inj, Matrix.neg_mul, Matrix.neg_mul, Matrix.neg_mul, neg_eq_iff_eq_neg] at hE
    have := congrArg Matrix.det hE
    rw [Matrix.det_mul, Matrix.det_mul, Matrix.det_mul, hdc, hdq, det_toMat hfu, Matrix.det_transpose, det_neg_one] at this
    have hp := det_quatJacobian s.ang
    norm_num at this
    linarith
  · have hA : IsJacobian (fun d => u.turnResidual N e { f with ang := f.ang.turn d } (seenTurn s.ang e.state.body.ang f.ang)) 0
        (seenTurn s.ang e.state.body.ang f.ang).toMat := by
      refine isJacobian_of_nearby ?_
      filter_upwards [large_nearby hu hl (seenTurn s.ang e.state.body.ang f.ang).toMat] with d hd
      have hX := back (seen_marker hc hq hfu d)
      refine (C62_residual_partial N hof h1 h2 u e s f hf hs hq hc hfu d hd.2.2).2.2 ?_
      rcases pred_turn N hof h1 h2 u e s { f with ang := f.ang.turn d } hf hs hq hc with g | g
      · rw [g]; show _ < V3.norm (quatToRotVec (seenTurn s.ang e.state.body.ang (f.ang.turn d))); rw [hX]; exact hd.1
      · rw [g]; show _ < V3.norm (quatToRotVec (seenTurn s.ang e.state.body.ang (f.ang.turn d)).opp); rw [hX]; exact hd.2.1
    have hE := (isJacobian_iff_eq hA).1 hJ
    rw [(b3 hx).2] at hE
    have := congrArg Matrix.det hE
    rw [det_neg_one, det_toMat hu] at this
    norm_num at this

/-! ## Away from the observation -/

theorem getCam_registered {e : Ekf ℝ} {i : Nat} {s : CamState ℝ} (h : e.state.cams.find? i = some s) : (e.getCamState i).2 = e := by
  simp only [getCamState, UMap.touch, h]

theorem find_mapVal {α : Type} (g : α → α) (m : UMap α) (k : Nat) : (UMap.mapVal g m).find? k = (m.find? k).map g := by
  induction m with
  | nil => rfl
  | cons kv m ih =>
    obtain ⟨k', v⟩ := kv
    simp only [UMap.mapVal, List.map_cons, UMap.find?] at ih ⊢
    split
    · rfl
    · exact ih

/-- The row of the measurement `a` that belongs to the body: position first, then orientation. -/
def bodyColumn (a : Nat) : Nat := if a < 3 then a else a + 6

theorem toMat_one_get (i j : Nat) : (M3.toMat (1 : M3 ℝ)).get i j = if i = j ∧ i < 3 then 1 else 0 := by
  simp only [M3.toMat, Matrix.one_apply, Fin.mk.injEq]
  split_ifs <;> first | rfl | (exfalso; omega)

theorem toMat_neg_one_get (i j : Nat) : (M3.toMat (-1 : M3 ℝ)).get i j = if i = j ∧ i < 3 then -1 else 0 := by
  simp only [M3.toMat, Matrix.neg_apply, Matrix.one_apply, Fin.mk.injEq]
  split_ifs <;> first | rfl | (exfalso; omega) | simp

theorem toMat_zero_get (i j : Nat) : (M3.toMat (0 : M3 ℝ)).get i j = 0 := by
  simp only [M3.toMat, Matrix.zero_apply]
  split_ifs <;> rfl

/-- The Jacobian at an unturned body at the marker. -/
theorem unturned_jacobian (N : Num ℝ) (hN : N.quatJac = quatJacobian) (u : FidUpdater ℝ) (e : Ekf ℝ) (f : FidState ℝ) (J : Mat ℝ)
    (h : u.jacobianOf N e f = .ok J) (hb : e.state.body.ang = Quat.one) (hc : u.angC = Quat.one) (hf : u.angF = Quat.one)
    (hp : u.posF = e.state.body.pos) (hx : u.isCamExtrinsic = false) (hy : u.isFidExtrinsic = true) (hi : 18 ≤ f.index) :
    J.rows = 6 ∧ J.cols = e.stateSize ∧
    ∀ a k, a < 6 → J.get a k = if k = bodyColumn a then -1 else if k = f.index + a then 1 else 0 := by
  have one : (Quat.one : Quat ℝ).toMat = 1 := toMat_of_rotVec_zero (by simp [Quat.one, Quat.normSq]) quatToRotVec_one.1
  have hJ : (quatJacobian Quat.one).transpose = 1 := by rw [quatJacobian_zero quatToRotVec_one.1]; simp
  have hz : skew (0 : V3 ℝ) = 0 := by ext i j; fin_cases i <;> fin_cases j <;> simp [skew]
  simp only [FidUpdater.jacobianOf, hb, hc, hf, hp, hN, hJ, one, hx, hy, Matrix.transpose_one, Matrix.mul_one, sub_self, hz, Matrix.mul_zero,
    bind_ok_iff, Mat.setBlock_ok_iff, Bool.false_eq_true, if_false, if_true, pure_res, Except.ok.injEq] at h
  obtain ⟨_, ⟨_, _, rfl⟩, _, ⟨_, _, rfl⟩, _, ⟨_, _, rfl⟩, _, rfl, _, ⟨_, _, rfl⟩, ⟨_, _, rfl⟩⟩ := h
  refine ⟨rfl, rfl, fun a k ha => ?_⟩
  simp only [bodyColumn]
  simp only [toMat_zero_get, toMat_neg_one_get, toMat_one_get, Mat.zero]
  by_cases h3 : a < 3
  · simp only [h3, if_true, true_and]
    clear * - hi h3 ha
    split_ifs <;> first | rfl | (exfalso; omega)
  · simp only [h3, if_false, false_and, and_false]
    clear * - hi h3 ha
    split_ifs <;> first | rfl | (exfalso; omega)

theorem sum_diag {n : Nat} {g : Nat → ℝ} {i : Nat} (hi : i < n) (h : ∀ k, k < n → k ≠ i → g k = 0) :
    ∑ k ∈ Finset.range n, g k = g i := by
  refine Finset.sum_eq_single i (fun k hk hne => h k (Finset.mem_range.1 hk) hne) (fun hn => ?_)
  exact absurd (Finset.mem_range.2 hi) hn

/-- The measurement variance of the row `a`. -/
def BoardDetection.variance (d : BoardDetection ℝ) (a : Nat) : ℝ :=
  if h : a < 3 then d.posError ⟨a, h⟩ else if h : a - 3 < 3 then d.angError ⟨a - 3, h⟩ else 0

theorem noise_diag {d : BoardDetection ℝ} {R : Mat ℝ} (h : FidUpdater.noiseOf d = .ok R) :
    R.rows = 6 ∧ R.cols = 6 ∧ ∀ a b, a < 6 → b < 6 → R.get a b = if a = b then d.variance a else 0 := by
  have hb := fidNoise_blocks h
  simp only [FidUpdater.noiseOf, bind_ok_iff, Mat.setBlock_ok_iff] at h
  obtain ⟨n, ⟨_, _, rfl⟩, _, _, rfl⟩ := h
  refine ⟨rfl, rfl, fun a b ha hb => ?_⟩
  interval_cases a <;> interval_cases b <;> simp [M3.toMat, Mat.zero, BoardDetection.variance, Matrix.diagonal]

/-- With independent errors each row of the measurement corrects its own two quantities. -/
theorem unturned_correction (N : Prim ℝ) (hN : N.InvLaw) (e e' : Ekf ℝ) (f : FidState ℝ) (d : BoardDetection ℝ) (J R : Mat ℝ) (r : Vec ℝ)
    (hi : Inv e) (hu : e.useRoot = false) (hf : f.index + 6 ≤ e.stateSize) (hf' : 18 ≤ f.index)
    (hJ : J.rows = 6 ∧ J.cols = e.stateSize ∧
      ∀ a k, a < 6 → J.get a k = if k = bodyColumn a then -1 else if k = f.index + a then 1 else 0)
    (hR : R.rows = 6 ∧ R.cols = 6 ∧ ∀ a b, a < 6 → b < 6 → R.get a b = if a = b then d.variance a else 0)
    (hP : ∀ i j, i < e.stateSize → j < e.stateSize → i ≠ j → e.cov.get i j = 0)
    (hS : ∀ a, a < 6 → e.cov.get (bodyColumn a) (bodyColumn a) + e.cov.get (f.index + a) (f.index + a) + d.variance a ≠ 0)
    (h : kalmanUpdate N e J r R = .ok e') :
    ∃ v : Vec ℝ, e'.state = e.state.moved N v ∧ ∀ a, a < 6 →
      v.get (bodyColumn a) = -(e.cov.get (bodyColumn a) (bodyColumn a) /
        (e.cov.get (bodyColumn a) (bodyColumn a) + e.cov.get (f.index + a) (f.index + a) + d.variance a)) * r.get a ∧
      v.get (f.index + a) = e.cov.get (f.index + a) (f.index + a) /
        (e.cov.get (bodyColumn a) (bodyColumn a) + e.cov.get (f.index + a) (f.index + a) + d.variance a) * r.get a := by
  obtain ⟨j1, j2, j3⟩ := hJ
  obtain ⟨r1, r2, r3⟩ := hR
  have hn := hi.covRows
  have bcl : ∀ a, a < 6 → bodyColumn a < 18 := fun a ha => by unfold bodyColumn; split <;> omega
  have bci : ∀ a b, bodyColumn a = bodyColumn b → a = b := fun a b => by unfold bodyColumn; split <;> split <;> omega
  let S : Nat → ℝ := fun a => e.cov.get (bodyColumn a) (bodyColumn a) + e.cov.get (f.index + a) (f.index + a) + d.variance a
  let B : Nat → Nat → ℝ := fun a b => if a = b then (S a)⁻¹ else 0
  have hPH : ∀ i a, i < e.stateSize → a < 6 → ∑ k ∈ Finset.range e.cov.rows, e.cov.get i k * J.get a k = e.cov.get i i * J.get a i := by
    intro i a hi' ha
    rw [hn]
    exact sum_diag hi' (fun k hk hne => by rw [hP i k hi' hk (Ne.symm hne), zero_mul])
  have hin : ∀ a b, a < 6 → b < 6 → innovation e.cov.rows e.cov.get J R a b = if a = b then S a else 0 := by
    intro a b ha hb
    unfold innovation congr
    rw [r3 a b ha hb, hn]
    have e1 : ∀ k ∈ Finset.range e.stateSize, ∑ l ∈ Finset.range e.stateSize, J.get a k * e.cov.get k l * J.get b l = J.get a k * e.cov.get k k * J.get b k := by
      intro k hk
      exact sum_diag (Finset.mem_range.1 hk) (fun l hl hne => by rw [hP k l (Finset.mem_range.1 hk) hl (Ne.symm hne)]; ring)
    rw [Finset.sum_congr rfl e1]
    have h1 := bcl a ha
    have e2 : ∑ k ∈ Finset.range e.stateSize, J.get a k * e.cov.get k k * J.get b k =
        ∑ k ∈ ({bodyColumn a, f.index + a} : Finset Nat), J.get a k * e.cov.get k k * J.get b k := by
      symm
      refine Finset.sum_subset (fun k hk => ?_) (fun k _ hk => ?_)
      · simp only [Finset.mem_insert, Finset.mem_singleton] at hk
        rw [Finset.mem_range]; omega
      · simp only [Finset.mem_insert, Finset.mem_singleton, not_or] at hk
        rw [j3 a k ha, if_neg hk.1, if_neg hk.2]; ring
    rw [e2, Finset.sum_pair (by omega), j3 a _ ha, j3 a _ ha, if_pos rfl, if_neg (by omega : f.index + a ≠ bodyColumn a), if_pos rfl, j3 b _ hb, j3 b _ hb]
    have h2 := bcl b hb
    by_cases hab : a = b
    · subst hab
      simp only [if_true, if_neg (by omega : f.index + a ≠ bodyColumn a), S]
      ring
    · have : bodyColumn a ≠ bodyColumn b := fun hh => hab (bci a b hh)
      simp only [if_neg this, if_neg hab, if_neg (by omega : bodyColumn a ≠ f.index + b), if_neg (by omega : f.index + a ≠ bodyColumn b),
        if_neg (by omega : f.index + a ≠ f.index + b)]
      ring
  have hB : AreInverse J.rows (innovation e.cov.rows e.cov.get J R) B := by
    rw [j1]
    constructor
    · intro i j hi' hj
      rw [sum_diag (i := j) hj (fun k hk hne => by simp [B, hne]), hin i j hi' hj]
      by_cases hij : i = j
      · subst hij; simp [B, S, hS i hi']
      · simp [hij]
    · intro i j hi' hj
      rw [sum_diag (i := i) hi' (fun k hk hne => by simp [B, Ne.symm hne]), hin i j hi' hj]
      by_cases hij : i = j
      · subst hij; simp [B, S, hS i hi']
      · simp [hij]
  obtain ⟨g1, _⟩ := C10_update N hN e e' J r R hu h B hB
  rw [State.addVec_moved N _ e.state _ hi.tiles (by show _ ≤ e.cov.rows; rw [hn])] at g1
  refine ⟨_, (Except.ok.inj g1).symm, fun a ha => ?_⟩
  have hgain : ∀ i c, i < e.stateSize → c < 6 → kalmanGain e.cov.rows e.cov.get J B i c = e.cov.get i i * J.get c i * (S c)⁻¹ := by
    intro i c hi' hc
    unfold kalmanGain
    rw [j1, sum_diag (i := c) hc (fun k hk hne => by simp [B, hne]), hPH i c hi' hc]
    simp [B]
  have h1 := bcl a ha
  constructor
  · show ∑ c ∈ Finset.range J.rows, kalmanGain e.cov.rows e.cov.get J B (bodyColumn a) c * r.get c = _
    rw [j1, sum_diag (i := a) ha (fun k hk hne => ?_), hgain _ _ (by omega) ha, j3 a _ ha, if_pos rfl]
    · simp only [S]; ring
    · rw [hgain _ _ (by omega) hk, j3 k _ hk, if_neg (fun hh => hne (bci _ _ hh.symm)), if_neg (by omega)]; ring
  · show ∑ c ∈ Finset.range J.rows, kalmanGain e.cov.rows e.cov.get J B (f.index + a) c * r.get c = _
    rw [j1, sum_diag (i := a) ha (fun k hk hne => ?_), hgain _ _ (by omega) ha, j3 a _ ha, if_neg (by omega), if_pos rfl]
    · simp only [S]; ring
    · have h2 := bcl k hk
      rw [hgain _ _ (by omega) hk, j3 k _ hk, if_neg (by omega), if_neg (by omega)]; ring

theorem expQuat_z (a : ℝ) : expQuat ![0, 0, a] = ⟨Real.cos (a / 2), 0, 0, Real.sin (a / 2)⟩ := by
  have hn : V3.norm ![0, 0, a] = |a| := V3.norm_eq_of_sq (abs_nonneg a) (by simp [Matrix.cons_val])
  have h2 : |a| / 2 = |a / 2| := by rw [abs_div, abs_two]
  unfold expQuat
  rw [hn, h2, Real.cos_abs]
  have hs : Real.sinc |a / 2| = Real.sinc (a / 2) := by
    rcases abs_choice (a / 2) with h | h <;> rw [h]
    exact Real.sinc_neg _
  rw [hs]
  have h3 : Real.sinc (a / 2) / 2 * a = Real.sin (a / 2) := by
    by_cases h0 : a / 2 = 0
    · have : a = 0 := by linarith
      rw [this]; simp
    · rw [Real.sinc_of_ne_zero h0]
      have : a ≠ 0 := fun h => h0 (by rw [h]; simp)
      field_simp
  simp [h3]

theorem expQuat_z_mul (a b : ℝ) : (expQuat ![0, 0, a]).mul (expQuat ![0, 0, b]) = expQuat ![0, 0, a + b] := by
  rw [expQuat_z, expQuat_z, expQuat_z, add_div, Real.cos_add, Real.sin_add]
  simp only [Quat.mul, Quat.mk.injEq]
  refine ⟨?_, ?_, ?_, ?_⟩ <;> ring

theorem norm_z (a : ℝ) : V3.norm ![0, 0, a] = |a| := V3.norm_eq_of_sq (abs_nonneg a) (by simp [Matrix.cons_val])

/-- **Away from the observation.**  A body, a camera and a marker that are all unturned, the body at the marker, uncorrelated
estimates: the marker is seen turned by `θ` about the vertical.  Then the corrected estimate predicts it turned by `-k θ`, where
`k > 0` is the gain: the prediction has moved away from the observation, by the amount it should have moved towards it. -/
theorem C62_away (N : Num ℝ) (hI : N.toPrim.InvLaw) (hof : N.OfMatLaw) (h1 : N.rotVecToQuat = rotVecToQuat) (h2 : N.quatToRotVec = quatToRotVec)
    (hN : N.quatJac = quatJacobian) (u : FidUpdater ℝ) (e e1 : Ekf ℝ) (time : ℝ) (d : BoardDetection ℝ) (r : FidUpdater ℝ × Ekf ℝ)
    (s : CamState ℝ) (f : FidState ℝ) (θ : ℝ) (h : u.update N e time d = .ok r) (hm : e.AtMessage N time e1) (hi : Inv e1)
    (hroot : e1.useRoot = false) (hcur : e1.useFirstEstimate = false ∨ u.isFirst = true)
    (hs : e1.state.cams.find? u.cameraId = some s) (hf : e1.state.fids.find? u.id = some f)
    (hx : u.isCamExtrinsic = false) (hsx : s.isExtrinsic = false) (hy : u.isFidExtrinsic = true) (hfx : f.isExtrinsic = true)
    (hb : e1.state.body.ang = Quat.one) (hc : s.ang = Quat.one) (hfa : f.ang = Quat.one) (hfp : f.pos = e1.state.body.pos)
    (hP : ∀ i j, i < e1.stateSize → j < e1.stateSize → i ≠ j → e1.cov.get i j = 0)
    (hP0 : ∀ i, i < e1.stateSize → 0 ≤ e1.cov.get i i) (hv : ∀ a, a < 6 → 0 < d.variance a)
    (hd : d.ang = expQuat ![0, 0, θ]) (h0 : 0 < θ) (hpi : θ < Real.pi)
    (hg1 : 1 / 10 ^ 9 < e1.cov.get 11 11 / (e1.cov.get 11 11 + e1.cov.get (f.index + 5) (f.index + 5) + d.angError 2) * θ)
    (hg2 : 1 / 10 ^ 9 < e1.cov.get (f.index + 5) (f.index + 5) / (e1.cov.get 11 11 + e1.cov.get (f.index + 5) (f.index + 5) + d.angError 2) * θ) :
    ∃ f' k, r.2.state.fids.find? u.id = some f' ∧ r.2.state.cams.find? u.cameraId = some s ∧ 0 < k ∧ k < 1 ∧
      seenTurn s.ang e1.state.body.ang f.ang = expQuat ![0, 0, 0] ∧
      seenTurn s.ang r.2.state.body.ang f'.ang = expQuat ![0, 0, -(k * θ)] ∧
      k = (e1.cov.get 11 11 + e1.cov.get (f.index + 5) (f.index + 5)) /
        (e1.cov.get 11 11 + e1.cov.get (f.index + 5) (f.index + 5) + d.angError 2) := by
  obtain ⟨e1', e2, f2, J, R, g1, rfl, g2, g3, g4, g5, g6⟩ := FidUpdater.update_form h
  unfold Ekf.AtMessage at hm
  rw [hm] at g1
  cases g1
  rw [getCam_registered hs] at g2 g3 g4 g6
  rw [hf] at g2
  cases g2
  have hg : u.camOf e1 = s := by simp [FidUpdater.camOf, UMap.getD, hs]
  have hr : r.1 = { u with posC := s.pos, angC := s.ang, posF := f.pos, angF := f.ang, isFirst := false } := by
    rw [g3, FidUpdater.refresh, if_pos (by exact hcur), hg]
  obtain ⟨_, cf, _⟩ := cam_fid_columns hi.tiles hs hf
  have cf := cf hfx
  have hJ := unturned_jacobian N hN r.1 e1 f J g4 hb (by rw [hr]; exact hc) (by rw [hr]; exact hfa) (by rw [hr]; exact hfp) (by rw [hr]; exact hx)
    (by rw [hr]; exact hy) cf.1
  have one : (Quat.one : Quat ℝ).toMat = 1 := toMat_of_rotVec_zero (by simp [Quat.one, Quat.normSq]) quatToRotVec_one.1
  have hpred : (r.1.predictOf N e1).2 = 0 := by
    have hu1 : (Quat.one : Quat ℝ).normSq = 1 := by simp [Quat.one, Quat.normSq]
    have ha : r.1.angC = Quat.one := by rw [hr]; exact hc
    have hb' : r.1.angF = Quat.one := by rw [hr]; exact hfa
    have hb1 := board_quat N hof (c := Quat.one) (q := Quat.one) (f := Quat.one) hu1 hu1
    have hsimp : ((Quat.one : Quat ℝ).inverse.mul Quat.one.inverse).mul Quat.one = Quat.one := by
      simp [Quat.one, Quat.inverse, Quat.mul, Quat.normSq]
    rw [hsimp] at hb1
    simp only [FidUpdater.predictOf, ha, hb', hb, h2]
    rcases hb1 with hb1 | hb1
    · rw [hb1]; exact quatToRotVec_one.1
    · rw [hb1]; exact quatToRotVec_one.2
  have hres : N.quatToRotVec ((N.rotVecToQuat (r.1.predictOf N e1).2).mul d.ang.inverse) = ![0, 0, -θ] := by
    rw [hpred, h1, h2, hd, expQuat_inverse]
    have hz : rotVecToQuat 0 = Quat.one := if_neg (by rw [V3.norm_zero]; norm_num)
    rw [hz, show (Quat.one : Quat ℝ).mul (expQuat (-![0, 0, θ])) = expQuat (-![0, 0, θ]) by simp [Quat.mul, Quat.one]]
    have hneg : -(![0, 0, θ] : V3 ℝ) = ![0, 0, -θ] := by funext i; fin_cases i <;> simp
    rw [hneg, quatToRotVec_exp (by rw [norm_z, abs_neg, abs_of_pos h0]; exact hpi)]
  have bcl : ∀ a, a < 6 → bodyColumn a < 18 := fun a ha => by unfold bodyColumn; split <;> omega
  have hS : ∀ a, a < 6 → 0 < e1.cov.get (bodyColumn a) (bodyColumn a) + e1.cov.get (f.index + a) (f.index + a) + d.variance a := by
    intro a ha
    have := hP0 (bodyColumn a) (by have := bcl a ha; omega)
    have := hP0 (f.index + a) (by omega)
    have := hv a ha
    linarith
  obtain ⟨v, hst, hvv⟩ := unturned_correction N.toPrim hI e1 r.2 f d J R _ hi hroot cf.2 cf.1 hJ (noise_diag g5) hP (fun a ha => (hS a ha).ne') g6
  have hbi : e1.state.body.index = 0 := hi.tiles.1
  have q3 : ∀ a b : V3 ℝ, (Vec.of6 a b).get 3 = b 0 := fun _ _ => rfl
  have q4 : ∀ a b : V3 ℝ, (Vec.of6 a b).get 4 = b 1 := fun _ _ => rfl
  have q5 : ∀ a b : V3 ℝ, (Vec.of6 a b).get 5 = b 2 := fun _ _ => rfl
  have v3 := hvv 3 (by norm_num)
  have v4 := hvv 4 (by norm_num)
  have v5 := hvv 5 (by norm_num)
  have S5 := hS 5 (by norm_num)
  simp only [show bodyColumn 3 = 9 from rfl, show bodyColumn 4 = 10 from rfl, show bodyColumn 5 = 11 from rfl, q3, q4, q5, hres, Matrix.cons_val, mul_zero] at v3 v4 v5 S5
  have hvar : d.variance 5 = d.angError 2 := rfl
  rw [hvar] at v5 S5
  have p11 := hP0 11 (by omega)
  have pf := hP0 (f.index + 5) (by omega)
  have pa : 0 < d.angError 2 := hvar ▸ hv 5 (by norm_num)
  generalize hgb : e1.cov.get 11 11 = pb at *
  generalize hgm : e1.cov.get (f.index + 5) (f.index + 5) = pm at *
  generalize d.angError 2 = ρ at *
  have hbody : r.2.state.body.ang = expQuat ![0, 0, pb / (pb + pm + ρ) * θ] := by
    rw [hst]
    show e1.state.body.ang.mul (N.rotVecToQuat (v.at3 (e1.state.body.index + 9))) = _
    rw [hb, hbi, h1]
    have : v.at3 (0 + 9) = ![0, 0, pb / (pb + pm + ρ) * θ] := by
      simp only [Vec.at3, Nat.zero_add, Nat.reduceAdd, v3.1, v4.1, v5.1]
      funext i; fin_cases i <;> simp
    rw [this, ← expQuat_large (by rw [norm_z]; exact lt_of_lt_of_le hg1 (le_abs_self _))]
    simp [Quat.mul, Quat.one]
  have hfid : r.2.state.fids.find? u.id = some (f.moved N.toPrim v) := by
    rw [hst]
    show (UMap.mapVal (FidState.moved N.toPrim v) e1.state.fids).find? u.id = _
    rw [find_mapVal, hf]; rfl
  have hcam : r.2.state.cams.find? u.cameraId = some s := by
    rw [hst]
    show (UMap.mapVal (CamState.moved N.toPrim v) e1.state.cams).find? u.cameraId = _
    rw [find_mapVal, hs]
    exact congrArg some ((C21_unestimated N.toPrim v).2.2.2.2.1 s hsx)
  have hmark : (f.moved N.toPrim v).ang = expQuat ![0, 0, -(pm / (pb + pm + ρ) * θ)] := by
    simp only [FidState.moved, hfx, if_true, Quat.moved, hfa, h1]
    have : v.at3 (f.index + 3) = ![0, 0, -(pm / (pb + pm + ρ) * θ)] := by
      simp only [Vec.at3, Nat.add_assoc, Nat.reduceAdd, v3.2, v4.2, v5.2]
      funext i; fin_cases i <;> simp
    rw [this, ← expQuat_large (by rw [norm_z, abs_neg]; exact lt_of_lt_of_le hg2 (le_abs_self _))]
    simp [Quat.mul, Quat.one]
  have hkp : 0 < pb + pm := by
    rcases p11.lt_or_eq with hlt | heq
    · linarith
    · rw [← heq] at hg1
      norm_num at hg1
  refine ⟨_, _, hfid, hcam, div_pos hkp S5, (div_lt_one S5).2 (by linarith), ?_, ?_, rfl⟩
  · rw [hc, hb, hfa, expQuat_z]
    simp [seenTurn, Quat.one, Quat.inverse, Quat.mul, Quat.normSq]
  · rw [hc, hbody, hmark, seenTurn, expQuat_inverse]
    have hneg : -(![0, 0, pb / (pb + pm + ρ) * θ] : V3 ℝ) = ![0, 0, -(pb / (pb + pm + ρ) * θ)] := by funext i; fin_cases i <;> simp
    have hone : (Quat.one : Quat ℝ).inverse.mul (expQuat ![0, 0, -(pb / (pb + pm + ρ) * θ)]) = expQuat ![0, 0, -(pb / (pb + pm + ρ) * θ)] := by
      simp [Quat.one, Quat.inverse, Quat.mul, Quat.normSq]
    rw [hneg, hone, expQuat_z_mul]
    rw [show -(pb / (pb + pm + ρ) * θ) + -(pm / (pb + pm + ρ) * θ) = -((pb + pm) / (pb + pm + ρ) * θ) by ring]

/-! ## Witnesses -/

namespace MarkerSample

/-- A hundredth on the diagonal. -/
noncomputable def variances (n : Nat) : Mat ℝ := (Mat.identity n n).smul (1 / 100)

/-- Camera 1 with known mounting, marker 4 to be calibrated, the body unturned at the marker. -/
noncomputable def ops : List (Ekf.Op ℝ) :=
  [.registerCamera 1 CamState.default (Mat.zero 6 6),
   .registerFiducial ((⟨0, 0, Quat.one, 1, 1, 0, 0, 4, false⟩ : FidState ℝ).setIsExtrinsic true) (variances 6),
   .initializeAt 0 BodyState.default]

theorem ops_wf : ∀ op ∈ ops, op.WF := by
  intro op ho
  simp only [ops, List.mem_cons, List.not_mem_nil, or_false] at ho
  rcases ho with rfl | rfl | rfl <;> rfl

theorem filter : ∃ e, Ekf.run realPrim (Ekf.init realPrim (CamRowsSample.params .none)) ops = .ok e ∧ e.useFirstEstimate = false ∧
    e.useRoot = false ∧ e.augType = .none ∧ e.isGravityInitialized = false ∧ e.timeInitialized = true ∧ e.referenceTime = 0 ∧
    e.currentTime = 0 ∧ e.state.body = BodyState.default ∧ e.stateSize = 24 ∧
    insertInMatrix ⟨6, 6, fun i j => (variances 6).get (0 + i) (0 + j)⟩ (variances 18) 18 18 = .ok e.cov ∧
    (∃ s, e.state.cams.find? 1 = some s ∧ s.isExtrinsic = false ∧ s.ang = Quat.one) ∧
    (∃ s, e.state.fids.find? 4 = some s ∧ s.isExtrinsic = true ∧ s.index = 18 ∧ s.pos = 0 ∧ s.ang = Quat.one) := by
  obtain ⟨e, h1, h2, h3, h4, h5, h6, h6', h7, h8, h9, h10, h11, h12⟩ : ∃ e, Ekf.run realPrim (Ekf.init realPrim (CamRowsSample.params .none)) ops = .ok e ∧
      e.useFirstEstimate = false ∧
      e.useRoot = false ∧ e.augType = .none ∧ e.isGravityInitialized = false ∧ e.timeInitialized = true ∧ e.referenceTime = 0 ∧
      e.currentTime = 0 ∧ e.state.body = BodyState.default ∧ e.stateSize = 24 ∧
      insertInMatrix ⟨6, 6, fun i j => (variances 6).get (0 + i) (0 + j)⟩ (variances 18) 18 18 = .ok e.cov ∧
      (e.state.cams.find? 1).map (fun s => (s.isExtrinsic, s.ang)) = some (false, Quat.one) ∧
      (e.state.fids.find? 4).map (fun s => (s.isExtrinsic, s.index, s.pos, s.ang)) = some (true, 18, 0, Quat.one) := by
    have hrun : Ekf.run realPrim (Ekf.init realPrim (CamRowsSample.params .none)) ops = (do
        let e ← (Ekf.init realPrim (CamRowsSample.params .none)).registerCamera realPrim 1 CamState.default (Mat.zero 6 6)
        Ekf.run realPrim e (ops.drop 1)) := rfl
    rw [hrun]
    simp only [fun e => registerCamera_rate e 1 CamState.default (Mat.zero 6 6) one_ne_zero]
    exact ⟨_, rfl, rfl, rfl, rfl, rfl, rfl, rfl, rfl, rfl, rfl, rfl, rfl, rfl⟩
  obtain ⟨s5, f5, g5⟩ := some_of_map h11
  obtain ⟨s6, f6, g6⟩ := some_of_map h12
  simp only [Prod.mk.injEq] at g5 g6
  exact ⟨e, h1, h2, h3, h4, h5, h6, h6', h7, h8, h9, h10, ⟨s5, f5, g5⟩, ⟨s6, f6, g6⟩⟩

/-- Seen turned by one radian, with all variances a hundredth. -/
noncomputable def detection : BoardDetection ℝ := ⟨0, expQuat ![0, 0, 1], fun _ => 1 / 100, fun _ => 1 / 100⟩

end MarkerSample

/-- **Violated**: a reachable filter that predicts the marker unturned, sees it turned by one radian about the vertical, and after the
update predicts it turned by two thirds of a radian the other way. -/
theorem C62_away_violated : ∃ (e : Ekf ℝ) (u : FidUpdater ℝ) (r : FidUpdater ℝ × Ekf ℝ) (s : CamState ℝ) (f f' : FidState ℝ),
    e.Reachable realNumOfMat.toPrim ∧ u.update realNumOfMat e 0 MarkerSample.detection = .ok r ∧
    e.state.cams.find? u.cameraId = some s ∧ r.2.state.cams.find? u.cameraId = some s ∧
    e.state.fids.find? u.id = some f ∧ r.2.state.fids.find? u.id = some f' ∧
    MarkerSample.detection.ang = expQuat ![0, 0, 1] ∧ seenTurn s.ang e.state.body.ang f.ang = expQuat ![0, 0, 0] ∧
    seenTurn s.ang r.2.state.body.ang f'.ang = expQuat ![0, 0, -(2 / 3)] := by
  obtain ⟨e, he, hf, hu, ht, hg, hti, href, hct, hb, hn, hcov, ⟨s, hs, hsx, hsa⟩, ⟨f, hfi, hfx, hfn, hfp, hfa⟩⟩ := MarkerSample.filter
  have hr : e.Reachable realNumOfMat.toPrim := ⟨_, _, MarkerSample.ops_wf, he⟩
  have hi := hr.inv
  obtain ⟨out, ho, _, _, hget⟩ := insertInMatrix_spec ⟨6, 6, fun i j => (MarkerSample.variances 6).get (0 + i) (0 + j)⟩ (MarkerSample.variances 18) 18 18
    (le_refl 18) (le_refl 18)
  rw [hcov] at ho
  cases ho
  have hP : ∀ i j, i < 24 → j < 24 → e.cov.get i j = if i = j then 1 / 100 else 0 := by
    intro i j h1 h2
    rw [hget i j h1 h2]
    simp only [MarkerSample.variances, Mat.smul, Mat.identity]
    split_ifs <;> first | (exfalso; omega) | simp
  let u : FidUpdater ℝ := FidUpdater.new 4 1 true false
  have hm : e.AtMessage realNumOfMat 0 e := by
    have h1 : e.calculateLocalTime 0 = (0, e) := by
      simp [Ekf.calculateLocalTime, hti, href]
    unfold Ekf.AtMessage
    rw [h1]
    have h2 : ({ e with currentTime := 0 } : Ekf ℝ) = e := by rw [← hct]
    have h3 : e.augmentTimed realNumOfMat.toPrim = .ok e := by
      unfold Ekf.augmentTimed
      rw [if_pos (.inl ht)]
      rfl
    unfold Ekf.predict
    rw [if_neg (by rw [hct]; exact lt_irrefl _)]
    rw [if_neg (by rw [hg]; exact Bool.false_ne_true)]
    exact (congrArg (Ekf.augmentTimed realNumOfMat.toPrim) h2).trans h3
  have hg' : u.camOf e = s := by simp [u, FidUpdater.new, FidUpdater.camOf, UMap.getD, hs]
  have hrf : u.refresh e f = { u with posC := s.pos, angC := s.ang, posF := f.pos, angF := f.ang, isFirst := false } := by
    simp [FidUpdater.refresh, hf, hg']
  obtain ⟨J, hJ⟩ : ∃ J, (u.refresh e f).jacobianOf realNumOfMat e f = .ok J := by
    rw [hrf]
    unfold FidUpdater.jacobianOf
    rw [hfn, hn]
    exact ⟨_, rfl⟩
  obtain ⟨j1, j2, _⟩ := unturned_jacobian realNumOfMat rfl (u.refresh e f) e f J hJ (by rw [hb]; rfl) (by rw [hrf]; exact hsa) (by rw [hrf]; exact hfa)
    (by rw [hrf, hb]; exact hfp) (by rw [hrf]; rfl) (by rw [hrf]; rfl) (by rw [hfn])
  obtain ⟨R, hR⟩ : ∃ R, FidUpdater.noiseOf MarkerSample.detection = .ok R := ⟨_, rfl⟩
  obtain ⟨q1, q2, _⟩ := noise_diag hR
  obtain ⟨e', he'⟩ := kalman_defined realNumOfMat.toPrim e J (Vec.of6 (MarkerSample.detection.pos - ((u.refresh e f).predictOf realNumOfMat e).1)
    (realNumOfMat.quatToRotVec ((realNumOfMat.rotVecToQuat ((u.refresh e f).predictOf realNumOfMat e).2).mul MarkerSample.detection.ang.inverse))) R hi j2
    (q1.trans j1.symm) (q2.trans j1.symm) j1.symm
  have hup : u.update realNumOfMat e 0 MarkerSample.detection = .ok (u.refresh e f, e') := by
    unfold FidUpdater.update
    unfold Ekf.AtMessage at hm
    dsimp only
    rw [hm]
    simp only [ok_bind]
    rw [getCam_registered (i := u.cameraId) hs]
    have : e.state.fids.find? u.id = some f := hfi
    rw [this]
    simp only [hJ, hR, ok_bind, he', pure_res]
  have c11 := hP 11 11 (by norm_num) (by norm_num)
  have c23 := hP (f.index + 5) (f.index + 5) (by rw [hfn]; norm_num) (by rw [hfn]; norm_num)
  rw [if_pos rfl] at c11 c23
  obtain ⟨f', k, k1, k2, _, _, k3, k4, k5⟩ := C62_away realNumOfMat realPrim_inv realNumOfMat_law rfl rfl rfl u e e 0 MarkerSample.detection _ s f 1 hup hm hi hu
    (.inl hf) hs hfi rfl hsx rfl hfx (by rw [hb]; rfl) hsa hfa (by rw [hfp, hb]; rfl)
    (fun i j h1 h2 hne => by rw [hn] at h1 h2; rw [hP i j h1 h2, if_neg hne])
    (fun i h1 => by rw [hn] at h1; rw [hP i i h1 h1, if_pos rfl]; norm_num)
    (fun a ha => by interval_cases a <;> simp [BoardDetection.variance, MarkerSample.detection])
    rfl one_pos (by linarith [Real.two_le_pi])
    (by rw [c11, c23]; simp only [MarkerSample.detection]; norm_num) (by rw [c11, c23]; simp only [MarkerSample.detection]; norm_num)
  refine ⟨e, u, _, s, f, f', hr, hup, hs, k2, hfi, k1, rfl, k3, ?_⟩
  rw [k4, k5, c11, c23]
  have : (-((1 / 100 + 1 / 100) / (1 / 100 + 1 / 100 + MarkerSample.detection.angError 2) * 1) : ℝ) = -(2 / 3) := by
    simp only [MarkerSample.detection]; norm_num
  rw [this]

/-- The marker of the filter of C42 is unturned. -/
theorem C42_marker {e : Ekf ℝ} (h : Ekf.run realPrim (Ekf.init realPrim C42_params) C42_ops = .ok e) {f : FidState ℝ}
    (hf : e.state.fids.find? 4 = some f) : f.ang = Quat.one := by
  obtain ⟨e', h1, h2⟩ : ∃ e, Ekf.run realPrim (Ekf.init realPrim C42_params) C42_ops = .ok e ∧
      (e.state.fids.find? 4).map (fun s => s.ang) = some Quat.one := by
    have hrun : Ekf.run realPrim (Ekf.init realPrim C42_params) C42_ops = (do
        let e ← Ekf.run realPrim (Ekf.init realPrim C42_params) (C42_ops.take 2)
        let e ← e.registerCamera realPrim 1 ((CamState.default : CamState ℝ).setIsExtrinsic true) (Mat.zero 6 6)
        Ekf.run realPrim e (C42_ops.drop 3)) := rfl
    rw [hrun]
    simp only [fun e => registerCamera_rate e 1 ((CamState.default : CamState ℝ).setIsExtrinsic true) (Mat.zero 6 6) one_ne_zero]
    exact ⟨_, rfl, rfl⟩
  have := h.symm.trans h1
  cases this
  rw [hf] at h2
  exact Option.some.inj h2

/-- The hypotheses of `C62_columns_violated` and `C62_residual_partial` are met by the filter of C42: the marker is seen half a turn away. -/
example : ∃ (e : Ekf ℝ) (u : FidUpdater ℝ) (s : CamState ℝ) (f : FidState ℝ) (J : Mat ℝ), e.Reachable realNumOfMat.toPrim ∧
    (u.refresh e f).jacobianOf realNumOfMat e f = .ok J ∧ e.useFirstEstimate = false ∧ e.state.cams.find? u.cameraId = some s ∧
    e.state.fids.find? u.id = some f ∧ u.isCamExtrinsic = s.isExtrinsic ∧ u.isFidExtrinsic = f.isExtrinsic ∧
    e.state.body.ang = halfTurn ∧ s.ang = Quat.one ∧ f.isExtrinsic = true ∧
    f.ang = Quat.one ∧ 1 / 10 ^ 9 < V3.norm (quatToRotVec (seenTurn s.ang e.state.body.ang f.ang)) := by
  obtain ⟨e, he, hf, hb, hn, _, _, ⟨s, hs, hE, ha, hi⟩, ⟨f, hm, hx, hi'⟩⟩ := C42_filter
  have hr : e.Reachable realNumOfMat.toPrim := ⟨_, _, C42_ops_wf, he⟩
  let u : FidUpdater ℝ := FidUpdater.new 4 1 true true
  have hg : u.camOf e = s := by simp [u, FidUpdater.new, FidUpdater.camOf, UMap.getD, hs]
  have hr' : u.refresh e f = { u with posC := s.pos, angC := s.ang, posF := f.pos, angF := f.ang, isFirst := false } := by
    simp [FidUpdater.refresh, hf, hg]
  obtain ⟨J, hJ⟩ : ∃ J, (u.refresh e f).jacobianOf realNumOfMat e f = .ok J := by
    have hg' : ({ u with posC := s.pos, angC := s.ang, posF := f.pos, angF := f.ang, isFirst := false } : FidUpdater ℝ).camOf e = s := hg
    rw [hr']
    unfold FidUpdater.jacobianOf
    rw [hg', hi, hi', hn]
    exact ⟨_, rfl⟩
  have hang : e.state.body.ang = halfTurn := by rw [hb]; rfl
  refine ⟨e, u, s, f, J, hr, hJ, hf, hs, hm, hE.symm, hx.symm, hang, ha, hx, C42_marker he hm, ?_⟩
  rw [ha, hang, C42_marker he hm]
  have : seenTurn Quat.one halfTurn Quat.one = ⟨0, 0, 0, -1⟩ := by
    simp [seenTurn, halfTurn, Quat.one, Quat.inverse, Quat.mul, Quat.normSq]
  rw [this, rotVec_large_iff (by simp [Quat.normSq])]
  have hc : 0 < Real.cos (1 / 10 ^ 9 / 2) := Real.cos_pos_of_mem_Ioo ⟨by have := Real.two_le_pi; norm_num; linarith, by have := Real.two_le_pi; norm_num; linarith⟩
  simp only [mul_zero]
  positivity

end EkfCal
