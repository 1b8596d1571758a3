import Verif.Lemmas.Rotation

/-!
# C23 — rotation vectors and quaternions convert faithfully
-/

namespace EkfCal

/-- Always a unit quaternion. -/
theorem C23_unit (v : V3 ℝ) : (rotVecToQuat v).normSq = 1 := rotVecToQuat_unit v

/-- It rotates by the angle `|v|` about the axis `v / |v|` (Rodrigues' formula). -/
theorem C23_rotation (v w : V3 ℝ) (h : 1 / 10 ^ 9 < V3.norm v) (i : Fin 3) :
    (rotVecToQuat v).rotate w i =
      Real.cos (V3.norm v) * w i + Real.sin (V3.norm v) * V3.cross (fun k => v k / V3.norm v) w i +
      (1 - Real.cos (V3.norm v)) * (v 0 / V3.norm v * w 0 + v 1 / V3.norm v * w 1 + v 2 / V3.norm v * w 2) *
        (v i / V3.norm v) := by
  rw [rotVecToQuat_large h, Quat.ofAngleAxis_rotate _ _ _ (V3.unit_sq (norm_pos_of_large h).ne')]
  rfl

/-- Shorter vectors give the identity: the code does not distinguish them from zero. -/
theorem C23_small (v : V3 ℝ) (h : V3.norm v ≤ 1 / 10 ^ 9) : rotVecToQuat v = Quat.one := if_neg (not_lt.2 h)

/-- The zero vector gives the identity. -/
theorem C23_zero : rotVecToQuat 0 = Quat.one := C23_small 0 (by rw [V3.norm_zero]; positivity)

/-- Converting back returns the vector, up to half a turn. -/
theorem C23_round_trip (v : V3 ℝ) (h : 1 / 10 ^ 9 < V3.norm v) (h1 : V3.norm v ≤ Real.pi) :
    quatToRotVec (rotVecToQuat v) = v := quatToRotVec_rotVecToQuat h h1

/-- Rotation keeps lengths. -/
theorem C23_isometry (v w : V3 ℝ) : V3.norm ((rotVecToQuat v).rotate w) = V3.norm w :=
  Quat.rotate_norm _ (rotVecToQuat_unit v) w

/-- A list of four numbers, not all zero, gives the unit quaternion in its direction. -/
theorem C23_list (w x y z : ℝ) (h : ¬(w = 0 ∧ x = 0 ∧ y = 0 ∧ z = 0)) :
    (stdToEigQuat [w, x, y, z]).normSq = 1 ∧ ∃ s : ℝ, 0 < s ∧ stdToEigQuat [w, x, y, z] = ⟨w / s, x / s, y / s, z / s⟩ := by
  have hq : (⟨w, x, y, z⟩ : Quat ℝ) ≠ ⟨0, 0, 0, 0⟩ := by
    intro h'; simp only [Quat.mk.injEq] at h'; exact h h'
  have hu := Quat.normalize_unit ⟨w, x, y, z⟩ hq
  refine ⟨hu, ?_⟩
  by_cases hpos : 0 < (⟨w, x, y, z⟩ : Quat ℝ).normSq
  · exact ⟨_, Real.sqrt_pos.2 hpos, if_pos hpos⟩
  · exfalso
    rw [Quat.normalize, if_neg hpos] at hu
    rw [hu] at hpos
    exact hpos one_pos

/-- Lists of other lengths give the identity. -/
theorem C23_list_other (l : List ℝ) (h : l.length ≠ 4) : stdToEigQuat l = Quat.one := by
  unfold stdToEigQuat
  split
  · exact absurd rfl h
  · rfl

/-- A quarter turn about the vertical axis satisfies the hypotheses and takes the first axis to the second. -/
example : 1 / 10 ^ 9 < V3.norm ![0, 0, Real.pi / 2] ∧ V3.norm ![0, 0, Real.pi / 2] ≤ Real.pi ∧
    (rotVecToQuat ![0, 0, Real.pi / 2]).rotate ![1, 0, 0] 1 = 1 := by
  have hn : V3.norm ![0, 0, Real.pi / 2] = Real.pi / 2 :=
    V3.norm_eq_of_sq (by linarith [Real.pi_pos]) (by simp)
  have h1 : 1 / 10 ^ 9 < V3.norm ![0, 0, Real.pi / 2] := by
    rw [hn]; have := Real.two_le_pi; norm_num; linarith
  refine ⟨h1, by rw [hn]; linarith [Real.pi_pos], ?_⟩
  rw [C23_rotation _ _ h1, hn]
  have hp : Real.pi / 2 ≠ 0 := by linarith [Real.pi_pos]
  simp [V3.cross, hp]

end EkfCal
