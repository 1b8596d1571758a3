import Verif.Props.C47
import Mathlib.Tactic.FieldSimp
import Mathlib.Tactic.Ring

/-!
# C57: the simulated tracker reports the configured number of features
-/

namespace EkfCal
variable {K : Type} [Field K] [LinearOrder K] [IsStrictOrderedRing K]

theorem local_rotate {pose : CameraPose K} (hq : pose.ang.normSq = 1) (u : V3 K) :
    pose.local (pose.ang.rotate u + pose.pos) = u := by
  rw [CameraPose.local, add_sub_cancel_right, ← Quat.toMat_inverse hq, ← Quat.rotate_toMat, ← Quat.mul_rotate
    (Quat.inverse_unit hq) hq, Quat.inverse_mul_self hq, Quat.one_rotate]

/-- A feature drawn within the image, at a positive depth, is seen through a lens without distortion. -/
theorem sees_draw (c : Intrinsics K) (pose : CameraPose K) (d : FeatureDraw K) (hq : pose.ang.normSq = 1)
    (hk : c.k1 = 0 ∧ c.k2 = 0 ∧ c.p1 = 0 ∧ c.p2 = 0) (hf : c.fx ≠ 0 ∧ c.fy ≠ 0 ∧ c.pixelSize ≠ 0)
    (hd : 0 < d.depth ∧ (d.cx : K) ≤ c.width ∧ (d.cy : K) ≤ c.height) : Sees c pose (d.point c pose) := by
  obtain ⟨k1, k2, p1, p2⟩ := hk
  obtain ⟨f1, f2, f3⟩ := hf
  obtain ⟨d0, d1, d2⟩ := hd
  have hdn : d.depth ≠ 0 := ne_of_gt d0
  have hx : cvProject c (pose.local (d.point c pose)) = ((d.cx : K), (d.cy : K)) := by
    rw [FeatureDraw.point, local_rotate hq]
    simp only [cvProject, k1, k2, p1, p2]
    have h2 : (![d.depth * ((d.cx : K) - c.width / 2) / (c.fx / c.pixelSize),
      d.depth * ((d.cy : K) - c.height / 2) / (c.fy / c.pixelSize), d.depth] : V3 K) 2 = d.depth := rfl
    have h0 : (![d.depth * ((d.cx : K) - c.width / 2) / (c.fx / c.pixelSize),
      d.depth * ((d.cy : K) - c.height / 2) / (c.fy / c.pixelSize), d.depth] : V3 K) 0 =
        d.depth * ((d.cx : K) - c.width / 2) / (c.fx / c.pixelSize) := rfl
    have h1 : (![d.depth * ((d.cx : K) - c.width / 2) / (c.fx / c.pixelSize),
      d.depth * ((d.cy : K) - c.height / 2) / (c.fy / c.pixelSize), d.depth] : V3 K) 1 =
        d.depth * ((d.cy : K) - c.height / 2) / (c.fy / c.pixelSize) := rfl
    rw [h2, h0, h1, if_neg hdn]
    ext
    · dsimp only; field_simp; ring
    · dsimp only; field_simp; ring
  have hz : pose.local (d.point c pose) 2 = d.depth := by rw [FeatureDraw.point, local_rotate hq]; rfl
  refine ⟨hz ▸ d0, ?_⟩
  rw [hx]
  exact ⟨Nat.cast_nonneg _, d1, Nat.cast_nonneg _, d2⟩

variable [FloorRing K]

/-- With a lens without distortion, non-zero focal lengths and draws within the image, every frame holds at least the configured
number of key points. -/
theorem C57_count_partial (noErrors : Bool) (count : Nat) (c : Intrinsics K) (pose : CameraPose K) (draw : Nat → FeatureDraw K)
    (t t' : TruthFeatures K) (keys : List (Nat × K × K)) (h : visibleKeypoints noErrors count c pose draw t = .ok (keys, t'))
    (hq : pose.ang.normSq = 1) (hk : c.k1 = 0 ∧ c.k2 = 0 ∧ c.p1 = 0 ∧ c.p2 = 0)
    (hf : c.fx ≠ 0 ∧ c.fy ≠ 0 ∧ c.pixelSize ≠ 0)
    (hd : ∀ i, 0 < (draw i).depth ∧ ((draw i).cx : K) ≤ c.width ∧ ((draw i).cy : K) ≤ c.height) : count ≤ keys.length := by
  classical
  rw [visibleKeypoints, visibleOf_eq, ok_bind] at h
  by_cases hc : count > (keysFrom noErrors c pose 0 t.points).length
  · rw [if_pos hc] at h
    dsimp only at h
    rw [visibleOf_eq, ok_bind] at h
    cases h
    rw [keysFrom_length] at hc ⊢
    rw [TruthFeatures.generate_points, List.countP_append, keysFrom_length]
    have : ∀ l : List (FeatureDraw K), (∀ d ∈ l, ∃ i, d = draw i) →
        (l.map fun d => d.point c pose).countP (fun p => Sees c pose p) = l.length := by
      intro l hl
      rw [List.countP_eq_length.2, List.length_map]
      intro p hp
      obtain ⟨d, hd1, rfl⟩ := List.mem_map.1 hp
      obtain ⟨i, rfl⟩ := hl d hd1
      exact decide_eq_true (sees_draw c pose _ hq hk hf (hd i))
    rw [this _ fun d hd => by obtain ⟨i, -, rfl⟩ := List.mem_map.1 hd; exact ⟨i, rfl⟩, List.length_map, List.length_range]
    omega
  · rw [if_neg hc] at h
    cases h
    exact not_lt.1 hc

open FeatureSample in
/-- With radial distortion a generated feature can fall outside the image, and the frame is short. -/
theorem C57_count_violated : ∃ (c : Intrinsics ℚ) (pose : CameraPose ℚ) (draw : Nat → FeatureDraw ℚ)
    (r : List (Nat × ℚ × ℚ) × TruthFeatures ℚ),
    visibleKeypoints true 1 c pose draw ⟨[], []⟩ = .ok r ∧ pose.ang.normSq = 1 ∧ c.fx ≠ 0 ∧ c.fy ≠ 0 ∧ c.pixelSize ≠ 0 ∧
      (∀ i, 0 < (draw i).depth ∧ ((draw i).cx : ℚ) ≤ c.width ∧ ((draw i).cy : ℚ) ≤ c.height) ∧ r.1.length < 1 := by
  obtain ⟨r, h1, h2⟩ := Samples.ok_of_check (P := fun r : List (Nat × ℚ × ℚ) × TruthFeatures ℚ => r.1.length < 1)
    (r := visibleKeypoints true 1 { cam 2 with k1 := 1 } pose (fun _ => ⟨2, 2, 1⟩) ⟨[], []⟩) (by decide +kernel)
  refine ⟨_, _, _, r, h1, by decide +kernel, by norm_num [cam], by norm_num [cam], by norm_num [cam], fun i => ?_, h2⟩
  norm_num [cam]

open FeatureSample in
/-- A frame that needs three new features. -/
example : ∃ r, visibleKeypoints false 3 (cam 4) pose (fun i => ⟨i, i + 1, 2⟩) ⟨[![0, 0, -1]], [(0, ![0, 0, -1])]⟩ = .ok r ∧
    r.1.length = 3 :=
  Samples.ok_of_check (P := fun r : List (Nat × ℚ × ℚ) × TruthFeatures ℚ => r.1.length = 3)
    (r := visibleKeypoints false 3 (cam 4) pose (fun i => ⟨i, i + 1, 2⟩) ⟨[![0, 0, -1]], [(0, ![0, 0, -1])]⟩)
    (by decide +kernel)

end EkfCal
