import Verif.Model.MathHelper
import Verif.Model.Rotation
import Verif.Lemmas.Align
import Mathlib.LinearAlgebra.CrossProduct
import Mathlib.Algebra.Order.BigOperators.Group.List

/-!
# C39 — small linear algebra helpers
-/

namespace EkfCal

section skew
variable {K : Type} [CommRing K]

/-- `SkewSymmetric(v) w` is the cross product. -/
theorem C39_skew (v w : V3 K) : (skew v).mulVec w = crossProduct v w := by
  funext i
  fin_cases i <;> simp [skew, crossProduct, Matrix.mulVec, dotProduct, Fin.sum_univ_three] <;> ring

/-- `SkewSymmetric(v)` is antisymmetric. -/
theorem C39_antisymmetric (v : V3 K) : (skew v).transpose = -skew v := by
  ext i j
  fin_cases i <;> fin_cases j <;> simp [skew]

/-- The `cross` of the Eigen model is the same product. -/
theorem cross_eq (v w : V3 K) : V3.cross v w = crossProduct v w := by
  funext i
  fin_cases i <;> simp [V3.cross, crossProduct]

end skew

section bound
variable {K : Type} [Zero K] [LinearOrder K]

theorem minBoundLoop_get (b : K) (v : Vec K) : ∀ n, (minBoundLoop b n v).size = v.size ∧
    ∀ i, (minBoundLoop b n v).get i = if i < n ∧ v.get i < b then b else v.get i
  | 0 => ⟨rfl, fun i => by simp [minBoundLoop]⟩
  | n + 1 => by
    obtain ⟨h1, h2⟩ := minBoundLoop_get b v n
    unfold minBoundLoop
    dsimp only
    have hn : (minBoundLoop b n v).get n = v.get n := by rw [h2, if_neg (by simp)]
    split
    · rename_i hlt
      rw [hn] at hlt
      refine ⟨h1, fun i => ?_⟩
      dsimp only
      by_cases hi : i = n
      · subst hi; rw [if_pos rfl, if_pos ⟨by omega, hlt⟩]
      · rw [if_neg hi, h2]
        have : i < n ↔ i < n + 1 := by omega
        simp only [this]
    · rename_i hlt
      rw [hn] at hlt
      refine ⟨h1, fun i => ?_⟩
      rw [h2]
      by_cases hi : i = n
      · subst hi
        rw [if_neg (by simp), if_neg (fun h => hlt h.2)]
      · have : i < n ↔ i < n + 1 := by omega
        simp only [this]

/-- `MinBoundVector` keeps the size, sets exactly the entries below the bound to the bound and keeps all others. -/
theorem C39_min_bound (v : Vec K) (b : K) : (minBoundVector v b).size = v.size ∧
    ∀ i, i < v.size → (v.get i < b → (minBoundVector v b).get i = b) ∧
      (b ≤ v.get i → (minBoundVector v b).get i = v.get i) ∧ b ≤ (minBoundVector v b).get i := by
  obtain ⟨h1, h2⟩ := minBoundLoop_get b v v.size
  refine ⟨h1, fun i hi => ?_⟩
  have := h2 i
  unfold minBoundVector
  rw [this]
  refine ⟨fun h => if_pos ⟨hi, h⟩, fun h => if_neg fun h' => absurd h (not_le.2 h'.2), ?_⟩
  split
  · exact le_rfl
  · rename_i h
    exact not_lt.1 fun h' => h ⟨hi, h'⟩

end bound

section average

theorem averageWeighted_ok (vs : List (V3 ℝ)) (ws : List ℝ) (hl : vs.length = ws.length) (hs : ws.sum ≠ 0) :
    averageWeighted vs ws = .ok (ws.sum⁻¹ • ((vs.zip ws).map fun p => p.2 • p.1).sum) := by
  have hz : ((vs.zip ws).map fun p => p.2).sum = ws.sum := by
    congr 1
    exact List.map_snd_zip hl.ge
  unfold averageWeighted
  rw [averageLoop_ok _ _ _ _ hl.le]
  simp only [ok_bind, zero_add, hz]
  rw [guardUB_true (by exact hs)]
  rfl

/-- The weighted average is `Σ wᵢ vᵢ / Σ wᵢ`, coordinate by coordinate, whenever the weights do not cancel. -/
theorem C39_weighted (vs : List (V3 ℝ)) (ws : List ℝ) (hl : vs.length = ws.length) (hs : ws.sum ≠ 0) :
    ∃ a, averageWeighted vs ws = .ok a ∧
      ∀ i, a i = ((vs.zip ws).map fun p => p.2 * p.1 i).sum / ws.sum := by
  refine ⟨_, averageWeighted_ok vs ws hl hs, fun i => ?_⟩
  rw [Pi.smul_apply, sum_apply, List.map_map, smul_eq_mul, inv_mul_eq_div]
  rfl

/-- The unweighted average is the mean. -/
theorem C39_mean (vs : List (V3 ℝ)) (h : vs ≠ []) :
    ∃ a, averageVectors vs = .ok a ∧ ∀ i, a i * vs.length = (vs.map fun v => v i).sum := by
  have hl : (vs.length : ℝ) ≠ 0 := by
    have := List.length_pos_iff.2 h
    exact_mod_cast this.ne'
  exact ⟨_, averageVectors_ok vs h, fun i => div_mul_cancel₀ _ hl⟩

theorem zip_sum_le {c : ℝ} (i : Fin 3) : ∀ (vs : List (V3 ℝ)) (ws : List ℝ), vs.length = ws.length → (∀ w ∈ ws, 0 ≤ w) →
    (∀ v ∈ vs, v i ≤ c) → ((vs.zip ws).map fun p => p.2 * p.1 i).sum ≤ c * ws.sum
  | [], [], _, _, _ => by simp
  | v :: vs, w :: ws, hl, hw, hv => by
    have := zip_sum_le i vs ws (by simpa using hl) (fun w h => hw w (List.mem_cons_of_mem _ h))
      (fun v h => hv v (List.mem_cons_of_mem _ h))
    have h1 := mul_le_mul_of_nonneg_left (hv v List.mem_cons_self) (hw w List.mem_cons_self)
    simp only [List.zip_cons_cons, List.map_cons, List.sum_cons]
    linarith

theorem zip_sum_ge {c : ℝ} (i : Fin 3) : ∀ (vs : List (V3 ℝ)) (ws : List ℝ), vs.length = ws.length → (∀ w ∈ ws, 0 ≤ w) →
    (∀ v ∈ vs, c ≤ v i) → c * ws.sum ≤ ((vs.zip ws).map fun p => p.2 * p.1 i).sum
  | [], [], _, _, _ => by simp
  | v :: vs, w :: ws, hl, hw, hv => by
    have := zip_sum_ge i vs ws (by simpa using hl) (fun w h => hw w (List.mem_cons_of_mem _ h))
      (fun v h => hv v (List.mem_cons_of_mem _ h))
    have h1 := mul_le_mul_of_nonneg_left (hv v List.mem_cons_self) (hw w List.mem_cons_self)
    simp only [List.zip_cons_cons, List.map_cons, List.sum_cons]
    linarith

/-- With non-negative weights, not all zero, every coordinate of the average lies between any bounds on that coordinate of
the vectors. -/
theorem C39_range (vs : List (V3 ℝ)) (ws : List ℝ) (hl : vs.length = ws.length) (hw : ∀ w ∈ ws, 0 ≤ w) (hs : 0 < ws.sum) :
    ∃ a, averageWeighted vs ws = .ok a ∧
      ∀ i lo hi, (∀ v ∈ vs, lo ≤ v i ∧ v i ≤ hi) → lo ≤ a i ∧ a i ≤ hi := by
  obtain ⟨a, ha, he⟩ := C39_weighted vs ws hl hs.ne'
  refine ⟨a, ha, fun i lo hi hb => ?_⟩
  rw [he, le_div_iff₀ hs, div_le_iff₀ hs]
  exact ⟨zip_sum_ge i vs ws hl hw fun v hv => (hb v hv).1, zip_sum_le i vs ws hl hw fun v hv => (hb v hv).2⟩

theorem zip_replicate_sum (v : V3 ℝ) (i : Fin 3) : ∀ ws : List ℝ,
    (((List.replicate ws.length v).zip ws).map fun p => p.2 * p.1 i).sum = ws.sum * v i
  | [] => by simp
  | w :: ws => by
    have := zip_replicate_sum v i ws
    simp only [List.length_cons, List.replicate_succ, List.zip_cons_cons, List.map_cons, List.sum_cons, this]
    ring

/-- Averaging equal vectors returns that vector, whatever the weights (as long as they do not cancel). -/
theorem C39_equal (v : V3 ℝ) (ws : List ℝ) (hs : ws.sum ≠ 0) :
    averageWeighted (List.replicate ws.length v) ws = .ok v := by
  obtain ⟨a, ha, he⟩ := C39_weighted (List.replicate ws.length v) ws (by simp) hs
  rw [ha]
  congr 1
  funext i
  rw [he, zip_replicate_sum, mul_div_cancel_left₀ _ hs]

/-- The spread helper returns `√(Σ |vᵢ - mean|²) / n`. -/
theorem C39_spread (vs : List (V3 ℝ)) (h : vs ≠ []) : ∃ d m, meanStdDev vs = .ok d ∧ averageVectors vs = .ok m ∧ 0 ≤ d ∧
    (d * vs.length) ^ 2 = (vs.map fun v => (v 0 - m 0) ^ 2 + (v 1 - m 1) ^ 2 + (v 2 - m 2) ^ 2).sum := by
  have hl : (vs.length : ℝ) ≠ 0 := by
    have := List.length_pos_iff.2 h
    exact_mod_cast this.ne'
  refine ⟨_, _, meanStdDev_ok vs h, averageVectors_ok vs h, div_nonneg (Real.sqrt_nonneg _) (Nat.cast_nonneg _), ?_⟩
  have hn : ∀ v : V3 ℝ, V3.norm v * V3.norm v = (v 0) ^ 2 + (v 1) ^ 2 + (v 2) ^ 2 := by
    intro v
    unfold V3.norm
    rw [Real.mul_self_sqrt (by nlinarith [mul_self_nonneg (v 0), mul_self_nonneg (v 1), mul_self_nonneg (v 2)])]
    ring
  rw [div_mul_cancel₀ _ hl, Real.sq_sqrt]
  · simp only [hn, Pi.sub_apply]
  · refine List.sum_nonneg fun x hx => ?_
    obtain ⟨v, _, rfl⟩ := List.mem_map.1 hx
    exact mul_self_nonneg _

end average

section jacobian

/-- The rotation Jacobian leaves the rotation axis fixed. -/
theorem C39_jacobian_axis (q : Quat ℝ) : (quatJacobian q).mulVec (quatToRotVec q) = quatToRotVec q := by
  have h0 : (skew (quatToRotVec q)).mulVec (quatToRotVec q) = 0 := by rw [C39_skew, cross_self]
  unfold quatJacobian
  dsimp only
  rw [Matrix.add_mulVec, Matrix.sub_mulVec, Matrix.one_mulVec, Matrix.smul_mulVec, Matrix.smul_mulVec, ← Matrix.mulVec_mulVec, h0,
    Matrix.mulVec_zero]
  simp

/-- At the identity rotation it is the identity matrix. -/
theorem C39_jacobian_one (q : Quat ℝ) (h : quatToRotVec q = 0) : quatJacobian q = 1 := by
  have : skew (0 : V3 ℝ) = 0 := by
    ext i j
    fin_cases i <;> fin_cases j <;> simp [skew]
  unfold quatJacobian
  rw [h]
  dsimp only
  rw [this]
  simp

end jacobian

/-- Weights that meet the hypotheses, and an average strictly inside the range. -/
example : ([1, 3] : List ℝ).sum = 4 ∧ (∀ w ∈ ([1, 3] : List ℝ), 0 ≤ w) ∧
    ∃ a, averageWeighted [![0, 0, 0], ![4, 8, 0]] [1, 3] = .ok a ∧ a 0 = 3 ∧ a 1 = 6 := by
  refine ⟨by norm_num, by simp, ?_⟩
  obtain ⟨a, ha, he⟩ := C39_weighted [![0, 0, 0], ![4, 8, 0]] [1, 3] rfl (by norm_num)
  refine ⟨a, ha, ?_, ?_⟩ <;> rw [he] <;> norm_num [Matrix.cons_val_zero, Matrix.cons_val_one]

/-- A vector with one entry below, one on and one above the bound. -/
example : (minBoundVector (⟨3, fun i => (i : ℤ)⟩ : Vec ℤ) 1).get 0 = 1 ∧
    (minBoundVector (⟨3, fun i => (i : ℤ)⟩ : Vec ℤ) 1).get 1 = 1 ∧
    (minBoundVector (⟨3, fun i => (i : ℤ)⟩ : Vec ℤ) 1).get 2 = 2 := by decide

end EkfCal
