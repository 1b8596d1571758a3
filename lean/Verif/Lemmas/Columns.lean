import Verif.Lemmas.Layout
import Verif.Lemmas.UMap
import Verif.Model.Linear3
import Verif.Spec.Derivative
import Verif.Props.C35
import Mathlib.Tactic.Ring
import Mathlib.Tactic.FinCases
import Mathlib.Data.Real.Basic

/-! # Where the columns of the sensors lie, and derivatives of affine maps -/

namespace EkfCal
variable {K : Type}

theorem UMap.mem_of_find? {V : Type} {m : UMap V} {k : Nat} {v : V} (h : UMap.find? m k = some v) : (k, v) ∈ m := by
  induction m with
  | nil => simp [UMap.find?] at h
  | cons y ys ih =>
    obtain ⟨a, b⟩ := y
    simp only [UMap.find?] at h
    split_ifs at h with hk
    · subst hk; cases h; simp
    · exact List.mem_cons_of_mem _ (ih h)

theorem mem_mapBlocks {α : Type} {blocks : α → List (Nat × Nat)} {m : UMap α} {k : Nat} {v : α}
    (h : UMap.find? m k = some v) {x : Nat × Nat} (hx : x ∈ blocks v) : x ∈ mapBlocks blocks m :=
  List.mem_flatMap.2 ⟨(k, v), UMap.mem_of_find? h, hx⟩

/-- The sensor ranges of a laid out state, kind by kind. -/
theorem State.tiles_kinds {s : State K} {n : Nat} (h : Tiles s.blocks 0 n) :
    ∃ a b c d, Tiles (mapBlocks ImuState.blocks s.imus) 18 a ∧ Tiles (mapBlocks GpsState.blocks s.gpss) a b ∧
      Tiles (mapBlocks CamState.blocks s.cams) b c ∧ Tiles (mapBlocks FidState.blocks s.fids) c d ∧
      Tiles (mapBlocks augBlocks s.augs) d n ∧ s.body.index = 0 := by
  unfold State.blocks at h
  obtain ⟨d, h, h5⟩ := h.append_inv
  obtain ⟨c, h, h4⟩ := h.append_inv
  obtain ⟨b, h, h3⟩ := h.append_inv
  obtain ⟨a, h, h2⟩ := h.append_inv
  obtain ⟨a0, ⟨h0, h0'⟩, h1⟩ := h.append_inv
  simp only [Tiles] at h0 h0'
  subst h0'
  exact ⟨a, b, c, d, h1, h2, h3, h4, h5, h0⟩

theorem Tiles.le' {l : List (Nat × Nat)} {a b : Nat} (h : Tiles l a b) : a ≤ b := by
  have := h.end_eq; omega

theorem gps_columns {s : State K} {n : Nat} (h : Tiles s.blocks 0 n) {k : Nat} {g : GpsState K}
    (hg : s.gpss.find? k = some g) (he : g.isExtrinsic = true) : 18 ≤ g.index ∧ g.index + 3 ≤ n := by
  obtain ⟨a, b, c, d, h1, h2, h3, h4, h5, _⟩ := State.tiles_kinds h
  have := h2.mem_bounds (mem_mapBlocks (blocks := GpsState.blocks) hg (x := (g.index, 3)) (by simp [GpsState.blocks, he]))
  have := h1.le'; have := h3.le'; have := h4.le'; have := h5.le'
  dsimp only at *; omega

theorem imu_columns {s : State K} {n : Nat} (h : Tiles s.blocks 0 n) {k : Nat} {g : ImuState K}
    (hg : s.imus.find? k = some g) :
    (g.isExtrinsic = true → 18 ≤ g.indexExtrinsic ∧ g.indexExtrinsic + 6 ≤ n) ∧
    (g.isIntrinsic = true → 18 ≤ g.indexIntrinsic ∧ g.indexIntrinsic + 6 ≤ n) ∧
    (g.isExtrinsic = true → g.isIntrinsic = true → g.indexExtrinsic + 6 ≤ g.indexIntrinsic) := by
  obtain ⟨a, b, c, d, h1, h2, h3, h4, h5, _⟩ := State.tiles_kinds h
  have := h2.le'; have := h3.le'; have := h4.le'; have := h5.le'
  refine ⟨fun he => ?_, fun he => ?_, fun he hi => ?_⟩
  · have := h1.mem_bounds (mem_mapBlocks (blocks := ImuState.blocks) hg (x := (g.indexExtrinsic, 6)) (by simp [ImuState.blocks, he]))
    dsimp only at *; omega
  · have := h1.mem_bounds (mem_mapBlocks (blocks := ImuState.blocks) hg (x := (g.indexIntrinsic, 6)) (by simp [ImuState.blocks, he]))
    dsimp only at *; omega
  · obtain ⟨l₁, l₂, hl⟩ := List.append_of_mem (UMap.mem_of_find? hg)
    have hm : Tiles (l₁.flatMap (fun kv => ImuState.blocks kv.2) ++ (ImuState.blocks g ++ l₂.flatMap fun kv => ImuState.blocks kv.2)) 18 a := by
      have := h1
      simp only [mapBlocks, hl, List.flatMap_append, List.flatMap_cons] at this
      exact this
    obtain ⟨x, _, hm⟩ := hm.append_inv
    obtain ⟨y, hm, _⟩ := hm.append_inv
    simp only [ImuState.blocks, he, hi, if_true, List.cons_append, List.nil_append, Tiles] at hm
    omega

theorem cam_columns {s : State K} {n : Nat} (h : Tiles s.blocks 0 n) {k : Nat} {g : CamState K}
    (hg : s.cams.find? k = some g) (he : g.isExtrinsic = true) : 18 ≤ g.index ∧ g.index + 6 ≤ n := by
  obtain ⟨a, b, c, d, h1, h2, h3, h4, h5, _⟩ := State.tiles_kinds h
  have := h3.mem_bounds (mem_mapBlocks (blocks := CamState.blocks) hg (x := (g.index, 6)) (by simp [CamState.blocks, he]))
  have := h1.le'; have := h2.le'; have := h4.le'; have := h5.le'
  dsimp only at *; omega

theorem cam_fid_columns {s : State K} {n : Nat} (h : Tiles s.blocks 0 n) {k k' : Nat} {g : CamState K} {f : FidState K}
    (hg : s.cams.find? k = some g) (hf : s.fids.find? k' = some f) :
    (g.isExtrinsic = true → 18 ≤ g.index ∧ g.index + 6 ≤ n) ∧
    (f.isExtrinsic = true → 18 ≤ f.index ∧ f.index + 6 ≤ n) ∧
    (g.isExtrinsic = true → f.isExtrinsic = true → g.index + 6 ≤ f.index) := by
  obtain ⟨a, b, c, d, h1, h2, h3, h4, h5, _⟩ := State.tiles_kinds h
  have := h1.le'; have := h2.le'; have := h3.le'; have := h4.le'; have := h5.le'
  have hc : g.isExtrinsic = true → b ≤ g.index ∧ g.index + 6 ≤ c := fun he =>
    h3.mem_bounds (mem_mapBlocks (blocks := CamState.blocks) hg (x := (g.index, 6)) (by simp [CamState.blocks, he]))
  have hd : f.isExtrinsic = true → c ≤ f.index ∧ f.index + 6 ≤ d := fun he =>
    h4.mem_bounds (mem_mapBlocks (blocks := FidState.blocks) hf (x := (f.index, 6)) (by simp [FidState.blocks, he]))
  refine ⟨fun he => ?_, fun he => ?_, fun he hi => ?_⟩
  · have := hc he; omega
  · have := hd he; omega
  · have := hc he; have := hd hi; omega

theorem Quat.rotate_eq_mulVec (q : Quat ℝ) (v : V3 ℝ) : q.rotate v = q.toMat.mulVec v := by
  funext i
  have h : (fun j => q.w * (V3.cross ![q.x, q.y, q.z] v + V3.cross ![q.x, q.y, q.z] v) j) =
      (q.w • (V3.cross ![q.x, q.y, q.z] v + V3.cross ![q.x, q.y, q.z] v) : V3 ℝ) := rfl
  simp only [Quat.rotate, h, Pi.add_apply, Pi.smul_apply]
  fin_cases i <;>
    simp [Quat.toMat, V3.cross, Matrix.mulVec, dotProduct, Fin.sum_univ_three] <;> ring

theorem cross_eq_mulVec (a b : V3 ℝ) : V3.cross a b = (skew a).mulVec b := by
  funext i
  fin_cases i <;> simp [V3.cross, skew, Matrix.mulVec, dotProduct, Fin.sum_univ_three] <;> ring

theorem cross_eq_mulVec' (a b : V3 ℝ) : V3.cross a b = (-skew b).mulVec a := by
  funext i
  fin_cases i <;> simp [V3.cross, skew, Matrix.mulVec, dotProduct, Fin.sum_univ_three] <;> ring

theorem isJacobian_const {n m : Nat} (c : Fin m → ℝ) (x : Fin n → ℝ) : IsJacobian (fun _ => c) x 0 := by
  unfold IsJacobian
  simpa using hasFDerivAt_const (𝕜 := ℝ) c x

theorem isJacobian_linear {n m : Nat} (A : Matrix (Fin m) (Fin n) ℝ) (x : Fin n → ℝ) : IsJacobian (fun y => A.mulVec y) x A := by
  unfold IsJacobian
  exact (LinearMap.toContinuousLinearMap (Matrix.toLin' A)).hasFDerivAt

theorem isJacobian_id {n : Nat} (x : Fin n → ℝ) : IsJacobian (fun y => y) x 1 := by
  simpa using isJacobian_linear (1 : Matrix (Fin n) (Fin n) ℝ) x

theorem IsJacobian.add {n m : Nat} {f g : (Fin n → ℝ) → Fin m → ℝ} {x : Fin n → ℝ} {A B : Matrix (Fin m) (Fin n) ℝ}
    (hf : IsJacobian f x A) (hg : IsJacobian g x B) : IsJacobian (fun y => f y + g y) x (A + B) := by
  unfold IsJacobian at *
  simpa using hf.fun_add hg

theorem IsJacobian.sub {n m : Nat} {f g : (Fin n → ℝ) → Fin m → ℝ} {x : Fin n → ℝ} {A B : Matrix (Fin m) (Fin n) ℝ}
    (hf : IsJacobian f x A) (hg : IsJacobian g x B) : IsJacobian (fun y => f y - g y) x (A - B) := by
  unfold IsJacobian at *
  simpa using hf.fun_sub hg

theorem IsJacobian.mulLeft {n m k : Nat} {f : (Fin n → ℝ) → Fin m → ℝ} {x : Fin n → ℝ} {A : Matrix (Fin m) (Fin n) ℝ}
    (R : Matrix (Fin k) (Fin m) ℝ) (hf : IsJacobian f x A) : IsJacobian (fun y => R.mulVec (f y)) x (R * A) := by
  unfold IsJacobian at *
  have := (LinearMap.toContinuousLinearMap (Matrix.toLin' R)).hasFDerivAt.comp x hf
  refine this.congr_fderiv ?_
  ext y
  simp

theorem IsJacobian.smul {n m : Nat} {f : (Fin n → ℝ) → Fin m → ℝ} {x : Fin n → ℝ} {A : Matrix (Fin m) (Fin n) ℝ}
    (c : ℝ) (hf : IsJacobian f x A) : IsJacobian (fun y => c • f y) x (c • A) := by
  unfold IsJacobian at *
  simpa using hf.fun_const_smul c

/-- Product rule for the cross product. -/
theorem IsJacobian.cross {f g : (Fin 3 → ℝ) → Fin 3 → ℝ} {x : Fin 3 → ℝ} {A B : Matrix (Fin 3) (Fin 3) ℝ}
    (hf : IsJacobian f x A) (hg : IsJacobian g x B) :
    IsJacobian (fun y => V3.cross (f y) (g y)) x (-skew (g x) * A + skew (f x) * B) := by
  rw [isJacobian_iff] at *
  intro i
  fin_cases i
  · refine HasFDerivAt.congr_fderiv (((hf 1).fun_mul (hg 2)).fun_sub ((hf 2).fun_mul (hg 1))) ?_
    ext y
    simp [skew, Matrix.mulVec, Matrix.mul_apply, Matrix.vecMul, dotProduct, Fin.sum_univ_three]; ring
  · refine HasFDerivAt.congr_fderiv (((hf 2).fun_mul (hg 0)).fun_sub ((hf 0).fun_mul (hg 2))) ?_
    ext y
    simp [skew, Matrix.mulVec, Matrix.mul_apply, Matrix.vecMul, dotProduct, Fin.sum_univ_three]; ring
  · refine HasFDerivAt.congr_fderiv (((hf 0).fun_mul (hg 1)).fun_sub ((hf 1).fun_mul (hg 0))) ?_
    ext y
    simp [skew, Matrix.mulVec, Matrix.mul_apply, Matrix.vecMul, dotProduct, Fin.sum_univ_three]; ring

theorem IsJacobian.congr {n m : Nat} {f : (Fin n → ℝ) → Fin m → ℝ} {x : Fin n → ℝ} {A B : Matrix (Fin m) (Fin n) ℝ}
    (hf : IsJacobian f x A) (h : A = B) : IsJacobian f x B := h ▸ hf

end EkfCal
