import Verif.Spec.Visible
import Verif.Lemmas.Smoother
import Verif.Lemmas.QuatMat
import Verif.Lemmas.UMap
import Mathlib.Data.List.Count

/-!
# Lemmas about the simulated features
-/

namespace EkfCal

/-- The entries of a list under consecutive indices. -/
def enumAt {α : Type} : Nat → List α → UMap α
  | _, [] => []
  | k, x :: xs => (k, x) :: enumAt (k + 1) xs

section
variable {α : Type}

theorem enumAt_length (k : Nat) (l : List α) : (enumAt k l).length = l.length := by
  induction l generalizing k with
  | nil => rfl
  | cons x xs ih => simp [enumAt, ih]

theorem find?_enumAt_lt (k i : Nat) (l : List α) (h : i < k) : UMap.find? (enumAt k l) i = none := by
  induction l generalizing k with
  | nil => rfl
  | cons x xs ih =>
    rw [enumAt, UMap.find?, if_neg (by omega)]
    exact ih (k + 1) (by omega)

theorem find?_enumAt (k i : Nat) (l : List α) : UMap.find? (enumAt k l) (k + i) = l[i]? := by
  induction l generalizing k i with
  | nil => simp [enumAt, UMap.find?]
  | cons x xs ih =>
    rw [enumAt, UMap.find?]
    cases i with
    | zero => simp
    | succ i =>
      rw [if_neg (by omega), List.getElem?_cons_succ, ← ih (k + 1) i]
      congr 1
      omega

theorem insert_enumAt (k : Nat) (pre b : List α) (p : α) :
    UMap.insert (enumAt k (pre ++ b)) (k + pre.length) p = enumAt k (pre ++ p :: b.tail) := by
  induction pre generalizing k with
  | nil =>
    cases b with
    | nil => rfl
    | cons x xs => simp [enumAt, UMap.insert]
  | cons x xs ih =>
    simp only [List.cons_append, enumAt, List.length_cons, UMap.insert]
    rw [if_neg (by omega), if_neg (by omega), show k + (xs.length + 1) = k + 1 + xs.length by omega, ih]

end

section
variable {K : Type} [Field K] [LinearOrder K]

omit [Field K] [LinearOrder K] in
theorem mapFrom_enumAt (pre b ps : List (V3 K)) (h : b.length ≤ ps.length) :
    mapFrom pre.length ps (enumAt 0 (pre ++ b)) = enumAt 0 (pre ++ ps) := by
  induction ps generalizing pre b with
  | nil =>
    have : b = [] := List.length_eq_zero_iff.1 (by simpa using h)
    rw [this]
    rfl
  | cons p ps ih =>
    rw [mapFrom]
    have h1 := insert_enumAt 0 pre b p
    rw [Nat.zero_add] at h1
    rw [h1]
    have h2 := ih (pre ++ [p]) b.tail (by simp at h ⊢; omega)
    simpa using h2

/-- The map is the list under its indices. -/
def TruthFeatures.Indexed (t : TruthFeatures K) : Prop := t.map = enumAt 0 t.points

omit [Field K] [LinearOrder K] in
theorem TruthFeatures.Indexed.aligned {t : TruthFeatures K} (h : t.Indexed) : t.Aligned := by
  intro i
  rw [h]
  have := find?_enumAt 0 i t.points
  rwa [Nat.zero_add] at this

omit [Field K] [LinearOrder K] in
theorem TruthFeatures.Indexed.grid {t : TruthFeatures K} (h : t.Indexed) (points : List (V3 K)) :
    (t.grid points).Indexed := by
  unfold Indexed at h ⊢
  rw [TruthFeatures.grid, h]
  have := mapFrom_enumAt [] t.points (t.points ++ points) (by simp)
  simpa using this

theorem TruthFeatures.generate_points (c : Intrinsics K) (pose : CameraPose K) (t : TruthFeatures K)
    (ds : List (FeatureDraw K)) : (t.generate c pose ds).points = t.points ++ ds.map fun d => d.point c pose := by
  induction ds generalizing t with
  | nil => simp [generate]
  | cons d ds ih => rw [generate, ih]; simp

theorem TruthFeatures.Indexed.generate {t : TruthFeatures K} (h : t.Indexed) (c : Intrinsics K) (pose : CameraPose K)
    (ds : List (FeatureDraw K)) : (t.generate c pose ds).Indexed := by
  induction ds generalizing t with
  | nil => exact h
  | cons d ds ih =>
    rw [TruthFeatures.generate]
    refine ih ?_
    unfold Indexed at h ⊢
    dsimp only
    rw [h, enumAt_length]
    have := insert_enumAt 0 t.points [] (d.point c pose)
    simpa using this

omit [LinearOrder K] in
theorem projectFeature_local [DecidableEq K] (pose : CameraPose K) (p : V3 K) :
    pose.ang.toMat.transpose.mulVec p + pose.ang.toMat.transpose.mulVec (-pose.pos) = pose.local p := by
  rw [CameraPose.local, sub_eq_add_neg, Matrix.mulVec_add]

omit [LinearOrder K] in
theorem plane_local (pose : CameraPose K) (p : V3 K) :
    let plane : V3 K := pose.ang.toMat.mulVec ![0, 0, 1]
    let v : V3 K := p - pose.pos
    plane 0 * v 0 + plane 1 * v 1 + plane 2 * v 2 = pose.local p 2 := by
  simp [CameraPose.local, Matrix.mulVec, dotProduct, Fin.sum_univ_three]

variable [FloorRing K]

/-- The pixel reported for a feature. -/
def pixelOf (noErrors : Bool) (c : Intrinsics K) (pose : CameraPose K) (p : V3 K) : K × K :=
  (if noErrors then (cvProject c (pose.local p)).1 else roundHalf (cvProject c (pose.local p)).1,
    if noErrors then (cvProject c (pose.local p)).2 else roundHalf (cvProject c (pose.local p)).2)

open Classical in
/-- The key points of a list of features from index `i` on. -/
noncomputable def keysFrom (noErrors : Bool) (c : Intrinsics K) (pose : CameraPose K) : Nat → List (V3 K) → List (Nat × K × K)
  | _, [] => []
  | i, p :: ps => if Sees c pose p then (i, pixelOf noErrors c pose p) :: keysFrom noErrors c pose (i + 1) ps
      else keysFrom noErrors c pose (i + 1) ps

theorem filterLoop_eq (noErrors : Bool) (c : Intrinsics K) (pose : CameraPose K) (pre rest : List (V3 K)) :
    filterLoop noErrors c pose (pre ++ rest) pre.length (rest.map (projectFeature c pose)) =
      .ok (keysFrom noErrors c pose pre.length rest) := by
  induction rest generalizing pre with
  | nil => rfl
  | cons p ps ih =>
    have h1 := ih (pre ++ [p])
    simp only [List.append_assoc, List.singleton_append, List.length_append, List.length_singleton] at h1
    have hread : readAt (pre ++ p :: ps) pre.length = .ok p := readAt_ok_iff.2 (by simp)
    have hproj : projectFeature c pose p = cvProject c (pose.local p) := by
      rw [projectFeature, projectFeature_local]
    have hcond : (pose.ang.toMat.mulVec ![0, 0, 1] 0 * (p - pose.pos) 0 + pose.ang.toMat.mulVec ![0, 0, 1] 1 * (p - pose.pos) 1 +
        pose.ang.toMat.mulVec ![0, 0, 1] 2 * (p - pose.pos) 2 > 0 ∧ (cvProject c (pose.local p)).1 ≥ 0 ∧
        (cvProject c (pose.local p)).2 ≥ 0 ∧ (cvProject c (pose.local p)).1 ≤ c.width ∧
        (cvProject c (pose.local p)).2 ≤ c.height) ↔ Sees c pose p := by
      rw [show _ + _ + _ = _ from plane_local pose p]
      unfold Sees
      constructor
      · rintro ⟨a, b, c, d, e⟩; exact ⟨a, b, d, c, e⟩
      · rintro ⟨a, b, c, d, e⟩; exact ⟨a, b, d, c, e⟩
    rw [List.map_cons, filterLoop, hread, ok_bind, h1, ok_bind, keysFrom, hproj]
    by_cases hs : Sees c pose p
    · rw [if_pos (hcond.2 hs), if_pos hs]
      rfl
    · rw [if_neg (fun h => hs (hcond.1 h)), if_neg hs]
      rfl

theorem visibleOf_eq (noErrors : Bool) (c : Intrinsics K) (pose : CameraPose K) (features : List (V3 K)) :
    visibleOf noErrors c pose features = .ok (keysFrom noErrors c pose 0 features) :=
  filterLoop_eq noErrors c pose [] features

theorem mem_keysFrom (noErrors : Bool) (c : Intrinsics K) (pose : CameraPose K) (i : Nat) (l : List (V3 K)) (k : Nat)
    (q : K × K) : (k, q) ∈ keysFrom noErrors c pose i l ↔
      ∃ j p, k = i + j ∧ l[j]? = some p ∧ Sees c pose p ∧ q = pixelOf noErrors c pose p := by
  induction l generalizing i with
  | nil => simp [keysFrom]
  | cons p ps ih =>
    have step : (∃ j p', k = i + j ∧ (p :: ps)[j]? = some p' ∧ Sees c pose p' ∧ q = pixelOf noErrors c pose p') ↔
        (k = i ∧ Sees c pose p ∧ q = pixelOf noErrors c pose p) ∨
        (∃ j p', k = i + 1 + j ∧ ps[j]? = some p' ∧ Sees c pose p' ∧ q = pixelOf noErrors c pose p') := by
      constructor
      · rintro ⟨j, p', hk, hj, hs, hq⟩
        cases j with
        | zero => simp at hj; subst hj; exact .inl ⟨hk, hs, hq⟩
        | succ j => exact .inr ⟨j, p', by omega, by simpa using hj, hs, hq⟩
      · rintro (⟨hk, hs, hq⟩ | ⟨j, p', hk, hj, hs, hq⟩)
        · exact ⟨0, p, hk, rfl, hs, hq⟩
        · exact ⟨j + 1, p', by omega, by simpa using hj, hs, hq⟩
    rw [step, ← ih, keysFrom]
    by_cases hs : Sees c pose p
    · rw [if_pos hs, List.mem_cons]
      simp [hs]
    · rw [if_neg hs]
      simp [hs]

theorem keysFrom_sorted (noErrors : Bool) (c : Intrinsics K) (pose : CameraPose K) (i : Nat) (l : List (V3 K)) :
    (keysFrom noErrors c pose i l).Pairwise fun a b => a.1 < b.1 := by
  induction l generalizing i with
  | nil => exact .nil
  | cons p ps ih =>
    rw [keysFrom]
    split_ifs
    · refine .cons (fun ⟨k, q⟩ hk => ?_) (ih (i + 1))
      obtain ⟨j, -, hj, -⟩ := (mem_keysFrom noErrors c pose (i + 1) ps k q).1 hk
      show i < k
      omega
    · exact ih (i + 1)

open Classical in
theorem keysFrom_length (noErrors : Bool) (c : Intrinsics K) (pose : CameraPose K) (i : Nat) (l : List (V3 K)) :
    (keysFrom noErrors c pose i l).length = l.countP fun p => Sees c pose p := by
  induction l generalizing i with
  | nil => rfl
  | cons p ps ih =>
    rw [keysFrom, List.countP_cons]
    by_cases h : Sees c pose p
    · simp [ih, h]
    · simp [ih, h]

end
end EkfCal
