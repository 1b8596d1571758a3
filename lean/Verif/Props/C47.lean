import Verif.Lemmas.Visible
import Verif.Spec.Samples
import Mathlib.Algebra.Field.Rat
import Mathlib.Algebra.Order.Ring.Rat
import Mathlib.Data.Rat.Floor
import Mathlib.Tactic.Linarith
import Mathlib.Tactic.NormNum

/-!
# C47: simulated key points are the features the camera sees
-/

namespace EkfCal
variable {K : Type} [Field K] [LinearOrder K] [FloorRing K]

/-- Every frame is defined; each feature gets a key point, under its index, exactly when the camera sees it, at its projection
(rounded unless errors are disabled); the features already there keep their index. -/
theorem C47_frame (noErrors : Bool) (count : Nat) (c : Intrinsics K) (pose : CameraPose K) (draw : Nat → FeatureDraw K)
    (t : TruthFeatures K) :
    ∃ keys t', visibleKeypoints noErrors count c pose draw t = .ok (keys, t') ∧
      (∀ id x y, (id, x, y) ∈ keys ↔ ∃ p, t'.points[id]? = some p ∧ Sees c pose p ∧
        x = (if noErrors then (cvProject c (pose.local p)).1 else roundHalf (cvProject c (pose.local p)).1) ∧
        y = (if noErrors then (cvProject c (pose.local p)).2 else roundHalf (cvProject c (pose.local p)).2)) ∧
      keys.Pairwise (fun a b => a.1 < b.1) ∧
      ∃ fresh : List (V3 K), t'.points = t.points ++ fresh ∧ fresh.length ≤ count := by
  have key : ∀ (l : List (V3 K)) id x y, (id, x, y) ∈ keysFrom noErrors c pose 0 l ↔ ∃ p, l[id]? = some p ∧ Sees c pose p ∧
        x = (if noErrors then (cvProject c (pose.local p)).1 else roundHalf (cvProject c (pose.local p)).1) ∧
        y = (if noErrors then (cvProject c (pose.local p)).2 else roundHalf (cvProject c (pose.local p)).2) := by
    intro l id x y
    rw [mem_keysFrom]
    constructor
    · rintro ⟨j, p, hk, hp, hs, hq⟩
      rw [Nat.zero_add] at hk
      subst hk
      exact ⟨p, hp, hs, congrArg Prod.fst hq, congrArg Prod.snd hq⟩
    · rintro ⟨p, hp, hs, hx, hy⟩
      exact ⟨id, p, (Nat.zero_add _).symm, hp, hs, Prod.ext hx hy⟩
  rw [visibleKeypoints, visibleOf_eq, ok_bind]
  by_cases h : count > (keysFrom noErrors c pose 0 t.points).length
  · rw [if_pos h]
    dsimp only
    rw [visibleOf_eq, ok_bind]
    refine ⟨_, _, rfl, key _, keysFrom_sorted .., _, TruthFeatures.generate_points .., ?_⟩
    simp
  · rw [if_neg h]
    exact ⟨_, _, rfl, key _, keysFrom_sorted .., [], (List.append_nil _).symm, Nat.zero_le _⟩

theorem roundHalf_mem [IsStrictOrderedRing K] {x : K} {n : ℕ} (h0 : 0 ≤ x) (h1 : x ≤ n) : 0 ≤ roundHalf x ∧ roundHalf x ≤ n := by
  rw [roundHalf, if_pos h0]
  constructor
  · exact_mod_cast Int.floor_nonneg.2 (by linarith)
  · have : ⌊x + 1 / 2⌋ < (n : ℤ) + 1 := Int.floor_lt.2 (by push_cast; linarith)
    exact_mod_cast Int.lt_add_one_iff.1 this

/-- For a sensor whose size is a whole number of pixels, every key point lies on the image, rounded or not. -/
theorem C47_inside_partial [IsStrictOrderedRing K] (noErrors : Bool) (count : Nat) (c : Intrinsics K) (pose : CameraPose K)
    (draw : Nat → FeatureDraw K) (t t' : TruthFeatures K) (keys : List (Nat × K × K))
    (h : visibleKeypoints noErrors count c pose draw t = .ok (keys, t')) (w k : ℕ) (hw : c.width = w) (hk : c.height = k) :
    ∀ id x y, (id, x, y) ∈ keys → 0 ≤ x ∧ x ≤ c.width ∧ 0 ≤ y ∧ y ≤ c.height := by
  intro id x y hm
  obtain ⟨keys', t'', hr, hmem, -⟩ := C47_frame noErrors count c pose draw t
  rw [h] at hr
  cases hr
  obtain ⟨p, -, ⟨-, hx0, hx1, hy0, hy1⟩, hx, hy⟩ := (hmem id x y).1 hm
  subst hx hy
  cases noErrors
  · rw [hw] at hx1 ⊢
    rw [hk] at hy1 ⊢
    exact ⟨(roundHalf_mem hx0 hx1).1, (roundHalf_mem hx0 hx1).2, (roundHalf_mem hy0 hy1).1, (roundHalf_mem hy0 hy1).2⟩
  · exact ⟨hx0, hx1, hy0, hy1⟩

/-- Starting from no features, whatever is generated, seen and looked up: as long as only existing features are looked up, each
lookup by the index of a key point gives the point that key point shows. -/
theorem C47_identity_partial (h : List (FeatureOp K)) (hk : KnownLookups (⟨[], []⟩ : TruthFeatures K) h) :
    ∃ t, TruthFeatures.run ⟨[], []⟩ h = .ok t ∧ t.Aligned ∧
      ∀ id p, t.points[id]? = some p → (t.getFeature id).1 = p := by
  suffices H : ∀ (t0 : TruthFeatures K), t0.Indexed → KnownLookups t0 h →
      ∃ t, t0.run h = .ok t ∧ t.Indexed by
    obtain ⟨t, h1, h2⟩ := H ⟨[], []⟩ rfl hk
    refine ⟨t, h1, h2.aligned, fun id p hp => ?_⟩
    rw [TruthFeatures.getFeature]
    dsimp only
    rw [UMap.getD, h2.aligned id, hp]
    rfl
  clear hk
  induction h with
  | nil => exact fun t0 h0 _ => ⟨t0, rfl, h0⟩
  | cons op ops ih =>
    intro t0 h0 hk
    have step : ∃ t1, t0.step op = .ok t1 ∧ t1.Indexed := by
      cases op with
      | grid points => exact ⟨_, rfl, h0.grid points⟩
      | frame noErrors count c pose draw =>
        rw [TruthFeatures.step, visibleKeypoints, visibleOf_eq, ok_bind]
        by_cases h : count > (keysFrom noErrors c pose 0 t0.points).length
        · rw [if_pos h]
          dsimp only
          rw [visibleOf_eq, ok_bind]
          exact ⟨_, rfl, h0.generate c pose _⟩
        · rw [if_neg h]
          exact ⟨_, rfl, h0⟩
      | lookup id =>
        refine ⟨_, rfl, ?_⟩
        have hlt := hk.1 id rfl
        have hf : t0.map.find? id = some (t0.points[id]) := by rw [h0.aligned id, List.getElem?_eq_getElem hlt]
        unfold TruthFeatures.Indexed TruthFeatures.getFeature
        dsimp only
        rw [UMap.touch, hf]
        exact h0
    obtain ⟨t1, h1, h2⟩ := step
    obtain ⟨t, h3, h4⟩ := ih t1 h2 (hk.2 t1 h1)
    refine ⟨t, ?_, h4⟩
    rw [TruthFeatures.run, List.foldlM_cons, h1]
    exact h3

namespace FeatureSample

/-- A camera at the origin looking along the vertical axis, with unit focal length and pixel size. -/
def cam (w : ℚ) : Intrinsics ℚ := { fx := 1, fy := 1, k1 := 0, k2 := 0, p1 := 0, p2 := 0, pixelSize := 1, width := w, height := w }

def pose : CameraPose ℚ := ⟨Quat.one, 0⟩

end FeatureSample

open FeatureSample in
theorem FeatureSample.first (m : UMap (V3 ℚ)) :
    visibleKeypoints true 1 (cam 2) pose (fun _ => ⟨1, 1, 1⟩) ⟨[], m⟩ =
      .ok (keysFrom true (cam 2) pose 0 (TruthFeatures.generate (cam 2) pose ⟨[], m⟩ [⟨1, 1, 1⟩]).points,
        TruthFeatures.generate (cam 2) pose ⟨[], m⟩ [⟨1, 1, 1⟩]) := by
  rw [visibleKeypoints, visibleOf_eq, ok_bind, if_pos (by simp [keysFrom])]
  dsimp only
  rw [visibleOf_eq, ok_bind]
  rfl

open FeatureSample in
/-- A lookup of a feature that does not exist yet enters a point at the origin and shifts the index of the features generated
later: key point and lookup then disagree. -/
theorem C47_identity_violated : ∃ (h : List (FeatureOp ℚ)) (t : TruthFeatures ℚ) (id : Nat) (p : V3 ℚ),
    TruthFeatures.run ⟨[], []⟩ h = .ok t ∧ t.points[id]? = some p ∧ (t.getFeature id).1 ≠ p := by
  refine ⟨[.lookup 0, .frame true 1 (cam 2) pose fun _ => ⟨1, 1, 1⟩],
    TruthFeatures.generate (cam 2) pose ⟨[], [(0, 0)]⟩ [⟨1, 1, 1⟩], 0, FeatureDraw.point ⟨1, 1, 1⟩ (cam 2) pose, ?_, rfl, ?_⟩
  · rw [TruthFeatures.run, List.foldlM_cons, show TruthFeatures.step (⟨[], []⟩ : TruthFeatures ℚ) (.lookup 0) =
      .ok ⟨[], [(0, 0)]⟩ from rfl, ok_bind, List.foldlM_cons, TruthFeatures.step]
    rw [FeatureSample.first]
    rfl
  · intro h
    have := congrFun h 2
    revert this
    decide +kernel

open FeatureSample in
/-- Rounding can report a pixel outside a sensor of fractional width. -/
theorem C47_inside_violated : ∃ (c : Intrinsics ℚ) (pose : CameraPose ℚ) (t : TruthFeatures ℚ) (r : List (Nat × ℚ × ℚ) × TruthFeatures ℚ),
    visibleKeypoints false 0 c pose (fun _ => ⟨0, 0, 1⟩) t = .ok r ∧ r.1 = [(0, 1, 1)] ∧ c.width < 1 := by
  obtain ⟨r, h1, h2⟩ := Samples.ok_of_check (P := fun r : List (Nat × ℚ × ℚ) × TruthFeatures ℚ => r.1 = [(0, 1, 1)])
    (r := visibleKeypoints false 0 (cam (7 / 10)) pose (fun _ => ⟨0, 0, 1⟩) ⟨[![1 / 4, 1 / 4, 1]], []⟩) (by decide +kernel)
  exact ⟨_, _, _, r, h1, h2, by norm_num [cam]⟩

open FeatureSample in
/-- A frame of two features, one in front of the camera and one behind. -/
example : ∃ r, visibleKeypoints true 1 (cam 2) pose (fun _ => ⟨1, 1, 1⟩) ⟨[![0, 0, -1], ![1 / 2, 0, 1]], []⟩ = .ok r ∧
    r.1 = [(1, 3 / 2, 1)] :=
  Samples.ok_of_check (P := fun r : List (Nat × ℚ × ℚ) × TruthFeatures ℚ => r.1 = [(1, 3 / 2, 1)])
    (r := visibleKeypoints true 1 (cam 2) pose (fun _ => ⟨1, 1, 1⟩) ⟨[![0, 0, -1], ![1 / 2, 0, 1]], []⟩) (by decide +kernel)

open FeatureSample in
/-- A history with known lookups. -/
example : KnownLookups (⟨[], []⟩ : TruthFeatures ℚ) [.frame true 1 (cam 2) pose fun _ => ⟨1, 1, 1⟩, .lookup 0] := by
  refine ⟨fun id h => (nomatch h), fun t' ht => ⟨fun id h => ?_, fun _ _ => trivial⟩⟩
  cases h
  rw [TruthFeatures.step, FeatureSample.first] at ht
  have : t' = (TruthFeatures.generate (cam 2) pose ⟨[], []⟩ [⟨1, 1, 1⟩]) := by
    cases ht
    rfl
  rw [this, TruthFeatures.generate_points]
  decide

end EkfCal
