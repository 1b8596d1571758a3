import Verif.Lemmas.Clone
import Verif.Spec.Samples

/-!
# C07 — pose cloning gives the exact joint covariance
-/

set_option linter.unusedSectionVars false
set_option linter.unnecessarySeqFocus false

namespace EkfCal
open Ekf Finset
variable {K : Type} [Field K] [LinearOrder K]

/-- The Jacobian of cloning: row `i` of the new state is row `cloneSource index i` of the old one. -/
def cloneJacobian (index : Nat) (i k : Nat) : K := if cloneSource index i = k then 1 else 0

theorem cloneSource_lt {n index i : Nat} (h12 : 12 ≤ index) (hi : index ≤ n) (h : i < n + 6) :
    cloneSource index i < n := by
  unfold cloneSource
  split_ifs <;> omega

/-- Standard form: for every square matrix and every index between 12 and its size the result is `J P Jᵀ`. -/
theorem C07_standard (P : Mat K) (index : Nat) (hs : P.rows = P.cols) (h12 : 12 ≤ index) (hi : index ≤ P.rows) :
    ∃ out, augmentCovariance false P index = .ok out ∧ out.rows = P.rows + 6 ∧ out.cols = P.rows + 6 ∧
      ∀ i j, i < P.rows + 6 → j < P.rows + 6 → out.get i j = congr P.rows (cloneJacobian index) P.get i j := by
  obtain ⟨out, h, hr, hc, hg⟩ := augmentCovariance_spec P index hs h12 hi
  refine ⟨out, h, hr, hc, fun i j h1 h2 => ?_⟩
  rw [hg i j h1 h2]
  exact (congr_select P.rows (cloneSource index) P.get i j (cloneSource_lt h12 hi h1) (cloneSource_lt h12 hi h2)).symm

/-- Read out: the clone's position and orientation rows (at `index` and `index + 3`) have, with each other and with every
other component, exactly the covariances of body position (rows 0-2) and body orientation (rows 9-11). -/
theorem C07_blocks (P out : Mat K) (index : Nat) (hs : P.rows = P.cols) (h12 : 12 ≤ index) (hi : index ≤ P.rows)
    (h : augmentCovariance false P index = .ok out) (a b : Nat) (ha : a < 3) (hb : b < 3) :
    out.get (index + a) (index + b) = P.get a b ∧
    out.get (index + a) (index + 3 + b) = P.get a (9 + b) ∧
    out.get (index + 3 + a) (index + b) = P.get (9 + a) b ∧
    out.get (index + 3 + a) (index + 3 + b) = P.get (9 + a) (9 + b) ∧
    (∀ j, j < index → out.get (index + a) j = P.get a j ∧ out.get (index + 3 + a) j = P.get (9 + a) j ∧
      out.get j (index + a) = P.get j a ∧ out.get j (index + 3 + a) = P.get j (9 + a)) ∧
    (∀ j, index ≤ j → j < P.rows → out.get (index + a) (j + 6) = P.get a j ∧
      out.get (index + 3 + a) (j + 6) = P.get (9 + a) j ∧
      out.get (j + 6) (index + a) = P.get j a ∧ out.get (j + 6) (index + 3 + a) = P.get j (9 + a)) := by
  obtain ⟨out', h', _, _, hg⟩ := augmentCovariance_spec P index hs h12 hi
  rw [h] at h'
  cases h'
  have s1 : ∀ a, a < 3 → cloneSource index (index + a) = a := fun a ha => by
    unfold cloneSource; split_ifs <;> omega
  have s2 : ∀ a, a < 3 → cloneSource index (index + 3 + a) = 9 + a := fun a ha => by
    unfold cloneSource; split_ifs <;> omega
  have s3 : ∀ j, j < index → cloneSource index j = j := fun j hj => by unfold cloneSource; split_ifs <;> omega
  have s4 : ∀ j, index ≤ j → cloneSource index (j + 6) = j := fun j hj => by unfold cloneSource; split_ifs <;> omega
  refine ⟨?_, ?_, ?_, ?_, fun j hj => ⟨?_, ?_, ?_, ?_⟩, fun j hj hj' => ⟨?_, ?_, ?_, ?_⟩⟩ <;>
    rw [hg _ _ (by omega) (by omega)] <;> simp only [s1 a ha, s1 b hb, s2 a ha, s2 b hb]
  all_goals first | rw [s3 j hj] | rw [s4 j hj]

/-- A covariance stays a covariance. -/
theorem C07_psd [IsStrictOrderedRing K] (P out : Mat K) (index : Nat) (h12 : 12 ≤ index) (hi : index ≤ P.rows)
    (hP : P.IsCov) (h : augmentCovariance false P index = .ok out) : out.IsCov := by
  obtain ⟨out', h', hr, hc, hg⟩ := augmentCovariance_spec P index hP.square h12 hi
  rw [h] at h'
  cases h'
  refine IsCov.select hP (by omega) (cloneSource index) (fun i h1 => cloneSource_lt h12 hi (by omega))
    fun i j h1 h2 => hg i j (by omega) (by omega)

/-- Square-root form: for every upper-triangular factor the result is an upper-triangular factor of `J (RᵀR) Jᵀ`. -/
theorem C07_root (R : Mat K) (index : Nat) (hs : R.rows = R.cols) (h12 : 12 ≤ index) (hi : index ≤ R.rows)
    (hu : R.Upper) :
    ∃ out, augmentCovariance true R index = .ok out ∧ out.rows = R.rows + 6 ∧ out.cols = R.rows + 6 ∧ out.Upper ∧
      ∀ i j, i < R.rows + 6 → j < R.rows + 6 →
        gram out i j = congr R.rows (cloneJacobian index) (gram R) i j := by
  obtain ⟨out, h, hr, hc, hg⟩ := augmentCovariance_root_spec R index hs h12 hi hu
  refine ⟨out, h, hr, hc, fun i j h1 h2 h3 => ?_, fun i j h1 h2 => ?_⟩
  · rw [hg i j (by omega) (by omega)]
    split
    · have := cloneSource_lt (n := R.rows) h12 hi (show j < R.rows + 6 by omega)
      refine hu i _ (by omega) (by omega) ?_
      unfold cloneSource at this ⊢
      split_ifs <;> omega
    · rfl
  · have hc := congr_select R.rows (cloneSource index) (gram R) i j (cloneSource_lt h12 hi h1) (cloneSource_lt h12 hi h2)
    refine Eq.trans ?_ hc.symm
    unfold gram
    rw [hr, sum_range_add]
    have hz : ∑ x ∈ range 6, out.get (R.rows + x) i * out.get (R.rows + x) j = 0 := by
      refine sum_eq_zero fun x hx => ?_
      have := mem_range.1 hx
      rw [hg _ i (by omega) h1, if_neg (by omega), zero_mul]
    rw [hz, add_zero]
    refine sum_congr rfl fun k hk => ?_
    have := mem_range.1 hk
    rw [hg k i (by omega) h1, hg k j (by omega) h2, if_pos this, if_pos this]

/-- Outside these indices the standard form has no defined result. -/
theorem C07_undefined (P : Mat K) (index : Nat) (h : index < 12 ∨ P.rows < index) :
    ∃ u, augmentCovariance false P index = .error u := by
  cases hx : augmentCovariance false P index with
  | error u => exact ⟨u, rfl⟩
  | ok out =>
    exfalso
    unfold augmentCovariance at hx
    simp only [Bool.false_eq_true, if_false, bind_ok_iff, guardUB_ok_iff, Mat.block_ok_iff] at hx
    obtain ⟨_, ⟨h1, _⟩, _, _, _, _, _, _, _, _, _, _, _, _, _, _, _, _, _, _, _, _, _, _, _, _, _, _, _, _, _, _, _, h12, _⟩ := hx
    omega

/-- A non-trivial covariance and factor to which the theorems apply. -/
example : (⟨20, 20, fun i j => if i = j then 2 else 1⟩ : Mat ℚ).rows = 20 ∧ 12 ≤ 18 ∧ 18 ≤ 20 ∧
    (⟨20, 20, fun i j => if i ≤ j then (i + 2 * j : ℚ) else 0⟩ : Mat ℚ).Upper ∧
    (⟨20, 20, gram (⟨20, 20, fun i j => if i ≤ j then (i + 2 * j : ℚ) else 0⟩ : Mat ℚ)⟩ : Mat ℚ).IsCov :=
  ⟨rfl, by decide, by decide, fun i j _ _ h => if_neg (by omega),
    IsCov.gram (⟨20, 20, fun i j => if i ≤ j then (i + 2 * j : ℚ) else 0⟩ : Mat ℚ)⟩

end EkfCal
