import Verif.Lemmas.Alg
import Verif.Model.Ekf

/-! # Entries of `AugmentCovariance` -/

set_option linter.unusedSectionVars false
set_option linter.unnecessarySeqFocus false

namespace EkfCal
open Finset
namespace Ekf
variable {K : Type} [Field K] [LinearOrder K]

/-- The block writes of the standard branch up to the two row copies. -/
def augmentPre (P : Mat K) (index : Nat) : Res (Mat K) := do
  let out := Mat.zero (P.rows + augSize) (P.cols + augSize)
  let out ← out.setBlock 0 0 index index (← P.block 0 0 index index)
  let out ← out.setBlock 0 (index + augSize) index (P.cols - index) (← P.block 0 index index (P.cols - index))
  let out ← out.setBlock (index + augSize) 0 (P.rows - index) index (← P.block index 0 (P.rows - index) index)
  let out ← out.setBlock (index + augSize) (index + augSize) (P.rows - index) (P.cols - index)
    (← P.block index index (P.rows - index) (P.cols - index))
  let out ← out.setBlock 0 (index + 0) index 3 (← P.block 0 0 index 3)
  let out ← out.setBlock 0 (index + 3) index 3 (← P.block 0 9 index 3)
  let out ← out.setBlock (index + augSize) (index + 0) (P.rows - index) 3 (← P.block index 0 (P.rows - index) 3)
  out.setBlock (index + augSize) (index + 3) (P.rows - index) 3 (← P.block index 9 (P.rows - index) 3)

theorem augmentPre_spec (P : Mat K) (index : Nat) (hs : P.rows = P.cols) (h12 : 12 ≤ index) (hi : index ≤ P.rows) :
    ∃ out, augmentPre P index = .ok out ∧ out.rows = P.rows + 6 ∧ out.cols = P.rows + 6 ∧
      ∀ i j, i < P.rows + 6 → j < P.rows + 6 → (i < index ∨ index + 6 ≤ i) →
        out.get i j = P.get (cloneSource index i) (cloneSource index j) := by
  unfold augmentPre
  simp only [augSize]
  rw [Mat.block_ok (by omega)]
  simp only [ok_bind]
  rw [Mat.setBlock_ok (by simp [Mat.zero]; omega) (by simp)]
  simp only [ok_bind]
  rw [Mat.block_ok (by omega)]
  simp only [ok_bind]
  rw [Mat.setBlock_ok (by simp [Mat.zero]; omega) (by simp)]
  simp only [ok_bind]
  rw [Mat.block_ok (by omega)]
  simp only [ok_bind]
  rw [Mat.setBlock_ok (by simp [Mat.zero]; omega) (by simp)]
  simp only [ok_bind]
  rw [Mat.block_ok (by omega)]
  simp only [ok_bind]
  rw [Mat.setBlock_ok (by simp [Mat.zero]; omega) (by simp)]
  simp only [ok_bind]
  rw [Mat.block_ok (by omega)]
  simp only [ok_bind]
  rw [Mat.setBlock_ok (by simp [Mat.zero]; omega) (by simp)]
  simp only [ok_bind]
  rw [Mat.block_ok (by omega)]
  simp only [ok_bind]
  rw [Mat.setBlock_ok (by simp [Mat.zero]; omega) (by simp)]
  simp only [ok_bind]
  rw [Mat.block_ok (by omega)]
  simp only [ok_bind]
  rw [Mat.setBlock_ok (by simp [Mat.zero]; omega) (by simp)]
  simp only [ok_bind]
  rw [Mat.block_ok (by omega)]
  simp only [ok_bind]
  rw [Mat.setBlock_ok (by simp [Mat.zero]; omega) (by simp)]
  refine ⟨_, rfl, by simp [Mat.zero], by simp [Mat.zero]; omega, ?_⟩
  intro i j hi' hj' hr
  dsimp only [Mat.zero, cloneSource]
  by_cases r1 : i < index
  · rw [if_neg (by omega), if_neg (by omega)]
    simp only [r1, if_true]
    by_cases c1 : j < index
    · rw [if_neg (by omega), if_neg (by omega), if_neg (by omega), if_neg (by omega), if_neg (by omega),
        if_pos (by omega)]
      simp only [c1, if_true]
      congr 1 <;> omega
    · by_cases c2 : j < index + 3
      · rw [if_neg (by omega), if_pos (by omega)]
        simp only [c1, c2, if_true, if_false]
        congr 1 <;> omega
      · by_cases c3 : j < index + 6
        · rw [if_pos (by omega)]
          simp only [c1, c2, c3, if_true, if_false]
          congr 1 <;> omega
        · rw [if_neg (by omega), if_neg (by omega), if_neg (by omega), if_neg (by omega), if_pos (by omega)]
          simp only [c1, c2, c3, if_false]
          congr 1 <;> omega
  · have r3 : ¬ i < index + 6 := by omega
    have r2 : ¬ i < index + 3 := by omega
    simp only [r1, r2, r3, if_false]
    by_cases c1 : j < index
    · rw [if_neg (by omega), if_neg (by omega), if_neg (by omega), if_neg (by omega), if_neg (by omega),
        if_pos (by omega)]
      simp only [c1, if_true]
      congr 1 <;> omega
    · by_cases c2 : j < index + 3
      · rw [if_neg (by omega), if_pos (by omega)]
        simp only [c1, c2, if_true, if_false]
        congr 1 <;> omega
      · by_cases c3 : j < index + 6
        · rw [if_pos (by omega)]
          simp only [c1, c2, c3, if_true, if_false]
          congr 1 <;> omega
        · rw [if_neg (by omega), if_neg (by omega), if_neg (by omega), if_neg (by omega), if_pos (by omega)]
          simp only [c1, c2, c3, if_false]
          congr 1 <;> omega

/-- Standard form: the result repeats rows and columns as `cloneSource` says. -/
theorem augmentCovariance_spec (P : Mat K) (index : Nat) (hs : P.rows = P.cols) (h12 : 12 ≤ index)
    (hi : index ≤ P.rows) :
    ∃ out, augmentCovariance false P index = .ok out ∧ out.rows = P.rows + 6 ∧ out.cols = P.rows + 6 ∧
      ∀ i j, i < P.rows + 6 → j < P.rows + 6 → out.get i j = P.get (cloneSource index i) (cloneSource index j) := by
  obtain ⟨o, ho, hr, hc, hg⟩ := augmentPre_spec P index hs h12 hi
  have split : augmentCovariance false P index = (augmentPre P index >>= fun out => do
      guardUB (12 ≤ index) .aliasing
      let out ← out.setBlock (index + 0) 0 3 (P.cols + augSize) (← out.block 0 0 3 (P.cols + augSize))
      out.setBlock (index + 3) 0 3 (P.cols + augSize) (← out.block 9 0 3 (P.cols + augSize))) := by
    unfold augmentCovariance augmentPre
    simp only [Bool.false_eq_true, if_false, bind_assoc]
  rw [split, ho]
  simp only [ok_bind, augSize]
  rw [guardUB_true h12]
  simp only [ok_bind]
  rw [Mat.block_ok (by omega)]
  simp only [ok_bind]
  rw [Mat.setBlock_ok (by simp; omega) (by simp)]
  simp only [ok_bind]
  rw [Mat.block_ok (by simp; omega)]
  simp only [ok_bind]
  rw [Mat.setBlock_ok (by simp; omega) (by simp)]
  refine ⟨_, rfl, hr, hc, fun i j hi' hj' => ?_⟩
  dsimp only
  by_cases r1 : i < index
  · rw [if_neg (by omega), if_neg (by omega)]
    exact hg i j hi' hj' (.inl r1)
  · by_cases r2 : i < index + 3
    · rw [if_neg (by omega), if_pos (by omega), hg _ _ (by omega) (by omega) (by omega)]
      simp only [cloneSource, r1, r2, if_true, if_false]
      rw [if_pos (show 0 + (i - (index + 0)) < index by omega)]
      simp
    · by_cases r3 : i < index + 6
      · rw [if_pos (by omega), if_neg (by omega), hg _ _ (by omega) (by omega) (by omega)]
        simp only [cloneSource, r1, r2, r3, if_true, if_false]
        rw [if_pos (show 9 + (i - (index + 3)) < index by omega)]
        simp
      · rw [if_neg (by omega), if_neg (by omega)]
        exact hg i j hi' hj' (.inr (by omega))

/-- Square-root form, for upper-triangular factors: column `j` of the result is column `cloneSource j` of the factor,
followed by six zero rows. -/
theorem augmentCovariance_root_spec (R : Mat K) (index : Nat) (hs : R.rows = R.cols) (h12 : 12 ≤ index)
    (hi : index ≤ R.rows) (hu : R.Upper) :
    ∃ out, augmentCovariance true R index = .ok out ∧ out.rows = R.rows + 6 ∧ out.cols = R.rows + 6 ∧
      ∀ i j, i < R.rows + 6 → j < R.rows + 6 →
        out.get i j = if i < R.rows then R.get i (cloneSource index j) else 0 := by
  unfold augmentCovariance
  simp only [if_true, augSize]
  rw [Mat.block_ok (by omega)]
  simp only [ok_bind]
  rw [Mat.setBlock_ok (by simp [Mat.zero]; omega) (by simp)]
  simp only [ok_bind]
  rw [Mat.block_ok (by omega)]
  simp only [ok_bind]
  rw [Mat.setBlock_ok (by simp [Mat.zero]; omega) (by simp)]
  simp only [ok_bind]
  rw [Mat.block_ok (by omega)]
  simp only [ok_bind]
  rw [Mat.setBlock_ok (by simp [Mat.zero]; omega) (by simp)]
  simp only [ok_bind]
  rw [Mat.block_ok (by omega)]
  simp only [ok_bind]
  rw [Mat.setBlock_ok (by simp [Mat.zero]; omega) (by simp)]
  refine ⟨_, rfl, by simp [Mat.zero], by simp [Mat.zero]; omega, ?_⟩
  intro i j hi' hj'
  dsimp only [Mat.zero]
  by_cases c1 : j < index
  · rw [show cloneSource index j = j by simp [cloneSource, c1]]
    rw [if_neg (by omega), if_neg (by omega), if_neg (by omega)]
    by_cases r : i < index
    · rw [if_pos (by omega), if_pos (by omega)]
      congr 1 <;> omega
    · rw [if_neg (by omega)]
      split
      · exact (hu i j (by omega) (by omega) (by omega)).symm
      · rfl
  · by_cases c2 : j < index + 3
    · rw [show cloneSource index j = j - index by simp [cloneSource, c1, c2]]
      rw [if_neg (by omega), if_neg (by omega)]
      by_cases r : i < 3
      · rw [if_pos (by omega), if_pos (by omega)]
        congr 1 <;> omega
      · rw [if_neg (by omega), if_neg (by omega)]
        split
        · exact (hu i (j - index) (by omega) (by omega) (by omega)).symm
        · rfl
    · by_cases c3 : j < index + 6
      · rw [show cloneSource index j = 9 + (j - (index + 3)) by simp [cloneSource, c1, c2, c3]]
        rw [if_neg (by omega)]
        by_cases r : i < 12
        · rw [if_pos (by omega), if_pos (by omega)]
          congr 1 <;> omega
        · rw [if_neg (by omega), if_neg (by omega), if_neg (by omega)]
          split
          · exact (hu i (9 + (j - (index + 3))) (by omega) (by omega) (by omega)).symm
          · rfl
      · rw [show cloneSource index j = j - 6 by simp [cloneSource, c1, c2, c3]]
        by_cases r : i < R.rows
        · rw [if_pos (by omega), if_pos (by omega)]
          congr 1 <;> omega
        · rw [if_neg (by omega), if_neg (by omega), if_neg (by omega), if_neg (by omega), if_neg (by omega)]

end Ekf
end EkfCal
