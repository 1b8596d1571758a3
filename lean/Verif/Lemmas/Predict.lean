import Verif.Lemmas.Alg
import Verif.Model.Ekf

/-! # Entries of the predicted covariance -/

set_option linter.unusedSectionVars false
set_option linter.unnecessarySeqFocus false

namespace EkfCal
open Finset
variable {K : Type} [Field K]

/-- A row of `F` applied to a column: position rows gain `dt` times the velocity entry. -/
def tr (dt : K) (f : Nat → K) (i : Nat) : K := f i + if i < 3 then dt * f (i + 3) else 0

theorem tr_of_ge (dt : K) (f : Nat → K) {i : Nat} (h : 3 ≤ i) : tr dt f i = f i := by
  unfold tr; rw [if_neg (by omega), add_zero]

theorem sum_transition {n : Nat} (hn : 6 ≤ n) (dt : K) (f : Nat → K) {i : Nat} (hi : i < n) :
    ∑ k ∈ range n, transition dt i k * f k = tr dt f i := by
  have : ∀ k, transition dt i k * f k = (if i = k then f k else 0) + (if i + 3 = k then (if i < 3 then dt * f k else 0) else 0) := by
    intro k
    unfold transition
    by_cases h1 : i = k
    · subst h1; simp
    · by_cases h2 : i + 3 = k
      · subst h2; simp
      · rw [if_neg h1, if_neg h1, if_neg h2, if_neg (by omega)]; simp
  rw [sum_congr rfl fun k _ => this k, sum_add_distrib, sum_ite_eq, sum_ite_eq, if_pos (mem_range.2 hi)]
  unfold tr
  congr 1
  by_cases h3 : i < 3
  · rw [if_pos (mem_range.2 (by omega)), if_pos h3]
  · simp [h3]

theorem congr_transition {n : Nat} (hn : 6 ≤ n) (dt : K) (A : Nat → Nat → K) {i j : Nat} (hi : i < n) (hj : j < n) :
    congr n (transition dt) A i j = tr dt (fun k => tr dt (fun l => A k l) j) i := by
  unfold congr
  rw [← sum_transition hn dt _ hi]
  refine sum_congr rfl fun k _ => ?_
  rw [← sum_transition hn dt _ hj, mul_sum]
  refine sum_congr rfl fun l _ => ?_
  ring

namespace Ekf
variable [LinearOrder K]

theorem stateTransition_get (dt : K) (i j : Nat) : (stateTransition dt).get i j = transition dt i j := by
  show (if i < 3 ∧ 3 ≤ j ∧ j < 6 then (if i + 3 = j then dt else 0) else if i = j then (1 : K) else 0) = _
  unfold transition
  by_cases h1 : i = j
  · rw [if_neg (by omega), if_pos h1, if_pos h1]
  · rw [if_neg h1]
    by_cases h2 : i < 3 ∧ j = i + 3
    · rw [if_pos (by omega), if_pos (by omega), if_neg h1, if_pos h2]
    · rw [if_neg h2]
      split
      · rw [if_neg (by omega)]
      · rfl

theorem F_mul (dt : K) (B : Mat K) (hB : B.rows = 18) :
    ∃ C, (stateTransition dt).mul B = .ok C ∧ C.rows = 18 ∧ C.cols = B.cols ∧
      ∀ i j, i < 18 → C.get i j = tr dt (fun k => B.get k j) i := by
  refine ⟨_, Mat.mul_ok_iff.2 ⟨hB.symm, rfl⟩, rfl, rfl, fun i j hi => ?_⟩
  show ∑ k ∈ range 18, (stateTransition dt).get i k * B.get k j = _
  simp only [stateTransition_get]
  exact sum_transition (by omega) dt _ hi

theorem mul_Ft (dt : K) (B : Mat K) (hB : B.cols = 18) :
    ∃ C, B.mul (stateTransition dt).transpose = .ok C ∧ C.rows = B.rows ∧ C.cols = 18 ∧
      ∀ i j, j < 18 → C.get i j = tr dt (fun k => B.get i k) j := by
  refine ⟨_, Mat.mul_ok_iff.2 ⟨hB, rfl⟩, rfl, rfl, fun i j hj => ?_⟩
  show ∑ k ∈ range B.cols, B.get i k * (stateTransition dt).get j k = _
  rw [hB]
  simp only [stateTransition_get]
  rw [← sum_transition (by omega) dt _ hj]
  exact sum_congr rfl fun k _ => mul_comm _ _

/-- Standard mode: the predicted covariance is `F (P + diag(Q) dt) Fᵀ`. -/
theorem predictCov_spec (N : Prim K) (P Q : Mat K) (dt : K) (hP : P.rows = P.cols) (hn : 18 ≤ P.rows)
    (hQr : Q.rows = P.rows) (hQc : Q.cols = P.rows) :
    ∃ out, predictCov N false P.rows P Q dt = .ok out ∧ out.rows = P.rows ∧ out.cols = P.rows ∧
      ∀ i j, i < P.rows → j < P.rows → out.get i j = congr P.rows (transition dt)
        (fun k l => P.get k l + if k = l then Q.get k k * dt else 0) i j := by
  unfold predictCov
  rw [guardUB_true (show bodySize ≤ P.rows from hn)]
  simp only [bodySize, ok_bind, Bool.false_eq_true, if_false]
  rw [guardUB_true (by rw [← hP, hQr, hQc])]
  simp only [ok_bind]
  rw [Mat.block_ok (by show 0 + 18 ≤ P.rows ∧ 0 + 18 ≤ P.cols; omega)]
  simp only [ok_bind]
  obtain ⟨A, hA, hAr, hAc, hAg⟩ := F_mul dt
    ⟨18, 18, fun a b => (fun i j => if i = j then P.get i i + Q.get i i * dt else P.get i j) (0 + a) (0 + b)⟩ rfl
  rw [hA]
  simp only [ok_bind]
  obtain ⟨B, hB, hBr, hBc, hBg⟩ := mul_Ft dt A hAc
  rw [hB]
  simp only [ok_bind]
  rw [Mat.setBlock_ok (by show 0 + 18 ≤ P.rows ∧ 0 + 18 ≤ P.cols; omega) ⟨by omega, hBc⟩]
  simp only [ok_bind]
  rw [Mat.block_ok (by show 0 + 18 ≤ P.rows ∧ 18 + (P.rows - 18) ≤ P.cols; omega)]
  simp only [ok_bind]
  obtain ⟨C, hC, hCr, hCc, hCg⟩ := F_mul dt
    ⟨18, P.rows - 18, fun a b => (fun a b => if 0 ≤ a ∧ a < 0 + 18 ∧ 0 ≤ b ∧ b < 0 + 18 then B.get (a - 0) (b - 0)
      else if a = b then P.get a a + Q.get a a * dt else P.get a b) (0 + a) (18 + b)⟩ rfl
  rw [hC]
  simp only [ok_bind]
  rw [Mat.setBlock_ok (by show 0 + 18 ≤ P.rows ∧ 18 + (P.rows - 18) ≤ P.cols; omega) ⟨hCr, hCc⟩]
  simp only [ok_bind]
  rw [Mat.block_ok (by show 18 + (P.rows - 18) ≤ P.rows ∧ 0 + 18 ≤ P.cols; omega)]
  simp only [ok_bind]
  obtain ⟨D, hD, hDr, hDc, hDg⟩ := mul_Ft dt
    ⟨P.rows - 18, 18, fun a b => (fun a b =>
      if 0 ≤ a ∧ a < 0 + 18 ∧ 18 ≤ b ∧ b < 18 + (P.rows - 18) then C.get (a - 0) (b - 18)
      else if 0 ≤ a ∧ a < 0 + 18 ∧ 0 ≤ b ∧ b < 0 + 18 then B.get (a - 0) (b - 0)
      else if a = b then P.get a a + Q.get a a * dt else P.get a b) (18 + a) (0 + b)⟩ rfl
  rw [hD]
  simp only [ok_bind]
  rw [Mat.setBlock_ok (by show 18 + (P.rows - 18) ≤ P.rows ∧ 0 + 18 ≤ P.cols; omega) ⟨hDr, hDc⟩]
  refine ⟨_, rfl, rfl, hP.symm, fun i j hi hj => ?_⟩
  have hM : (fun k l => P.get k l + if k = l then Q.get k k * dt else 0) =
      fun k l => if k = l then P.get k k + Q.get k k * dt else P.get k l := by
    funext k l
    by_cases h : k = l
    · subst h; simp
    · simp [h]
  rw [hM, congr_transition (by omega) dt _ hi hj]
  show (if 18 ≤ i ∧ i < 18 + (P.rows - 18) ∧ 0 ≤ j ∧ j < 0 + 18 then D.get (i - 18) (j - 0)
      else if 0 ≤ i ∧ i < 0 + 18 ∧ 18 ≤ j ∧ j < 18 + (P.rows - 18) then C.get (i - 0) (j - 18)
      else if 0 ≤ i ∧ i < 0 + 18 ∧ 0 ≤ j ∧ j < 0 + 18 then B.get (i - 0) (j - 0)
      else if i = j then P.get i i + Q.get i i * dt else P.get i j) = _
  by_cases hi18 : i < 18
  · rw [if_neg (by omega)]
    by_cases hj18 : j < 18
    · rw [if_neg (by omega), if_pos (by omega), hBg _ _ (by omega)]
      simp only [Nat.sub_zero]
      have : ∀ k, A.get i k = tr dt (fun m => if m = k then P.get m m + Q.get m m * dt else P.get m k) i := by
        intro k
        rw [hAg i k hi18]
        simp only [Nat.zero_add]
      simp only [this]
      unfold tr
      split <;> split <;> ring
    · rw [if_pos (by omega), hCg _ _ (by omega)]
      simp only [Nat.sub_zero, Nat.zero_add]
      have h18 : 18 + (j - 18) = j := by omega
      simp only [h18]
      simp only [tr_of_ge dt _ (show 3 ≤ j by omega)]
      unfold tr
      simp only [hj18, and_false, if_false]
  · by_cases hj18 : j < 18
    · rw [if_pos (by omega), hDg _ _ (by omega)]
      have h18 : 18 + (i - 18) = i := by omega
      simp only [Nat.sub_zero, Nat.zero_add, h18]
      simp only [tr_of_ge dt _ (show 3 ≤ i by omega)]
      simp only [hi18, false_and, and_false, if_false]
    · rw [if_neg (by omega), if_neg (by omega), if_neg (by omega), tr_of_ge dt _ (by omega), tr_of_ge dt _ (by omega)]

end Ekf
end EkfCal
