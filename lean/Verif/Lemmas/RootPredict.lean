import Verif.Lemmas.Predict
import Verif.Lemmas.Defined
import Verif.Lemmas.Noise
import Verif.Spec.Root

/-! # The prediction in square-root form -/

set_option linter.unusedSectionVars false

namespace EkfCal
open Finset
variable {K : Type} [Field K] [LinearOrder K]
namespace Ekf

/-- The factor handed to the QR step. -/
theorem predictCov_root (N : Prim K) (P Q : Mat K) (dt : K) (hP : P.rows = P.cols) (hn : 18 ≤ P.rows)
    (hQc : Q.cols = P.rows) :
    ∃ M out, predictCov N true P.rows P Q dt = .ok out ∧ qrStack N M (Q.smul (N.sqrt dt)) = .ok out ∧
      M.rows = P.rows ∧ M.cols = P.rows ∧ ∀ i j, i < P.rows → j < P.rows → M.get i j = rootMoved dt P.get i j := by
  unfold predictCov
  rw [guardUB_true (show bodySize ≤ P.rows from hn)]
  simp only [bodySize, ok_bind, if_true]
  rw [Mat.block_ok (by show 0 + 18 ≤ P.rows ∧ 0 + 18 ≤ P.cols; omega)]
  simp only [ok_bind]
  obtain ⟨B, hB, hBr, hBc, hBg⟩ := mul_Ft dt ⟨18, 18, fun a b => P.get (0 + a) (0 + b)⟩ rfl
  rw [hB]
  simp only [ok_bind]
  rw [Mat.setBlock_ok (by show 0 + 18 ≤ P.rows ∧ 0 + 18 ≤ P.cols; omega) ⟨hBr, hBc⟩]
  simp only [ok_bind]
  rw [Mat.block_ok (by show 0 + 18 ≤ P.rows ∧ 18 + (P.rows - 18) ≤ P.cols; omega)]
  simp only [ok_bind]
  obtain ⟨C, hC, hCr, hCc, hCg⟩ := F_mul dt
    ⟨18, P.rows - 18, fun a b => (fun a b => if 0 ≤ a ∧ a < 0 + 18 ∧ 0 ≤ b ∧ b < 0 + 18 then B.get (a - 0) (b - 0)
      else P.get a b) (0 + a) (18 + b)⟩ rfl
  rw [hC]
  simp only [ok_bind]
  rw [Mat.setBlock_ok (by show 0 + 18 ≤ P.rows ∧ 18 + (P.rows - 18) ≤ P.cols; omega) ⟨hCr, hCc⟩]
  simp only [ok_bind]
  obtain ⟨out, ho, _⟩ := qrStack_def N
    (a := ⟨P.rows, P.cols, fun a b => if 0 ≤ a ∧ a < 0 + 18 ∧ 18 ≤ b ∧ b < 18 + (P.rows - 18) then C.get (a - 0) (b - 18)
      else if 0 ≤ a ∧ a < 0 + 18 ∧ 0 ≤ b ∧ b < 0 + 18 then B.get (a - 0) (b - 0) else P.get a b⟩)
    (b := Q.smul (N.sqrt dt)) (hP.symm.trans hQc.symm)
    (hP.symm.le.trans (Nat.le_add_right _ _))
  refine ⟨_, out, ho, ho, rfl, hP.symm, fun i j hi hj => ?_⟩
  show (if 0 ≤ i ∧ i < 0 + 18 ∧ 18 ≤ j ∧ j < 18 + (P.rows - 18) then C.get (i - 0) (j - 18)
    else if 0 ≤ i ∧ i < 0 + 18 ∧ 0 ≤ j ∧ j < 0 + 18 then B.get (i - 0) (j - 0) else P.get i j) = _
  unfold rootMoved
  by_cases hi18 : i < 18
  · rw [if_pos hi18]
    by_cases hj18 : j < 18
    · rw [if_neg (by omega), if_pos (by omega), if_pos hj18, hBg _ _ (by omega)]
      simp only [Nat.sub_zero, Nat.zero_add, tr]
    · rw [if_pos (by omega), if_neg hj18, hCg _ _ (by omega)]
      have hj' : 18 + (j - 18) = j := by omega
      simp only [Nat.sub_zero, Nat.zero_add, tr, hj', hj18, and_false, if_false]
  · rw [if_neg (by omega), if_neg (by omega), if_neg hi18]

theorem gram_smul (Q : Mat K) (c : K) (i j : Nat) : gram (Q.smul c) i j = c * c * gram Q i j := by
  unfold gram
  rw [mul_sum]
  exact sum_congr rfl fun k _ => by show Q.get k i * c * (Q.get k j * c) = _; ring

theorem inv_standard {e : Ekf K} (hi : Inv e) : Inv e.standard :=
  ⟨hi.sorted, hi.size, hi.imu, hi.gps, hi.cam, hi.fid, hi.aug, hi.covRows, hi.covCols, hi.noiseRows, hi.noiseCols,
    hi.tiles⟩

/-- The process noise of every reachable filter is diagonal. -/
theorem noise_diagonal {N : Prim K} (hz : N.sqrt 0 = 0) {p : EkfParams K} {ops : List (Op K)} {e : Ekf K}
    (h : run N (init N p) ops = .ok e) (i j : Nat) (hij : i ≠ j) : e.processNoise.get i j = 0 := by
  obtain ⟨_, d, _, _, hg, _⟩ := noise_run (H := fun _ => True) (Z := True) (noise_init trivial hz p trivial)
    (fun op _ => by cases op <;> trivial) h
  rw [hg, if_neg hij, hz, ite_self]

end Ekf
end EkfCal
