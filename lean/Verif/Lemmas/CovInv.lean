import Verif.Lemmas.Noise
import Verif.Lemmas.Predict
import Verif.Lemmas.Clone

/-! # The covariance of a standard-form filter stays a covariance -/

set_option linter.unusedSectionVars false
set_option linter.unusedSimpArgs false

namespace EkfCal
open Finset
variable {K : Type} [Field K] [LinearOrder K] [IsStrictOrderedRing K]

theorem IsCov.insert {B P out : Mat K} {p : Nat} (hB : B.IsCov) (hP : P.IsCov) (hp : p ≤ P.rows)
    (h : insertInMatrix B P p p = .ok out) : out.IsCov := by
  obtain ⟨o, h', hr, hc, hg⟩ := insertInMatrix_spec B P p p hp (by rw [← hP.square]; exact hp)
  rw [h] at h'
  cases h'
  have hBs := hB.square
  have hPs := hP.square
  let src : Nat → Nat := fun i => if i < p then i else i - B.rows
  let T1 : Nat → Nat → K := fun i k => if p ≤ i ∧ i < p + B.rows then 0 else if src i = k then 1 else 0
  let T2 : Nat → Nat → K := fun i k => if p ≤ i ∧ i < p + B.rows then (if i - p = k then 1 else 0) else 0
  let M1 : Mat K := ⟨out.rows, out.rows, EkfCal.congr P.rows T1 P.get⟩
  let M2 : Mat K := ⟨out.rows, out.rows, EkfCal.congr B.rows T2 B.get⟩
  have h1 : M1.IsCov := IsCov.congr hP rfl _ fun _ _ _ _ => rfl
  have h2 : M2.IsCov := IsCov.congr hB rfl _ fun _ _ _ _ => rfl
  refine IsCov.add h1 h2 rfl (by omega) rfl fun i j hi hj => ?_
  rw [hg i j (by omega) (by omega)]
  have e1 : M1.get i j = if p ≤ i ∧ i < p + B.rows then 0 else if p ≤ j ∧ j < p + B.rows then 0 else P.get (src i) (src j) := by
    show EkfCal.congr P.rows T1 P.get i j = _
    by_cases ci : p ≤ i ∧ i < p + B.rows
    · rw [if_pos ci]; unfold EkfCal.congr; simp [ci, T1, T2]
    · by_cases cj : p ≤ j ∧ j < p + B.rows
      · rw [if_neg ci, if_pos cj]; unfold EkfCal.congr; simp [cj, T1, T2]
      · rw [if_neg ci, if_neg cj]
        have hsi : src i < P.rows := by show (if i < p then i else i - B.rows) < P.rows; split <;> omega
        have hsj : src j < P.rows := by show (if j < p then j else j - B.rows) < P.rows; split <;> omega
        rw [← congr_select P.rows src P.get i j hsi hsj]
        unfold EkfCal.congr
        simp [ci, cj, T1, T2]
  have e2 : M2.get i j = if p ≤ i ∧ i < p + B.rows then (if p ≤ j ∧ j < p + B.rows then B.get (i - p) (j - p) else 0) else 0 := by
    show EkfCal.congr B.rows T2 B.get i j = _
    by_cases ci : p ≤ i ∧ i < p + B.rows
    · by_cases cj : p ≤ j ∧ j < p + B.rows
      · rw [if_pos ci, if_pos cj]
        rw [← congr_select B.rows (fun i => i - p) B.get i j (by omega) (by omega)]
        unfold EkfCal.congr
        simp [ci, cj, T1, T2]
      · rw [if_pos ci, if_neg cj]; unfold EkfCal.congr; simp [cj, T1, T2]
    · rw [if_neg ci]; unfold EkfCal.congr; simp [ci, T1, T2]
  rw [e1, e2, ← hBs]
  by_cases ci : p ≤ i ∧ i < p + B.rows
  · by_cases cj : p ≤ j ∧ j < p + B.rows <;> simp [ci, cj]
  · by_cases cj : p ≤ j ∧ j < p + B.rows <;> simp [ci, cj, src]

theorem IsCov.remove {P out : Mat K} {p n : Nat} (hP : P.IsCov)
    (h : removeFromMatrix P p p n = .ok out) : out.IsCov := by
  obtain ⟨h1, h2⟩ := (removeFromMatrix_ok_iff P p p n).1 ⟨out, h⟩
  obtain ⟨o, h', hr, hc, hg⟩ := removeFromMatrix_spec P p p n h1 h2
  rw [h] at h'
  cases h'
  have hPs := hP.square
  refine IsCov.select hP (by omega) (shiftUp p n) (fun i hi => ?_) fun i j hi hj => ?_
  · unfold shiftUp; split <;> omega
  · exact hg i j (by omega) (by omega)

namespace Ekf

/-! ## The measurement update, standard form -/

/-- Innovation covariance `H P Hᵀ + R` as the code multiplies it. -/
def innovationOf (P J R : Mat K) : Mat K :=
  ⟨J.rows, J.rows, fun a b => (∑ l ∈ range P.rows, (∑ k ∈ range P.rows, J.get a k * P.get k l) * J.get b l) + R.get a b⟩

/-- `I - G H`. -/
def iGH (G J : Mat K) (i j : Nat) : K := (if i = j then 1 else 0) - ∑ a ∈ range J.rows, G.get i a * J.get a j

omit [IsStrictOrderedRing K] in
theorem kalman_std {N : Prim K} {e e' : Ekf K} {J : Mat K} {r : Vec K} {R : Mat K} (hu : e.useRoot = false)
    (h : kalmanUpdate N e J r R = .ok e') :
    (e.cov.rows = e.cov.cols ∧ J.cols = e.cov.rows ∧ R.rows = J.rows ∧ R.cols = J.rows ∧ r.size = J.rows) ∧
    ∃ (G : Mat K) (s : State K) (c : Mat K), e' = { e with state := s, cov := c } ∧
      G.rows = e.cov.rows ∧ G.cols = J.rows ∧
      (∀ i a, G.get i a = ∑ b ∈ range J.rows,
        (∑ k ∈ range e.cov.rows, e.cov.get i k * J.get b k) * N.inv (innovationOf e.cov J R) b a) ∧
      e.state.addVec N ⟨e.cov.rows, fun i => ∑ a ∈ range J.rows, G.get i a * r.get a⟩ = .ok s ∧
      c.rows = e.cov.rows ∧ c.cols = e.cov.rows ∧
      ∀ i j, c.get i j = congr e.cov.rows (iGH G J) e.cov.get i j + congr J.rows G.get R.get i j := by
  unfold kalmanUpdate at h
  simp only [hu, Bool.false_eq_true, if_false, bind_ok_iff, pure_res, ok_bind, Except.ok.injEq] at h
  obtain ⟨m1, h1, m2, h2, inn, h3, m4, h4, invm, h5, gain, h6, upd, h7, s, hs, kh, h8, ikh, h9, a, ha, b, hb, d, hd,
      f, hf, c, hc, rfl⟩ := h
  simp only [Mat.mul_ok_iff, Mat.add_ok_iff, Mat.sub_ok_iff, Mat.mulVec_ok_iff] at h1 h2 h3 h4 h6 h7 h8 h9 ha hb hd hf hc
  unfold Mat.inverse at h5
  split at h5
  swap
  · cases h5
  simp only [Except.ok.injEq] at h5
  obtain ⟨g1, rfl⟩ := h1
  obtain ⟨g2, rfl⟩ := h2
  obtain ⟨⟨g3, g3'⟩, rfl⟩ := h3
  obtain ⟨g4, rfl⟩ := h4
  subst h5
  obtain ⟨g6, e6⟩ := h6
  have hGr : gain.rows = e.cov.rows := by rw [e6]
  have hGc : gain.cols = J.rows := by rw [e6]; rfl
  obtain ⟨g7, rfl⟩ := h7
  obtain ⟨g8, rfl⟩ := h8
  obtain ⟨⟨g9, g9'⟩, rfl⟩ := h9
  obtain ⟨ga, rfl⟩ := ha
  obtain ⟨gb, rfl⟩ := hb
  obtain ⟨gd, rfl⟩ := hd
  obtain ⟨gf, rfl⟩ := hf
  obtain ⟨⟨gc, gc'⟩, ec⟩ := hc
  simp only [Mat.transpose, Mat.identity] at *
  have hsq : e.cov.rows = e.cov.cols := by omega
  have hjc : J.cols = e.cov.rows := by omega
  refine ⟨⟨hsq, hjc, by omega, by omega, by omega⟩, gain, s, c, by simp only [hu], hGr, hGc, ?_, ?_, by rw [ec],
    by rw [ec], ?_⟩
  · intro i a
    rw [e6]
    dsimp only
    have hinn : (⟨J.rows, J.rows, fun i j => (∑ k ∈ range e.cov.cols, (∑ k_1 ∈ range J.cols, J.get i k_1 * e.cov.get k_1 k) * J.get j k) + R.get i j⟩ : Mat K) =
        innovationOf e.cov J R := by
      unfold innovationOf; rw [← hsq, hjc]
    rw [hinn, ← hsq]
  · rw [← hGr, ← hGc]; exact hs
  · intro i j
    rw [ec]
    dsimp only
    unfold congr iGH
    rw [← hsq, hGc, ← g3']
    congr 1
    · rw [sum_comm]
      refine sum_congr rfl fun l _ => ?_
      rw [sum_mul]
    · rw [sum_comm]
      refine sum_congr rfl fun l _ => ?_
      rw [sum_mul]

end Ekf
end EkfCal
