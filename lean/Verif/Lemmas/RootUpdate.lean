import Verif.Lemmas.CovInv
import Verif.Spec.Update

/-! # The measurement update in square-root form -/

set_option linter.unusedSectionVars false
set_option linter.unusedSimpArgs false

namespace EkfCal
open Finset
variable {K : Type} [Field K] [LinearOrder K]

/-- `(A Tᵀ)ᵀ (A Tᵀ) = T (Aᵀ A) Tᵀ`. -/
theorem gram_mul_transpose (A : Mat K) (n : Nat) (T : Nat → Nat → K) (r c i j : Nat) (hr : r = A.rows) :
    gram ⟨r, c, fun i j => ∑ k ∈ range n, A.get i k * T j k⟩ i j = congr n T (gram A) i j := by
  subst hr
  unfold gram congr
  simp only [sum_mul, mul_sum]
  conv_rhs => rw [sum_comm]
  rw [sum_comm]
  refine sum_congr rfl fun k _ => ?_
  rw [sum_comm]
  refine sum_congr rfl fun l _ => ?_
  exact sum_congr rfl fun m _ => by ring

theorem gram_diag (D : Mat K) (hd : D.Diagonal) (hs : D.rows = D.cols) {i j : Nat} (hi : i < D.rows) (hj : j < D.rows) :
    gram D i j = if i = j then D.get i i * D.get i i else 0 := by
  unfold gram
  rw [sum_eq_single i]
  · split
    · rename_i h; rw [← h]
    · rename_i h; rw [hd i j hi (by omega) h, mul_zero]
  · intro k hk hki
    rw [hd k i (mem_range.1 hk) (by omega) hki, zero_mul]
  · intro h; exact absurd (mem_range.2 hi) h

namespace Ekf

theorem kalman_root {N : Prim K} {e e' : Ekf K} {J : Mat K} {r : Vec K} {R : Mat K} (hu : e.useRoot = true)
    (h : kalmanUpdate N e J r R = .ok e') :
    (e.cov.rows = e.cov.cols ∧ J.cols = e.cov.rows ∧ R.cols = J.rows ∧ r.size = J.rows) ∧
    ∃ (L I G : Mat K) (s : State K) (L2 M2 c : Mat K), e' = { e with state := s, cov := c } ∧
      L = ⟨e.cov.rows, J.rows, fun i j => ∑ k ∈ range e.cov.rows, e.cov.get i k * J.get j k⟩ ∧
      qrStack N L (R.map N.sqrt) = .ok I ∧
      G.rows = e.cov.rows ∧ G.cols = J.rows ∧
      (∀ i a, G.get i a = ∑ b ∈ range J.rows, (∑ k ∈ range e.cov.rows, gram e.cov i k * J.get b k) *
        N.inv ⟨J.rows, J.rows, gram I⟩ b a) ∧
      e.state.addVec N ⟨e.cov.rows, fun i => ∑ a ∈ range J.rows, G.get i a * r.get a⟩ = .ok s ∧
      L2 = ⟨e.cov.rows, e.cov.rows, fun i j => ∑ k ∈ range e.cov.rows, e.cov.get i k * iGH G J j k⟩ ∧
      M2 = ⟨R.rows, e.cov.rows, fun i j => ∑ k ∈ range J.rows, (R.map N.sqrt).get i k * G.get j k⟩ ∧
      qrStack N L2 M2 = .ok c ∧ c.rows = e.cov.rows ∧ c.cols = e.cov.rows := by
  unfold kalmanUpdate at h
  simp only [hu, if_true, bind_ok_iff, pure_res, ok_bind, Except.ok.injEq] at h
  obtain ⟨L, h1, I, h2, m1, h3, m2, h4, m3, h5, invm, h6, G, h7, upd, h8, s, hs, kh, h9, ikh, h10, L2, h11, M2, h12,
      c, h13, rfl⟩ := h
  simp only [Mat.mul_ok_iff, Mat.add_ok_iff, Mat.sub_ok_iff, Mat.mulVec_ok_iff] at h1 h3 h4 h5 h7 h8 h9 h10 h11 h12
  unfold Mat.inverse at h6
  split at h6
  swap
  · cases h6
  simp only [Except.ok.injEq] at h6
  obtain ⟨g1, e1⟩ := h1
  have hIs : I.rows = L.cols ∧ I.cols = L.cols ∧ L.cols = (R.map N.sqrt).cols := by
    unfold qrStack at h2
    split at h2
    · split at h2
      · cases h2; exact ⟨rfl, rfl, by assumption⟩
      · cases h2
    · cases h2
  have hcs : c.rows = L2.cols ∧ c.cols = L2.cols := by
    unfold qrStack at h13
    split at h13
    · split at h13
      · cases h13; exact ⟨rfl, rfl⟩
      · cases h13
    · cases h13
  obtain ⟨g3, e3⟩ := h3
  obtain ⟨g4, e4⟩ := h4
  obtain ⟨g5, e5⟩ := h5
  obtain ⟨g7, e7⟩ := h7
  obtain ⟨g8, e8⟩ := h8
  obtain ⟨g9, e9⟩ := h9
  obtain ⟨⟨g10, g10'⟩, e10⟩ := h10
  obtain ⟨g11, e11⟩ := h11
  obtain ⟨g12, e12⟩ := h12
  have hLr : L.rows = e.cov.rows := by rw [e1]
  have hLc : L.cols = J.rows := by rw [e1]; rfl
  have hm1r : m1.rows = e.cov.cols := by rw [e3]; rfl
  have hm1c : m1.cols = e.cov.cols := by rw [e3]
  have hm2r : m2.rows = e.cov.cols := by rw [e4]; exact hm1r
  have hm2c : m2.cols = J.rows := by rw [e4]; rfl
  have hm3r : m3.rows = J.rows := by rw [e5]; exact hIs.2.1.trans hLc
  have hm3c : m3.cols = J.rows := by rw [e5]; exact hIs.2.1.trans hLc
  have hir : invm.rows = m3.rows := by rw [← h6]
  have hic : invm.cols = m3.cols := by rw [← h6]
  have hGr0 : G.rows = e.cov.cols := by rw [e7]; exact hm2r
  have hGc : G.cols = J.rows := by rw [e7]; show invm.cols = _; omega
  have hkr : kh.rows = G.rows := by rw [e9]
  have hkc : kh.cols = J.cols := by rw [e9]
  simp only [Mat.identity] at g10 g10'
  have hikr : ikh.rows = e.cov.rows := by rw [e10]; rfl
  have hikc : ikh.cols = e.cov.cols := by rw [e10]; rfl
  have hsq : e.cov.rows = e.cov.cols := by omega
  have hjc : J.cols = e.cov.rows := by omega
  have hRc : R.cols = J.rows := by have := hIs.2.2; simp only [Mat.map] at this; omega
  have hL2r : L2.rows = e.cov.rows := by rw [e11]
  have hL2c : L2.cols = e.cov.rows := by rw [e11]; exact hikr
  refine ⟨⟨hsq, hjc, hRc, by omega⟩, L, I, G, s, L2, M2, c, by simp only [hu], ?_, h2, by omega, hGc, ?_, ?_, ?_, ?_,
    h13, by omega, by omega⟩
  · rw [e1, ← hsq]; rfl
  · intro i a
    have hm3 : m3 = ⟨J.rows, J.rows, gram I⟩ := by
      rw [e5]
      have : I.transpose.rows = J.rows := hIs.2.1.trans hLc
      rw [this, hIs.2.1.trans hLc]
      congr 1
    have hinv : ∀ b a, invm.get b a = N.inv ⟨J.rows, J.rows, gram I⟩ b a := by
      intro b a; rw [← h6, hm3]
    have hm2 : ∀ i b, m2.get i b = ∑ k ∈ range e.cov.rows, gram e.cov i k * J.get b k := by
      intro i b
      rw [e4]
      show ∑ k ∈ range m1.cols, m1.get i k * J.get b k = _
      rw [hm1c, ← hsq]
      refine sum_congr rfl fun k _ => ?_
      rw [e3]; rfl
    rw [e7]
    show ∑ b ∈ range m2.cols, m2.get i b * invm.get b a = _
    rw [hm2c]
    exact sum_congr rfl fun b _ => by rw [hm2, hinv]
  · have : upd = ⟨e.cov.rows, fun i => ∑ a ∈ range J.rows, G.get i a * r.get a⟩ := by
      rw [e8, hGc]; congr 1; omega
    rw [← this]; exact hs
  · rw [e11, ← hsq]
    have : ikh.transpose.cols = e.cov.rows := hikr
    rw [this]
    congr 1
    funext i j
    refine sum_congr rfl fun k _ => ?_
    congr 1
    show ikh.get j k = _
    rw [e10]
    show (if j = k then 1 else 0) - kh.get j k = _
    rw [e9]
    unfold iGH
    rw [hGc]
  · rw [e12]
    have h1 : (R.map N.sqrt).cols = J.rows := hRc
    have h2 : G.transpose.cols = e.cov.rows := by show G.rows = _; omega
    rw [h1, h2]
    rfl

end Ekf
end EkfCal
