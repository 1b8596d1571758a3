import Verif.Spec.Cov
import Verif.Lemmas.Mat
import Mathlib.Tactic.Ring
import Mathlib.Tactic.Linarith

/-! # Sums, congruences, quadratic forms -/

set_option linter.unusedSectionVars false

namespace EkfCal
open Finset
variable {K : Type} [Field K]

theorem sumTo_eq (n : Nat) (f : Nat → K) : sumTo n f = ∑ i ∈ range n, f i := by
  induction n with
  | zero => rfl
  | succ n ih => rw [sumTo, ih, sum_range_succ]

theorem Mat.mul_ok_iff {a b c : Mat K} : a.mul b = .ok c ↔
    a.cols = b.rows ∧ c = ⟨a.rows, b.cols, fun i j => ∑ k ∈ range a.cols, a.get i k * b.get k j⟩ := by
  unfold Mat.mul
  split <;> simp_all [sumTo_eq, eq_comm]

theorem Mat.add_ok_iff {a b c : Mat K} : a.add b = .ok c ↔
    (a.rows = b.rows ∧ a.cols = b.cols) ∧ c = ⟨a.rows, a.cols, fun i j => a.get i j + b.get i j⟩ := by
  unfold Mat.add
  split <;> simp_all [eq_comm]

theorem Mat.sub_ok_iff {a b c : Mat K} : a.sub b = .ok c ↔
    (a.rows = b.rows ∧ a.cols = b.cols) ∧ c = ⟨a.rows, a.cols, fun i j => a.get i j - b.get i j⟩ := by
  unfold Mat.sub
  split <;> simp_all [eq_comm]

theorem Mat.mulVec_ok_iff {a : Mat K} {v w : Vec K} : a.mulVec v = .ok w ↔
    a.cols = v.size ∧ w = ⟨a.rows, fun i => ∑ k ∈ range a.cols, a.get i k * v.get k⟩ := by
  unfold Mat.mulVec
  split <;> simp_all [sumTo_eq, eq_comm]

theorem quad_ext {n : Nat} {P Q : Nat → Nat → K} (h : ∀ i j, i < n → j < n → P i j = Q i j) (x : Nat → K) :
    quad n P x = quad n Q x := by
  refine sum_congr rfl fun i hi => sum_congr rfl fun j hj => ?_
  rw [h i j (mem_range.1 hi) (mem_range.1 hj)]

/-- The quadratic form of a congruence is the quadratic form at the pulled-back vector. -/
theorem quad_congr (n m : Nat) (T A : Nat → Nat → K) (x : Nat → K) :
    quad n (congr m T A) x = quad m A (fun k => ∑ i ∈ range n, x i * T i k) := by
  unfold quad congr
  simp only [sum_mul, mul_sum]
  calc ∑ i ∈ range n, ∑ j ∈ range n, ∑ k ∈ range m, ∑ l ∈ range m, x i * (T i k * A k l * T j l) * x j
      = ∑ k ∈ range m, ∑ l ∈ range m, ∑ i ∈ range n, ∑ j ∈ range n, x i * (T i k * A k l * T j l) * x j := by
        rw [sum_congr rfl fun i _ => sum_comm]
        rw [sum_comm]
        refine sum_congr rfl fun k _ => ?_
        rw [sum_congr rfl fun i _ => sum_comm]
        rw [sum_comm]
    _ = _ := by
        refine sum_congr rfl fun k _ => sum_congr rfl fun l _ => ?_
        rw [sum_comm]
        refine sum_congr rfl fun j _ => sum_congr rfl fun i _ => ?_
        ring

theorem congr_symm {m : Nat} {T A : Nat → Nat → K} (h : ∀ k l, k < m → l < m → A k l = A l k) (i j : Nat) :
    congr m T A i j = congr m T A j i := by
  unfold congr
  rw [sum_comm]
  refine sum_congr rfl fun l hl => sum_congr rfl fun k hk => ?_
  rw [h k l (mem_range.1 hk) (mem_range.1 hl)]
  ring

theorem quad_add (n : Nat) (P Q : Nat → Nat → K) (x : Nat → K) :
    quad n (fun i j => P i j + Q i j) x = quad n P x + quad n Q x := by
  unfold quad
  simp only [mul_add, add_mul, sum_add_distrib]

theorem quad_diag (n : Nat) (d : Nat → K) (x : Nat → K) :
    quad n (fun i j => if i = j then d i else 0) x = ∑ i ∈ range n, d i * (x i * x i) := by
  unfold quad
  refine sum_congr rfl fun i hi => ?_
  simp only [mul_ite, ite_mul, mul_zero, zero_mul]
  rw [sum_ite_eq]
  simp only [hi, if_true]
  ring

/-- `xᵀ (RᵀR) x = |R x|²`. -/
theorem quad_gram (n : Nat) (R : Mat K) (x : Nat → K) :
    quad n (gram R) x = ∑ k ∈ range R.rows, (∑ i ∈ range n, R.get k i * x i) * (∑ i ∈ range n, R.get k i * x i) := by
  unfold quad gram
  simp only [sum_mul, mul_sum]
  calc ∑ i ∈ range n, ∑ j ∈ range n, ∑ k ∈ range R.rows, x i * (R.get k i * R.get k j) * x j
      = ∑ k ∈ range R.rows, ∑ i ∈ range n, ∑ j ∈ range n, x i * (R.get k i * R.get k j) * x j := by
        rw [sum_congr rfl fun i _ => sum_comm]
        rw [sum_comm]
    _ = _ := by
        refine sum_congr rfl fun k _ => ?_
        rw [sum_comm]
        refine sum_congr rfl fun i _ => sum_congr rfl fun j _ => ?_
        ring

/-- Congruence with a row-selection matrix just relabels rows and columns. -/
theorem congr_select (m : Nat) (src : Nat → Nat) (A : Nat → Nat → K) (i j : Nat) (hi : src i < m) (hj : src j < m) :
    congr m (fun i k => if src i = k then 1 else 0) A i j = A (src i) (src j) := by
  unfold congr
  rw [sum_eq_single (src i)]
  · rw [sum_eq_single (src j)]
    · simp
    · intro l _ hl; simp [Ne.symm hl]
    · intro h; exact absurd (mem_range.2 hj) h
  · intro k _ hk; simp [Ne.symm hk]
  · intro h; exact absurd (mem_range.2 hi) h

variable [LinearOrder K] [IsStrictOrderedRing K]

/-- A congruence of a covariance is a covariance. -/
theorem IsCov.congr {P B : Mat K} (h : P.IsCov) (hB : B.rows = B.cols) (T : Nat → Nat → K)
    (he : ∀ i j, i < B.rows → j < B.rows → B.get i j = EkfCal.congr P.rows T P.get i j) : B.IsCov where
  square := hB
  symm := fun i j hi hj => by rw [he i j hi hj, he j i hj hi, congr_symm h.symm]
  psd := fun x => by rw [quad_ext he, quad_congr]; exact h.psd _

/-- Selecting (possibly repeated) rows and the same columns of a covariance gives a covariance. -/
theorem IsCov.select {P B : Mat K} (h : P.IsCov) (hB : B.rows = B.cols) (src : Nat → Nat)
    (hs : ∀ i, i < B.rows → src i < P.rows)
    (he : ∀ i j, i < B.rows → j < B.rows → B.get i j = P.get (src i) (src j)) : B.IsCov :=
  IsCov.congr h hB (fun i k => if src i = k then 1 else 0) fun i j hi hj => by
    rw [congr_select _ _ _ _ _ (hs i hi) (hs j hj), he i j hi hj]

theorem IsCov.add {P Q B : Mat K} (hP : P.IsCov) (hQ : Q.IsCov) (hPQ : P.rows = Q.rows) (hB : B.rows = B.cols)
    (hr : B.rows = P.rows) (he : ∀ i j, i < B.rows → j < B.rows → B.get i j = P.get i j + Q.get i j) : B.IsCov where
  square := hB
  symm := fun i j hi hj => by
    rw [he i j hi hj, he j i hj hi, hP.symm i j (by omega) (by omega), hQ.symm i j (by omega) (by omega)]
  psd := fun x => by
    rw [quad_ext he, quad_add, hr]
    exact add_nonneg (hP.psd x) (hPQ ▸ hQ.psd x)

theorem IsCov.diag {B : Mat K} (hB : B.rows = B.cols) (d : Nat → K) (hd : ∀ i, i < B.rows → 0 ≤ d i)
    (he : ∀ i j, i < B.rows → j < B.rows → B.get i j = if i = j then d i else 0) : B.IsCov where
  square := hB
  symm := fun i j hi hj => by
    rw [he i j hi hj, he j i hj hi]
    by_cases h : i = j
    · simp [h]
    · simp [h, Ne.symm h]
  psd := fun x => by
    rw [quad_ext he, quad_diag]
    exact sum_nonneg fun i hi => mul_nonneg (hd i (mem_range.1 hi)) (mul_self_nonneg _)

/-- The covariance represented by a factor is a covariance. -/
theorem IsCov.gram (R : Mat K) : (⟨R.cols, R.cols, EkfCal.gram R⟩ : Mat K).IsCov where
  square := rfl
  symm := fun i j _ _ => by
    show EkfCal.gram R i j = EkfCal.gram R j i
    unfold EkfCal.gram
    exact sum_congr rfl fun k _ => mul_comm (R.get k i) (R.get k j)
  psd := fun x => by
    show 0 ≤ quad R.cols (EkfCal.gram R) x
    rw [quad_gram]
    exact sum_nonneg fun k _ => mul_self_nonneg _

/-- Two independent blocks. -/
theorem IsCov.same {P Q : Mat K} (h : P.IsCov) (hs : P.Same Q) : Q.IsCov where
  square := by rw [← hs.1, ← hs.2.1]; exact h.square
  symm := fun i j hi hj => by
    have hc := h.square
    rw [← hs.1] at hi hj
    rw [← hs.2.2 i j hi (by omega), ← hs.2.2 j i hj (by omega)]
    exact h.symm i j hi hj
  psd := fun x => by
    have hc := h.square
    rw [← hs.1, ← quad_ext fun i j hi hj => hs.2.2 i j hi (by omega)]
    exact h.psd x

end EkfCal
