import Verif.Lemmas.Reduce
import Mathlib.Tactic.NormNum
import Mathlib.Tactic.IntervalCases
import Mathlib.Tactic.LinearCombination

/-!
# C36 — nullspace projection removes the feature from the residual
-/

set_option linter.unusedSectionVars false

namespace EkfCal
open Finset
variable {K : Type} [Field K] [LinearOrder K]

/-- `T` projects: Jacobian and residual are both multiplied by it. -/
def ProjectedBy (T : Mat K) (Hx : Mat K) (r : Vec K) (out : Mat K × Vec K) : Prop :=
  out.1.rows = T.rows ∧ out.1.cols = Hx.cols ∧ out.2.size = T.rows ∧
  (∀ i j, out.1.get i j = ∑ k ∈ range T.cols, T.get i k * Hx.get k j) ∧
  (∀ i, out.2.get i = ∑ k ∈ range T.cols, T.get i k * r.get k)

theorem nullspace_form {N : Num K} {Hf Hx : Mat K} {r : Vec K} {out : Mat K × Vec K}
    (h : applyLeftNullspace N Hf Hx r = .ok out) :
    Hf.cols ≤ Hf.rows ∧ Hx.rows = Hf.rows ∧ r.size = Hf.rows ∧
    ProjectedBy ⟨Hf.rows - Hf.cols, Hf.rows, fun i k => N.hq Hf (Hf.cols + i) (0 + k)⟩ Hx r out := by
  unfold applyLeftNullspace at h
  simp only [bind_ok_iff, pure_res, Except.ok.injEq, guardUB_ok_iff] at h
  obtain ⟨_, hc, q, hq, a, ha, b, hb, rfl⟩ := h
  unfold Mat.block at hq
  split at hq
  · cases hq
    obtain ⟨ha1, rfl⟩ := Mat.mul_ok_iff.1 ha
    obtain ⟨hb1, rfl⟩ := Mat.mulVec_ok_iff.1 hb
    exact ⟨hc, ha1.symm, hb1.symm, rfl, rfl, rfl, fun i j => rfl, fun i => rfl⟩
  · cases hq

/-- Whatever the feature Jacobian, a defined call multiplies Jacobian and residual by one matrix with
`rows - cols` orthonormal rows, so white noise stays white. -/
theorem C36_orthonormal_partial (N : Num K) (hN : N.HqLaw) (Hf Hx : Mat K) (r : Vec K) (out : Mat K × Vec K)
    (h : applyLeftNullspace N Hf Hx r = .ok out) :
    ∃ T : Mat K, T.rows = Hf.rows - Hf.cols ∧ T.cols = Hf.rows ∧ ProjectedBy T Hx r out ∧
      ∀ i j, i < T.rows → j < T.rows → ∑ k ∈ range T.cols, T.get i k * T.get j k = if i = j then 1 else 0 := by
  obtain ⟨hc, _, _, hp⟩ := nullspace_form h
  refine ⟨_, rfl, rfl, hp, fun i j hi hj => ?_⟩
  dsimp only at hi hj ⊢
  simp only [Nat.zero_add]
  rw [(hN Hf).1 (Hf.cols + i) (Hf.cols + j) (by omega) (by omega)]
  simp

/-- When the orthogonal factor of the feature Jacobian happens to be symmetric (as for a single reflection), the projected
residual does not depend on the feature position: adding `Hf d` to the residual changes nothing.  What is missing is every
other feature Jacobian, see `C36_violated`. -/
theorem C36_symmetric_partial (N : Num K) (hN : N.HqLaw) (Hf Hx : Mat K) (r : Vec K) (out out' : Mat K × Vec K)
    (hs : ∀ i j, i < Hf.rows → j < Hf.rows → N.hq Hf i j = N.hq Hf j i) (d : Nat → K)
    (h : applyLeftNullspace N Hf Hx r = .ok out)
    (h' : applyLeftNullspace N Hf Hx ⟨r.size, fun k => r.get k + ∑ j ∈ range Hf.cols, Hf.get k j * d j⟩ = .ok out') :
    ∀ i, i < out.2.size → out'.2.get i = out.2.get i := by
  obtain ⟨hc, _, _, _, _, hsz, _, h2⟩ := nullspace_form h
  obtain ⟨_, _, _, _, _, _, _, h2'⟩ := nullspace_form h'
  intro i hi
  rw [hsz] at hi
  dsimp only at hi
  rw [h2, h2']
  simp only [Nat.zero_add, mul_add, sum_add_distrib, mul_sum]
  have hz : ∑ k ∈ range Hf.rows, ∑ j ∈ range Hf.cols, N.hq Hf (Hf.cols + i) k * (Hf.get k j * d j) = 0 := by
    rw [sum_comm]
    refine sum_eq_zero fun j hj => ?_
    have hj := mem_range.1 hj
    have := (hN Hf).2.2 (Hf.cols + i) j (by omega) hj (by omega)
    rw [show (0 : K) = 0 * d j by ring, ← this, sum_mul]
    refine sum_congr rfl fun k hk => ?_
    rw [hs _ _ (by omega) (mem_range.1 hk)]
    ring
  rw [hz, add_zero]

/-- The call is defined whenever sizes fit. -/
theorem C36_defined (N : Num K) (Hf Hx : Mat K) (r : Vec K) (hc : Hf.cols ≤ Hf.rows) (hx : Hx.rows = Hf.rows)
    (hr : r.size = Hf.rows) : ∃ out, applyLeftNullspace N Hf Hx r = .ok out := by
  unfold applyLeftNullspace Mat.block Mat.mul Mat.mulVec
  rw [guardUB_true hc]
  simp only [ok_bind]
  rw [if_pos ⟨by omega, by omega⟩]
  simp only [ok_bind]
  rw [if_pos hx.symm, if_pos hr.symm]
  exact ⟨_, rfl⟩

/-- A feature Jacobian with two columns. -/
def shiftJac : Mat K := ⟨3, 2, fun i j => if i = j + 1 then 1 else 0⟩

/-- The property fails for every orthogonal factor that meets its contract: the two-column feature Jacobian `shiftJac` has
full column rank, yet moving the feature by one unit changes the projected residual. -/
theorem C36_violated [IsStrictOrderedRing K] (N : Num K) (hN : N.HqLaw) (Hx : Mat K) (hx : Hx.rows = 3) :
    ∃ out out' : Mat K × Vec K,
      applyLeftNullspace N shiftJac Hx ⟨3, fun _ => 0⟩ = .ok out ∧
      applyLeftNullspace N shiftJac Hx
        ⟨3, fun k => 0 + ∑ j ∈ range 2, (shiftJac : Mat K).get k j * (if j = 0 then 1 else 0)⟩ = .ok out' ∧
      out.2.size = 1 ∧ out'.2.size = 1 ∧ out.2.get 0 ≠ out'.2.get 0 := by
  obtain ⟨out, h⟩ := C36_defined N shiftJac Hx ⟨3, fun _ => 0⟩ (by show 2 ≤ 3; omega) hx rfl
  obtain ⟨out', h'⟩ := C36_defined N shiftJac Hx
    ⟨3, fun k => 0 + ∑ j ∈ range 2, (shiftJac : Mat K).get k j * (if j = 0 then 1 else 0)⟩ (by show 2 ≤ 3; omega) hx rfl
  obtain ⟨_, _, _, _, _, hs, _, h2⟩ := nullspace_form h
  obtain ⟨_, _, _, _, _, hs', _, h2'⟩ := nullspace_form h'
  refine ⟨out, out', h, h', hs, hs', ?_⟩
  rw [h2, h2']
  have hr : ∀ i j, i < 3 → j < 3 → ∑ k ∈ range 3, N.hq shiftJac i k * N.hq shiftJac j k = if i = j then 1 else 0 :=
    (hN shiftJac).1
  have hc : ∀ i j, i < 3 → j < 3 → ∑ k ∈ range 3, N.hq shiftJac k i * N.hq shiftJac k j = if i = j then 1 else 0 :=
    (hN shiftJac).2.1
  have ht : ∀ i j, i < 3 → j < 2 → j < i → ∑ k ∈ range 3, N.hq shiftJac k i * (if k = j + 1 then 1 else 0) = 0 :=
    (hN shiftJac).2.2
  show ∑ k ∈ range 3, N.hq shiftJac (2 + 0) (0 + k) * 0 ≠ ∑ k ∈ range 3, N.hq shiftJac (2 + 0) (0 + k) *
    (0 + ∑ j ∈ range 2, (if k = j + 1 then 1 else 0) * (if j = 0 then 1 else 0))
  generalize N.hq (shiftJac : Mat K) = q at hr hc ht
  have t10 := ht 1 0 (by omega) (by omega) (by omega)
  have t20 := ht 2 0 (by omega) (by omega) (by omega)
  have t21 := ht 2 1 (by omega) (by omega) (by omega)
  have r1 := hr 1 1 (by omega) (by omega)
  have r2 := hr 2 2 (by omega) (by omega)
  have c0 := hc 0 0 (by omega) (by omega)
  clear hr hc ht
  simp [sum_range_succ] at t10 t20 t21 r1 r2 c0 ⊢
  rw [t10, t20] at r1
  rw [t21] at r2
  intro h0
  rw [h0] at r2
  nlinarith [mul_self_nonneg (q 0 0), mul_self_nonneg (q 2 0)]

open Classical in
/-- A lawful library whose factor of the column `(0, 1)ᵀ` is the exchange of the two rows, which is symmetric: there the
projection takes the first row, and the feature drops out. -/
example : ∃ (N : Num ℝ) (Hf : Mat ℝ), N.HqLaw ∧ Hf.rows = 2 ∧ Hf.cols = 1 ∧ Hf.get 1 0 = 1 ∧
    (∀ i j, i < Hf.rows → j < Hf.rows → N.hq Hf i j = N.hq Hf j i) ∧
    ∀ d : Nat → ℝ, ∃ out out', applyLeftNullspace N Hf ⟨2, 1, fun _ _ => 1⟩ ⟨2, fun _ => 5⟩ = .ok out ∧
      applyLeftNullspace N Hf ⟨2, 1, fun _ _ => 1⟩ ⟨2, fun k => 5 + ∑ j ∈ range Hf.cols, Hf.get k j * d j⟩ = .ok out' := by
  let Hf : Mat ℝ := ⟨2, 1, fun i _ => if i = 1 then 1 else 0⟩
  let N : Num ℝ := { realNum with hq := fun A => if A = Hf then fun i j => if i = 1 - j then 1 else 0 else realHq A }
  have hh : N.hq Hf = fun i j => if i = 1 - j then 1 else 0 := if_pos rfl
  refine ⟨N, Hf, fun A => ?_, rfl, rfl, by simp [Hf], ?_, fun d => ?_⟩
  · by_cases hA : A = Hf
    · subst hA
      rw [hh]
      refine ⟨fun i j hi hj => ?_, fun i j hi hj => ?_, fun i j hi hj hji => ?_⟩
      · have hi : i < 2 := hi
        have hj : j < 2 := hj
        show ∑ k ∈ range 2, _ = _
        interval_cases i <;> interval_cases j <;> simp [sum_range_succ]
      · have hi : i < 2 := hi
        have hj : j < 2 := hj
        show ∑ k ∈ range 2, _ = _
        interval_cases i <;> interval_cases j <;> simp [sum_range_succ]
      · have hi : i < 2 := hi
        show ∑ k ∈ range 2, _ * (if k = 1 then 1 else 0) = _
        interval_cases i
        · omega
        · simp [sum_range_succ]
    · have : N.hq A = realHq A := if_neg hA
      rw [this]
      exact realHq_law A
  · intro i j hi hj
    have hi : i < 2 := hi
    have hj : j < 2 := hj
    rw [hh]
    interval_cases i <;> interval_cases j <;> simp
  · obtain ⟨o, h⟩ := C36_defined N Hf ⟨2, 1, fun _ _ => 1⟩ ⟨2, fun _ => 5⟩ (by show 1 ≤ 2; omega) rfl rfl
    obtain ⟨o', h'⟩ := C36_defined N Hf ⟨2, 1, fun _ _ => 1⟩ ⟨2, fun k => 5 + ∑ j ∈ range Hf.cols, Hf.get k j * d j⟩
      (by show 1 ≤ 2; omega) rfl rfl
    exact ⟨o, o', h, h'⟩

/-- Contracts met, sizes positive: a lawful library, a feature Jacobian of the stated shape and a two-row state
Jacobian. -/
example : ∃ (N : Num ℝ) (Hx : Mat ℝ), N.HqLaw ∧ Hx.rows = 3 ∧ (shiftJac : Mat ℝ).cols < (shiftJac : Mat ℝ).rows ∧
    ∃ out, applyLeftNullspace N shiftJac Hx ⟨3, fun _ => 0⟩ = .ok out ∧ out.2.size = 1 :=
  ⟨realNum, ⟨3, 2, fun _ _ => 1⟩, realNum_hq, rfl, by show 2 < 3; omega, by
    obtain ⟨o, _, h, _, hs, _⟩ := C36_violated realNum realNum_hq ⟨3, 2, fun _ _ => 1⟩ rfl
    exact ⟨o, h, hs⟩⟩

end EkfCal
