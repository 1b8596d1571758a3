import Verif.Spec.StationSamples
import Verif.Lemmas.Matrix
import Mathlib.LinearAlgebra.Matrix.Adjugate
import Mathlib.Tactic.FieldSimp
import Mathlib.Tactic.Linarith

/-!
# Computable numerics over `ℚ` whose matrix inverse meets its contract
-/

namespace EkfCal.Samples
open EkfCal

/-- Inverse by cofactors. -/
def adjInv (m : Mat ℚ) (i j : Nat) : ℚ :=
  if h : i < m.rows ∧ j < m.rows then
    (toM m.rows m.rows m.get).det⁻¹ * (toM m.rows m.rows m.get).adjugate ⟨i, h.1⟩ ⟨j, h.2⟩
  else 0

/-- `Samples.prim` with an inverse that meets its contract. -/
def adjPrim : Prim ℚ := { prim with inv := adjInv }

/-- `Samples.num` with an inverse that meets its contract. -/
def adjNum : Num ℚ := { num with inv := adjInv }

theorem adjInv_eq (m : Mat ℚ) (b : Nat → Nat → ℚ)
    (h1 : ∀ i j, i < m.rows → j < m.rows → ∑ k ∈ Finset.range m.rows, m.get i k * b k j = if i = j then 1 else 0)
    (i j : Nat) (hi : i < m.rows) (hj : j < m.rows) : adjInv m i j = b i j := by
  have e1 : toM m.rows m.rows m.get * toM m.rows m.rows b = 1 := by
    rw [← toM_mul, ← toM_one]; exact toM_eq_iff.2 h1
  have hdet : (toM m.rows m.rows m.get).det ≠ 0 := by
    intro h0
    have := congrArg Matrix.det e1
    rw [Matrix.det_mul, h0, zero_mul, Matrix.det_one] at this
    exact zero_ne_one this
  have e2 : (toM m.rows m.rows m.get).det⁻¹ • (toM m.rows m.rows m.get).adjugate = toM m.rows m.rows b := by
    rw [← Matrix.mul_one (Matrix.adjugate _), ← e1, ← Matrix.mul_assoc, Matrix.adjugate_mul, Matrix.smul_mul,
      Matrix.one_mul, smul_smul, inv_mul_cancel₀ hdet, one_smul]
  unfold adjInv
  rw [dif_pos ⟨hi, hj⟩]
  exact congrFun (congrFun e2 ⟨i, hi⟩) ⟨j, hj⟩

theorem adjPrim_inv : adjPrim.InvLaw := fun m b _ h1 _ i j hi hj => adjInv_eq m b h1 i j hi hj
theorem adjNum_inv : adjNum.toPrim.InvLaw := fun m b _ h1 _ i j hi hj => adjInv_eq m b h1 i j hi hj

/-- Are all entries off the diagonal zero and all on it not? -/
def isDiag (m : Mat ℚ) : Bool :=
  (List.range m.rows).all fun i => (List.range m.rows).all fun j => if i = j then m.get i j != 0 else m.get i j == 0

/-- Inverse by reciprocals where the matrix is diagonal, by cofactors elsewhere: cheap to evaluate on diagonal matrices. -/
def diagInv (m : Mat ℚ) (i j : Nat) : ℚ := if isDiag m then if i = j then 1 / m.get i i else 0 else adjInv m i j

/-- `Samples.num` with an inverse that meets its contract and is cheap on diagonal matrices. -/
def diagNum : Num ℚ := { num with inv := diagInv }

theorem diagNum_inv : diagNum.toPrim.InvLaw := by
  intro m b hs h1 h2 i j hi hj
  show diagInv m i j = b i j
  unfold diagInv
  split_ifs with hd hij
  all_goals try
    have hd' : ∀ a c, a < m.rows → c < m.rows → if a = c then m.get a c ≠ 0 else m.get a c = 0 := by
      intro a c ha hc
      unfold isDiag at hd
      rw [List.all_eq_true] at hd
      have := hd a (List.mem_range.2 ha)
      rw [List.all_eq_true] at this
      have := this c (List.mem_range.2 hc)
      split_ifs at this ⊢ with hac
      · simpa using this
      · simpa using this
    have hsum := h1 i j hi hj
    rw [Finset.sum_eq_single i] at hsum
    · have hii := hd' i i hi hi
      rw [if_pos rfl] at hii
      first
        | (subst hij; rw [if_pos rfl] at hsum; field_simp; linarith)
        | (rw [if_neg hij] at hsum; rcases mul_eq_zero.1 hsum with h | h
           · exact absurd h hii
           · exact h.symm)
    · intro k hk hki
      have := hd' i k hi (Finset.mem_range.1 hk)
      rw [if_neg (Ne.symm hki)] at this
      rw [this, zero_mul]
    · intro h; exact absurd (Finset.mem_range.2 hi) h
  exact adjInv_eq m b h1 i j hi hj

end EkfCal.Samples
