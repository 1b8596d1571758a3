import Verif.Model.MathHelper
import Verif.Spec.Matrix
import Mathlib.Tactic.SplitIfs

/-! # Lemmas about block reads and writes and matrix surgery -/

namespace EkfCal

@[simp] theorem ok_bind {α β : Type} (a : α) (f : α → Res β) : ((Except.ok a : Res α) >>= f) = f a := rfl
@[simp] theorem error_bind {α β : Type} (e : UB) (f : α → Res β) :
    ((Except.error e : Res α) >>= f) = .error e := rfl
@[simp] theorem pure_res {α : Type} (a : α) : (pure a : Res α) = .ok a := rfl

theorem bind_ok_iff {α β : Type} {x : Res α} {f : α → Res β} {b : β} :
    (x >>= f) = .ok b ↔ ∃ a, x = .ok a ∧ f a = .ok b := by
  cases x with
  | error e => simp
  | ok a => simp

theorem guardUB_ok_iff {p : Prop} [Decidable p] {e : UB} {u : Unit} : guardUB p e = .ok u ↔ p := by
  unfold guardUB; split <;> simp_all

@[simp] theorem guardUB_true {p : Prop} [Decidable p] {e : UB} (h : p) : guardUB p e = .ok () := by
  simp [guardUB, h]

variable {K : Type}

theorem Mat.block_ok {m : Mat K} {i j p q : Nat} (h : i + p ≤ m.rows ∧ j + q ≤ m.cols) :
    m.block i j p q = .ok ⟨p, q, fun a b => m.get (i + a) (j + b)⟩ := by
  simp [Mat.block, h]

theorem Mat.block_ok_iff {m out : Mat K} {i j p q : Nat} :
    m.block i j p q = .ok out ↔
      (i + p ≤ m.rows ∧ j + q ≤ m.cols) ∧ out = ⟨p, q, fun a b => m.get (i + a) (j + b)⟩ := by
  unfold Mat.block; split <;> simp_all [eq_comm]

theorem Mat.setBlock_ok {m s : Mat K} {i j p q : Nat} (h : i + p ≤ m.rows ∧ j + q ≤ m.cols)
    (hs : s.rows = p ∧ s.cols = q) :
    m.setBlock i j p q s = .ok ⟨m.rows, m.cols, fun a b =>
        if i ≤ a ∧ a < i + p ∧ j ≤ b ∧ b < j + q then s.get (a - i) (b - j) else m.get a b⟩ := by
  simp [Mat.setBlock, h, hs]

theorem Mat.setBlock_ok_iff {m s out : Mat K} {i j p q : Nat} :
    m.setBlock i j p q s = .ok out ↔
      (i + p ≤ m.rows ∧ j + q ≤ m.cols) ∧ (s.rows = p ∧ s.cols = q) ∧
      out = ⟨m.rows, m.cols, fun a b =>
        if i ≤ a ∧ a < i + p ∧ j ≤ b ∧ b < j + q then s.get (a - i) (b - j) else m.get a b⟩ := by
  unfold Mat.setBlock; split <;> (try split) <;> simp_all [eq_comm]

variable [Zero K]

/-- What `insertInMatrix` computes inside the bounds. -/
theorem insertInMatrix_spec (sub m : Mat K) (r c : Nat) (hr : r ≤ m.rows) (hc : c ≤ m.cols) :
    ∃ out, insertInMatrix sub m r c = .ok out ∧
      out.rows = m.rows + sub.rows ∧ out.cols = m.cols + sub.cols ∧
      ∀ i j, i < m.rows + sub.rows → j < m.cols + sub.cols → out.get i j =
        if r ≤ i ∧ i < r + sub.rows then
          (if c ≤ j ∧ j < c + sub.cols then sub.get (i - r) (j - c) else 0)
        else if c ≤ j ∧ j < c + sub.cols then 0
        else m.get (if i < r then i else i - sub.rows) (if j < c then j else j - sub.cols) := by
  unfold insertInMatrix
  rw [Mat.block_ok (by omega)]
  simp only [ok_bind]
  rw [Mat.setBlock_ok (by simp [Mat.zero]; omega) (by simp)]
  simp only [ok_bind]
  rw [Mat.block_ok (by omega)]
  simp only [ok_bind]
  rw [Mat.setBlock_ok (by simp [Mat.zero]; omega) (by simp)]
  simp only [ok_bind]
  rw [Mat.block_ok (by omega)]
  simp only [ok_bind]
  rw [Mat.setBlock_ok (by simp [Mat.zero]; omega) (by simp)]
  simp only [ok_bind]
  rw [Mat.block_ok (by omega)]
  simp only [ok_bind]
  rw [Mat.setBlock_ok (by simp [Mat.zero]; omega) (by simp)]
  simp only [ok_bind]
  rw [Mat.setBlock_ok (by simp [Mat.zero]; omega) (by simp)]
  refine ⟨_, rfl, by simp [Mat.zero], by simp [Mat.zero], ?_⟩
  intro i j hi hj
  simp only [Mat.zero]
  split_ifs <;> first | rfl | omega | (congr 1 <;> omega)

theorem insertInMatrix_ok_iff (sub m : Mat K) (r c : Nat) :
    (∃ out, insertInMatrix sub m r c = .ok out) ↔ r ≤ m.rows ∧ c ≤ m.cols := by
  constructor
  · rintro ⟨out, h⟩
    unfold insertInMatrix at h
    simp only [bind_ok_iff, Mat.block_ok_iff] at h
    obtain ⟨a, ⟨h1, _⟩, _⟩ := h
    omega
  · rintro ⟨hr, hc⟩
    obtain ⟨out, h, _⟩ := insertInMatrix_spec sub m r c hr hc
    exact ⟨out, h⟩

/-- What `removeFromMatrix` computes inside the bounds. -/
theorem removeFromMatrix_spec (m : Mat K) (r c n : Nat) (hr : r + n ≤ m.rows) (hc : c + n ≤ m.cols) :
    ∃ out, removeFromMatrix m r c n = .ok out ∧
      out.rows = m.rows - n ∧ out.cols = m.cols - n ∧
      ∀ i j, i < m.rows - n → j < m.cols - n →
        out.get i j = m.get (shiftUp r n i) (shiftUp c n j) := by
  unfold removeFromMatrix
  rw [guardUB_true ⟨hr, hc⟩]
  simp only [ok_bind]
  rw [Mat.block_ok (by omega)]
  simp only [ok_bind]
  rw [Mat.setBlock_ok (by simp [Mat.zero]; omega) (by simp)]
  simp only [ok_bind]
  rw [Mat.block_ok (by omega)]
  simp only [ok_bind]
  rw [Mat.setBlock_ok (by simp [Mat.zero]; omega) (by simp)]
  simp only [ok_bind]
  rw [Mat.block_ok (by omega)]
  simp only [ok_bind]
  rw [Mat.setBlock_ok (by simp [Mat.zero]; omega) (by simp)]
  simp only [ok_bind]
  rw [Mat.block_ok (by omega)]
  simp only [ok_bind]
  rw [Mat.setBlock_ok (by simp [Mat.zero]; omega) (by simp)]
  refine ⟨_, rfl, by simp [Mat.zero], by simp [Mat.zero], ?_⟩
  intro i j hi hj
  simp only [Mat.zero, shiftUp]
  split_ifs <;> first | rfl | omega | (congr 1 <;> omega)

theorem removeFromMatrix_ok_iff (m : Mat K) (r c n : Nat) :
    (∃ out, removeFromMatrix m r c n = .ok out) ↔ r + n ≤ m.rows ∧ c + n ≤ m.cols := by
  constructor
  · rintro ⟨out, h⟩
    unfold removeFromMatrix at h
    simp only [bind_ok_iff, guardUB_ok_iff] at h
    obtain ⟨_, h1, _⟩ := h
    exact h1
  · rintro ⟨hr, hc⟩
    obtain ⟨out, h, _⟩ := removeFromMatrix_spec m r c n hr hc
    exact ⟨out, h⟩

end EkfCal
