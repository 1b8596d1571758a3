import Verif.Lemmas.Mat

/-!
# C06 — matrix insert and remove are exact inverses
-/

namespace EkfCal
variable {K : Type} [Zero K]

/-- Inserting inside the matrix is defined; the sub-matrix is at the requested position, every original entry is at its
shifted position, the entries joining the two are zero. -/
theorem C06_insert (sub m : Mat K) (r c : Nat) (hr : r ≤ m.rows) (hc : c ≤ m.cols) :
    ∃ out, insertInMatrix sub m r c = .ok out ∧
      out.rows = m.rows + sub.rows ∧ out.cols = m.cols + sub.cols ∧
      (∀ i j, i < sub.rows → j < sub.cols → out.get (r + i) (c + j) = sub.get i j) ∧
      (∀ i j, i < m.rows → j < m.cols →
        out.get (shiftUp r sub.rows i) (shiftUp c sub.cols j) = m.get i j) ∧
      (∀ i j, i < sub.rows → j < m.cols → out.get (r + i) (shiftUp c sub.cols j) = 0) ∧
      (∀ i j, i < m.rows → j < sub.cols → out.get (shiftUp r sub.rows i) (c + j) = 0) := by
  obtain ⟨out, h, h1, h2, h3⟩ := insertInMatrix_spec sub m r c hr hc
  refine ⟨out, h, h1, h2, ?_, ?_, ?_, ?_⟩ <;> intro i j hi hj
  · rw [h3 _ _ (by omega) (by omega), if_pos (by omega), if_pos (by omega)]
    congr 1 <;> omega
  · unfold shiftUp
    split_ifs <;> rw [h3 _ _ (by omega) (by omega), if_neg (by omega), if_neg (by omega)] <;>
      congr 1 <;> split_ifs <;> omega
  · unfold shiftUp
    split_ifs <;> rw [h3 _ _ (by omega) (by omega), if_pos (by omega), if_neg (by omega)]
  · unfold shiftUp
    split_ifs <;> rw [h3 _ _ (by omega) (by omega), if_neg (by omega), if_pos (by omega)]

/-- Inserting is undefined exactly when the position lies outside the matrix. -/
theorem C06_insert_undefined_iff (sub m : Mat K) (r c : Nat) :
    (∃ u, insertInMatrix sub m r c = .error u) ↔ m.rows < r ∨ m.cols < c := by
  have h := insertInMatrix_ok_iff sub m r c
  cases hx : insertInMatrix sub m r c with
  | ok out => have := h.1 ⟨out, hx⟩; simp; omega
  | error u =>
    have : ¬ (r ≤ m.rows ∧ c ≤ m.cols) := fun hh => by
      obtain ⟨o, ho⟩ := h.2 hh; rw [hx] at ho; cases ho
    simp; omega

/-- Removing `n` rows and columns inside the matrix is defined and keeps exactly the other entries. -/
theorem C06_remove (m : Mat K) (r c n : Nat) (hr : r + n ≤ m.rows) (hc : c + n ≤ m.cols) :
    ∃ out, removeFromMatrix m r c n = .ok out ∧
      out.rows = m.rows - n ∧ out.cols = m.cols - n ∧
      ∀ i j, i < m.rows - n → j < m.cols - n → out.get i j = m.get (shiftUp r n i) (shiftUp c n j) :=
  removeFromMatrix_spec m r c n hr hc

/-- Removing is undefined exactly when the removed rows or columns do not all lie inside the matrix. -/
theorem C06_remove_undefined_iff (m : Mat K) (r c n : Nat) :
    (∃ u, removeFromMatrix m r c n = .error u) ↔ m.rows < r + n ∨ m.cols < c + n := by
  have h := removeFromMatrix_ok_iff m r c n
  cases hx : removeFromMatrix m r c n with
  | ok out => have := h.1 ⟨out, hx⟩; simp; omega
  | error u =>
    have : ¬ (r + n ≤ m.rows ∧ c + n ≤ m.cols) := fun hh => by
      obtain ⟨o, ho⟩ := h.2 hh; rw [hx] at ho; cases ho
    simp; omega

/-- Removing what was inserted gives back the original matrix. -/
theorem C06_round_trip (sub m : Mat K) (r c n : Nat) (hs : sub.rows = n ∧ sub.cols = n)
    (hr : r ≤ m.rows) (hc : c ≤ m.cols) :
    ∃ big back, insertInMatrix sub m r c = .ok big ∧ removeFromMatrix big r c n = .ok back ∧ back.Same m := by
  obtain ⟨big, h, h1, h2, _, h4, _⟩ := C06_insert sub m r c hr hc
  obtain ⟨back, g, g1, g2, g3⟩ := C06_remove big r c n (by omega) (by omega)
  refine ⟨big, back, h, g, by omega, by omega, fun i j hi hj => ?_⟩
  rw [g3 i j (by omega) (by omega)]
  have := h4 i j (by omega) (by omega)
  rwa [hs.1, hs.2] at this

/-- A 1×1 matrix inserted in the middle of a 2×3 matrix meets the hypotheses. -/
example : ∃ (sub m : Mat ℚ) (r c : Nat), (sub.rows = 1 ∧ sub.cols = 1) ∧ r ≤ m.rows ∧ c ≤ m.cols ∧
    0 < r ∧ r < m.rows ∧ sub.get 0 0 = 7 :=
  ⟨⟨1, 1, fun _ _ => 7⟩, ⟨2, 3, fun i j => i + j⟩, 1, 2, by simp⟩

/-- A removal inside a 4×5 matrix meets the hypotheses. -/
example : ∃ (m : Mat ℚ) (r c n : Nat), 0 < n ∧ r + n ≤ m.rows ∧ c + n ≤ m.cols :=
  ⟨⟨4, 5, fun i j => i * j⟩, 1, 2, 2, by simp⟩

end EkfCal
