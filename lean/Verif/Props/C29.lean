import Mathlib.Algebra.Order.Floor.Ring
import Mathlib.Algebra.Order.Field.Basic
import Mathlib.Data.Rat.Floor
import Mathlib.Tactic.Linarith
import Mathlib.Tactic.FieldSimp
import Mathlib.Tactic.Push
import Mathlib.Tactic.NormNum
import Verif.Spec.Grid

/-!
# C29: grid filtering keeps at most one feature per cell
-/

namespace EkfCal

variable {K : Type} [Field K] [LinearOrder K] [FloorRing K]

/-- The cell the code computes for a key point, if it passes the bounds. -/
def codeCell (rows cols : Nat) (k : KeyPoint K) : Option (Int × Int) :=
  if truncInt (k.x / 10) < 0 ∨ truncInt (k.x / 10) ≥ truncInt ((cols : K) / 10) ∨ truncInt (k.y / 10) < 0 ∨
    truncInt (k.y / 10) ≥ truncInt ((rows : K) / 10) ∨ truncInt k.x < 0 ∨ truncInt k.x ≥ cols ∨ truncInt k.y < 0 ∨
    truncInt k.y ≥ rows then none
  else some (truncInt (k.x / 10), truncInt (k.y / 10))

theorem gridLoop_cons (rows cols : Nat) (occ : Int → Int → Bool) (k : KeyPoint K) (rest) :
    gridLoop rows cols occ (k :: rest) = match codeCell rows cols k with
      | none => gridLoop rows cols occ rest
      | some c => if occ c.2 c.1 then gridLoop rows cols occ rest
        else k :: gridLoop rows cols (fun a b => if a = c.2 ∧ b = c.1 then true else occ a b) rest := by
  simp only [gridLoop, codeCell]
  split_ifs <;> simp_all

theorem gridLoop_sublist (rows cols : Nat) (occ) (ks : List (KeyPoint K)) : (gridLoop rows cols occ ks).Sublist ks := by
  induction ks generalizing occ with
  | nil => exact List.Sublist.slnil
  | cons k ks ih =>
    rw [gridLoop_cons]
    split
    · exact (ih _).cons _
    · split_ifs
      · exact (ih _).cons _
      · exact (ih _).cons_cons _

/-- Every survivor has a cell that was free. -/
theorem gridLoop_mem (rows cols : Nat) (occ) (ks : List (KeyPoint K)) (k) (h : k ∈ gridLoop rows cols occ ks) :
    ∃ c, codeCell rows cols k = some c ∧ occ c.2 c.1 = false := by
  induction ks generalizing occ with
  | nil => simp [gridLoop] at h
  | cons a ks ih =>
    rw [gridLoop_cons] at h
    split at h
    · exact ih _ h
    · rename_i c hc
      split_ifs at h with ho
      · exact ih _ h
      · rcases List.mem_cons.1 h with rfl | h
        · exact ⟨c, hc, by simpa using ho⟩
        · obtain ⟨c', h1, h2⟩ := ih _ h
          refine ⟨c', h1, ?_⟩
          split_ifs at h2
          exact h2

theorem gridLoop_pairwise (rows cols : Nat) (occ) (ks : List (KeyPoint K)) :
    (gridLoop rows cols occ ks).Pairwise fun a b => codeCell rows cols a ≠ codeCell rows cols b := by
  induction ks generalizing occ with
  | nil => exact List.Pairwise.nil
  | cons a ks ih =>
    rw [gridLoop_cons]
    split
    · exact ih _
    · rename_i c hc
      split_ifs with ho
      · exact ih _
      · refine List.Pairwise.cons ?_ (ih _)
        intro b hb
        obtain ⟨c', h1, h2⟩ := gridLoop_mem _ _ _ _ _ hb
        rw [hc, h1]
        intro e
        rw [Option.some.injEq] at e
        subst e
        simp at h2

theorem gridLoop_id (rows cols : Nat) (occ) (ks : List (KeyPoint K))
    (h1 : ∀ k ∈ ks, ∃ c, codeCell rows cols k = some c ∧ occ c.2 c.1 = false)
    (h2 : ks.Pairwise fun a b => codeCell rows cols a ≠ codeCell rows cols b) : gridLoop rows cols occ ks = ks := by
  induction ks generalizing occ with
  | nil => rfl
  | cons a ks ih =>
    rw [gridLoop_cons]
    obtain ⟨c, hc, ho⟩ := h1 a List.mem_cons_self
    rw [hc]
    simp only [ho, Bool.false_eq_true, if_false, List.cons.injEq, true_and]
    refine ih _ ?_ (List.pairwise_cons.1 h2).2
    intro b hb
    obtain ⟨c', h3, h4⟩ := h1 b (List.mem_cons_of_mem _ hb)
    refine ⟨c', h3, ?_⟩
    rw [if_neg _]
    · exact h4
    · rintro ⟨e1, e2⟩
      apply (List.pairwise_cons.1 h2).1 b hb
      rw [hc, h3]
      exact congrArg some (Prod.ext e2.symm e1.symm)

/-- **A subsequence**: key points are dropped, never added, changed or reordered. -/
theorem C29_sublist (ks : List (KeyPoint K)) (rows cols : Nat) : (gridFeatures ks rows cols).Sublist ks :=
  gridLoop_sublist _ _ _ _

/-- **Filtering twice is filtering once.** -/
theorem C29_idempotent (ks : List (KeyPoint K)) (rows cols : Nat) :
    gridFeatures (gridFeatures ks rows cols) rows cols = gridFeatures ks rows cols :=
  gridLoop_id _ _ _ _ (fun k hk => by
    obtain ⟨c, h, _⟩ := gridLoop_mem _ _ _ _ _ hk
    exact ⟨c, h, rfl⟩) (gridLoop_pairwise _ _ _ _)

variable [IsStrictOrderedRing K]

omit [IsStrictOrderedRing K] in
theorem trunc_of_nonneg {x : K} (h : 0 ≤ x) : truncInt x = ⌊x⌋ := if_pos h

theorem trunc_bounds {x : K} {n : Nat} (h : ¬ truncInt x < 0) (h' : ¬ truncInt x ≥ n) : -1 < x ∧ x < n := by
  unfold truncInt at h h'
  split_ifs at h h' with h0
  · exact ⟨by linarith, by have := Int.floor_lt.1 (not_le.1 h'); simpa using this⟩
  · refine ⟨?_, lt_of_lt_of_le (not_le.1 h0) (Nat.cast_nonneg n)⟩
    by_contra hx
    have : ⌈x⌉ ≤ -1 := Int.ceil_le.2 (by push_cast; exact not_lt.1 hx)
    omega

omit [IsStrictOrderedRing K] in
theorem codeCell_bounds {rows cols : Nat} {k : KeyPoint K} {c} (h : codeCell rows cols k = some c) :
    c = (truncInt (k.x / 10), truncInt (k.y / 10)) ∧ 0 ≤ c.1 ∧ 0 ≤ c.2 ∧
    (¬ truncInt k.x < 0 ∧ ¬ truncInt k.x ≥ cols) ∧ (¬ truncInt k.y < 0 ∧ ¬ truncInt k.y ≥ rows) := by
  unfold codeCell at h
  split_ifs at h with hb
  simp only [Option.some.injEq] at h
  subst h
  push Not at hb
  obtain ⟨h1, h2, h3, h4, h5, h6, h7, h8⟩ := hb
  exact ⟨rfl, h1, h3, ⟨not_lt.2 h5, not_le.2 h6⟩, ⟨not_lt.2 h7, not_le.2 h8⟩⟩

theorem trunc_eq_of_floor {x y : K} (hx : -1 < x) (hy : -1 < y) (h : ⌊x⌋ = ⌊y⌋) : truncInt x = truncInt y := by
  have neg : ∀ z : K, -1 < z → ¬ 0 ≤ z → ⌈z⌉ = 0 ∧ ⌊z⌋ < 0 := by
    intro z h1 h2
    refine ⟨Int.ceil_eq_iff.2 ⟨by push_cast; linarith, by push_cast; linarith⟩, Int.floor_lt.2 (by push_cast; linarith)⟩
  unfold truncInt
  split_ifs with h1 h2 h2
  · exact h
  · have := (neg y hy h2).2; have := Int.floor_nonneg.2 h1; omega
  · have := (neg x hx h1).2; have := Int.floor_nonneg.2 h2; omega
  · rw [(neg x hx h1).1, (neg y hy h2).1]

/-- **At most one key point per 10-pixel cell.** -/
theorem C29_one_per_cell (ks : List (KeyPoint K)) (rows cols : Nat) :
    (gridFeatures ks rows cols).Pairwise fun a b => a.cell ≠ b.cell := by
  have hp := gridLoop_pairwise rows cols (fun _ _ => false) ks
  refine List.Pairwise.imp_of_mem ?_ hp
  intro a b ha hb hne e
  obtain ⟨c, h1, _⟩ := gridLoop_mem _ _ _ _ _ ha
  obtain ⟨c', h2, _⟩ := gridLoop_mem _ _ _ _ _ hb
  apply hne
  have b1 := codeCell_bounds h1
  have b2 := codeCell_bounds h2
  have lt : ∀ {z : K}, -1 < z → -1 < z / 10 := by
    intro z hz; rw [lt_div_iff₀ (by norm_num)]; linarith
  have e1 : ⌊a.x / 10⌋ = ⌊b.x / 10⌋ := congrArg Prod.fst e
  have e2 : ⌊a.y / 10⌋ = ⌊b.y / 10⌋ := congrArg Prod.snd e
  rw [h1, h2, b1.1, b2.1,
    trunc_eq_of_floor (lt (trunc_bounds b1.2.2.2.1.1 b1.2.2.2.1.2).1) (lt (trunc_bounds b2.2.2.2.1.1 b2.2.2.2.1.2).1) e1,
    trunc_eq_of_floor (lt (trunc_bounds b1.2.2.2.2.1 b1.2.2.2.2.2).1) (lt (trunc_bounds b2.2.2.2.2.1 b2.2.2.2.2.2).1) e2]

/-- **Survivors lie less than a pixel outside the image**, and inside it where the detector gave coordinates that are not
negative. -/
theorem C29_inside_partial (ks : List (KeyPoint K)) (rows cols : Nat) (k : KeyPoint K) (hk : k ∈ gridFeatures ks rows cols) :
    (-1 < k.x ∧ k.x < cols ∧ -1 < k.y ∧ k.y < rows) ∧ (0 ≤ k.x → 0 ≤ k.y → k.InImage rows cols) := by
  obtain ⟨c, h1, _⟩ := gridLoop_mem _ _ _ _ _ hk
  obtain ⟨_, _, _, ⟨a, b⟩, ⟨a', b'⟩⟩ := codeCell_bounds h1
  have hx := trunc_bounds a b
  have hy := trunc_bounds a' b'
  exact ⟨⟨hx.1, hx.2, hy.1, hy.2⟩, fun h0 h0' => ⟨h0, hx.2, h0', hy.2⟩⟩

/-- **A key point outside the image can survive**: casting to `int` rounds −½ to 0, which passes the test for negative
coordinates. -/
theorem C29_inside_violated : ¬ ∀ (ks : List (KeyPoint ℚ)) (rows cols : Nat), ∀ k ∈ gridFeatures ks rows cols,
    k.InImage rows cols := by
  intro h
  have := h [⟨-1/2, 5, none⟩] 100 100 ⟨-1/2, 5, none⟩ (by decide +kernel)
  exact absurd this.1 (by norm_num)

theorem codeCell_nonneg (rows cols : Nat) (k : KeyPoint K) (hx : 0 ≤ k.x) (hy : 0 ≤ k.y) :
    (KeyPoint.CellInImage rows cols k.cell → codeCell rows cols k = some k.cell) ∧
    ∀ c, codeCell rows cols k = some c → c = k.cell := by
  have hx' : 0 ≤ k.x / 10 := div_nonneg hx (by norm_num)
  have hy' : 0 ≤ k.y / 10 := div_nonneg hy (by norm_num)
  have cell : k.cell = (truncInt (k.x / 10), truncInt (k.y / 10)) := by
    rw [trunc_of_nonneg hx', trunc_of_nonneg hy']; rfl
  constructor
  · rintro ⟨h1, h2, h3, h4⟩
    have side : ∀ (z : K) (n : Nat), 0 ≤ z → 0 ≤ z / 10 → (⌊z / 10⌋ + 1) * 10 ≤ (n : Int) →
        ¬ truncInt (z / 10) < 0 ∧ ¬ truncInt (z / 10) ≥ truncInt ((n : K) / 10) ∧ ¬ truncInt z < 0 ∧ ¬ truncInt z ≥ n := by
      intro z n hz hz' hn
      have hn' : ((⌊z / 10⌋ : K) + 1) * 10 ≤ n := by exact_mod_cast hn
      have hlt := Int.lt_floor_add_one (z / 10)
      rw [trunc_of_nonneg hz, trunc_of_nonneg hz', trunc_of_nonneg (div_nonneg (Nat.cast_nonneg n) (by norm_num))]
      refine ⟨not_lt.2 (Int.floor_nonneg.2 hz'), ?_, not_lt.2 (Int.floor_nonneg.2 hz), ?_⟩
      · have : ⌊z / 10⌋ + 1 ≤ ⌊(n : K) / 10⌋ := by
          rw [Int.le_floor, le_div_iff₀ (by norm_num)]; push_cast; exact hn'
        omega
      · rw [not_le, Int.floor_lt]
        have : z / 10 * 10 = z := by field_simp
        push_cast
        nlinarith
    have a := side k.x cols hx hx' h2
    have b := side k.y rows hy hy' h4
    unfold codeCell
    rw [if_neg, cell]
    push Not
    simp only [not_lt, not_le, ge_iff_le] at a b
    exact ⟨a.1, a.2.1, b.1, b.2.1, a.2.2.1, a.2.2.2, b.2.2.1, b.2.2.2⟩
  · intro c hc
    rw [(codeCell_bounds hc).1, cell]

omit [IsStrictOrderedRing K] in
theorem gridLoop_first (rows cols : Nat) (occ) (pre post : List (KeyPoint K)) (k : KeyPoint K) (c)
    (hc : codeCell rows cols k = some c) (ho : occ c.2 c.1 = false) (hp : ∀ a ∈ pre, codeCell rows cols a ≠ some c) :
    k ∈ gridLoop rows cols occ (pre ++ k :: post) := by
  induction pre generalizing occ with
  | nil =>
    rw [List.nil_append, gridLoop_cons, hc]
    simp [ho]
  | cons a pre ih =>
    rw [List.cons_append, gridLoop_cons]
    have hp' := fun b hb => hp b (List.mem_cons_of_mem _ hb)
    split
    · exact ih _ ho hp'
    · rename_i c' hc'
      split_ifs
      · exact ih _ ho hp'
      · refine List.mem_cons_of_mem _ (ih _ ?_ hp')
        rw [if_neg]
        · exact ho
        · rintro ⟨e1, e2⟩
          exact hp a List.mem_cons_self (by rw [hc']; exact congrArg some (Prod.ext e2.symm e1.symm))

/-- **The first key point of every cell inside the image is kept**, when the detector gives no negative coordinates. -/
theorem C29_first_partial (pre post : List (KeyPoint K)) (k : KeyPoint K) (rows cols : Nat)
    (hn : ∀ a ∈ pre ++ k :: post, 0 ≤ a.x ∧ 0 ≤ a.y) (hc : KeyPoint.CellInImage rows cols k.cell)
    (hfirst : ∀ a ∈ pre, a.cell ≠ k.cell) : k ∈ gridFeatures (pre ++ k :: post) rows cols := by
  have hk := hn k (by simp)
  refine gridLoop_first _ _ _ _ _ _ _ ((codeCell_nonneg rows cols k hk.1 hk.2).1 hc) rfl ?_
  intro a ha e
  have := hn a (by simp [ha])
  exact hfirst a ha ((codeCell_nonneg rows cols a this.1 this.2).2 _ e).symm

/-- **A key point outside the image can displace the first one inside.** -/
theorem C29_first_violated : ¬ ∀ (pre post : List (KeyPoint ℚ)) (k : KeyPoint ℚ) (rows cols : Nat),
    KeyPoint.CellInImage rows cols k.cell → (∀ a ∈ pre, a.cell ≠ k.cell) →
    k ∈ gridFeatures (pre ++ k :: post) rows cols := by
  intro h
  have := h [⟨-1/2, 5, none⟩] [] ⟨5, 5, none⟩ 100 100 (by
    refine ⟨?_, ?_, ?_, ?_⟩ <;> decide +kernel) (by
    intro a ha
    rw [List.mem_singleton] at ha
    subst ha
    decide +kernel)
  revert this
  decide +kernel

/-- Two key points in one cell, one in the next, one in the strip beyond the last whole cell. -/
example : gridFeatures [⟨12, 3, none⟩, ⟨18, 9, none⟩, ⟨21, 3, none⟩, ⟨33, 3, none⟩, (⟨5, 50, none⟩ : KeyPoint ℚ)] 40 35 =
    [⟨12, 3, none⟩, ⟨21, 3, none⟩] := by decide +kernel

end EkfCal
