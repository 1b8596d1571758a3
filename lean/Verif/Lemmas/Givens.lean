import Verif.Model.Compress
import Verif.Lemmas.Alg
import Verif.Spec.Cov
import Mathlib.Algebra.Order.Ring.Abs
import Mathlib.Tactic.FieldSimp
import Mathlib.Tactic.LinearCombination
import Mathlib.Tactic.Linarith

/-! # Givens rotations preserve inner products and triangularise -/

set_option linter.unusedSectionVars false

namespace EkfCal
open Finset
variable {K : Type} [Field K] [LinearOrder K] [IsStrictOrderedRing K]

theorem givens_aux {N : Prim K} (hN : N.SqrtLaw) (t : K) (b : Prop) [Decidable b] :
    let u := if b then -N.sqrt (1 + t * t) else N.sqrt (1 + t * t)
    u ≠ 0 ∧ u * u = 1 + t * t := by
  have h0 : (0 : K) < 1 + t * t := by nlinarith [mul_self_nonneg t]
  obtain ⟨_, h2⟩ := hN _ h0.le
  have hn : N.sqrt (1 + t * t) ≠ 0 := by
    intro h; rw [h, mul_zero] at h2; exact h0.ne h2
  intro u
  by_cases hb : b
  · have : u = -N.sqrt (1 + t * t) := if_pos hb
    rw [this]; exact ⟨neg_ne_zero.2 hn, by rw [neg_mul_neg, h2]⟩
  · have : u = N.sqrt (1 + t * t) := if_neg hb
    rw [this]; exact ⟨hn, h2⟩

/-- The rotation is orthogonal and zeroes the second entry. -/
theorem makeGivens_spec {N : Prim K} (hN : N.SqrtLaw) (p q : K) :
    (makeGivens N p q).1 * (makeGivens N p q).1 + (makeGivens N p q).2 * (makeGivens N p q).2 = 1 ∧
      (makeGivens N p q).2 * p + (makeGivens N p q).1 * q = 0 := by
  unfold makeGivens
  split
  · next h => subst h; split <;> simp
  · next hq =>
    split
    · next h => subst h; split <;> simp
    · next hp =>
      split
      · obtain ⟨hu, h2⟩ := givens_aux hN (q / p) (p < 0)
        dsimp only
        generalize (if p < 0 then -N.sqrt (1 + q / p * (q / p)) else N.sqrt (1 + q / p * (q / p))) = u at hu h2 ⊢
        constructor
        · have : 1 / u * (1 / u) + -(q / p) * (1 / u) * (-(q / p) * (1 / u)) = (1 + q / p * (q / p)) / (u * u) := by
            field_simp
          rw [this, h2, div_self (by rw [← h2]; exact mul_self_ne_zero.2 hu)]
        · field_simp; ring
      · obtain ⟨hu, h2⟩ := givens_aux hN (p / q) (q < 0)
        dsimp only
        generalize (if q < 0 then -N.sqrt (1 + p / q * (p / q)) else N.sqrt (1 + p / q * (p / q))) = u at hu h2 ⊢
        constructor
        · have : -(p / q) * -(1 / u) * (-(p / q) * -(1 / u)) + -(1 / u) * -(1 / u) = (1 + p / q * (p / q)) / (u * u) := by
            field_simp; ring
          rw [this, h2, div_self (by rw [← h2]; exact mul_self_ne_zero.2 hu)]
        · field_simp; ring

/-- Sums that differ only at `i - 1` and `i`, by equal totals. -/
theorem sum_pair {f g : Nat → K} {n i : Nat} (hi : i < n) (h1 : 1 ≤ i)
    (hne : ∀ a, a ≠ i → a ≠ i - 1 → f a = g a) (hp : f (i - 1) + f i = g (i - 1) + g i) :
    ∑ a ∈ range n, f a = ∑ a ∈ range n, g a := by
  have hi' : i ∈ range n := mem_range.2 hi
  have hj : i - 1 ∈ (range n).erase i := mem_erase.2 ⟨by omega, mem_range.2 (by omega)⟩
  rw [← add_sum_erase _ _ hi', ← add_sum_erase _ g hi', ← add_sum_erase _ _ hj, ← add_sum_erase _ g hj]
  rw [sum_congr rfl (g := g)]
  · linear_combination hp
  · intro a ha
    simp only [mem_erase] at ha
    exact hne a ha.2.1 ha.1

/-- Columns before `j` have been zeroed below the diagonal. -/
def Triangular (H : Mat K) (j : Nat) : Prop := ∀ a b, b < j → b < a → a < H.rows → H.get a b = 0

/-- What a sequence of rotations leaves unchanged. -/
structure SameProducts (s t : Mat K × Vec K) : Prop where
  rows : t.1.rows = s.1.rows
  cols : t.1.cols = s.1.cols
  size : t.2.size = s.2.size
  gram : ∀ a b, gram t.1 a b = gram s.1 a b
  cross : ∀ a, ∑ i ∈ range t.1.rows, t.1.get i a * t.2.get i = ∑ i ∈ range s.1.rows, s.1.get i a * s.2.get i
  norm : ∑ i ∈ range t.1.rows, t.2.get i * t.2.get i = ∑ i ∈ range s.1.rows, s.2.get i * s.2.get i

theorem SameProducts.refl (s : Mat K × Vec K) : SameProducts s s := ⟨rfl, rfl, rfl, fun _ _ => rfl, fun _ => rfl, rfl⟩

theorem SameProducts.trans {s t u : Mat K × Vec K} (h : SameProducts s t) (h' : SameProducts t u) : SameProducts s u :=
  ⟨h'.rows.trans h.rows, h'.cols.trans h.cols, h'.size.trans h.size, fun a b => (h'.gram a b).trans (h.gram a b),
    fun a => (h'.cross a).trans (h.cross a), h'.norm.trans h.norm⟩

theorem givensStep_get {N : Prim K} {j i : Nat} {s : Mat K × Vec K} (h1 : j < i) (hi : i < s.1.rows)
    (ht : Triangular s.1 j) (a b : Nat) :
    let g := makeGivens N (s.1.get (i - 1) j) (s.1.get i j)
    (givensStep N j i s).1.get a b =
      if a = i - 1 then g.1 * s.1.get (i - 1) b - g.2 * s.1.get i b
      else if a = i then g.2 * s.1.get (i - 1) b + g.1 * s.1.get i b else s.1.get a b := by
  intro g
  show (if b < j then s.1.get a b else _) = _
  by_cases hb : b < j
  · rw [if_pos hb]
    have z1 := ht (i - 1) b hb (by omega) (by omega)
    have z2 := ht i b hb (by omega) hi
    rw [z1, z2]
    by_cases ha : a = i - 1
    · rw [if_pos ha, ha, z1]; ring
    · rw [if_neg ha]
      by_cases ha' : a = i
      · rw [if_pos ha', ha', z2]; ring
      · rw [if_neg ha']
  · rw [if_neg hb]

theorem givensStep_same {N : Prim K} (hN : N.SqrtLaw) {j i : Nat} {s : Mat K × Vec K} (h1 : j < i) (hi : i < s.1.rows)
    (ht : Triangular s.1 j) : SameProducts s (givensStep N j i s) := by
  have hg := givensStep_get (N := N) h1 hi ht
  obtain ⟨hc, -⟩ := makeGivens_spec hN (s.1.get (i - 1) j) (s.1.get i j)
  have hr : ∀ a, (givensStep N j i s).2.get a =
      let g := makeGivens N (s.1.get (i - 1) j) (s.1.get i j)
      if a = i - 1 then g.1 * s.2.get (i - 1) - g.2 * s.2.get i
      else if a = i then g.2 * s.2.get (i - 1) + g.1 * s.2.get i else s.2.get a := fun a => rfl
  dsimp only at hg hr
  have hne : i ≠ i - 1 := by omega
  generalize makeGivens N (s.1.get (i - 1) j) (s.1.get i j) = g at hg hr hc
  refine ⟨rfl, rfl, rfl, fun a b => ?_, fun a => ?_, ?_⟩
  · refine sum_pair hi (by omega) (fun k hk hk' => ?_) ?_
    · rw [hg, hg, if_neg hk', if_neg hk, if_neg hk', if_neg hk]
    · rw [hg, hg, hg, hg, if_pos rfl, if_pos rfl, if_neg hne, if_neg hne, if_pos rfl, if_pos rfl]
      linear_combination (s.1.get (i - 1) a * s.1.get (i - 1) b + s.1.get i a * s.1.get i b) * hc
  · refine sum_pair hi (by omega) (fun k hk hk' => ?_) ?_
    · rw [hg, hr, if_neg hk', if_neg hk, if_neg hk', if_neg hk]
    · rw [hg, hg, hr, hr, if_pos rfl, if_pos rfl, if_neg hne, if_neg hne, if_pos rfl, if_pos rfl]
      linear_combination (s.1.get (i - 1) a * s.2.get (i - 1) + s.1.get i a * s.2.get i) * hc
  · refine sum_pair hi (by omega) (fun k hk hk' => ?_) ?_
    · rw [hr, if_neg hk', if_neg hk]
    · rw [hr, hr, if_pos rfl, if_neg hne, if_pos rfl]
      linear_combination (s.2.get (i - 1) * s.2.get (i - 1) + s.2.get i * s.2.get i) * hc

theorem givensStep_tri {N : Prim K} (hN : N.SqrtLaw) {j i : Nat} {s : Mat K × Vec K} (h1 : j < i) (hi : i < s.1.rows)
    (ht : Triangular s.1 j) (hz : ∀ a, i < a → a < s.1.rows → s.1.get a j = 0) :
    Triangular (givensStep N j i s).1 j ∧ ∀ a, i - 1 < a → a < s.1.rows → (givensStep N j i s).1.get a j = 0 := by
  have hg := givensStep_get (N := N) h1 hi ht
  obtain ⟨-, hc⟩ := makeGivens_spec hN (s.1.get (i - 1) j) (s.1.get i j)
  dsimp only at hg
  constructor
  · intro a b hb hab ha
    show (if b < j then s.1.get a b else _) = _
    rw [if_pos hb]
    exact ht a b hb hab ha
  · intro a ha har
    rw [hg, if_neg (by omega)]
    by_cases e : a = i
    · rw [if_pos e, hc]
    · rw [if_neg e]; exact hz a (by omega) har

theorem givensColumn_spec {N : Prim K} (hN : N.SqrtLaw) {j : Nat} : ∀ (n : Nat) (s : Mat K × Vec K),
    (n = 0 ∨ j + n < s.1.rows) → Triangular s.1 j → (∀ a, j + n < a → a < s.1.rows → s.1.get a j = 0) →
    SameProducts s (givensColumn N j n s) ∧ Triangular (givensColumn N j n s).1 (j + 1)
  | 0, s, _, ht, hz => ⟨.refl s, fun a b hb hab ha => by
      rcases Nat.lt_succ_iff_lt_or_eq.1 hb with h | h
      · exact ht a b h hab ha
      · subst h; exact hz a (by omega) ha⟩
  | n + 1, s, hn, ht, hz => by
    have hn : j + (n + 1) < s.1.rows := by omega
    have h1 := givensStep_same hN (i := j + (n + 1)) (by omega) hn ht
    have h2 := givensStep_tri hN (i := j + (n + 1)) (by omega) hn ht hz
    have h3 := givensColumn_spec hN n (givensStep N j (j + (n + 1)) s) (Or.inr (by show j + n < s.1.rows; omega)) h2.1
      (fun a ha har => h2.2 a (by omega) har)
    exact ⟨h1.trans h3.1, h3.2⟩

theorem givensAll_spec {N : Prim K} (hN : N.SqrtLaw) : ∀ (n : Nat) (s : Mat K × Vec K),
    SameProducts s (givensAll N n s) ∧ Triangular (givensAll N n s).1 n
  | 0, s => ⟨.refl s, fun _ b hb => (Nat.not_lt_zero b hb).elim⟩
  | n + 1, s => by
    obtain ⟨h1, h2⟩ := givensAll_spec hN n s
    have h3 := givensColumn_spec hN (j := n) (s.1.rows - 1 - n) (givensAll N n s) (by rw [h1.rows]; omega) h2
      (fun a ha har => by rw [h1.rows] at har; omega)
    exact ⟨h1.trans h3.1, h3.2⟩

end EkfCal
