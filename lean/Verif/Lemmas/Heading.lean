import Verif.Spec.Heading
import Verif.Lemmas.Silent
import Verif.Lemmas.QuatMat
import Verif.Lemmas.Matrix
import Verif.Lemmas.Predict

/-! # The local frame turned about the vertical -/

set_option linter.unusedSectionVars false

namespace EkfCal
open Finset
variable {K : Type} [Field K]

/-! ## The turning of an error -/

/-- What `turning` does to a vector. -/
def tw (c s : K) (f : Nat → K) (i : Nat) : K :=
  if Horizontal 0 i then c * f i - s * f (i + 1) else if Horizontal 1 i then s * f (i - 1) + c * f i else f i

theorem Horizontal.next {i : Nat} (h : Horizontal 0 i) : Horizontal 1 (i + 1) := by
  obtain ⟨h1, h2, h3⟩ := h; exact ⟨by omega, by omega, by omega⟩
theorem Horizontal.prev {i : Nat} (h : Horizontal 1 i) : ∃ j, i = j + 1 ∧ Horizontal 0 j := by
  obtain ⟨h1, h2, h3⟩ := h; exact ⟨i - 1, by omega, by omega, by omega, by omega⟩
theorem Horizontal.ne {i : Nat} (h : Horizontal 0 i) : ¬ Horizontal 1 i := by
  obtain ⟨h1, h2, h3⟩ := h; rintro ⟨_, _, h4⟩; omega
theorem Horizontal.ne' {i : Nat} (h : Horizontal 0 i) : ¬ Horizontal 0 (i + 1) := by
  obtain ⟨h1, h2, h3⟩ := h; rintro ⟨_, _, h4⟩; omega
theorem Horizontal.lt {i : Nat} (h : Horizontal 0 i) : i + 1 < 18 := by
  obtain ⟨h1, h2, h3⟩ := h; omega

theorem tw_first {c s : K} {f : Nat → K} {i : Nat} (h : Horizontal 0 i) : tw c s f i = c * f i - s * f (i + 1) := if_pos h
theorem tw_second {c s : K} {f : Nat → K} {i : Nat} (h : Horizontal 0 i) : tw c s f (i + 1) = s * f i + c * f (i + 1) := by
  unfold tw; rw [if_neg h.ne', if_pos h.next]; rfl
theorem tw_other {c s : K} {f : Nat → K} {i : Nat} (h0 : ¬ Horizontal 0 i) (h1 : ¬ Horizontal 1 i) : tw c s f i = f i := by
  unfold tw; rw [if_neg h0, if_neg h1]

/-- Every index is a first or a second horizontal component, or neither. -/
theorem horizontal_cases (i : Nat) : Horizontal 0 i ∨ (∃ j, i = j + 1 ∧ Horizontal 0 j) ∨ (¬ Horizontal 0 i ∧ ¬ Horizontal 1 i) := by
  by_cases h0 : Horizontal 0 i
  · exact .inl h0
  · by_cases h1 : Horizontal 1 i
    · exact .inr (.inl h1.prev)
    · exact .inr (.inr ⟨h0, h1⟩)

theorem sum_turning {n : Nat} (hn : 18 ≤ n) (c s : K) (f : Nat → K) {i : Nat} (hi : i < n) :
    ∑ k ∈ range n, turning c s i k * f k = tw c s f i := by
  obtain h | ⟨j, rfl, h⟩ | ⟨h0, h1⟩ := horizontal_cases i
  · have hl := h.lt
    rw [tw_first h, ← sum_subset (s₁ := {i, i + 1}) (by intro k hk; simp at hk; rw [mem_range]; omega), Finset.sum_pair (by omega)]
    · simp [turning, h]; ring
    · intro k _ hk
      simp at hk
      unfold turning
      rw [if_neg (by omega), if_neg (by omega), if_neg (fun x => h.ne x.1), zero_mul]
  · have hl := h.lt
    rw [tw_second h, ← sum_subset (s₁ := {j, j + 1}) (by intro k hk; simp at hk; rw [mem_range]; omega), Finset.sum_pair (by omega)]
    · have h1 := h.next
      simp [turning, h1, h.ne']
    · intro k _ hk
      simp at hk
      unfold turning
      rw [if_neg (by omega), if_neg (fun x => h.ne' x.1), if_neg (by omega), zero_mul]
  · rw [tw_other h0 h1, sum_eq_single i]
    · simp [turning, h0, h1]
    · intro k _ hk
      unfold turning
      rw [if_neg (fun x => hk x.symm), if_neg (fun x => h0 x.1), if_neg (fun x => h1 x.1), zero_mul]
    · intro hx; exact absurd (mem_range.2 hi) hx

theorem congr_turning {n : Nat} (hn : 18 ≤ n) (c s : K) (A : Nat → Nat → K) {i j : Nat} (hi : i < n) (hj : j < n) :
    congr n (turning c s) A i j = tw c s (fun k => tw c s (fun l => A k l) j) i := by
  unfold congr
  rw [← sum_turning hn c s _ hi]
  refine sum_congr rfl fun k _ => ?_
  rw [← sum_turning hn c s _ hj, mul_sum]
  refine sum_congr rfl fun l _ => ?_
  ring

theorem turning_diag {c s : K} (j : Nat) : turning c s j j = if Horizontal 0 j ∨ Horizontal 1 j then c else 1 := if_pos rfl

theorem turning_orth {n : Nat} (hn : 18 ≤ n) {c s : K} (h : c * c + s * s = 1) :
    toM n n (turning c s) * (toM n n (turning c s)).transpose = 1 := by
  rw [← toM_transpose, ← toM_mul, ← toM_one, toM_eq_iff]
  intro i j hi hj
  rw [sum_turning hn c s (fun k => turning c s j k) hi]
  obtain hi' | ⟨i, rfl, hi'⟩ | ⟨h0, h1⟩ := horizontal_cases i
  · rw [tw_first hi']
    obtain hj' | ⟨j, rfl, hj'⟩ | ⟨g0, g1⟩ := horizontal_cases j
    · by_cases hij : i = j
      · subst hij; simp [turning, hi']; linear_combination h
      · have q : j ≠ i + 1 := fun hx => hi'.ne' (hx ▸ hj')
        simp [turning, hj', hj'.ne, hij, Ne.symm hij, q]
        intro hx; exact absurd (hx ▸ hi' : Horizontal 0 (j + 1)) hj'.ne'
    · by_cases hij : i = j
      · subst hij; simp [turning, hi'.ne', hi'.next]; ring
      · have q : j + 1 ≠ i := fun hx => hj'.ne' (hx ▸ hi')
        have q' : j ≠ i + 1 := fun hx => hi'.ne' (hx ▸ hj')
        simp [turning, hj'.ne', hj'.next, q, Ne.symm q, q', hij, Ne.symm hij]
    · have q1 : j ≠ i := fun hx => g0 (hx ▸ hi')
      have q2 : j ≠ i + 1 := fun hx => g1 (hx ▸ hi'.next)
      simp [turning, g0, g1, q1, q2, Ne.symm q1]
  · rw [tw_second hi']
    obtain hj' | ⟨j, rfl, hj'⟩ | ⟨g0, g1⟩ := horizontal_cases j
    · by_cases hij : i = j
      · subst hij; simp [turning, hi']; ring
      · have q : j ≠ i + 1 := fun hx => hi'.ne' (hx ▸ hj')
        have q' : i ≠ j + 1 := fun hx => hj'.ne' (hx ▸ hi')
        simp [turning, hj', hj'.ne, hij, Ne.symm hij, q, q', Ne.symm q]
    · by_cases hij : i = j
      · subst hij; simp [turning, hi'.ne', hi'.next]; linear_combination h
      · have q : j + 1 ≠ i := fun hx => hj'.ne' (hx ▸ hi')
        have q' : j ≠ i + 1 := fun hx => hi'.ne' (hx ▸ hj')
        simp [turning, hj'.ne', hj'.next, q, Ne.symm q, q', hij, Ne.symm hij]
    · have q1 : j ≠ i := fun hx => g0 (hx ▸ hi')
      have q2 : j ≠ i + 1 := fun hx => g1 (hx ▸ hi'.next)
      simp [turning, g0, g1, q1, q2, Ne.symm q2]
  · rw [tw_other h0 h1]
    by_cases hij : i = j
    · subst hij; simp [turning, h0, h1]
    · have q1 : ¬ (Horizontal 0 j ∧ i = j + 1) := fun hx => h1 (hx.2 ▸ hx.1.next)
      have q2 : ¬ (Horizontal 1 j ∧ j = i + 1) := fun hx => by
        obtain ⟨k, e1, e2⟩ := hx.1.prev
        exact h0 (by rw [show i = k by omega]; exact e2)
      rw [if_neg hij]
      unfold turning
      rw [if_neg (Ne.symm hij), if_neg q1, if_neg q2]

/-- The turning of an error commutes with the propagation of errors. -/
theorem tw_tr {c s dt : K} (f : Nat → K) (i : Nat) : tw c s (tr dt f) i = tr dt (tw c s f) i := by
  by_cases h3 : i < 3
  · have : i = 0 ∨ i = 1 ∨ i = 2 := by omega
    obtain rfl | rfl | rfl := this
    · rw [tw_first (by decide)]; simp [tr]; rw [tw_first (by decide), tw_first (by decide)]; ring
    · rw [show (1 : Nat) = 0 + 1 from rfl, tw_second (by decide)]
      simp [tr]
      have e4 : tw c s f 4 = s * f 3 + c * f 4 := tw_second (i := 3) (by decide)
      have e1 : tw c s f 1 = s * f 0 + c * f 1 := tw_second (i := 0) (by decide)
      rw [e1, e4]; ring
    · rw [tw_other (by decide) (by decide)]; simp [tr]; rw [tw_other (by decide) (by decide), tw_other (by decide) (by decide)]
  · rw [tr_of_ge dt _ (by omega)]
    obtain h | ⟨j, rfl, h⟩ | ⟨h0, h1⟩ := horizontal_cases i
    · rw [tw_first h, tw_first h, tr_of_ge dt _ (by omega), tr_of_ge dt _ (by omega)]
    · have : 3 ≤ j := by obtain ⟨_, _, hm⟩ := h; omega
      rw [tw_second h, tw_second h, tr_of_ge dt _ (by omega), tr_of_ge dt _ (by omega)]
    · rw [tw_other h0 h1, tw_other h0 h1, tr_of_ge dt _ (by omega)]

theorem toM_transition {n : Nat} (hn : 18 ≤ n) (c s dt : K) :
    toM n n (turning c s) * toM n n (transition dt) = toM n n (transition dt) * toM n n (turning c s) := by
  rw [← toM_mul, ← toM_mul, toM_eq_iff]
  intro i j hi hj
  rw [sum_turning hn c s (fun k => transition dt k j) hi, sum_transition (by omega) dt (fun k => turning c s k j) hi]
  have hδ : ∀ k, k < n → transition dt k j = tr dt (fun l => if l = j then 1 else 0) k := fun k hk => by
    rw [← sum_transition (by omega : 6 ≤ n) dt _ hk]
    simp [hj]
  have hτ : ∀ k, k < n → turning c s k j = tw c s (fun l => if l = j then 1 else 0) k := fun k hk => by
    rw [← sum_turning hn c s _ hk]
    simp [hj]
  have l1 : tw c s (fun k => transition dt k j) i = tw c s (tr dt fun l => if l = j then 1 else 0) i := by
    obtain h | ⟨i, rfl, h⟩ | ⟨h0, h1⟩ := horizontal_cases i
    · have := h.lt
      rw [tw_first h, tw_first h, hδ i hi, hδ (i + 1) (by omega)]
    · rw [tw_second h, tw_second h, hδ i (by omega), hδ (i + 1) hi]
    · rw [tw_other h0 h1, tw_other h0 h1, hδ i hi]
  have l2 : tr dt (fun k => turning c s k j) i = tr dt (tw c s fun l => if l = j then 1 else 0) i := by
    unfold tr
    dsimp only
    rw [hτ i hi]
    split
    · rw [hτ (i + 3) (by omega)]
    · rfl
  rw [l1, l2, tw_tr]

/-! ## The update -/

section Update
open Matrix
variable {n m : Type} [Fintype n] [DecidableEq n] [Fintype m] [DecidableEq m]

theorem turned_innovation (P T : Matrix n n K) (H : Matrix m n K) (R U : Matrix m m K) (hT : Tᵀ * T = 1) :
    (U * H * Tᵀ) * (T * P * Tᵀ) * (U * H * Tᵀ)ᵀ + U * R * Uᵀ = U * (H * P * Hᵀ + R) * Uᵀ := by
  simp only [Matrix.transpose_mul, Matrix.transpose_transpose, Matrix.mul_add, Matrix.add_mul]
  congr 1
  calc _ = U * H * (Tᵀ * T) * P * (Tᵀ * T) * Hᵀ * Uᵀ := by simp only [Matrix.mul_assoc]
    _ = _ := by rw [hT]; simp only [Matrix.mul_assoc, Matrix.mul_one, Matrix.one_mul]

theorem turned_gain (P T : Matrix n n K) (H : Matrix m n K) (B U : Matrix m m K) (hT : Tᵀ * T = 1) (hU : Uᵀ * U = 1) :
    (T * P * Tᵀ) * (U * H * Tᵀ)ᵀ * (U * B * Uᵀ) = T * (P * Hᵀ * B) * Uᵀ := by
  simp only [Matrix.transpose_mul, Matrix.transpose_transpose]
  calc _ = T * P * (Tᵀ * T) * Hᵀ * (Uᵀ * U) * B * Uᵀ := by simp only [Matrix.mul_assoc]
    _ = _ := by rw [hT, hU]; simp only [Matrix.mul_assoc, Matrix.mul_one, Matrix.one_mul]

theorem turned_joseph (P T : Matrix n n K) (H : Matrix m n K) (R U : Matrix m m K) (G : Matrix n m K) (hT : Tᵀ * T = 1) (hT' : T * Tᵀ = 1)
    (hU : Uᵀ * U = 1) :
    (1 - (T * G * Uᵀ) * (U * H * Tᵀ)) * (T * P * Tᵀ) * (1 - (T * G * Uᵀ) * (U * H * Tᵀ))ᵀ + (T * G * Uᵀ) * (U * R * Uᵀ) * (T * G * Uᵀ)ᵀ =
      T * ((1 - G * H) * P * (1 - G * H)ᵀ + G * R * Gᵀ) * Tᵀ := by
  have e : (1 : Matrix n n K) - (T * G * Uᵀ) * (U * H * Tᵀ) = T * (1 - G * H) * Tᵀ := by
    rw [Matrix.mul_sub, Matrix.sub_mul, Matrix.mul_one, hT']
    congr 1
    calc _ = T * G * (Uᵀ * U) * H * Tᵀ := by simp only [Matrix.mul_assoc]
      _ = _ := by rw [hU]; simp only [Matrix.mul_assoc, Matrix.one_mul]
  rw [e]
  generalize 1 - G * H = A
  simp only [Matrix.transpose_mul, Matrix.transpose_transpose, Matrix.mul_add, Matrix.add_mul]
  congr 1
  · calc _ = T * A * (Tᵀ * T) * P * (Tᵀ * T) * Aᵀ * Tᵀ := by simp only [Matrix.mul_assoc]
      _ = _ := by rw [hT]; simp only [Matrix.mul_assoc, Matrix.one_mul]
  · calc _ = T * G * (Uᵀ * U) * R * (Uᵀ * U) * Gᵀ * Tᵀ := by simp only [Matrix.mul_assoc]
      _ = _ := by rw [hU]; simp only [Matrix.mul_assoc, Matrix.one_mul]

end Update

/-! ## The body -/

variable [LinearOrder K] [IsStrictOrderedRing K] {q : Quat K}

theorem Quat.Vertical.circle (h : q.Vertical) : q.w * q.w + q.z * q.z = 1 := by
  have := h.unit; simp only [Quat.normSq, h.x, h.y] at this; linear_combination this

theorem Quat.Vertical.cos_sin (h : q.Vertical) : q.cosine * q.cosine + q.sine * q.sine = 1 := by
  have := h.circle; unfold Quat.cosine Quat.sine
  linear_combination (q.w * q.w + q.z * q.z + 1) * this

theorem Quat.Vertical.rotate (h : q.Vertical) (v : V3 K) :
    q.rotate v = ![q.cosine * v 0 - q.sine * v 1, q.sine * v 0 + q.cosine * v 1, v 2] := by
  have := h.circle
  obtain ⟨w, x, y, z⟩ := q
  have hx : x = 0 := h.x
  have hy : y = 0 := h.y
  subst hx hy
  dsimp only at this
  rw [Quat.rotate_toMat]
  funext i
  fin_cases i <;> simp [Quat.toMat, Matrix.mulVec, dotProduct, Fin.sum_univ_three, Quat.cosine, Quat.sine]
  · linear_combination (-v 0) * this
  · linear_combination (-v 1) * this

theorem Quat.Vertical.gravity (h : q.Vertical) : q.rotate (gravity : V3 K) = gravity := by
  rw [h.rotate]; simp [EkfCal.gravity]

theorem Quat.Vertical.add (h : q.Vertical) (v w : V3 K) : q.rotate (v + w) = q.rotate v + q.rotate w := by
  rw [h.rotate, h.rotate, h.rotate]; funext i; fin_cases i <;> simp <;> ring
theorem Quat.Vertical.sub (h : q.Vertical) (v w : V3 K) : q.rotate (v - w) = q.rotate v - q.rotate w := by
  rw [h.rotate, h.rotate, h.rotate]; funext i; fin_cases i <;> simp <;> ring
theorem Quat.Vertical.smul (h : q.Vertical) (t : K) (v : V3 K) : q.rotate (t • v) = t • q.rotate v := by
  rw [h.rotate, h.rotate]; funext i; fin_cases i <;> simp <;> ring

theorem Quat.Vertical.zero (h : q.Vertical) : q.rotate (0 : V3 K) = 0 := by
  rw [h.rotate]; funext i; fin_cases i <;> simp

/-- A slice of the turned vector. -/
theorem Quat.Vertical.at3 (h : q.Vertical) {v v' : Vec K} {o : Nat} (ho : Horizontal 0 o)
    (hv : ∀ i, i < 18 → v'.get i = tw q.cosine q.sine v.get i) : v'.at3 o = q.rotate (v.at3 o) := by
  have hl : o + 2 < 18 := by obtain ⟨_, _, _⟩ := ho; omega
  rw [h.rotate]
  funext i
  fin_cases i
  · show v'.get o = q.cosine * v.get o - q.sine * v.get (o + 1)
    rw [hv _ (by omega), tw_first ho]
  · show v'.get (o + 1) = q.sine * v.get o + q.cosine * v.get (o + 1)
    rw [hv _ (by omega), tw_second ho]
  · show v'.get (o + 2) = v.get (o + 2)
    rw [hv _ (by omega), tw_other]
    · rintro ⟨_, _, _⟩; obtain ⟨_, _, _⟩ := ho; omega
    · rintro ⟨_, _, _⟩; obtain ⟨_, _, _⟩ := ho; omega

theorem Quat.assoc_turned (a b c : Quat K) : (a.mul b).mul c = a.mul (b.mul c) := by
  ext <;> simp [Quat.mul] <;> ring

theorem BodyState.moved_turned (h : q.Vertical) (N : Prim K) {b : BodyState K} (hb : b.index = 0) {v v' : Vec K}
    (hv : ∀ i, i < 18 → v'.get i = tw q.cosine q.sine v.get i) :
    (b.turned q).moved N v' = (b.moved N v).turned q := by
  have hb' : (b.turned q).index = 0 := hb
  have e9 : v'.at3 9 = v.at3 9 := by
    unfold Vec.at3
    rw [hv 9 (by omega), hv 10 (by omega), hv 11 (by omega), tw_other (by decide) (by decide), tw_other (by decide) (by decide),
      tw_other (by decide) (by decide)]
  unfold BodyState.moved
  rw [hb, hb']
  unfold BodyState.turned
  simp only [Nat.zero_add]
  rw [h.at3 (o := 0) (by decide) hv, h.at3 (o := 3) (by decide) hv, h.at3 (o := 6) (by decide) hv, h.at3 (o := 12) (by decide) hv,
    h.at3 (o := 15) (by decide) hv, e9]
  simp only [h.add, Quat.moved, Quat.assoc_turned]

end EkfCal
