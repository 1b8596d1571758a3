import Verif.Lemmas.Givens
import Verif.Lemmas.Reduce
import Verif.Props.C10
import Mathlib.Tactic.NormNum
import Mathlib.Tactic.IntervalCases

/-!
# C37 — measurement compression keeps the information
-/

set_option linter.unusedSectionVars false

namespace EkfCal
open Finset Ekf
variable {K : Type} [Field K] [LinearOrder K]

/-- Stacks with fewer rows than columns are left unchanged. -/
theorem C37_fat (N : Prim K) (H : Mat K) (r : Vec K) (h : H.rows < H.cols) :
    compressMeasurements N H r = .ok (H, r) := by
  unfold compressMeasurements
  rw [if_neg (by omega)]
  rfl

theorem compress_form {N : Prim K} {H : Mat K} {r : Vec K} (hc : H.cols ≤ H.rows) (hr : H.rows ≤ r.size) :
    compressMeasurements N H r =
      .ok (⟨countRows (givensAll N H.cols (H, r)).1, H.cols, (givensAll N H.cols (H, r)).1.get⟩,
        ⟨countRows (givensAll N H.cols (H, r)).1, (givensAll N H.cols (H, r)).2.get⟩) := by
  unfold compressMeasurements
  rw [if_pos hc, guardUB_true (Or.inr (Or.inl hr))]
  rfl

theorem countRows_le (m : Mat K) : countRows m ≤ m.rows := by
  unfold countRows
  exact (List.length_filter_le _ _).trans (by simp)

section
variable [IsStrictOrderedRing K]

/-- Every stack, tall or fat: the outcome never has more rows, never claims information the stack does not contain
(`H'ᵀH' ≤ HᵀH`), and `|r'|² ≤ |r|²`. -/
theorem C37_bounded_partial (N : Prim K) (hN : N.SqrtLaw) (H : Mat K) (r : Vec K) (H' : Mat K) (r' : Vec K)
    (hr : r.size = H.rows) (h : compressMeasurements N H r = .ok (H', r')) :
    H'.rows ≤ H.rows ∧ H'.cols = H.cols ∧ r'.size = H'.rows ∧
    (∀ x, quad H.cols (gram H') x ≤ quad H.cols (gram H) x) ∧
    ∑ i ∈ range r'.size, r'.get i * r'.get i ≤ ∑ i ∈ range r.size, r.get i * r.get i := by
  by_cases hc : H.cols ≤ H.rows
  · rw [compress_form hc hr.ge] at h
    cases h
    obtain ⟨sp, -⟩ := givensAll_spec hN H.cols (H, r)
    have hle := countRows_le (givensAll N H.cols (H, r)).1
    rw [sp.rows] at hle
    refine ⟨hle, rfl, rfl, fun x => ?_, ?_⟩
    · rw [← quad_ext (fun i j _ _ => sp.gram i j)]
      have hx : quad H.cols (gram (givensAll N H.cols (H, r)).1) x = _ := quad_gram H.cols _ x
      have hx' := quad_gram H.cols ⟨countRows (givensAll N H.cols (H, r)).1, H.cols, (givensAll N H.cols (H, r)).1.get⟩ x
      rw [hx, hx', sp.rows]
      exact sum_le_sum_of_subset_of_nonneg (range_subset_range.2 hle) fun i _ _ => mul_self_nonneg _
    · have := sp.norm
      rw [sp.rows] at this
      dsimp only at this
      rw [hr, ← this]
      exact sum_le_sum_of_subset_of_nonneg (range_subset_range.2 hle) fun i _ _ => mul_self_nonneg _
  · rw [C37_fat N H r (by omega)] at h
    cases h
    exact ⟨le_rfl, rfl, hr, fun x => le_rfl, le_rfl⟩


/-- Leading part of a triangular product. -/
theorem tri_apply {R : Nat → Nat → K} {c m k : Nat} (hk : k < c) (ht : ∀ a b, b < c → b < a → a < m → R a b = 0)
    (y : Fin k → K) (t : K) (i : Nat) (hi : i < m) :
    ∑ j ∈ range c, R i j * (if h : j < k then y ⟨j, h⟩ else if j = k then t else 0) =
      (if h : i < k then (toM k k R).mulVec y ⟨i, h⟩ else 0) + if i ≤ k then R i k * t else 0 := by
  have h1 : ∑ j ∈ range c, R i j * (if h : j < k then y ⟨j, h⟩ else if j = k then t else 0) =
      ∑ j ∈ range (k + 1), R i j * (if h : j < k then y ⟨j, h⟩ else if j = k then t else 0) := by
    refine (sum_subset (range_subset_range.2 (by omega)) fun j _ hj => ?_).symm
    have hj : ¬ j < k + 1 := by simpa using hj
    rw [dif_neg (by omega), if_neg (by omega), mul_zero]
  rw [h1, sum_range_succ, dif_neg (lt_irrefl k), if_pos rfl, Finset.sum_range]
  have h2 : ∀ j : Fin k, (if h : j.1 < k then y ⟨j.1, h⟩ else if j.1 = k then t else 0) = y j := fun j => dif_pos j.2
  simp only [h2]
  congr 1
  · by_cases h : i < k
    · rw [dif_pos h]; rfl
    · rw [dif_neg h]
      refine sum_eq_zero fun j _ => ?_
      rw [ht i j (by omega) (by omega) hi, zero_mul]
  · by_cases h : i ≤ k
    · rw [if_pos h]
    · rw [if_neg h, ht i k hk (by omega) hi, zero_mul]

/-- The diagonal of a triangular factor is bounded below by the least gain of the stack. -/
theorem tri_diag {R : Nat → Nat → K} {c m : Nat} (hcm : c ≤ m) (ht : ∀ a b, b < c → b < a → a < m → R a b = 0) {g : K}
    (hg : 0 < g) (hb : ∀ x : Nat → K, g * g * ∑ j ∈ range c, x j * x j ≤
      ∑ i ∈ range m, (∑ j ∈ range c, R i j * x j) * (∑ j ∈ range c, R i j * x j)) (k : Nat) (hk : k < c) :
    g ≤ |R k k| := by
  have hdet : (toM k k R).det ≠ 0 := by
    intro h0
    obtain ⟨y, hy, hz⟩ := Matrix.exists_mulVec_eq_zero_iff.2 h0
    have h1 := hb (fun j => if h : j < k then y ⟨j, h⟩ else if j = k then 0 else 0)
    have h2 : ∑ i ∈ range m, (∑ j ∈ range c, R i j * (if h : j < k then y ⟨j, h⟩ else if j = k then 0 else 0)) *
        (∑ j ∈ range c, R i j * (if h : j < k then y ⟨j, h⟩ else if j = k then 0 else 0)) = 0 := by
      refine sum_eq_zero fun i hi => ?_
      rw [tri_apply hk ht y 0 i (mem_range.1 hi), hz]
      simp
    rw [h2] at h1
    obtain ⟨j, hj⟩ := Function.ne_iff.1 hy
    have h3 : y j * y j ≤ ∑ a ∈ range c, (if h : a < k then y ⟨a, h⟩ else if a = k then 0 else 0) *
        (if h : a < k then y ⟨a, h⟩ else if a = k then 0 else 0) := by
      refine le_trans (le_of_eq ?_) (single_le_sum (fun a _ => mul_self_nonneg _) (mem_range.2 (j.2.trans hk)))
      rw [dif_pos j.2]
    have h4 : 0 < y j * y j := lt_of_le_of_ne (mul_self_nonneg _) (Ne.symm (mul_self_ne_zero.2 hj))
    have h5 : 0 < g * g := mul_pos hg hg
    exact absurd h1 (not_le.2 (mul_pos h5 (lt_of_lt_of_le h4 h3)))
  have hu : IsUnit (toM k k R).det := IsUnit.mk0 _ hdet
  set y : Fin k → K := (toM k k R)⁻¹.mulVec (fun i : Fin k => -R i k) with hy
  have hsol : (toM k k R).mulVec y = fun i : Fin k => -R i k := by
    rw [hy, Matrix.mulVec_mulVec, Matrix.mul_nonsing_inv _ hu, Matrix.one_mulVec]
  have h1 := hb (fun j => if h : j < k then y ⟨j, h⟩ else if j = k then 1 else 0)
  have h2 : ∑ i ∈ range m, (∑ j ∈ range c, R i j * (if h : j < k then y ⟨j, h⟩ else if j = k then 1 else 0)) *
      (∑ j ∈ range c, R i j * (if h : j < k then y ⟨j, h⟩ else if j = k then 1 else 0)) = R k k * R k k := by
    rw [sum_eq_single_of_mem k (mem_range.2 (by omega))]
    · rw [tri_apply hk ht y 1 k (by omega), dif_neg (lt_irrefl k), if_pos le_rfl]; ring
    · intro i hi hne
      rw [tri_apply hk ht y 1 i (mem_range.1 hi), hsol]
      by_cases h : i < k
      · rw [dif_pos h, if_pos h.le]; ring
      · rw [dif_neg h, if_neg (by omega)]; ring
  rw [h2] at h1
  have h3 : (1 : K) ≤ ∑ a ∈ range c, (if h : a < k then y ⟨a, h⟩ else if a = k then 1 else 0) *
      (if h : a < k then y ⟨a, h⟩ else if a = k then 1 else 0) := by
    refine le_trans (le_of_eq ?_) (single_le_sum (fun a _ => mul_self_nonneg _) (mem_range.2 hk))
    rw [dif_neg (lt_irrefl k), if_pos rfl, mul_one]
  have h5 : g * g ≤ R k k * R k k := le_trans (by nlinarith [mul_pos hg hg]) h1
  have h6 : |g| ≤ |R k k| := by
    by_contra hlt
    push Not at hlt
    have := mul_self_lt_mul_self (abs_nonneg _) hlt
    rw [abs_mul_abs_self, abs_mul_abs_self] at this
    exact absurd h5 (not_le.2 this)
  rwa [abs_of_pos hg] at h6


theorem length_filter_lt (n c : Nat) (h : c ≤ n) : ((List.range n).filter fun i => decide (i < c)).length = c := by
  induction n with
  | zero => simp_all
  | succ n ih =>
    rw [List.range_succ, List.filter_append, List.length_append]
    rcases Nat.lt_or_ge n c with hn | hn
    · have : c = n + 1 := by omega
      subst this
      have hall : (List.range n).filter (fun i => decide (i < n + 1)) = List.range n :=
        List.filter_eq_self.2 fun i hi => by have := List.mem_range.1 hi; simp; omega
      rw [hall]
      simp
    · rw [ih hn]
      simp [hn]

/-- A tall stack of full column rank, every unit direction of the state being seen with a gain above the cut-off `1e-9`:
the outcome has exactly one row per state and carries the same information. -/
theorem C37_full_rank_partial (N : Prim K) (hN : N.SqrtLaw) (H : Mat K) (r : Vec K) (hc : H.cols ≤ H.rows)
    (hr : r.size = H.rows) (g : K) (hg : 1 / 10 ^ 9 < g)
    (hb : ∀ x : Nat → K, g * g * ∑ j ∈ range H.cols, x j * x j ≤ imageNorm2 H x) :
    ∃ H' r', compressMeasurements N H r = .ok (H', r') ∧ H'.rows = H.cols ∧ r'.size = H.cols ∧
      SameInformation H r H' r' := by
  obtain ⟨sp, tri⟩ := givensAll_spec hN H.cols (H, r)
  have hform := compress_form (N := N) hc hr.ge
  generalize givensAll N H.cols (H, r) = s at sp tri hform
  obtain ⟨sr, sc, _, sg, sx, _⟩ := sp
  dsimp only at sr sc sg sx
  have hg0 : 0 < g := lt_trans (by positivity) hg
  have hb' : ∀ x : Nat → K, g * g * ∑ j ∈ range H.cols, x j * x j ≤
      ∑ i ∈ range H.rows, (∑ j ∈ range H.cols, s.1.get i j * x j) * (∑ j ∈ range H.cols, s.1.get i j * x j) := by
    intro x
    refine (hb x).trans (le_of_eq ?_)
    rw [← sr, ← quad_gram H.cols s.1 x, quad_ext (fun i j _ _ => sg i j), quad_gram]
    rfl
  have hd := tri_diag hc (fun a b h1 h2 h3 => tri a b h1 h2 (by rw [sr]; exact h3)) hg0 hb'
  have hcount : countRows s.1 = H.cols := by
    unfold countRows
    rw [sr, sc]
    refine Eq.trans ?_ (length_filter_lt H.rows H.cols hc)
    congr 1
    refine List.filter_congr fun i hi => ?_
    have hi := List.mem_range.1 hi
    apply decide_eq_decide.2
    constructor
    · rintro ⟨j, hj, hlt⟩
      have hj := List.mem_range.1 hj
      by_contra hni
      rw [tri i j hj (by omega) (by rw [sr]; exact hi), abs_zero] at hlt
      exact absurd hlt (not_lt.2 (by positivity))
    · intro hic
      exact ⟨i, List.mem_range.2 hic, lt_of_lt_of_le hg (hd i hic)⟩
  rw [hcount] at hform
  refine ⟨_, _, hform, rfl, rfl, rfl, fun a b ha hb => ?_, fun a ha => ?_⟩
  · rw [← sg a b]
    unfold gram
    dsimp only
    rw [sr]
    refine sum_subset (range_subset_range.2 hc) fun i hi hi' => ?_
    rw [tri i a ha (by simp at hi'; omega) (by rw [sr]; exact mem_range.1 hi), zero_mul]
  · have := sx a
    unfold crossTerm
    dsimp only
    rw [← this, sr]
    refine sum_subset (range_subset_range.2 hc) fun i hi hi' => ?_
    rw [tri i a ha (by simp at hi'; omega) (by rw [sr]; exact mem_range.1 hi), zero_mul]

/-- The innovation covariance with positive isotropic noise has an inverse. -/
theorem innovation_inverse {P : Mat K} (hP : P.IsCov) (H : Mat K) {v : K} (hv : 0 < v) :
    ∃ B, AreInverse H.rows (innovation P.rows P.get H (isotropic H.rows v)) B := by
  have hdet : (toM H.rows H.rows (innovation P.rows P.get H (isotropic H.rows v))).det ≠ 0 := by
    intro h0
    obtain ⟨y, hy, hz⟩ := Matrix.exists_mulVec_eq_zero_iff.2 h0
    have hq := quad_toM H.rows (innovation P.rows P.get H (isotropic H.rows v))
      (fun i => if h : i < H.rows then y ⟨i, h⟩ else 0)
    have hy' : (fun i : Fin H.rows => if h : i.1 < H.rows then y ⟨i.1, h⟩ else 0) = y := by
      funext i; rw [dif_pos i.2]
    rw [hy', hz, dotProduct_zero] at hq
    have e : quad H.rows (innovation P.rows P.get H (isotropic H.rows v)) (fun i => if h : i < H.rows then y ⟨i, h⟩ else 0) =
        quad H.rows (EkfCal.congr P.rows H.get P.get) (fun i => if h : i < H.rows then y ⟨i, h⟩ else 0) +
        quad H.rows (fun i j => if i = j then v else 0) (fun i => if h : i < H.rows then y ⟨i, h⟩ else 0) := quad_add _ _ _ _
    rw [e, quad_congr, quad_diag, ← mul_sum] at hq
    have p1 := hP.psd (fun k => ∑ i ∈ range H.rows, (if h : i < H.rows then y ⟨i, h⟩ else 0) * H.get i k)
    obtain ⟨j, hj⟩ := Function.ne_iff.1 hy
    have h3 : y j * y j ≤ ∑ a ∈ range H.rows, (if h : a < H.rows then y ⟨a, h⟩ else 0) *
        (if h : a < H.rows then y ⟨a, h⟩ else 0) := by
      refine le_trans (le_of_eq ?_) (single_le_sum (fun a _ => mul_self_nonneg _) (mem_range.2 j.2))
      rw [dif_pos j.2]
    have h4 : 0 < y j * y j := lt_of_le_of_ne (mul_self_nonneg _) (Ne.symm (mul_self_ne_zero.2 hj))
    have := mul_pos hv (lt_of_lt_of_le h4 h3)
    linarith
  have hu := IsUnit.mk0 _ hdet
  refine ⟨fun i j => if h : i < H.rows ∧ j < H.rows then
    (toM H.rows H.rows (innovation P.rows P.get H (isotropic H.rows v)))⁻¹ ⟨i, h.1⟩ ⟨j, h.2⟩ else 0, ?_, ?_⟩ <;>
  · rw [← toM_eq_iff, toM_mul, toM_one]
    have : toM H.rows H.rows (fun i j => if h : i < H.rows ∧ j < H.rows then
      (toM H.rows H.rows (innovation P.rows P.get H (isotropic H.rows v)))⁻¹ ⟨i, h.1⟩ ⟨j, h.2⟩ else 0) =
      (toM H.rows H.rows (innovation P.rows P.get H (isotropic H.rows v)))⁻¹ := by
      funext i j
      exact dif_pos ⟨i.2, j.2⟩
    rw [this]
    first | exact Matrix.mul_nonsing_inv _ hu | exact Matrix.nonsing_inv_mul _ hu


/-- A vector as a one-column matrix. -/
def colOf (m : Nat) (r : Vec K) : Matrix (Fin m) Unit K := fun i _ => r.get i

theorem toM_kalmanGain (n : Nat) (P : Nat → Nat → K) (H : Mat K) (B : Nat → Nat → K) :
    toM n H.rows (kalmanGain n P H B) = toM n n P * (toM H.rows n H.get).transpose * toM H.rows H.rows B := by
  rw [← toM_transpose, ← toM_mul, ← toM_mul]
  rfl

theorem toM_innovation (n : Nat) (P : Nat → Nat → K) (H : Mat K) (v : K) :
    toM H.rows H.rows (innovation n P H (isotropic H.rows v)) =
      toM H.rows n H.get * toM n n P * (toM H.rows n H.get).transpose + v • 1 := by
  rw [← toM_congr]
  funext i j
  show EkfCal.congr n H.get P i j + (if i.1 = j.1 then v else 0) = EkfCal.congr n H.get P i j + _
  simp [Matrix.one_apply, Fin.ext_iff]

/-- Stacks with the same information give the same update: with isotropic noise of positive variance, the estimate after
the update is the same and so is the covariance. -/
theorem C37_update (N : Prim K) (hN : N.InvLaw) (e e1 e2 : Ekf K) (H : Mat K) (r : Vec K) (H' : Mat K) (r' : Vec K)
    (hu : e.useRoot = false) (hP : e.cov.IsCov) (hI : SameInformation H r H' r') (v : K) (hv : 0 < v)
    (h1 : kalmanUpdate N e H r (isotropic H.rows v) = .ok e1)
    (h2 : kalmanUpdate N e H' r' (isotropic H'.rows v) = .ok e2) :
    e1.state = e2.state ∧ e1.cov.Same e2.cov := by
  obtain ⟨B, hB⟩ := innovation_inverse hP H hv
  obtain ⟨B', hB'⟩ := innovation_inverse hP H' hv
  obtain ⟨⟨_, hc, _⟩, _⟩ := kalman_std hu h1
  obtain ⟨s1, r1, c1, g1, _⟩ := C10_update N hN e e1 H r _ hu h1 B hB
  obtain ⟨s2, r2, c2, g2, _⟩ := C10_update N hN e e2 H' r' _ hu h2 B' hB'
  set n := e.cov.rows with hn
  have m1 : toM H.rows H.rows (innovation n e.cov.get H (isotropic H.rows v)) * toM H.rows H.rows B = 1 := by
    rw [← toM_mul, ← toM_one]; exact toM_eq_iff.2 hB.1
  have m1' : toM H'.rows H'.rows (innovation n e.cov.get H' (isotropic H'.rows v)) * toM H'.rows H'.rows B' = 1 := by
    rw [← toM_mul, ← toM_one]; exact toM_eq_iff.2 hB'.1
  have m2 : toM H.rows H.rows B * toM H.rows H.rows (innovation n e.cov.get H (isotropic H.rows v)) = 1 := by
    rw [← toM_mul, ← toM_one]; exact toM_eq_iff.2 hB.2
  have m2' : toM H'.rows H'.rows B' * toM H'.rows H'.rows (innovation n e.cov.get H' (isotropic H'.rows v)) = 1 := by
    rw [← toM_mul, ← toM_one]; exact toM_eq_iff.2 hB'.2
  rw [toM_innovation] at m1 m1'
  have hgram : (toM H'.rows n H'.get).transpose * toM H'.rows n H'.get = (toM H.rows n H.get).transpose * toM H.rows n H.get := by
    rw [← toM_gram, ← toM_gram]
    exact toM_eq_iff.2 fun i j hi hj => hI.gram i j (by omega) (by omega)
  have hcross : (toM H'.rows n H'.get).transpose * colOf H'.rows r' =
      (toM H.rows n H.get).transpose * colOf H.rows r := by
    funext i _
    have := hI.cross i (by omega)
    unfold crossTerm at this
    rw [Finset.sum_range, Finset.sum_range] at this
    exact this
  have gh : toM n H'.rows (kalmanGain n e.cov.get H' B') * toM H'.rows n H'.get =
      toM n H.rows (kalmanGain n e.cov.get H B) * toM H.rows n H.get := by
    rw [toM_kalmanGain, toM_kalmanGain, (gain_info _ _ _ v hv.ne' m1' _).2, (gain_info _ _ _ v hv.ne' m1 _).2, hgram]
  have gr : toM n H'.rows (kalmanGain n e.cov.get H' B') * colOf H'.rows r' =
      toM n H.rows (kalmanGain n e.cov.get H B) * colOf H.rows r := by
    rw [toM_kalmanGain, toM_kalmanGain, (gain_info _ _ _ v hv.ne' m1' _).2, (gain_info _ _ _ v hv.ne' m1 _).2, hgram, hcross]
  constructor
  · have hcorr : ∀ i, i < n → (correction n H (kalmanGain n e.cov.get H B) r).get i =
        (correction n H' (kalmanGain n e.cov.get H' B') r').get i := by
      intro i hi
      have := congrFun (congrFun gr ⟨i, hi⟩) ()
      show ∑ a ∈ range H.rows, _ = ∑ a ∈ range H'.rows, _
      rw [Finset.sum_range, Finset.sum_range]
      exact this.symm
    rw [State.addVec_congr (v := correction n H' (kalmanGain n e.cov.get H' B') r')
      (w := correction n H (kalmanGain n e.cov.get H B) r) rfl hcorr] at s1
    rw [s1] at s2
    exact Except.ok.inj s2
  · have hsym : (toM n n e.cov.get).transpose = toM n n e.cov.get := by
      rw [← toM_transpose]
      exact toM_eq_iff.2 fun i j hi hj => hP.symm j i hj hi
    have hred : ∀ (L : Mat K) (D : Nat → Nat → K),
        toM L.rows L.rows D * toM L.rows L.rows (innovation n e.cov.get L (isotropic L.rows v)) = 1 →
        toM n n (EkfCal.congr L.rows (kalmanGain n e.cov.get L D) (innovation n e.cov.get L (isotropic L.rows v))) =
          (toM n L.rows (kalmanGain n e.cov.get L D) * toM L.rows n L.get * toM n n e.cov.get).transpose := by
      intro L D hD
      rw [toM_congr]
      have : toM n L.rows (kalmanGain n e.cov.get L D) * toM L.rows L.rows (innovation n e.cov.get L (isotropic L.rows v)) =
          toM n n e.cov.get * (toM L.rows n L.get).transpose := by
        rw [toM_kalmanGain, Matrix.mul_assoc, hD, Matrix.mul_one]
      rw [this, Matrix.transpose_mul, Matrix.transpose_mul, hsym, Matrix.mul_assoc]
    have hR1 : (isotropic H.rows v).IsCov := IsCov.diag rfl (fun _ => v) (fun _ _ => hv.le) fun i j _ _ => rfl
    have hR2 : (isotropic H'.rows v).IsCov := IsCov.diag rfl (fun _ => v) (fun _ _ => hv.le) fun i j _ _ => rfl
    refine ⟨r1.trans r2.symm, c1.trans c2.symm, fun i j hi hj => ?_⟩
    rw [r1] at hi
    rw [c1] at hj
    rw [C10_reduction N hN e e1 H r _ hu hP hR1 h1 B hB i j hi hj,
      C10_reduction N hN e e2 H' r' _ hu hP hR2 h2 B' hB' i j hi hj]
    congr 1
    have e3 : toM n n (EkfCal.congr H.rows (kalmanGain n e.cov.get H B) (innovation n e.cov.get H (isotropic H.rows v))) =
        toM n n (EkfCal.congr H'.rows (kalmanGain n e.cov.get H' B') (innovation n e.cov.get H' (isotropic H'.rows v))) := by
      rw [hred H B m2, hred H' B' m2', gh]
    exact toM_eq_iff.1 e3 i j hi hj

end

/-- A two-state stack that sees only the second state, in its second row. -/
def hiddenJac : Mat K := ⟨2, 2, fun i j => if i = 1 ∧ j = 1 then 1 else 0⟩


/-- The property fails for tall stacks in general: `hiddenJac` sees the second state with unit gain, the outcome has one
row, and that row is zero.  The cut counts the rows with an entry above `1e-9` but keeps that many rows from the top. -/
theorem C37_violated [IsStrictOrderedRing K] (N : Prim K) :
    ∃ H' r', compressMeasurements N (hiddenJac : Mat K) ⟨2, fun _ => 1⟩ = .ok (H', r') ∧
      gram (hiddenJac : Mat K) 1 1 = 1 ∧ crossTerm (hiddenJac : Mat K) ⟨2, fun _ => 1⟩ 1 = 1 ∧
      H'.rows = 1 ∧ (∀ j, j < 2 → H'.get 0 j = 0) ∧ gram H' 1 1 = 0 ∧ crossTerm H' r' 1 = 0 ∧
      ¬ SameInformation (hiddenJac : Mat K) ⟨2, fun _ => 1⟩ H' r' := by
  have hs : ∀ a b, (givensAll N 2 ((hiddenJac : Mat K), ⟨2, fun _ => 1⟩)).1.get a b = (hiddenJac : Mat K).get a b := by
    intro a b
    have hrows : (hiddenJac : Mat K).rows = 2 := rfl
    simp only [givensAll, hrows, Nat.reduceSub, givensColumn, givensStep]
    simp only [makeGivens, hiddenJac]
    simp
    by_cases h0 : a = 0
    · subst h0; simp
    · rw [if_neg h0]
      split
      · next h => subst h; simp
      · rfl
  have hr : (givensAll N 2 ((hiddenJac : Mat K), ⟨2, fun _ => 1⟩)).1.rows = 2 := rfl
  have hcl : (givensAll N 2 ((hiddenJac : Mat K), ⟨2, fun _ => 1⟩)).1.cols = 2 := rfl
  have hc : countRows (givensAll N 2 ((hiddenJac : Mat K), ⟨2, fun _ => 1⟩)).1 = 1 := by
    have hlt : (10 ^ 9 : K)⁻¹ < 1 := inv_lt_one_of_one_lt₀ (by norm_num)
    unfold countRows
    rw [hr, hcl]
    simp only [hs, List.range_succ, List.range_zero, List.nil_append]
    simp [hiddenJac, List.filter, hlt]
  have hform := compress_form (N := N) (H := (hiddenJac : Mat K)) (r := ⟨2, fun _ => 1⟩) (le_refl 2) (le_refl 2)
  have hform' : compressMeasurements N (hiddenJac : Mat K) ⟨2, fun _ => 1⟩ =
      .ok (⟨1, 2, (givensAll N 2 ((hiddenJac : Mat K), ⟨2, fun _ => 1⟩)).1.get⟩,
        ⟨1, (givensAll N 2 ((hiddenJac : Mat K), ⟨2, fun _ => 1⟩)).2.get⟩) := by
    rw [hform]
    show Except.ok (_, _) = _
    congr 1
    congr 1
    · exact congrArg (fun n => (⟨n, 2, _⟩ : Mat K)) hc
    · exact congrArg (fun n => (⟨n, _⟩ : Vec K)) hc
  have g1 : gram (hiddenJac : Mat K) 1 1 = 1 := by
    show ∑ k ∈ range 2, (hiddenJac : Mat K).get k 1 * (hiddenJac : Mat K).get k 1 = 1
    simp [sum_range_succ, hiddenJac]
  have x1 : crossTerm (hiddenJac : Mat K) ⟨2, fun _ => 1⟩ 1 = 1 := by
    show ∑ k ∈ range 2, (hiddenJac : Mat K).get k 1 * 1 = 1
    simp [sum_range_succ, hiddenJac]
  have z : ∀ j, (givensAll N 2 ((hiddenJac : Mat K), ⟨2, fun _ => 1⟩)).1.get 0 j = 0 := by
    intro j; rw [hs]; simp [hiddenJac]
  have g0 : gram ⟨1, 2, (givensAll N 2 ((hiddenJac : Mat K), ⟨2, fun _ => 1⟩)).1.get⟩ 1 1 = 0 := by
    unfold gram
    simp [z]
  refine ⟨_, _, hform', g1, x1, rfl, fun j _ => z j, g0, ?_, fun h => ?_⟩
  · unfold crossTerm
    simp [z]
  · have := h.gram 1 1 (by show 1 < 2; omega) (by show 1 < 2; omega)
    rw [g0, g1] at this
    exact zero_ne_one this

/-- A stack that meets the hypotheses of `C37_full_rank_partial`: three rows, two states, every direction seen with gain at
least one. -/
example : ∃ H : Mat ℝ, H.cols = 2 ∧ H.rows = 3 ∧ realPrim.SqrtLaw ∧
    ∀ x : Nat → ℝ, 1 * 1 * ∑ j ∈ range H.cols, x j * x j ≤ imageNorm2 H x := by
  refine ⟨⟨3, 2, fun i j => if i = j then 1 else if i = 2 then 1 else 0⟩, rfl, rfl, realPrim_sqrt, fun x => ?_⟩
  show 1 * 1 * ∑ j ∈ range 2, x j * x j ≤ ∑ i ∈ range 3, (∑ j ∈ range 2, (if i = j then 1 else if i = 2 then 1 else 0) * x j) *
    (∑ j ∈ range 2, (if i = j then 1 else if i = 2 then 1 else 0) * x j)
  simp [sum_range_succ]
  nlinarith [mul_self_nonneg (x 0 + x 1)]

/-- Two stacks with the same information, one row and two rows, both processed by a filter with a calibrated GPS antenna
and a lawful inverse; the estimate moves. -/
example : ∃ (e e1 e2 : Ekf ℚ) (H H' : Mat ℚ) (r r' : Vec ℚ), Samples.adjPrim.InvLaw ∧ e.useRoot = false ∧ H.rows = 1 ∧ H'.rows = 2 ∧
    Ekf.run Samples.adjPrim (Ekf.init Samples.adjPrim (Samples.params .none false))
      [.registerGPS 7 Samples.gps (Samples.cov 3)] = .ok e ∧
    SameInformation H r H' r' ∧ kalmanUpdate Samples.adjPrim e H r (isotropic H.rows (1 / 100)) = .ok e1 ∧
    kalmanUpdate Samples.adjPrim e H' r' (isotropic H'.rows (1 / 100)) = .ok e2 ∧ e1.state.body.pos 0 = 1 / 2 := by
  let H : Mat ℚ := ⟨1, 21, fun _ j => if j = 0 then 1 else 0⟩
  let H' : Mat ℚ := ⟨2, 21, fun i j => if j = 0 then (if i = 0 then 3 / 5 else 4 / 5) else 0⟩
  let r : Vec ℚ := ⟨1, fun _ => 1⟩
  let r' : Vec ℚ := ⟨2, fun i => if i = 0 then 3 / 5 else 4 / 5⟩
  let c : Res (Ekf ℚ × Ekf ℚ × Ekf ℚ) := do
    let e ← Ekf.run Samples.adjPrim (Ekf.init Samples.adjPrim (Samples.params .none false))
      [.registerGPS 7 Samples.gps (Samples.cov 3)]
    let e1 ← kalmanUpdate Samples.adjPrim e H r (isotropic H.rows (1 / 100))
    let e2 ← kalmanUpdate Samples.adjPrim e H' r' (isotropic H'.rows (1 / 100))
    pure (e, e1, e2)
  obtain ⟨⟨e, e1, e2⟩, hc, hr, hp⟩ := Samples.ok_of_check (r := c)
    (P := fun x => x.1.useRoot = false ∧ x.2.1.state.body.pos 0 = 1 / 2) (by decide +kernel)
  simp only [c, bind_ok_iff, pure_res, Except.ok.injEq, Prod.mk.injEq] at hc
  obtain ⟨_, g1, _, g2, _, g3, rfl, rfl, rfl⟩ := hc
  refine ⟨_, _, _, H, H', r, r', Samples.adjPrim_inv, hr, rfl, rfl, g1, ⟨rfl, fun a b _ _ => ?_, fun a _ => ?_⟩, g2, g3, hp⟩
  · show ∑ k ∈ range 2, (if a = 0 then (if k = 0 then (3 : ℚ) / 5 else 4 / 5) else 0) *
      (if b = 0 then (if k = 0 then (3 : ℚ) / 5 else 4 / 5) else 0) =
      ∑ k ∈ range 1, (if a = 0 then 1 else 0) * (if b = 0 then 1 else 0)
    by_cases ha : a = 0 <;> by_cases hb : b = 0 <;> simp [sum_range_succ, ha, hb] <;> norm_num
  · show ∑ k ∈ range 2, (if a = 0 then (if k = 0 then (3 : ℚ) / 5 else 4 / 5) else 0) * (if k = 0 then 3 / 5 else 4 / 5) =
      ∑ k ∈ range 1, (if a = 0 then 1 else 0) * 1
    by_cases ha : a = 0 <;> simp [sum_range_succ, ha] <;> norm_num

end EkfCal
