import Verif.Model.Gps
import Verif.Lemmas.Mat
import Mathlib.Tactic.Linarith
import Mathlib.Tactic.LinearCombination
import Mathlib.Tactic.FieldSimp
import Mathlib.Tactic.FinCases
import Mathlib.Tactic.NormNum
import Mathlib.Tactic.Positivity

/-! # Geodetic coordinates from earth-fixed ones -/

namespace EkfCal

/-- On the equatorial plane, outside the evolute, `ecef_to_lla` is exact whatever the eccentricity. -/
theorem ecefToLlaOf_equator {A E w : ℝ} (hA : 0 < A) (hE : 0 < E) (hw : A * E ^ 2 < w) (x : V3 ℝ)
    (hx : x 0 * x 0 + x 1 * x 1 = w * w) (hz : x 2 = 0) :
    ecefToLlaOf A E x = .ok ![0, atan2 (x 1) (x 0) / (Real.pi / 180), w - A] := by
  have hw0 : 0 < w := lt_trans (by positivity) hw
  set q := w / A with hq
  have hq0 : 0 < q := by positivity
  have hqE : E ^ 2 < q := by rw [hq, lt_div_iff₀ hA]; linarith
  have hm : w * w / A / A = q ^ 2 := by rw [hq]; field_simp
  have hE4 : E ^ 4 < q ^ 2 := by nlinarith [sq_nonneg E]
  have hp : 0 < (q ^ 2 - E ^ 4) / 6 := by linarith
  set p := (q ^ 2 - E ^ 4) / 6 with hpd
  have hC : (2 * p * p * p) ^ ((1 : ℝ) / 3) * (1 / 2 ^ ((1 : ℝ) / 3)) = p := by
    have : 2 * p * p * p = 2 * p ^ (3 : ℕ) := by ring
    rw [this, Real.mul_rpow (by norm_num) (by positivity), ← Real.rpow_natCast p 3, ← Real.rpow_mul hp.le]
    norm_num
    field_simp
  have hb : (-(E ^ 4 / 4) - 1 / 2 * q ^ 2) / 3 - p - p * p / p = E ^ 4 / 4 - q ^ 2 / 2 := by
    rw [mul_div_assoc, div_self hp.ne', hpd]; ring
  unfold ecefToLlaOf
  simp only [hx, hz, hm, mul_zero, zero_mul, add_zero, zero_div, Real.sqrt_zero]
  rw [← hpd]
  simp only [guardUB_true (le_refl (0 : ℝ)), ok_bind]
  rw [guardUB_true (by positivity : (0 : ℝ) < 2 * p * p * p)]
  simp only [ok_bind, hC, hb]
  have ht1 : (E ^ 4 / 4 - q ^ 2 / 2) * (E ^ 4 / 4 - q ^ 2 / 2) - E ^ 4 / 4 * (E ^ 4 / 4 - q ^ 2) = (q ^ 2 / 2) ^ 2 := by ring
  rw [ht1, guardUB_true (by positivity), Real.sqrt_sq (by positivity)]
  have ht3 : q ^ 2 / 2 - 1 / 2 * (E ^ 4 / 4 - q ^ 2 / 2 + (-(E ^ 4 / 4) - 1 / 2 * q ^ 2)) = q ^ 2 := by ring
  have ht5 : |1 / 2 * (E ^ 4 / 4 - q ^ 2 / 2 - (-(E ^ 4 / 4) - 1 / 2 * q ^ 2))| = (E ^ 2 / 2) ^ 2 := by
    rw [abs_of_nonneg] <;> [ring; (ring_nf; positivity)]
  simp only [ok_bind]
  rw [ht3, guardUB_true (by positivity), Real.sqrt_sq hq0.le, ht5, Real.sqrt_sq (by positivity)]
  simp only [ok_bind]
  rw [if_neg (not_lt.2 (by positivity))]
  have hF : (q + -(E ^ 2 / 2)) * (q + -(E ^ 2 / 2)) * ((q + -(E ^ 2 / 2)) * (q + -(E ^ 2 / 2))) +
      2 * (-(E ^ 4 / 4) - 1 / 2 * q ^ 2) * ((q + -(E ^ 2 / 2)) * (q + -(E ^ 2 / 2))) +
      2 * (E ^ 2 / 2 * (q ^ 2 - 0)) * (q + -(E ^ 2 / 2)) + E ^ 4 / 4 * (E ^ 4 / 4 - q ^ 2) = 0 := by ring
  have hdF : 4 * ((q + -(E ^ 2 / 2)) * (q + -(E ^ 2 / 2)) * (q + -(E ^ 2 / 2))) +
      4 * (-(E ^ 4 / 4) - 1 / 2 * q ^ 2) * (q + -(E ^ 2 / 2)) + 2 * (E ^ 2 / 2 * (q ^ 2 - 0)) =
      2 * q * (q - E ^ 2) ^ 2 := by ring
  rw [hF, hdF, guardUB_true (by
    have : 0 < q - E ^ 2 := by linarith
    positivity)]
  have hv : 0 < q - E ^ 2 := by linarith
  simp only [ok_bind, neg_zero, zero_div, add_zero]
  have hu' : q + -(E ^ 2 / 2) + E ^ 2 / 2 = q := by ring
  have hv' : q + -(E ^ 2 / 2) - E ^ 2 / 2 = q - E ^ 2 := by ring
  rw [hu', hv', guardUB_true (by positivity)]
  simp only [ok_bind, Real.sqrt_mul_self hw0.le, sub_zero, mul_zero, add_zero]
  have hlat : atan2 0 (w * (q - E ^ 2)) = 0 := by
    unfold atan2
    exact Complex.arg_ofReal_of_nonneg (by positivity)
  have hdw : w - w * (q - E ^ 2) * (1 / (q * (q - E ^ 2))) = w - A := by
    have key : ∀ q : ℝ, q ≠ 0 → q - E ^ 2 ≠ 0 → q * A - q * A * (q - E ^ 2) * (1 / (q * (q - E ^ 2))) = q * A - A := by
      intro q h1 h2
      field_simp
    have := key q hq0.ne' hv.ne'
    rwa [show q * A = w by rw [hq]; field_simp] at this
  rw [hlat, hdw, Real.sqrt_mul_self_eq_abs, zero_div]
  have halt : (if q < 1 then -|w - A| else |w - A|) = w - A := by
    by_cases h : q < 1
    · rw [if_pos h, abs_of_neg, neg_neg]
      rw [hq, div_lt_one hA] at h; linarith
    · rw [if_neg h, abs_of_nonneg]
      rw [hq, div_lt_one hA] at h; linarith
  rw [halt]
  rfl

/-- Cardano's root: `C + p²/C` solves `y³ - 3 p² y = H + G`, and is at least `2 p`. -/
theorem cardano {p G : ℝ} (hp : 0 < p) (hG : 0 ≤ G) :
    let H := 2 * p * p * p + G
    let r := H + G + 2 * √(H * G)
    let C := r ^ ((1 : ℝ) / 3) * (1 / 2 ^ ((1 : ℝ) / 3))
    0 ≤ H * G ∧ 0 < r ∧ 0 < C ∧ (C + p * p / C) ^ 3 = H + G + 3 * p ^ 2 * (C + p * p / C) ∧ 2 * p ≤ C + p * p / C := by
  intro H r C
  have hp3 : 0 < 2 * p * p * p := by positivity
  have hH : 0 < H := by show 0 < 2 * p * p * p + G; linarith
  have hHG : 0 ≤ H * G := by positivity
  have hr : 0 < r := by
    have := Real.sqrt_nonneg (H * G)
    show 0 < H + G + 2 * √(H * G)
    linarith
  have hC : 0 < C := by
    have h1 : 0 < r ^ ((1 : ℝ) / 3) := Real.rpow_pos_of_pos hr _
    have h2 : (0 : ℝ) < 2 ^ ((1 : ℝ) / 3) := Real.rpow_pos_of_pos (by norm_num) _
    show 0 < r ^ ((1 : ℝ) / 3) * (1 / 2 ^ ((1 : ℝ) / 3))
    positivity
  have cube : ∀ x : ℝ, 0 ≤ x → (x ^ ((1 : ℝ) / 3)) ^ 3 = x := fun x hx => by
    rw [← Real.rpow_natCast (x ^ ((1 : ℝ) / 3)) 3, ← Real.rpow_mul hx]
    norm_num
  have hC3 : C ^ 3 = r / 2 := by
    show (r ^ ((1 : ℝ) / 3) * (1 / 2 ^ ((1 : ℝ) / 3))) ^ 3 = r / 2
    rw [mul_pow, div_pow, cube r hr.le, cube 2 (by norm_num)]
    ring
  obtain ⟨S, hS⟩ : ∃ S, S = √H := ⟨_, rfl⟩
  obtain ⟨T, hT⟩ : ∃ T, T = √G := ⟨_, rfl⟩
  have hS2 : S * S = H := by rw [hS]; exact Real.mul_self_sqrt hH.le
  have hT2 : T * T = G := by rw [hT]; exact Real.mul_self_sqrt hG
  have hST : √(H * G) = S * T := by rw [hS, hT, Real.sqrt_mul hH.le]
  have hr' : r = (S + T) ^ 2 := by
    show H + G + 2 * √(H * G) = _
    rw [hST, ← hS2, ← hT2]; ring
  have hD3 : (p * p / C) ^ 3 = (S - T) ^ 2 / 2 := by
    rw [div_pow, hC3]
    have hne : r / 2 ≠ 0 := by positivity
    rw [div_eq_iff hne, hr']
    have h2p : 2 * p * p * p = S * S - T * T := by rw [hS2, hT2]; show _ = 2 * p * p * p + G - G; ring
    linear_combination (p * p * p / 2 + (S * S - T * T) / 4) * h2p
  have hCD : C * (p * p / C) = p ^ 2 := by field_simp
  refine ⟨hHG, hr, hC, ?_, ?_⟩
  · have e : C ^ 3 + (p * p / C) ^ 3 = H + G := by rw [hC3, hD3, hr', ← hS2, ← hT2]; ring
    generalize p * p / C = D at *
    linear_combination e + 3 * (C + D) * hCD
  · have hD : 0 < p * p / C := by positivity
    generalize p * p / C = D at *
    nlinarith [sq_nonneg (C - D)]

/-- Olsen's numbers in terms of `p` and Cardano's root. -/
theorem olsen_numbers {l m n p y i β k : ℝ} (hs : m + n = 6 * p + 4 * l ^ 2) (hi : i = -l ^ 2 - (m + n) / 2) (hβ : β = i / 3 - y)
    (hk : k = l ^ 2 * (l ^ 2 - (m + n))) (hy : y ^ 3 = 2 * p ^ 3 + 2 * (m * n * l ^ 2) + 3 * p ^ 2 * y) :
    i = -3 * l ^ 2 - 3 * p ∧ k = -3 * l ^ 4 - 6 * p * l ^ 2 ∧ β = -l ^ 2 - p - y ∧
    (2 * l * (m - n)) ^ 2 = 8 * (β - i) * (β * β - k) := by
  have hi' : i = -3 * l ^ 2 - 3 * p := by rw [hi, hs]; ring
  have hk' : k = -3 * l ^ 4 - 6 * p * l ^ 2 := by rw [hk, hs]; ring
  have hβ' : β = -l ^ 2 - p - y := by rw [hβ, hi']; ring
  refine ⟨hi', hk', hβ', ?_⟩
  have e : (m - n) ^ 2 = (6 * p + 4 * l ^ 2) ^ 2 - 4 * (m * n) := by rw [← hs]; ring
  rw [mul_pow, e, hβ', hi', hk']
  linear_combination 8 * hy

/-- Ferrari's factorisation of the quartic. -/
theorem ferrari_factor {t i β k g b t2 : ℝ} (e : t ^ 4 + 2 * i * t ^ 2 + g * t + k = 0) (hg : g = -4 * b * t2) (hb : b * b = 1 / 2 * (β - i))
    (ht : t2 * t2 = β * β - k) :
    ((t - b) ^ 2 - (t2 - 1 / 2 * (β + i))) * ((t + b) ^ 2 + (t2 + 1 / 2 * (β + i))) = 0 := by
  have hi : i = β - 2 * (b * b) := by linarith
  have hk : k = β * β - t2 * t2 := by linarith
  subst hi hk hg
  linear_combination e

/-- The size and sign of the correction `b`. -/
theorem ferrari_shift {g c t2 β i k m n l : ℝ} (hl : 0 < l) (hg : g = 2 * l * (m - n)) (hg2 : g ^ 2 = 8 * (β - i) * (β * β - k)) (hc0 : 0 ≤ c) (ht20 : 0 < t2)
    (hcs : c * c = 1 / 2 * (β - i)) (ht2s : t2 * t2 = β * β - k) : g = -4 * (if m < n then c else -c) * t2 := by
  have hgc : (4 * c * t2) ^ 2 = g ^ 2 := by rw [hg2]; linear_combination 16 * t2 * t2 * hcs + 8 * (β - i) * ht2s
  have habs : 4 * c * t2 = |g| := by
    rw [← abs_of_nonneg (show 0 ≤ 4 * c * t2 by positivity)]
    exact sq_eq_sq_iff_abs_eq_abs _ _ |>.1 hgc
  split
  · rename_i hlt
    have : g < 0 := by rw [hg]; exact mul_neg_of_pos_of_neg (by linarith) (by linarith)
    rw [abs_of_neg this] at habs; linarith
  · rename_i hge
    have : 0 ≤ g := by rw [hg]; exact mul_nonneg (by linarith) (by linarith [not_lt.1 hge])
    rw [abs_of_nonneg this] at habs; linarith

/-- The sum of the normalised coordinates is large. -/
theorem olsen_sum {l m n u : ℝ} (hl : 0 < l) (hu : 4 * l < u) (hm : 0 ≤ m)
    (h : m * (u - 2 * l) ^ 2 + n * u ^ 2 = u ^ 2 * (u - 2 * l) ^ 2) : 4 * l ^ 2 < m + n := by
  have h1 : (u - 2 * l) ^ 2 * u ^ 2 ≤ (m + n) * u ^ 2 := by
    nlinarith [mul_nonneg hm (show 0 ≤ u ^ 2 - (u - 2 * l) ^ 2 by nlinarith)]
  have h2 : (u - 2 * l) ^ 2 ≤ m + n := le_of_mul_le_mul_right h1 (pow_pos (by linarith) 2)
  nlinarith

/-- Ferrari's root of Olsen's quartic is the true one. -/
theorem olsen_root {l m n u p y i β k : ℝ} (hl : 0 < l) (hu : 4 * l < u) (hm : 0 ≤ m) 
    (h : m * (u - 2 * l) ^ 2 + n * u ^ 2 = u ^ 2 * (u - 2 * l) ^ 2) (hs : m + n = 6 * p + 4 * l ^ 2)
    (hi : i = -l ^ 2 - (m + n) / 2) (hβ : β = i / 3 - y) (hk : k = l ^ 2 * (l ^ 2 - (m + n)))
    (hy : y ^ 3 = 2 * p ^ 3 + 2 * (m * n * l ^ 2) + 3 * p ^ 2 * y) (hy2 : 2 * p ≤ y) :
    0 ≤ β * β - k ∧ 0 ≤ √(β * β - k) - 1 / 2 * (β + i) ∧
    √(√(β * β - k) - 1 / 2 * (β + i)) + (if m < n then √|1 / 2 * (β - i)| else -√|1 / 2 * (β - i)|) = u - l ∧
    (u - l) ^ 4 + 2 * i * (u - l) ^ 2 + 2 * l * (m - n) * (u - l) + k = 0 := by
  have hmn := olsen_sum hl hu hm h
  have hp0 : 0 < p := by linarith
  have e2 : (u - l) ^ 4 + 2 * i * (u - l) ^ 2 + 2 * l * (m - n) * (u - l) + k = 0 := by
    rw [hi, hk]
    linear_combination -h
  obtain ⟨hi, hk, hβ, hg2⟩ := olsen_numbers hs hi hβ hk hy
  have hk0 : k < 0 := by
    rw [hk]
    have h4 := pow_pos hl 4
    have h2 := mul_pos hp0 (pow_pos hl 2)
    linarith
  obtain ⟨g, hg⟩ : ∃ g, g = 2 * l * (m - n) := ⟨_, rfl⟩
  rw [← hg] at hg2 e2
  have ht1 : 0 < β * β - k := by linarith [mul_self_nonneg β]
  have hbi : 0 ≤ β - i := by
    by_contra hc
    have := mul_pos_of_neg_of_neg (not_le.1 hc) (neg_lt_zero.2 ht1)
    linarith [sq_nonneg g]
  obtain ⟨t2, ht2⟩ : ∃ t2, t2 = √(β * β - k) := ⟨_, rfl⟩
  have ht20 : 0 < t2 := by rw [ht2]; exact Real.sqrt_pos.2 ht1
  have ht2s : t2 * t2 = β * β - k := by rw [ht2]; exact Real.mul_self_sqrt ht1.le
  obtain ⟨c, hc⟩ : ∃ c, c = √|1 / 2 * (β - i)| := ⟨_, rfl⟩
  have hc0 : 0 ≤ c := by rw [hc]; exact Real.sqrt_nonneg _
  have hcs : c * c = 1 / 2 * (β - i) := by
    rw [hc, Real.mul_self_sqrt (abs_nonneg _), abs_of_nonneg (by linarith)]
  have hcl : c ≤ l := by
    have : c * c ≤ l * l := by rw [hcs, hβ, hi]; linarith [pow_two l]
    exact (mul_self_le_mul_self_iff hc0 hl.le).2 this
  have hgb := ferrari_shift hl hg hg2 hc0 ht20 hcs ht2s
  obtain ⟨b, hb⟩ : ∃ b, b = if m < n then c else -c := ⟨_, rfl⟩
  have hbs : b * b = 1 / 2 * (β - i) := by
    rw [hb]; split <;> [exact hcs; (rw [neg_mul_neg]; exact hcs)]
  have hbl : -l ≤ b ∧ b ≤ l := by rw [hb]; split <;> constructor <;> linarith
  rw [← hb] at hgb
  -- the second factor has no root there
  have hd : 0 ≤ t2 + 1 / 2 * (β + i) := by
    have : (1 / 2 * (β + i)) ^ 2 ≤ t2 ^ 2 := by
      have hyy : (2 * p) ^ 2 ≤ y ^ 2 := pow_le_pow_left₀ (by linarith) hy2 2
      rw [pow_two t2, ht2s, hβ, hi, hk]
      linear_combination (3 / 4) * hyy
    have := abs_le_of_sq_le_sq this ht20.le
    linarith [neg_abs_le (1 / 2 * (β + i))]
  have hF := ferrari_factor e2 hgb hbs ht2s
  have hS : 0 < (u - l + b) ^ 2 + (t2 + 1 / 2 * (β + i)) := by
    have : 0 < u - l + b := by linarith [hbl.1]
    have := pow_pos this 2
    linarith
  have hR : (u - l - b) ^ 2 = t2 - 1 / 2 * (β + i) := by
    rcases mul_eq_zero.1 hF with h0 | h0
    · linarith
    · exact absurd h0 hS.ne'
  refine ⟨ht1.le, ?_, ?_, by rw [← hg]; exact e2⟩
  · rw [← ht2, ← hR]; positivity
  · rw [← ht2, ← hc, ← hR, ← hb, Real.sqrt_sq (by linarith [hbl.2])]
    ring

/-- `ecef_to_lla` at the point at height `(u - 1) N` over the foot with normal `(c, s)`. -/
theorem ecefToLlaOf_foot {A E N u c s : ℝ} (hA : 0 < A) (hE : 0 < E) (hE1 : E < 1) (hc : 0 ≤ c) (hcs : c ^ 2 + s ^ 2 = 1) (hN : 0 < N)
    (hNA : N ^ 2 * (1 - E ^ 2 * s ^ 2) = A ^ 2) (hu : 2 * E ^ 2 < u) (x : V3 ℝ) (hx : x 0 * x 0 + x 1 * x 1 = (N * u * c) * (N * u * c))
    (hz : x 2 = N * (u - E ^ 2) * s) :
    ecefToLlaOf A E x = .ok ![atan2 s c / (Real.pi / 180), atan2 (x 1) (x 0) / (Real.pi / 180), (u - 1) * N] := by
  have hE2 : 0 < E ^ 2 := pow_pos hE 2
  have hE21 : E ^ 2 < 1 := by nlinarith
  have hu0 : 0 < u := by linarith
  have hv0 : 0 < u - E ^ 2 := by linarith
  have hA2 : A ^ 2 ≠ 0 := by positivity
  obtain ⟨a, ha⟩ : ∃ a, a = N ^ 2 * c ^ 2 / A ^ 2 := ⟨_, rfl⟩
  obtain ⟨b, hb⟩ : ∃ b, b = N ^ 2 * s ^ 2 * (1 - E ^ 2) / A ^ 2 := ⟨_, rfl⟩
  have hab : a + b = 1 := by
    rw [ha, hb, ← add_div, div_eq_one_iff_eq hA2, ← hNA]
    linear_combination N ^ 2 * hcs
  have ha0 : 0 ≤ a := by rw [ha]; positivity
  have hb0 : 0 ≤ b := by rw [hb]; exact div_nonneg (mul_nonneg (by positivity) (by linarith)) (by positivity)
  have hm : (N * u * c) * (N * u * c) / A / A = u ^ 2 * a := by rw [ha]; field_simp
  have hn : N * (u - E ^ 2) * s * (N * (u - E ^ 2) * s) * ((1 - E ^ 2) / A ^ 2) = (u - E ^ 2) ^ 2 * b := by rw [hb]; field_simp
  obtain ⟨m, hm'⟩ : ∃ m, m = u ^ 2 * a := ⟨_, rfl⟩
  obtain ⟨n, hn'⟩ : ∃ n, n = (u - E ^ 2) ^ 2 * b := ⟨_, rfl⟩
  have hm0 : 0 ≤ m := by rw [hm']; positivity
  have hn0 : 0 ≤ n := by rw [hn']; positivity
  have hq : m * (u - 2 * (E ^ 2 / 2)) ^ 2 + n * u ^ 2 = u ^ 2 * (u - 2 * (E ^ 2 / 2)) ^ 2 := by
    rw [hm', hn']; linear_combination (u ^ 2 * (u - E ^ 2) ^ 2) * hab
  have hmn := olsen_sum (l := E ^ 2 / 2) (by linarith) (by linarith) hm0 hq
  obtain ⟨p, hp⟩ : ∃ p, p = (m + n - E ^ 4) / 6 := ⟨_, rfl⟩
  have hp0 : 0 < p := by rw [hp]; nlinarith
  have hG : 0 ≤ m * n * E ^ 4 / 4 := by positivity
  have key := cardano hp0 hG
  obtain ⟨G, hGd⟩ : ∃ G, G = m * n * E ^ 4 / 4 := ⟨_, rfl⟩
  rw [← hGd] at key
  obtain ⟨H, hHd⟩ : ∃ H, H = 2 * p * p * p + G := ⟨_, rfl⟩
  simp only [← hHd] at key
  obtain ⟨hHG, hr, hC, hy, hy2⟩ := key
  obtain ⟨C, hCd⟩ : ∃ C, C = (H + G + 2 * √(H * G)) ^ ((1 : ℝ) / 3) * (1 / 2 ^ ((1 : ℝ) / 3)) := ⟨_, rfl⟩
  rw [← hCd] at hC hy hy2
  obtain ⟨i, hi⟩ : ∃ i, i = -(E ^ 4 / 4) - 1 / 2 * (m + n) := ⟨_, rfl⟩
  obtain ⟨k, hk⟩ : ∃ k, k = E ^ 4 / 4 * (E ^ 4 / 4 - (m + n)) := ⟨_, rfl⟩
  obtain ⟨β, hβ⟩ : ∃ β, β = i / 3 - C - p * p / C := ⟨_, rfl⟩
  obtain ⟨ht1, ht3, ht, hF⟩ := olsen_root (l := E ^ 2 / 2) (p := p) (y := C + p * p / C) (i := i) (β := β) (k := k) (by linarith) (by linarith) hm0 hq
    (by rw [hp]; ring) (by rw [hi]; ring) (by rw [hβ]; ring) (by rw [hk]; ring) (by rw [hy, hHd, hGd]; ring) hy2
  unfold ecefToLlaOf
  simp only [hx, hz, hm, hn, ← hm', ← hn', ← hp, ← hGd, ← hHd, ← hCd, ← hi, ← hk, ← hβ]
  rw [guardUB_true hHG, ok_bind, guardUB_true hr, ok_bind, guardUB_true ht1, ok_bind, guardUB_true ht3, ok_bind, ht]
  obtain ⟨T, hT⟩ : ∃ T, T = u - E ^ 2 / 2 := ⟨_, rfl⟩
  rw [← hT] at hF ⊢
  have e1 : T * T * (T * T) + 2 * i * (T * T) + 2 * (E ^ 2 / 2 * (m - n)) * T + k = 0 := by rw [← hF]; ring
  have e2 : 4 * (T * T * T) + 4 * i * T + 2 * (E ^ 2 / 2 * (m - n)) = 2 * u * (u - E ^ 2) * (u * b + (u - E ^ 2) * a) := by
    have hb' : b = 1 - a := by linarith
    rw [hT, hi, hm', hn', hb']; ring
  have e3 : 0 < 2 * u * (u - E ^ 2) * (u * b + (u - E ^ 2) * a) := by
    have : 0 < u * b + (u - E ^ 2) * a := by
      have h1 := mul_nonneg hE2.le hb0
      have : u * b + (u - E ^ 2) * a = (u - E ^ 2) + E ^ 2 * b := by
        have hb' : b = 1 - a := by linarith
        rw [hb']; ring
      linarith
    positivity
  rw [e1, guardUB_true (by rw [e2]; exact e3.ne'), ok_bind, neg_zero, zero_div, add_zero]
  have e4 : T + E ^ 2 / 2 = u := by rw [hT]; ring
  have e5 : T - E ^ 2 / 2 = u - E ^ 2 := by rw [hT]; ring
  have huv : u * (u - E ^ 2) ≠ 0 := mul_ne_zero hu0.ne' hv0.ne'
  rw [e4, e5, guardUB_true huv, ok_bind, Real.sqrt_mul_self (by positivity)]
  have e6 : N * u * c - N * u * c * (u - E ^ 2) * (1 / (u * (u - E ^ 2))) = N * c * (u - 1) := by
    generalize u - E ^ 2 = v at hv0 huv
    field_simp
  have e7 : N * (u - E ^ 2) * s - N * (u - E ^ 2) * s * u * (1 - E ^ 2) * (1 / (u * (u - E ^ 2))) = N * s * (u - 1) := by
    have : u = (u - E ^ 2) + E ^ 2 := by ring
    generalize u - E ^ 2 = v at hv0 huv this
    field_simp
    rw [this]; ring
  have e8 : √(N * c * (u - 1) * (N * c * (u - 1)) + N * s * (u - 1) * (N * s * (u - 1))) = |(u - 1) * N| := by
    rw [← Real.sqrt_sq_eq_abs]
    congr 1
    linear_combination ((u - 1) * N) ^ 2 * hcs
  have e9 : (if u < 1 then -|(u - 1) * N| else |(u - 1) * N|) = (u - 1) * N := by
    rw [abs_mul, abs_of_pos hN]
    by_cases h : u < 1
    · rw [if_pos h, abs_of_neg (by linarith)]; ring
    · rw [if_neg h, abs_of_nonneg (by linarith [not_lt.1 h])]
  have e10 : atan2 (N * (u - E ^ 2) * s * u) (N * u * c * (u - E ^ 2)) = atan2 s c := by
    have hr : 0 < N * u * (u - E ^ 2) := by positivity
    unfold atan2
    rw [← Complex.arg_real_mul ⟨c, s⟩ hr]
    congr 1
    apply Complex.ext
    · rw [Complex.re_ofReal_mul]; ring
    · rw [Complex.im_ofReal_mul]; ring
  rw [e6, e7, e8, e9, e10]
  rfl

end EkfCal
