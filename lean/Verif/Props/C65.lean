import Verif.Spec.Geodetic
import Verif.Lemmas.Geodetic
import Verif.Props.C24
import Mathlib.Topology.Order.IntermediateValue

/-!
# C65 — earth-fixed coordinates are turned into the geodetic ones that name the same place
-/

namespace EkfCal

/-- The radius of curvature that goes with geodetic coordinates. -/
theorem IsGeodetic.radius {A e2 : ℝ} {lla p : V3 ℝ} (hA : 0 < A) (he1 : e2 < 1) (h : IsGeodetic A e2 lla p) :
    ∃ N : ℝ, 0 < N ∧ N ^ 2 * (1 - e2 * Real.sin (degToRad (lla 0)) ^ 2) = A ^ 2 ∧
      p 0 = (N + lla 2) * normalOf lla 0 ∧ p 1 = (N + lla 2) * normalOf lla 1 ∧ p 2 = (N * (1 - e2) + lla 2) * normalOf lla 2 := by
  obtain ⟨s, hs, ⟨c, hc, h0, h1, h2⟩, hp⟩ := h
  have hA2 : A ^ 2 ≠ 0 := by positivity
  have hne : 1 - e2 ≠ 0 := by linarith
  have s0 : s 0 = A ^ 2 / c * normalOf lla 0 := by rw [h0]; field_simp
  have s1 : s 1 = A ^ 2 / c * normalOf lla 1 := by rw [h1]; field_simp
  have s2 : s 2 = A ^ 2 / c * (1 - e2) * normalOf lla 2 := by rw [h2]; field_simp
  refine ⟨A ^ 2 / c, by positivity, ?_, by rw [hp, s0]; ring, by rw [hp, s1]; ring, by rw [hp, s2]; ring⟩
  rw [s0, s1, s2] at hs
  simp only [normalOf, Matrix.cons_val_zero, Matrix.cons_val_one, Matrix.cons_val] at hs
  have g1 := Real.sin_sq_add_cos_sq (degToRad (lla 0))
  have g2 := Real.sin_sq_add_cos_sq (degToRad (lla 1))
  generalize Real.sin (degToRad (lla 0)) = a at *
  generalize Real.cos (degToRad (lla 0)) = b at *
  generalize Real.sin (degToRad (lla 1)) = d at *
  generalize Real.cos (degToRad (lla 1)) = f at *
  field_simp at hs ⊢
  linear_combination hs - A ^ 2 * g1 - A ^ 2 * b ^ 2 * g2

/-- The arc tangent gives back an angle between -180 (excluded) and 180 degrees. -/
theorem atan2_angle {r t : ℝ} (hr : 0 < r) (h1 : -180 < t) (h2 : t ≤ 180) :
    atan2 (r * Real.sin (degToRad t)) (r * Real.cos (degToRad t)) / (Real.pi / 180) = t := by
  have hpi := Real.pi_pos
  have : atan2 (r * Real.sin (degToRad t)) (r * Real.cos (degToRad t)) = degToRad t := by
    unfold atan2
    have e : (⟨r * Real.cos (degToRad t), r * Real.sin (degToRad t)⟩ : ℂ) = r * (Complex.cos (degToRad t) + Complex.sin (degToRad t) * Complex.I) := by
      rw [← Complex.ofReal_cos, ← Complex.ofReal_sin]
      apply Complex.ext
      · simp [-Complex.ofReal_cos, -Complex.ofReal_sin]
      · simp [-Complex.ofReal_cos, -Complex.ofReal_sin]
    rw [e]
    refine Complex.arg_mul_cos_add_sin_mul_I hr ⟨?_, ?_⟩
    · unfold degToRad; nlinarith
    · unfold degToRad; nlinarith
  rw [this]
  unfold degToRad
  field_simp

theorem wgs84_pos : 0 < wgs84A ∧ 0 < wgs84E ∧ wgs84E < 1 := by
  unfold wgs84A wgs84E; norm_num

/-- Wherever a point lies not deeper than 98 % of the way to the centre, its geodetic coordinates over the ellipsoid with
the declared eccentricity are what `ecef_to_lla` answers, exactly, at every latitude, longitude and altitude. -/
theorem C65_exact (lla p : V3 ℝ) (h : IsGeodetic wgs84A (wgs84E ^ 2) lla p) (h1 : -90 < lla 0) (h2 : lla 0 < 90) (h3 : -180 < lla 1)
    (h4 : lla 1 ≤ 180) (h5 : -(98 / 100 * wgs84A) ≤ lla 2) : ecefToLla p = .ok lla := by
  obtain ⟨hA, hE, hE1⟩ := wgs84_pos
  have hE2 : 2 * wgs84E ^ 2 < 2 / 100 := by unfold wgs84E; norm_num
  obtain ⟨N, hN, hNA, p0, p1, p2⟩ := h.radius hA (by nlinarith)
  have hpi := Real.pi_pos
  have hcos : 0 < Real.cos (degToRad (lla 0)) := Real.cos_pos_of_mem_Ioo ⟨by unfold degToRad; nlinarith, by unfold degToRad; nlinarith⟩
  have hlat := atan2_angle one_pos (show -180 < lla 0 by linarith) (show lla 0 ≤ 180 by linarith)
  have hNA' : wgs84A ≤ N := by
    have : wgs84A ^ 2 ≤ N ^ 2 := by rw [← hNA]; nlinarith [mul_nonneg (sq_nonneg N) (mul_nonneg (sq_nonneg wgs84E) (sq_nonneg (Real.sin (degToRad (lla 0)))))]
    exact (pow_le_pow_iff_left₀ hA.le hN.le two_ne_zero).1 this
  have hu : 2 * wgs84E ^ 2 < 1 + lla 2 / N := by
    have : -(98 / 100) ≤ lla 2 / N := by rw [le_div_iff₀ hN]; linarith
    linarith
  have hu0 : 0 < N + lla 2 := by linarith
  have key := ecefToLlaOf_foot hA hE hE1 hcos.le (by rw [add_comm]; exact Real.sin_sq_add_cos_sq (degToRad (lla 0))) hN hNA hu p
    (by
      have e : N * (1 + lla 2 / N) = N + lla 2 := by field_simp
      rw [p0, p1, e]
      simp only [normalOf, Matrix.cons_val_zero, Matrix.cons_val_one]
      linear_combination ((N + lla 2) * Real.cos (degToRad (lla 0))) ^ 2 * Real.sin_sq_add_cos_sq (degToRad (lla 1)))
    (by
      have e : N * (1 + lla 2 / N - wgs84E ^ 2) = N * (1 - wgs84E ^ 2) + lla 2 := by field_simp; ring
      rw [p2, e]; rfl)
  have hlon := atan2_angle (show 0 < (N + lla 2) * Real.cos (degToRad (lla 0)) by positivity) h3 h4
  rw [one_mul, one_mul] at hlat
  rw [ecefToLla, key, hlat]
  have e1 : p 1 = (N + lla 2) * Real.cos (degToRad (lla 0)) * Real.sin (degToRad (lla 1)) := by rw [p1]; simp only [normalOf, Matrix.cons_val_one, Matrix.cons_val_zero]; ring
  have e0 : p 0 = (N + lla 2) * Real.cos (degToRad (lla 0)) * Real.cos (degToRad (lla 1)) := by rw [p0]; simp only [normalOf, Matrix.cons_val_zero]; ring
  rw [e1, e0, hlon]
  congr 1
  funext i
  fin_cases i
  · rfl
  · rfl
  · show (1 + lla 2 / N - 1) * N = lla 2
    field_simp
    ring

/-- Olsen's equation has a root far enough out for every point away from the centre. -/
theorem olsen_exists {m n E : ℝ} (hm : 0 ≤ m) (hn : 0 ≤ n) (hE : 0 < E) (h : 4 * E ^ 4 < m + 4 * n) :
    ∃ u, 2 * E ^ 2 < u ∧ m * (u - E ^ 2) ^ 2 + n * u ^ 2 = u ^ 2 * (u - E ^ 2) ^ 2 := by
  obtain ⟨e, he⟩ : ∃ e, e = E ^ 2 := ⟨_, rfl⟩
  have he0 : 0 < e := by rw [he]; positivity
  rw [← he]
  have h' : 4 * e ^ 2 < m + 4 * n := by rw [he]; linarith [h, show (E ^ 2) ^ 2 = E ^ 4 by ring]
  have hc : ContinuousOn (fun u : ℝ => m * (u - e) ^ 2 + n * u ^ 2 - u ^ 2 * (u - e) ^ 2) (Set.Icc (2 * e) (2 * e + m + n + 1)) := by
    fun_prop
  have h0 : 0 < m * (2 * e - e) ^ 2 + n * (2 * e) ^ 2 - (2 * e) ^ 2 * (2 * e - e) ^ 2 := by
    have : m * (2 * e - e) ^ 2 + n * (2 * e) ^ 2 - (2 * e) ^ 2 * (2 * e - e) ^ 2 = e ^ 2 * (m + 4 * n - 4 * e ^ 2) := by ring
    rw [this]; exact mul_pos (by positivity) (by linarith)
  have h1 : m * (2 * e + m + n + 1 - e) ^ 2 + n * (2 * e + m + n + 1) ^ 2 -
      (2 * e + m + n + 1) ^ 2 * (2 * e + m + n + 1 - e) ^ 2 < 0 := by
    obtain ⟨v, hv⟩ : ∃ v, v = 2 * e + m + n + 1 - e := ⟨_, rfl⟩
    obtain ⟨U, hU⟩ : ∃ U, U = 2 * e + m + n + 1 := ⟨_, rfl⟩
    rw [← hv, ← hU]
    have a1 : v ^ 2 ≤ U ^ 2 := pow_le_pow_left₀ (by linarith) (by linarith) 2
    have a2 : m + n < v ^ 2 := by
      have : (m + n + 1) * 1 ≤ v * v := mul_le_mul (by linarith) (by linarith) (by norm_num) (by linarith)
      nlinarith
    have a3 : 0 < U ^ 2 := pow_pos (by linarith) 2
    have a4 := mul_le_mul_of_nonneg_left a1 hm
    have a5 := mul_lt_mul_of_pos_left a2 a3
    linarith
  obtain ⟨u, ⟨hu, _⟩, hf⟩ := intermediate_value_Icc' (by linarith) hc ⟨h1.le, h0.le⟩
  refine ⟨u, lt_of_le_of_ne hu ?_, by simp only at hf; linarith⟩
  rintro rfl
  simp only at hf
  linarith

theorem degToRad_div (t : ℝ) : degToRad (t / (Real.pi / 180)) = t := by
  have := Real.pi_ne_zero
  unfold degToRad
  field_simp

/-- The latitude of a direction in the half plane in front of the axis. -/
theorem atan2_half {c s : ℝ} (hc : 0 ≤ c) (h : c ^ 2 + s ^ 2 = 1) :
    Real.cos (atan2 s c) = c ∧ Real.sin (atan2 s c) = s ∧ |atan2 s c| ≤ Real.pi / 2 := by
  have hn : ‖(⟨c, s⟩ : ℂ)‖ = 1 := by
    rw [Complex.norm_def, Complex.normSq_mk, ← pow_two, ← pow_two, h, Real.sqrt_one]
  have h1 := Complex.norm_mul_cos_arg ⟨c, s⟩
  have h2 := Complex.norm_mul_sin_arg ⟨c, s⟩
  rw [hn, one_mul] at h1 h2
  exact ⟨h1, h2, Complex.abs_arg_le_pi_div_two_iff.2 hc⟩

/-- Geodetic coordinates from a root of Olsen's equation. -/
theorem geodetic_of_root {A E u : ℝ} (hA : 0 < A) (hE : 0 < E) (hE1 : E < 1) (hu : 2 * E ^ 2 < u) (p : V3 ℝ)
    (hp : 0 < p 0 ^ 2 + p 1 ^ 2 + p 2 ^ 2)
    (h : (p 0 * p 0 + p 1 * p 1) / A / A * (u - E ^ 2) ^ 2 + p 2 * p 2 * ((1 - E ^ 2) / A ^ 2) * u ^ 2 = u ^ 2 * (u - E ^ 2) ^ 2) :
    ∃ lla, ecefToLlaOf A E p = .ok lla ∧ LegalLla lla ∧ IsGeodetic A (E ^ 2) lla p := by
  have hE2 : 0 < E ^ 2 := pow_pos hE 2
  have hE21 : E ^ 2 < 1 := by nlinarith
  have hu0 : 0 < u := by linarith
  obtain ⟨v, hv⟩ : ∃ v, v = u - E ^ 2 := ⟨_, rfl⟩
  have hv0 : 0 < v := by linarith
  obtain ⟨w, hw⟩ : ∃ w, w = √(p 0 * p 0 + p 1 * p 1) := ⟨_, rfl⟩
  have hww : w ^ 2 = p 0 * p 0 + p 1 * p 1 := by rw [hw]; exact Real.sq_sqrt (by nlinarith [sq_nonneg (p 0), sq_nonneg (p 1)])
  have hw0 : 0 ≤ w := by rw [hw]; exact Real.sqrt_nonneg _
  have hD : 0 < w ^ 2 * v ^ 2 + p 2 ^ 2 * u ^ 2 := by
    by_cases hz : p 2 = 0
    · have : 0 < w ^ 2 := by rw [hww]; rw [hz] at hp; nlinarith
      positivity
    · positivity
  obtain ⟨D, hDd⟩ : ∃ D, D = √(w ^ 2 * v ^ 2 + p 2 ^ 2 * u ^ 2) := ⟨_, rfl⟩
  have hD0 : 0 < D := by rw [hDd]; exact Real.sqrt_pos.2 hD
  have hD2 : D ^ 2 = w ^ 2 * v ^ 2 + p 2 ^ 2 * u ^ 2 := by rw [hDd]; exact Real.sq_sqrt hD.le
  have hc : 0 ≤ w * v / D := by positivity
  have hcs : (w * v / D) ^ 2 + (p 2 * u / D) ^ 2 = 1 := by field_simp; rw [hD2]
  -- the radius
  have h' : w ^ 2 * v ^ 2 + p 2 ^ 2 * (1 - E ^ 2) * u ^ 2 = A ^ 2 * (u ^ 2 * v ^ 2) := by
    rw [← hv] at h
    rw [hww, ← h]
    field_simp
  have hN : 0 < D / (u * v) := by positivity
  have hNA : (D / (u * v)) ^ 2 * (1 - E ^ 2 * (p 2 * u / D) ^ 2) = A ^ 2 := by
    field_simp
    rw [hD2]
    linear_combination h'
  have hNw : D / (u * v) * u * (w * v / D) = w := by field_simp
  have hNz : D / (u * v) * v * (p 2 * u / D) = p 2 := by field_simp
  have key := ecefToLlaOf_foot hA hE hE1 hc hcs hN hNA hu p (by rw [hNw, ← hww]; ring) (by rw [← hv, hNz])
  refine ⟨_, key, ?_, ?_⟩
  all_goals obtain ⟨k1, k2, k3⟩ := atan2_half hc hcs
  · have hpi := Real.pi_pos
    have l1 := Complex.neg_pi_lt_arg ⟨p 0, p 1⟩
    have l2 := Complex.arg_le_pi ⟨p 0, p 1⟩
    obtain ⟨k4, k5⟩ := abs_le.1 k3
    refine ⟨?_, ?_, ?_, ?_⟩
    · show -90 ≤ _ / (Real.pi / 180); rw [le_div_iff₀ (by positivity)]; linarith
    · show _ / (Real.pi / 180) ≤ 90; rw [div_le_iff₀ (by positivity)]; linarith
    · show -180 ≤ atan2 (p 1) (p 0) / (Real.pi / 180); rw [le_div_iff₀ (by positivity)]; unfold atan2; linarith
    · show atan2 (p 1) (p 0) / (Real.pi / 180) ≤ 180; rw [div_le_iff₀ (by positivity)]; unfold atan2; linarith
  · have hwn : ‖(⟨p 0, p 1⟩ : ℂ)‖ = w := by rw [Complex.norm_def, Complex.normSq_mk, hw]
    have g0 : w * Real.cos (atan2 (p 1) (p 0)) = p 0 := by have := Complex.norm_mul_cos_arg ⟨p 0, p 1⟩; rwa [hwn] at this
    have g1 : w * Real.sin (atan2 (p 1) (p 0)) = p 1 := by have := Complex.norm_mul_sin_arg ⟨p 0, p 1⟩; rwa [hwn] at this
    have q := Real.sin_sq_add_cos_sq (atan2 (p 1) (p 0))
    obtain ⟨N, hNd⟩ : ∃ N, N = D / (u * v) := ⟨_, rfl⟩
    obtain ⟨c, hcd⟩ : ∃ c, c = w * v / D := ⟨_, rfl⟩
    obtain ⟨s, hsd⟩ : ∃ s, s = p 2 * u / D := ⟨_, rfl⟩
    rw [← hcd, ← hsd] at k1 k2 hcs
    rw [← hNd] at hN hNA hNw hNz
    rw [← hsd] at hNA hNz
    rw [← hcd] at hNw
    rw [← hNd, ← hcd, ← hsd]
    have n0 : normalOf ![atan2 s c / (Real.pi / 180), atan2 (p 1) (p 0) / (Real.pi / 180), (u - 1) * N] 0 = c * Real.cos (atan2 (p 1) (p 0)) := by
      simp only [normalOf, Matrix.cons_val_zero, Matrix.cons_val_one, degToRad_div, k1]
    have n1 : normalOf ![atan2 s c / (Real.pi / 180), atan2 (p 1) (p 0) / (Real.pi / 180), (u - 1) * N] 1 = c * Real.sin (atan2 (p 1) (p 0)) := by
      simp only [normalOf, Matrix.cons_val_zero, Matrix.cons_val_one, degToRad_div, k1]
    have n2 : normalOf ![atan2 s c / (Real.pi / 180), atan2 (p 1) (p 0) / (Real.pi / 180), (u - 1) * N] 2 = s := by
      simp only [normalOf, Matrix.cons_val_zero, Matrix.cons_val, degToRad_div, k2]
    generalize Real.cos (atan2 (p 1) (p 0)) = C at *
    generalize Real.sin (atan2 (p 1) (p 0)) = S at *
    have hne : 1 - E ^ 2 ≠ 0 := by linarith
    refine ⟨![N * c * C, N * c * S, N * (1 - E ^ 2) * s], ?_, ⟨A ^ 2 / N, by positivity, ?_, ?_, ?_⟩, ?_⟩
    · simp only [Matrix.cons_val_zero, Matrix.cons_val_one, Matrix.cons_val]
      field_simp
      rw [← hNA]
      linear_combination N ^ 2 * c ^ 2 * q + N ^ 2 * hcs
    · rw [n0]; simp only [Matrix.cons_val_zero]; field_simp
    · rw [n1]; simp only [Matrix.cons_val_zero, Matrix.cons_val_one]; field_simp
    · rw [n2]; simp only [Matrix.cons_val]; field_simp
    · intro i
      fin_cases i
      · show p 0 = N * c * C + (u - 1) * N * normalOf _ 0
        rw [n0, ← g0, ← hNw]; ring
      · show p 1 = N * c * S + (u - 1) * N * normalOf _ 1
        rw [n1, ← g1, ← hNw]; ring
      · show p 2 = N * (1 - E ^ 2) * s + (u - 1) * N * normalOf _ 2
        rw [n2, ← hNz, hv]; ring

/-- Every point more than 100 km from the Earth's centre has an answer, a legal one, and it names that point over the
ellipsoid with the declared eccentricity.  No point near the surface, in the air or in orbit is left out. -/
theorem C65_every_point (p : V3 ℝ) (h : (100000 : ℝ) ^ 2 < p 0 ^ 2 + p 1 ^ 2 + p 2 ^ 2) :
    ∃ lla, ecefToLla p = .ok lla ∧ LegalLla lla ∧ IsGeodetic wgs84A (wgs84E ^ 2) lla p := by
  obtain ⟨hA, hE, hE1⟩ := wgs84_pos
  have hE2 : wgs84E ^ 2 < 1 / 2 := by unfold wgs84E; norm_num
  have hm : 0 ≤ (p 0 * p 0 + p 1 * p 1) / wgs84A / wgs84A := by
    have := mul_self_nonneg (p 0)
    have := mul_self_nonneg (p 1)
    positivity
  have hn : 0 ≤ p 2 * p 2 * ((1 - wgs84E ^ 2) / wgs84A ^ 2) :=
    mul_nonneg (mul_self_nonneg _) (div_nonneg (by linarith) (by positivity))
  obtain ⟨u, hu, hr⟩ := olsen_exists hm hn hE (by
    have e : (p 0 * p 0 + p 1 * p 1) / wgs84A / wgs84A + 4 * (p 2 * p 2 * ((1 - wgs84E ^ 2) / wgs84A ^ 2)) =
        (p 0 ^ 2 + p 1 ^ 2 + 4 * (1 - wgs84E ^ 2) * p 2 ^ 2) / wgs84A ^ 2 := by field_simp
    rw [e, lt_div_iff₀ (by positivity)]
    have e2 : 4 * wgs84E ^ 4 * wgs84A ^ 2 < (100000 : ℝ) ^ 2 := by unfold wgs84E wgs84A; norm_num
    nlinarith [sq_nonneg (p 2)])
  exact geodetic_of_root hA hE hE1 hu p (by linarith [show (0 : ℝ) < 100000 ^ 2 by norm_num]) hr

/-- The two declared constants, flattening and eccentricity, do not name exactly the same ellipsoid. -/
theorem C65_constants : wgs84E ^ 2 ≠ navE2 ∧ |wgs84E ^ 2 - navE2| < 62 / 10 ^ 21 := by
  unfold navE2 wgs84F wgs84E
  refine ⟨by norm_num, ?_⟩
  rw [abs_lt]
  constructor <;> norm_num

/-- How far apart the radii of curvature of two nearly equal ellipsoids are. -/
theorem radius_near {A e1 e2 d s N1 N2 : ℝ} (hA : 0 < A) (h1 : 0 ≤ e1) (h1' : e1 ≤ 1 / 100) (h2 : 0 ≤ e2) (h2' : e2 ≤ 1 / 100) (hd : |e1 - e2| ≤ d)
    (hs : s ^ 2 ≤ 1) (n1 : 0 < N1) (n2 : 0 < N2) (r1 : N1 ^ 2 * (1 - e1 * s ^ 2) = A ^ 2) (r2 : N2 ^ 2 * (1 - e2 * s ^ 2) = A ^ 2) :
    N2 ≤ 101 / 100 * A ∧ |N1 - N2| ≤ 103 / 100 * (A * d) := by
  have hs0 := sq_nonneg s
  have k1 : 99 / 100 ≤ 1 - e1 * s ^ 2 := by nlinarith
  have k2 : 99 / 100 ≤ 1 - e2 * s ^ 2 := by nlinarith
  have hd0 : 0 ≤ d := le_trans (abs_nonneg _) hd
  have b2 : N2 ≤ 101 / 100 * A := by
    have : N2 ^ 2 ≤ (101 / 100 * A) ^ 2 := by
      have := mul_le_mul_of_nonneg_left k2 (sq_nonneg N2)
      nlinarith [pow_pos hA 2]
    exact (pow_le_pow_iff_left₀ n2.le (by positivity) two_ne_zero).1 this
  refine ⟨b2, ?_⟩
  have e : (N1 - N2) * ((N1 + N2) * (1 - e1 * s ^ 2)) = N2 ^ 2 * s ^ 2 * (e1 - e2) := by linear_combination r1 - r2
  have e' : |N1 - N2| * ((N1 + N2) * (1 - e1 * s ^ 2)) = N2 ^ 2 * s ^ 2 * |e1 - e2| := by
    have := congrArg abs e
    rwa [abs_mul (N1 - N2), abs_mul (N2 ^ 2 * s ^ 2), abs_of_nonneg (a := (N1 + N2) * (1 - e1 * s ^ 2)) (by positivity), abs_of_nonneg (a := N2 ^ 2 * s ^ 2) (by positivity)] at this
  have hx := abs_nonneg (N1 - N2)
  have i1 : N2 * (99 / 100) ≤ (N1 + N2) * (1 - e1 * s ^ 2) := mul_le_mul (by linarith) k1 (by norm_num) (by linarith)
  have i2 := mul_le_mul_of_nonneg_left i1 hx
  have i3 : N2 ^ 2 * s ^ 2 * |e1 - e2| ≤ N2 ^ 2 * 1 * d := mul_le_mul (mul_le_mul_of_nonneg_left hs (sq_nonneg _)) hd (abs_nonneg _) (by positivity)
  have i4 : N2 * (|N1 - N2| * (99 / 100)) ≤ N2 * (N2 * d) := by nlinarith
  have i5 := le_of_mul_le_mul_left i4 n2
  have i6 := mul_le_mul_of_nonneg_right b2 hd0
  nlinarith [mul_nonneg hA.le hd0]

/-- What `lla_to_ecef` computes for coordinates that name `p` over the ellipsoid with the declared eccentricity is `p` to
within a picometre (`10⁻¹²` m) on each axis, at any altitude. -/
theorem C65_picometre (lla p : V3 ℝ) (hl : LegalLla lla) (h : IsGeodetic wgs84A (wgs84E ^ 2) lla p) :
    ∃ q, llaToEcef lla = .ok q ∧ ∀ i, |q i - p i| ≤ 1 / 10 ^ 12 := by
  obtain ⟨hA, hE, hE1⟩ := wgs84_pos
  obtain ⟨f0, f1⟩ := navE2_range
  have f2 : navE2 ≤ 1 / 100 := by unfold navE2 wgs84F; norm_num
  have g2 : wgs84E ^ 2 ≤ 1 / 100 := by unfold wgs84E; norm_num
  obtain ⟨N, hN, hNA, p0, p1, p2⟩ := h.radius hA (by linarith)
  have hs : Real.sin (degToRad (lla 0)) ^ 2 ≤ 1 := Real.sin_sq_le_one _
  have hpos : 0 < 1 - navE2 * Real.sin (degToRad (lla 0)) * Real.sin (degToRad (lla 0)) := by nlinarith [sq_nonneg (Real.sin (degToRad (lla 0)))]
  obtain ⟨M, hM⟩ : ∃ M, M = wgs84A / √(1 - navE2 * Real.sin (degToRad (lla 0)) * Real.sin (degToRad (lla 0))) := ⟨_, rfl⟩
  have hM0 : 0 < M := by rw [hM]; exact div_pos hA (Real.sqrt_pos.2 hpos)
  have hMA : M ^ 2 * (1 - navE2 * Real.sin (degToRad (lla 0)) ^ 2) = wgs84A ^ 2 := by
    rw [hM, div_pow, Real.sq_sqrt hpos.le]
    have e : 1 - navE2 * Real.sin (degToRad (lla 0)) * Real.sin (degToRad (lla 0)) = 1 - navE2 * Real.sin (degToRad (lla 0)) ^ 2 := by ring
    rw [e] at hpos ⊢
    field_simp
  obtain ⟨hb, hnear⟩ := radius_near (d := 62 / 10 ^ 21) hA f0.le f2 (sq_nonneg wgs84E) g2 (by rw [abs_sub_comm]; exact C65_constants.2.le) hs hM0 hN hMA hNA
  refine ⟨![(M + lla 2) * Real.cos (degToRad (lla 0)) * Real.cos (degToRad (lla 1)),
    (M + lla 2) * Real.cos (degToRad (lla 0)) * Real.sin (degToRad (lla 1)), (M * (1 - navE2) + lla 2) * Real.sin (degToRad (lla 0))], ?_, ?_⟩
  · unfold llaToEcef
    rw [if_neg (by unfold LegalLla at hl; push Not; exact hl), hM]
  · have c1 := Real.abs_cos_le_one (degToRad (lla 0))
    have c2 := Real.abs_cos_le_one (degToRad (lla 1))
    have c3 := Real.abs_sin_le_one (degToRad (lla 1))
    have c4 := Real.abs_sin_le_one (degToRad (lla 0))
    have small : |M - N| ≤ 1 / (2 * 10 ^ 12) := le_trans hnear (by unfold wgs84A; norm_num)
    have shrink : ∀ a b c : ℝ, |b| ≤ 1 → |c| ≤ 1 → |a * b * c| ≤ |a| := fun a b c hb hc => by
      rw [abs_mul, abs_mul]
      have h1 := mul_le_mul_of_nonneg_left hb (abs_nonneg a)
      have h2 := mul_le_mul_of_nonneg_left hc (mul_nonneg (abs_nonneg a) (abs_nonneg b))
      linarith
    intro i
    fin_cases i
    · show |(M + lla 2) * Real.cos (degToRad (lla 0)) * Real.cos (degToRad (lla 1)) - p 0| ≤ _
      have e : (M + lla 2) * Real.cos (degToRad (lla 0)) * Real.cos (degToRad (lla 1)) - p 0 =
          (M - N) * Real.cos (degToRad (lla 0)) * Real.cos (degToRad (lla 1)) := by
        rw [p0]; simp only [normalOf, Matrix.cons_val_zero]; ring
      rw [e]
      exact (shrink _ _ _ c1 c2).trans (small.trans (by norm_num))
    · show |(M + lla 2) * Real.cos (degToRad (lla 0)) * Real.sin (degToRad (lla 1)) - p 1| ≤ _
      have e : (M + lla 2) * Real.cos (degToRad (lla 0)) * Real.sin (degToRad (lla 1)) - p 1 =
          (M - N) * Real.cos (degToRad (lla 0)) * Real.sin (degToRad (lla 1)) := by
        rw [p1]; simp only [normalOf, Matrix.cons_val_zero, Matrix.cons_val_one]; ring
      rw [e]
      exact (shrink _ _ _ c1 c3).trans (small.trans (by norm_num))
    · show |(M * (1 - navE2) + lla 2) * Real.sin (degToRad (lla 0)) - p 2| ≤ _
      have e : (M * (1 - navE2) + lla 2) * Real.sin (degToRad (lla 0)) - p 2 =
          (M - N) * (1 - navE2) * Real.sin (degToRad (lla 0)) + N * (wgs84E ^ 2 - navE2) * Real.sin (degToRad (lla 0)) := by
        rw [p2]; simp only [normalOf, Matrix.cons_val]; ring
      rw [e]
      have d1 := shrink (M - N) (1 - navE2) _ (by rw [abs_of_pos (by linarith)]; linarith) c4
      have d2 : |N * (wgs84E ^ 2 - navE2) * Real.sin (degToRad (lla 0))| ≤ 101 / 100 * wgs84A * (62 / 10 ^ 21) := by
        rw [abs_mul, abs_mul, abs_of_pos hN]
        have h1 := mul_le_mul hb C65_constants.2.le (abs_nonneg _) (by positivity)
        have h2 := mul_le_mul_of_nonneg_left c4 (mul_nonneg hN.le (abs_nonneg (wgs84E ^ 2 - navE2)))
        linarith
      have d3 : 101 / 100 * wgs84A * (62 / 10 ^ 21) ≤ 1 / (2 * 10 ^ 12) := by unfold wgs84A; norm_num
      refine (abs_add_le _ _).trans ?_
      have : (1 : ℝ) / 10 ^ 12 = 1 / (2 * 10 ^ 12) + 1 / (2 * 10 ^ 12) := by norm_num
      linarith

/-- Converting a point that is more than 100 km from the Earth's centre to latitude, longitude and altitude and back
gives the point, to within a picometre on each axis. -/
theorem C65_back (p : V3 ℝ) (h : (100000 : ℝ) ^ 2 < p 0 ^ 2 + p 1 ^ 2 + p 2 ^ 2) :
    ∃ lla q, ecefToLla p = .ok lla ∧ llaToEcef lla = .ok q ∧ ∀ i, |q i - p i| ≤ 1 / 10 ^ 12 := by
  obtain ⟨lla, h1, h2, h3⟩ := C65_every_point p h
  obtain ⟨q, h4, h5⟩ := C65_picometre lla p h2 h3
  exact ⟨lla, q, h1, h4, h5⟩

/-- Every latitude, longitude and altitude names a point. -/
theorem geodetic_exists {A e2 : ℝ} (hA : 0 < A) (h0 : 0 ≤ e2) (h1 : e2 < 1) (lla : V3 ℝ) : ∃ p, IsGeodetic A e2 lla p := by
  have g1 := Real.sin_sq_add_cos_sq (degToRad (lla 0))
  have g2 := Real.sin_sq_add_cos_sq (degToRad (lla 1))
  have hpos : 0 < 1 - e2 * Real.sin (degToRad (lla 0)) ^ 2 := by nlinarith [sq_nonneg (Real.sin (degToRad (lla 0))), sq_nonneg (Real.cos (degToRad (lla 0)))]
  obtain ⟨W, hW⟩ : ∃ W, W = √(1 - e2 * Real.sin (degToRad (lla 0)) ^ 2) := ⟨_, rfl⟩
  have hW0 : 0 < W := by rw [hW]; exact Real.sqrt_pos.2 hpos
  have hW2 : W ^ 2 = 1 - e2 * Real.sin (degToRad (lla 0)) ^ 2 := by rw [hW]; exact Real.sq_sqrt hpos.le
  have hne : 1 - e2 ≠ 0 := by linarith
  refine ⟨_, ![A / W * normalOf lla 0, A / W * normalOf lla 1, A / W * (1 - e2) * normalOf lla 2], ?_, ⟨A * W, by positivity, ?_, ?_, ?_⟩, fun i => rfl⟩
  · simp only [normalOf, Matrix.cons_val_zero, Matrix.cons_val_one, Matrix.cons_val]
    field_simp
    linear_combination (Real.cos (degToRad (lla 0)) ^ 2) * g2 - hW2 + g1
  · simp only [Matrix.cons_val_zero]; field_simp
  · simp only [Matrix.cons_val_zero, Matrix.cons_val_one]; field_simp
  · simp only [Matrix.cons_val]; field_simp

/-- And the other way round: for every latitude short of the poles, every longitude and every altitude, `ecef_to_lla` gives
exactly those coordinates at a point within a picometre of the one `lla_to_ecef` gives. -/
theorem C65_forth (lla : V3 ℝ) (h1 : -90 < lla 0) (h2 : lla 0 < 90) (h3 : -180 < lla 1) (h4 : lla 1 ≤ 180) (h5 : -(98 / 100 * wgs84A) ≤ lla 2) :
    ∃ p q, llaToEcef lla = .ok q ∧ (∀ i, |q i - p i| ≤ 1 / 10 ^ 12) ∧ ecefToLla p = .ok lla := by
  obtain ⟨hA, hE, hE1⟩ := wgs84_pos
  obtain ⟨p, hp⟩ := geodetic_exists hA (sq_nonneg wgs84E) (by nlinarith) lla
  obtain ⟨q, hq, hn⟩ := C65_picometre lla p ⟨h1.le, h2.le, h3.le, h4⟩ hp
  exact ⟨p, q, hq, hn, C65_exact lla p hp h1 h2 h3 h4 h5⟩

/-- Hence a position relative to a legal reference, converted to latitude, longitude and altitude and back, is the same
position: the squared distance is below `3 · 10⁻²⁴` square metres. -/
theorem C65_enu (x ref : V3 ℝ) (hr : LegalLla ref) (p : V3 ℝ) (hp : enuToEcef x ref = .ok p)
    (h : (100000 : ℝ) ^ 2 < p 0 ^ 2 + p 1 ^ 2 + p 2 ^ 2) :
    ∃ lla y, enuToLla x ref = .ok lla ∧ llaToEnu lla ref = .ok y ∧ distSq y x ≤ 3 / 10 ^ 24 := by
  obtain ⟨lla, q, h1, h2, h3⟩ := C65_back p h
  obtain ⟨⟨y, hy, _⟩, _⟩ := C24_enu q ref hr
  obtain ⟨_, p', hp', hx⟩ := C24_enu x ref hr
  rw [hp] at hp'
  cases hp'
  refine ⟨lla, y, by simp only [enuToLla, hp, ok_bind]; exact h1, by simp only [llaToEnu, h2, ok_bind]; exact hy, ?_⟩
  rw [C24_enu_isometry q p ref y x hy hx]
  have sq : ∀ i, (q i - p i) ^ 2 ≤ (1 / 10 ^ 12) ^ 2 := fun i => sq_le_sq' (by linarith [(abs_le.1 (h3 i)).1]) (abs_le.1 (h3 i)).2
  have := sq 0
  have := sq 1
  have := sq 2
  have e : (3 : ℝ) / 10 ^ 24 = (1 / 10 ^ 12) ^ 2 + (1 / 10 ^ 12) ^ 2 + (1 / 10 ^ 12) ^ 2 := by norm_num
  unfold distSq
  linarith

/-- The centre itself has no answer: the cube root of a negative number is taken. -/
theorem C65_centre : ecefToLla 0 = .error .nonFinite := by
  have hE := wgs84_pos.2.1
  unfold ecefToLla ecefToLlaOf
  simp only [Pi.zero_apply, mul_zero, zero_mul, add_zero, zero_div, Real.sqrt_zero]
  rw [guardUB_true (le_refl (0 : ℝ)), ok_bind]
  unfold guardUB
  rw [if_neg]
  · rfl
  · have : 0 < wgs84E ^ 4 := pow_pos hE 4
    have e : 2 * ((0 - wgs84E ^ 4) / 6) * ((0 - wgs84E ^ 4) / 6) * ((0 - wgs84E ^ 4) / 6) = -((wgs84E ^ 4) ^ 3 / 108) := by ring
    rw [e]
    have := pow_pos this 3
    linarith

/-- Aachen at 173 m and a satellite over New Zealand meet the hypotheses of `C65_forth`. -/
example : (∃ p q, llaToEcef ![50.78, 6.05, 173] = .ok q ∧ (∀ i, |q i - p i| ≤ 1 / 10 ^ 12) ∧ ecefToLla p = .ok ![50.78, 6.05, 173]) ∧
    ∃ p q, llaToEcef ![-41.3, 174.8, 20200000] = .ok q ∧ (∀ i, |q i - p i| ≤ 1 / 10 ^ 12) ∧ ecefToLla p = .ok ![-41.3, 174.8, 20200000] := by
  constructor <;> apply C65_forth <;> simp [wgs84A] <;> norm_num

/-- The North Pole, where the longitude means nothing, is among the points of `C65_back`. -/
example : ∃ lla q, ecefToLla ![0, 0, 6356752] = .ok lla ∧ llaToEcef lla = .ok q ∧ ∀ i, |q i - ![0, 0, 6356752] i| ≤ 1 / 10 ^ 12 :=
  C65_back _ (by simp; norm_num)

end EkfCal
