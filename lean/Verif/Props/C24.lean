import Verif.Model.Gps
import Verif.Lemmas.Mat
import Mathlib.LinearAlgebra.Matrix.Determinant.Basic
import Mathlib.Tactic.Linarith
import Mathlib.Tactic.LinearCombination
import Mathlib.Tactic.FieldSimp
import Mathlib.Tactic.FinCases
import Mathlib.Tactic.NormNum

/-!
# C24 — frame conversions are inverse isometries
-/

namespace EkfCal

/-- Squared Euclidean distance of two points. -/
def distSq (x y : V3 ℝ) : ℝ := (x 0 - y 0) ^ 2 + (x 1 - y 1) ^ 2 + (x 2 - y 2) ^ 2

/-- A latitude in [-90, 90] and a longitude in [-180, 180] degrees. -/
def LegalLla (x : V3 ℝ) : Prop := -90 ≤ x 0 ∧ x 0 ≤ 90 ∧ -180 ≤ x 1 ∧ x 1 ≤ 180

/-- Turning into the local frame and back, in either order, is the identity. -/
theorem C24_local (x : V3 ℝ) (a : ℝ) : localToEnu (enuToLocal x a) a = x ∧ enuToLocal (localToEnu x a) a = x := by
  have h := Real.sin_sq_add_cos_sq a
  constructor <;> funext i <;> fin_cases i <;> simp [localToEnu, enuToLocal] <;>
    first | linear_combination (x 0) * h | linear_combination (x 1) * h

/-- It keeps distances, and heights. -/
theorem C24_local_isometry (x y : V3 ℝ) (a : ℝ) :
    distSq (enuToLocal x a) (enuToLocal y a) = distSq x y ∧ enuToLocal x a 2 = x 2 := by
  have h := Real.sin_sq_add_cos_sq a
  refine ⟨?_, rfl⟩
  simp only [distSq, enuToLocal, Matrix.cons_val_zero, Matrix.cons_val_one, Matrix.cons_val]
  linear_combination ((x 0 - y 0) ^ 2 + (x 1 - y 1) ^ 2) * h

/-- The heading is signed: a local frame turned by `a` sees the east axis at angle `a`. -/
theorem C24_local_heading (a : ℝ) : enuToLocal ![1, 0, 0] a = ![Real.cos a, Real.sin a, 0] := by
  funext i; fin_cases i <;> simp [enuToLocal]

theorem rot_ecef_enu (r : V3 ℝ) : ecefRotation r * enuRotation r = 1 := by
  have h := Real.sin_sq_add_cos_sq (degToRad (r 0))
  have g := Real.sin_sq_add_cos_sq (degToRad (r 1))
  have h' := Real.cos_sq' (degToRad (r 0))
  have g' := Real.cos_sq' (degToRad (r 1))
  ext i j
  fin_cases i <;> fin_cases j <;>
    simp [ecefRotation, enuRotation, Matrix.mul_apply, Fin.sum_univ_three] <;> ring_nf <;>
    simp only [h', g'] <;> ring

theorem ecefRotation_transpose (r : V3 ℝ) : (ecefRotation r) = (enuRotation r).transpose := by
  ext i j
  fin_cases i <;> fin_cases j <;> simp [ecefRotation, enuRotation, Matrix.transpose]

theorem rot_enu_ecef (r : V3 ℝ) : enuRotation r * ecefRotation r = 1 := by
  have h' := Real.cos_sq' (degToRad (r 0))
  have g' := Real.cos_sq' (degToRad (r 1))
  ext i j
  fin_cases i <;> fin_cases j <;>
    simp [ecefRotation, enuRotation, Matrix.mul_apply, Fin.sum_univ_three] <;> ring_nf <;>
    simp only [h', g'] <;> ring

theorem llaToEcef_legal {r : V3 ℝ} (h : LegalLla r) : ∃ p, llaToEcef r = .ok p := by
  unfold llaToEcef
  rw [if_neg (by unfold LegalLla at h; push Not; exact h)]
  exact ⟨_, rfl⟩

/-- For a legal reference, east-north-up and earth-fixed coordinates convert into each other without loss. -/
theorem C24_enu (x r : V3 ℝ) (h : LegalLla r) :
    (∃ y, ecefToEnu x r = .ok y ∧ enuToEcef y r = .ok x) ∧ (∃ y, enuToEcef x r = .ok y ∧ ecefToEnu y r = .ok x) := by
  obtain ⟨p, hp⟩ := llaToEcef_legal h
  constructor
  · refine ⟨_, by simp only [ecefToEnu, hp, ok_bind, pure_res]; rfl, ?_⟩
    simp only [enuToEcef, hp, ok_bind, pure_res, Matrix.mulVec_mulVec, rot_ecef_enu, Matrix.one_mulVec,
      add_sub_cancel]
  · refine ⟨_, by simp only [enuToEcef, hp, ok_bind, pure_res]; rfl, ?_⟩
    simp only [ecefToEnu, hp, ok_bind, pure_res, add_sub_cancel_left, Matrix.mulVec_mulVec, rot_enu_ecef,
      Matrix.one_mulVec]

theorem distSq_rot (R : M3 ℝ) (h : R.transpose * R = 1) (u : V3 ℝ) :
    (R.mulVec u 0) ^ 2 + (R.mulVec u 1) ^ 2 + (R.mulVec u 2) ^ 2 = u 0 ^ 2 + u 1 ^ 2 + u 2 ^ 2 := by
  have e : ∀ i j, (R.transpose * R) i j = (1 : M3 ℝ) i j := fun i j => by rw [h]
  have h00 := e 0 0
  have h01 := e 0 1
  have h02 := e 0 2
  have h11 := e 1 1
  have h12 := e 1 2
  have h22 := e 2 2
  simp [Matrix.mul_apply, Fin.sum_univ_three, Matrix.transpose] at h00 h01 h02 h11 h12 h22
  simp only [Matrix.mulVec, dotProduct, Fin.sum_univ_three]
  linear_combination (u 0) ^ 2 * h00 + (u 1) ^ 2 * h11 + (u 2) ^ 2 * h22 + 2 * (u 0) * (u 1) * h01 +
    2 * (u 0) * (u 2) * h02 + 2 * (u 1) * (u 2) * h12

/-- Distances are the same in both frames. -/
theorem C24_enu_isometry (x y r x' y' : V3 ℝ) (hx : ecefToEnu x r = .ok x') (hy : ecefToEnu y r = .ok y') :
    distSq x' y' = distSq x y := by
  simp only [ecefToEnu, bind_ok_iff, pure_res, Except.ok.injEq] at hx hy
  obtain ⟨p, hp, rfl⟩ := hx
  obtain ⟨q, hq, rfl⟩ := hy
  rw [hp] at hq
  cases hq
  have := distSq_rot (enuRotation r) (by rw [← ecefRotation_transpose]; exact rot_ecef_enu r) (x - y)
  have e : ∀ i, (enuRotation r).mulVec (x - p) i - (enuRotation r).mulVec (y - p) i = (enuRotation r).mulVec (x - y) i := by
    intro i
    rw [← Pi.sub_apply, ← Matrix.mulVec_sub]
    congr 1
    abel_nf
  simp only [distSq, e]
  exact this

/-- The frame is right-handed: east × north = up. -/
theorem C24_enu_proper (r : V3 ℝ) : Matrix.det (enuRotation r) = 1 := by
  have h' := Real.cos_sq' (degToRad (r 0))
  have g' := Real.cos_sq' (degToRad (r 1))
  rw [Matrix.det_fin_three]
  simp [enuRotation]
  ring_nf
  simp only [h', g']
  ring

/-- A legal reference is the origin of its own frame. -/
theorem C24_origin (r : V3 ℝ) (h : LegalLla r) : llaToEnu r r = .ok 0 := by
  obtain ⟨p, hp⟩ := llaToEcef_legal h
  simp only [llaToEnu, ecefToEnu, hp, ok_bind, pure_res, sub_self, Matrix.mulVec_zero]

theorem navE2_range : 0 < navE2 ∧ navE2 < 1 := by
  unfold navE2 wgs84F; constructor <;> norm_num

/-- A legal point at altitude `h` is the point at distance `h` along the outward normal of the WGS84 ellipsoid
`(x² + y²)/a² + z²/(a²(1 - e²)) = 1` at its foot. -/
theorem C24_ellipsoid (x : V3 ℝ) (h : LegalLla x) :
    ∃ p s : V3 ℝ, llaToEcef x = .ok p ∧
      (s 0 ^ 2 + s 1 ^ 2) / wgs84A ^ 2 + s 2 ^ 2 / (wgs84A ^ 2 * (1 - navE2)) = 1 ∧
      ∃ n : V3 ℝ, (∀ i, p i = s i + x 2 * n i) ∧ n 0 ^ 2 + n 1 ^ 2 + n 2 ^ 2 = 1 ∧
        ∃ c > 0, n 0 = c * (s 0 / wgs84A ^ 2) ∧ n 1 = c * (s 1 / wgs84A ^ 2) ∧
          n 2 = c * (s 2 / (wgs84A ^ 2 * (1 - navE2))) := by
  obtain ⟨e0, e1⟩ := navE2_range
  have ha : wgs84A ≠ 0 := by unfold wgs84A; norm_num
  have ha' : 0 < wgs84A := by unfold wgs84A; norm_num
  set φ := degToRad (x 0) with hφ
  set l := degToRad (x 1) with hl
  have hs := Real.sin_sq_add_cos_sq φ
  have hc := Real.sin_sq_add_cos_sq l
  have hpos : 0 < 1 - navE2 * Real.sin φ * Real.sin φ := by nlinarith [sq_nonneg (Real.sin φ), sq_nonneg (Real.cos φ)]
  set w := √(1 - navE2 * Real.sin φ * Real.sin φ) with hw
  have hw2 : w ^ 2 = 1 - navE2 * Real.sin φ * Real.sin φ := Real.sq_sqrt hpos.le
  have hw0 : 0 < w := Real.sqrt_pos.2 hpos
  have hw1 : w ≠ 0 := hw0.ne'
  have hne : (1 - navE2) ≠ 0 := by linarith
  refine ⟨![(wgs84A / w + x 2) * Real.cos φ * Real.cos l, (wgs84A / w + x 2) * Real.cos φ * Real.sin l,
    (wgs84A / w * (1 - navE2) + x 2) * Real.sin φ], ![wgs84A / w * Real.cos φ * Real.cos l, wgs84A / w * Real.cos φ * Real.sin l,
    wgs84A / w * (1 - navE2) * Real.sin φ], ?_, ?_, ![Real.cos φ * Real.cos l, Real.cos φ * Real.sin l, Real.sin φ],
    ?_, ?_, wgs84A * w, by positivity, ?_, ?_, ?_⟩
  · unfold llaToEcef
    rw [if_neg (by unfold LegalLla at h; push Not; exact h)]
  · simp only [Matrix.cons_val_zero, Matrix.cons_val_one, Matrix.cons_val]
    field_simp
    linear_combination (Real.cos φ ^ 2) * hc - hw2 + hs
  · intro i
    fin_cases i <;> simp <;> ring
  · simp only [Matrix.cons_val_zero, Matrix.cons_val_one, Matrix.cons_val]
    linear_combination (Real.cos φ ^ 2) * hc + hs
  · simp only [Matrix.cons_val_zero]; field_simp
  · simp only [Matrix.cons_val_one, Matrix.cons_val_zero]; field_simp
  · simp only [Matrix.cons_val]; field_simp

/-- In particular at altitude zero the point is on the ellipsoid. -/
theorem C24_surface (x : V3 ℝ) (h : LegalLla x) (h0 : x 2 = 0) :
    ∃ p, llaToEcef x = .ok p ∧ (p 0 ^ 2 + p 1 ^ 2) / wgs84A ^ 2 + p 2 ^ 2 / (wgs84A ^ 2 * (1 - navE2)) = 1 := by
  obtain ⟨p, s, hp, hs, n, hn, _⟩ := C24_ellipsoid x h
  have : p = s := by funext i; rw [hn, h0]; ring
  exact ⟨p, hp, this ▸ hs⟩

/-- An illegal latitude or longitude is *not* rejected with a value or an error: the result is an unwritten vector, also
in every conversion that uses it. -/
theorem C24_illegal_violated (x : V3 ℝ) (h : ¬ LegalLla x) :
    llaToEcef x = .error .uninitialised ∧ (∀ y, ecefToEnu y x = .error .uninitialised) ∧
    (∀ y, enuToEcef y x = .error .uninitialised) ∧ (∀ y, llaToEnu x y = .error .uninitialised) := by
  have hx : llaToEcef x = .error .uninitialised := by
    unfold llaToEcef
    rw [if_pos (by unfold LegalLla at h; by_contra hc; push Not at hc; exact h hc)]
  refine ⟨hx, fun y => ?_, fun y => ?_, fun y => ?_⟩
  · simp only [ecefToEnu, hx]; rfl
  · simp only [enuToEcef, hx]; rfl
  · simp only [llaToEnu, hx]; rfl

/-- A metre count converts to the degrees it subtends on the equator: `2π` radii are 360 degrees. -/
theorem C24_m_to_deg : wgs84MToDeg (2 * Real.pi * wgs84A) = 360 := by
  have : wgs84A ≠ 0 := by unfold wgs84A; norm_num
  have := Real.pi_ne_zero
  unfold wgs84MToDeg degToRad
  field_simp
  norm_num

/-- A legal reference (Aachen) and an illegal one. -/
example : LegalLla ![50.78, 6.05, 173] ∧ ¬ LegalLla ![91, 0, 0] := by
  unfold LegalLla; constructor <;> simp <;> norm_num

end EkfCal
