import Verif.Model.SimStart
import Verif.Lemmas.QuatMat
import Verif.Lemmas.Mat
import Verif.Lemmas.RealPrim
import Mathlib.Analysis.SpecialFunctions.Trigonometric.Bounds
import Mathlib.Analysis.Real.Pi.Bounds
import Mathlib.Tactic.Linarith

/-!
# C75: a simulated run starts off its configured pose and local reference by the configured errors

Shown in part: without errors the start is exact, and positions, roll, pitch, height and heading are off by the configured
error times a standard normal draw.  The error of the yaw angle is never used, the error towards east is scaled as on the
equator, the filter's own uncertainty does not depend on the errors, and an unknown kind of truth is undefined.
-/

namespace EkfCal

/-- A rotation by an angle about the first axis. -/
noncomputable def aboutX (a : ℝ) : M3 ℝ := !![1, 0, 0; 0, Real.cos a, -Real.sin a; 0, Real.sin a, Real.cos a]

/-- A rotation by an angle about the second axis. -/
noncomputable def aboutY (a : ℝ) : M3 ℝ := !![Real.cos a, 0, Real.sin a; 0, 1, 0; -Real.sin a, 0, Real.cos a]

theorem half_angle (a : ℝ) :
    Real.cos a = 1 - 2 * Real.sin (a / 2) ^ 2 ∧ Real.sin a = 2 * Real.sin (a / 2) * Real.cos (a / 2) := by
  have h : a = 2 * (a / 2) := by ring
  refine ⟨?_, ?_⟩
  · have h1 := Real.cos_two_mul (a / 2)
    have h2 := Real.sin_sq_add_cos_sq (a / 2)
    rw [← h] at h1
    linarith
  · have h1 := Real.sin_two_mul (a / 2)
    rwa [← h] at h1

theorem ofAngleAxis_x (a : ℝ) : (Quat.ofAngleAxis a ![1, 0, 0]).toMat = aboutX a ∧ (Quat.ofAngleAxis a ![1, 0, 0]).normSq = 1 := by
  obtain ⟨hc, hs⟩ := half_angle a
  constructor
  · ext i j
    fin_cases i <;> fin_cases j <;> simp [Quat.toMat, Quat.ofAngleAxis, aboutX, hc, hs] <;> ring
  · simp only [Quat.normSq, Quat.ofAngleAxis]
    simp
    have := Real.sin_sq_add_cos_sq (a / 2)
    nlinarith

theorem ofAngleAxis_y (a : ℝ) : (Quat.ofAngleAxis a ![0, 1, 0]).toMat = aboutY a ∧ (Quat.ofAngleAxis a ![0, 1, 0]).normSq = 1 := by
  obtain ⟨hc, hs⟩ := half_angle a
  constructor
  · ext i j
    fin_cases i <;> fin_cases j <;> simp [Quat.toMat, Quat.ofAngleAxis, aboutY, hc, hs] <;> ring
  · simp only [Quat.normSq, Quat.ofAngleAxis]
    simp
    have := Real.sin_sq_add_cos_sq (a / 2)
    nlinarith

theorem simStart_ok_iff {N : Prim ℝ} {p : EkfParams ℝ} {noise : Vec ℝ} {tr : Bool} {ty : String} {err : StartErrors}
    {z : StartDraws} {e : Ekf ℝ} {r : V3 ℝ} {h : ℝ} : simStart N p noise tr ty err z = .ok (e, r, h) ↔
    ty ∈ truthTypes ∧
    e = simFilter N p noise tr (fun i => err.pos i * z.pos i)
      ((Quat.ofAngleAxis (err.ang 0 * z.roll) ![1, 0, 0]).mul (Quat.ofAngleAxis (err.ang 1 * z.pitch) ![0, 1, 0])) ∧
    r = ![p.posEInG 0 + wgs84MToDeg (err.ref 0) * z.ref 0, p.posEInG 1 + wgs84MToDeg (err.ref 1) * z.ref 1,
      p.posEInG 2 + err.ref 2 * z.ref 2] ∧ h = p.angLToE + err.heading * z.heading := by
  simp only [simStart, bind_ok_iff, guardUB_ok_iff, pure_res, Except.ok.injEq, Prod.mk.injEq]
  constructor
  · rintro ⟨_, h, rfl, rfl, rfl⟩; exact ⟨h, rfl, rfl, rfl⟩
  · rintro ⟨h, rfl, rfl, rfl⟩; exact ⟨(), h, rfl, rfl, rfl⟩

/-- **Off by the configured errors**: the filter starts at time 0, at rest (the estimated acceleration is that felt
at rest); its position, the height of the true reference and
the true heading are off by error times draw; its orientation is the configured one turned by the drawn pitch, then roll;
the filter's own reference is the configured one. -/
theorem C75_start_partial (N : Prim ℝ) (p : EkfParams ℝ) (noise : Vec ℝ) (tr : Bool) (ty : String) (err : StartErrors)
    (z : StartDraws) (e : Ekf ℝ) (r : V3 ℝ) (h : ℝ) (hs : simStart N p noise tr ty err z = .ok (e, r, h)) :
    e.currentTime = 0 ∧ e.timeInitialized = true ∧ e.state.body.vel = 0 ∧ e.state.body.acc = gravity ∧
    e.state.body.angVel = 0 ∧ e.state.body.angAcc = 0 ∧
    (∀ i, e.state.body.pos i = p.posBInL i + err.pos i * z.pos i) ∧
    (p.angBToL.normSq = 1 → e.state.body.ang.toMat =
      aboutX (err.ang 0 * z.roll) * (aboutY (err.ang 1 * z.pitch) * p.angBToL.toMat)) ∧
    e.posEInG = p.posEInG ∧ e.angLToE = p.angLToE ∧
    r 2 = e.posEInG 2 + err.ref 2 * z.ref 2 ∧ h = e.angLToE + err.heading * z.heading := by
  obtain ⟨_, rfl, rfl, rfl⟩ := simStart_ok_iff.mp hs
  refine ⟨rfl, rfl, rfl, rfl, rfl, rfl, fun i => rfl, fun hn => ?_, rfl, rfl, rfl, rfl⟩
  obtain ⟨hx, nx⟩ := ofAngleAxis_x (err.ang 0 * z.roll)
  obtain ⟨hy, ny⟩ := ofAngleAxis_y (err.ang 1 * z.pitch)
  show (Quat.mul (Quat.mul _ _) p.angBToL).toMat = _
  have nxy : ((Quat.ofAngleAxis (err.ang 0 * z.roll) ![1, 0, 0]).mul (Quat.ofAngleAxis (err.ang 1 * z.pitch) ![0, 1, 0])).normSq = 1 := by
    rw [Quat.normSq_mul, nx, ny, _root_.mul_one]
  rw [← Quat.toMat_mul nxy hn, ← Quat.toMat_mul nx ny, hx, hy, Matrix.mul_assoc]

/-- **Without errors the start is exact**, whatever is drawn. -/
theorem C75_exact_partial (N : Prim ℝ) (p : EkfParams ℝ) (noise : Vec ℝ) (tr : Bool) (ty : String) (hty : ty ∈ truthTypes)
    (z : StartDraws) : ∃ e, simStart N p noise tr ty ⟨0, 0, 0, 0⟩ z = .ok (e, p.posEInG, p.angLToE) ∧
      e.state.body.pos = p.posBInL ∧ e.state.body.ang = p.angBToL := by
  refine ⟨_, simStart_ok_iff.mpr ⟨hty, rfl, ?_, by simp⟩, ?_, ?_⟩
  · ext i; fin_cases i <;> simp [wgs84MToDeg]
  · funext i
    show p.posBInL i + 0 * z.pos i = _
    ring
  · show Quat.mul (Quat.mul (Quat.ofAngleAxis ((0 : V3 ℝ) 0 * z.roll) _) (Quat.ofAngleAxis ((0 : V3 ℝ) 1 * z.pitch) _)) p.angBToL = _
    simp [Quat.ofAngleAxis, Quat.mul]

/-- All three kinds of truth are started. -/
example : "cyclic" ∈ truthTypes ∧ "smoother" ∈ truthTypes ∧ "spline" ∈ truthTypes := by simp [truthTypes]

/-- **The configured error of the yaw angle has no effect**: with no other error of the angles, the filter starts with exactly
the configured orientation, whatever the error and whatever is drawn. -/
theorem C75_yaw_violated (N : Prim ℝ) (p : EkfParams ℝ) (noise : Vec ℝ) (tr : Bool) (ty : String) (err : StartErrors) (σ : ℝ)
    (ha : err.ang = ![0, 0, σ]) (z : StartDraws) (e : Ekf ℝ) (r : V3 ℝ) (h : ℝ)
    (hs : simStart N p noise tr ty err z = .ok (e, r, h)) : e.state.body.ang = p.angBToL := by
  obtain ⟨_, rfl, rfl, rfl⟩ := simStart_ok_iff.mp hs
  show Quat.mul (Quat.mul (Quat.ofAngleAxis (err.ang 0 * z.roll) _) (Quat.ofAngleAxis (err.ang 1 * z.pitch) _)) p.angBToL = _
  rw [ha]
  simp [Quat.ofAngleAxis, Quat.mul]

/-- **The filter is not told how uncertain its start is**: its covariance is the same whatever the configured errors. -/
theorem C75_uncertainty_violated (N : Prim ℝ) (p : EkfParams ℝ) (noise : Vec ℝ) (tr : Bool) (ty : String) (err err' : StartErrors)
    (z z' : StartDraws) (e e' : Ekf ℝ) (r r' : V3 ℝ) (h h' : ℝ) (hs : simStart N p noise tr ty err z = .ok (e, r, h))
    (hs' : simStart N p noise tr ty err' z' = .ok (e', r', h')) : e.cov = e'.cov := by
  obtain ⟨_, rfl, _⟩ := simStart_ok_iff.mp hs
  obtain ⟨_, rfl, _⟩ := simStart_ok_iff.mp hs'
  rfl

/-- **An unknown kind of truth is undefined**, for every configuration. -/
theorem C75_type_violated (N : Prim ℝ) (p : EkfParams ℝ) (noise : Vec ℝ) (tr : Bool) (ty : String) (hty : ty ∉ truthTypes)
    (err : StartErrors) (z : StartDraws) : simStart N p noise tr ty err z = .error .uninitialised := by
  simp [simStart, guardUB, hty, bind, Except.bind]

/-- A misspelt kind. -/
example : "Cyclic" ∉ truthTypes := by simp [truthTypes]

theorem navE2_bounds : 0 < navE2 ∧ navE2 < 1 / 100 := by
  simp only [navE2, wgs84F]; constructor <;> norm_num

/-- The distance of two points of the same latitude on the ellipsoid. -/
theorem parallel_dist {lat l m : ℝ} {x y : V3 ℝ} (hx : llaToEcef ![lat, l, 0] = .ok x) (hy : llaToEcef ![lat, m, 0] = .ok y) :
    (y 0 - x 0) ^ 2 + (y 1 - x 1) ^ 2 + (y 2 - x 2) ^ 2 ≤
      (wgs84A ^ 2 / (1 - navE2)) * Real.cos (degToRad lat) ^ 2 * degToRad (m - l) ^ 2 := by
  simp only [llaToEcef] at hx hy
  split_ifs at hx
  split_ifs at hy
  cases hx; cases hy
  have h20 : ∀ a b c : ℝ, (![a, b, c] : V3 ℝ) 2 = c := fun _ _ _ => rfl
  simp only [Matrix.cons_val_zero, Matrix.cons_val_one, h20, add_zero, sub_self]
  obtain ⟨n0, n1⟩ := navE2_bounds
  have hs := Real.sin_sq_add_cos_sq (degToRad lat)
  generalize hS : Real.sin (degToRad lat) = S at *
  generalize Real.cos (degToRad lat) = C at *
  have hS1 : S * S ≤ 1 := by nlinarith [sq_nonneg C]
  have hd : 0 < 1 - navE2 := by linarith
  have hd2 : 1 - navE2 ≤ 1 - navE2 * S * S := by nlinarith
  have hr : (wgs84A / √(1 - navE2 * S * S)) ^ 2 ≤ wgs84A ^ 2 / (1 - navE2) := by
    rw [div_pow, Real.sq_sqrt (by linarith)]
    exact div_le_div_of_nonneg_left (sq_nonneg _) hd hd2
  have hcos := Real.one_sub_sq_div_two_le_cos (x := degToRad (m - l))
  have hsub : degToRad (m - l) = degToRad m - degToRad l := by simp only [degToRad]; ring
  rw [hsub, Real.cos_sub] at hcos
  rw [hsub]
  generalize degToRad m = b at *
  generalize degToRad l = a at *
  have ha := Real.sin_sq_add_cos_sq a
  have hb := Real.sin_sq_add_cos_sq b
  generalize wgs84A / √(1 - navE2 * S * S) = R at *
  generalize wgs84A ^ 2 / (1 - navE2) = Q at *
  have e1 : (R * C * Real.cos b - R * C * Real.cos a) ^ 2 + (R * C * Real.sin b - R * C * Real.sin a) ^ 2 + 0 ^ 2 =
      R ^ 2 * C ^ 2 * (2 - 2 * (Real.cos b * Real.cos a + Real.sin b * Real.sin a)) := by
    linear_combination R ^ 2 * C ^ 2 * ha + R ^ 2 * C ^ 2 * hb
  rw [e1]
  have h1 : R ^ 2 * C ^ 2 * (2 - 2 * (Real.cos b * Real.cos a + Real.sin b * Real.sin a)) ≤ R ^ 2 * C ^ 2 * (b - a) ^ 2 :=
    mul_le_mul_of_nonneg_left (by linarith) (by positivity)
  have h2 : R ^ 2 * C ^ 2 * (b - a) ^ 2 ≤ Q * C ^ 2 * (b - a) ^ 2 :=
    mul_le_mul_of_nonneg_right (mul_le_mul_of_nonneg_right hr (sq_nonneg _)) (sq_nonneg _)
  exact h1.trans h2

/-- **The error towards east is too small away from the equator**: at a latitude of 60 degrees the true reference is nearer to
the configured one than 0.51 times the drawn error, whatever the error and the draw up to 1000 km. -/
theorem C75_east_violated (N : Prim ℝ) (p : EkfParams ℝ) (noise : Vec ℝ) (tr : Bool) (ty : String) (hty : ty ∈ truthTypes)
    (hp : p.posEInG = ![60, 0, 0]) (err : StartErrors) (σ : ℝ) (he : err.ref = ![0, σ, 0]) (z : StartDraws)
    (hz : |σ * z.ref 1| ≤ 10 ^ 6) :
    ∃ e r h x y, simStart N p noise tr ty err z = .ok (e, r, h) ∧ llaToEcef p.posEInG = .ok x ∧ llaToEcef r = .ok y ∧
      (y 0 - x 0) ^ 2 + (y 1 - x 1) ^ 2 + (y 2 - x 2) ^ 2 ≤ (51 / 100 * (σ * z.ref 1)) ^ 2 := by
  have hA : wgs84A = 6378137 := rfl
  have hpi := Real.pi_gt_three
  have hden : (0 : ℝ) < degToRad wgs84A := by simp only [degToRad, hA]; positivity
  have hlon : |wgs84MToDeg σ * z.ref 1| ≤ 10 := by
    have : wgs84MToDeg σ * z.ref 1 = σ * z.ref 1 / degToRad wgs84A := by simp only [wgs84MToDeg]; ring
    rw [this, abs_div, abs_of_pos hden, div_le_iff₀ hden]
    refine hz.trans ?_
    simp only [degToRad, hA]
    linarith
  have hab := abs_le.mp hlon
  have hr : ∀ l : ℝ, |l| ≤ 10 → ∃ x, llaToEcef ![60, l, 0] = .ok x := by
    intro l hl
    have := abs_le.mp hl
    have hc : ¬ ((![60, l, 0] : V3 ℝ) 0 < -90 ∨ (![60, l, 0] : V3 ℝ) 0 > 90 ∨ (![60, l, 0] : V3 ℝ) 1 < -180 ∨ (![60, l, 0] : V3 ℝ) 1 > 180) := by
      simp only [Matrix.cons_val_zero, Matrix.cons_val_one, not_or, not_lt, gt_iff_lt]
      exact ⟨by norm_num, by norm_num, by linarith, by linarith⟩
    rw [llaToEcef, if_neg hc]
    exact ⟨_, rfl⟩
  obtain ⟨x, hx⟩ := hr 0 (by norm_num)
  obtain ⟨y, hy⟩ := hr _ hlon
  refine ⟨_, ![60, wgs84MToDeg σ * z.ref 1, 0], _, x, y, simStart_ok_iff.mpr ⟨hty, rfl, ?_, rfl⟩, by rw [hp]; exact hx, hy, ?_⟩
  · rw [hp, he]; ext i; fin_cases i <;> simp [wgs84MToDeg]
  · refine (parallel_dist hx hy).trans ?_
    have hcos : Real.cos (degToRad 60) = 1 / 2 := by
      rw [show degToRad 60 = Real.pi / 3 by simp only [degToRad]; ring]; exact Real.cos_pi_div_three
    have hdeg : degToRad (wgs84MToDeg σ * z.ref 1 - 0) = σ * z.ref 1 / wgs84A := by
      simp only [wgs84MToDeg, degToRad, hA]
      field_simp
      ring
    rw [hcos, hdeg]
    obtain ⟨n0, n1⟩ := navE2_bounds
    have hd : 0 < 1 - navE2 := by linarith
    have : wgs84A ^ 2 / (1 - navE2) * (1 / 2) ^ 2 * (σ * z.ref 1 / wgs84A) ^ 2 = (1 / (4 * (1 - navE2))) * (σ * z.ref 1) ^ 2 := by
      rw [hA]; field_simp; ring
    rw [this]
    have hk : 1 / (4 * (1 - navE2)) ≤ (51 / 100) ^ 2 := by
      rw [div_le_iff₀ (by linarith)]
      linarith
    refine (mul_le_mul_of_nonneg_right hk (sq_nonneg (σ * z.ref 1))).trans' (le_of_eq (by ring)) |>.trans (le_of_eq (by ring))

/-- Such a configuration, and one with errors of every kind. -/
example : ∃ (p : EkfParams ℝ) (err err' : StartErrors) (z : StartDraws), p.posEInG = ![60, 0, 0] ∧ p.angBToL.normSq = 1 ∧
    err.ref = ![0, 100, 0] ∧ |100 * z.ref 1| ≤ 10 ^ 6 ∧ z.ref 1 ≠ 0 ∧ err'.ang = ![0, 0, 3 / 10] ∧
    ∃ x, simStart realPrim p ⟨bodySize, 0⟩ true "spline" err' z = .ok x := by
  refine ⟨⟨.all, 1, 1, 1, ⟨bodySize, 0⟩, 0, Quat.one, ![60, 0, 0], 0, .constant, 1, 1, 1, 1, 1, true, false⟩, ⟨0, 0, ![0, 100, 0], 0⟩, ⟨![1, 1, 1], ![0, 0, 3 / 10], ![1, 1, 1], 1 / 10⟩,
    ⟨![1, 2, 3], 1, 2, ![1, 2, 3], 1⟩, rfl, ?_, rfl, ?_, ?_, rfl, ⟨_, simStart_ok_iff.mpr ⟨by simp [truthTypes], rfl, rfl, rfl⟩⟩⟩
  · simp [Quat.normSq, Quat.one]
  · rw [abs_le]; constructor <;> norm_num
  · norm_num

end EkfCal
