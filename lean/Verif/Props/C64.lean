import Verif.Spec.Baseline
import Verif.Spec.GpsEvidence
import Verif.Lemmas.Mat
import Verif.Lemmas.Geodetic
import Verif.Lemmas.Align
import Verif.Props.C20
import Verif.Props.C39
import Mathlib.Tactic.Linarith
import Mathlib.Tactic.NormNum
import Mathlib.Tactic.Ring

/-!
# C64: the GPS baseline is the greatest distance between fixes
-/

namespace EkfCal

/-! ## The largest of a list -/

theorem foldl_max {β : Type} (g : β → ℝ) (l : List β) (m : ℝ) :
    m ≤ l.foldl (fun m b => if g b > m then g b else m) m ∧
    (∀ b ∈ l, g b ≤ l.foldl (fun m b => if g b > m then g b else m) m) ∧
    (l.foldl (fun m b => if g b > m then g b else m) m = m ∨ ∃ b ∈ l, l.foldl (fun m b => if g b > m then g b else m) m = g b) := by
  induction l generalizing m with
  | nil => exact ⟨le_refl _, by simp, .inl rfl⟩
  | cons a l ih =>
    rw [List.foldl_cons]
    obtain ⟨h1, h2, h3⟩ := ih (if g a > m then g a else m)
    have hm : m ≤ (if g a > m then g a else m) ∧ g a ≤ (if g a > m then g a else m) := by
      split
      · rename_i h; exact ⟨le_of_lt h, le_refl _⟩
      · rename_i h; exact ⟨le_refl _, not_lt.1 h⟩
    refine ⟨hm.1.trans h1, ?_, ?_⟩
    · intro b hb
      rcases List.mem_cons.1 hb with rfl | hb
      · exact hm.2.trans h1
      · exact h2 b hb
    · rcases h3 with h3 | ⟨b, hb, h3⟩
      · rw [h3]
        by_cases hc : g a > m
        · exact .inr ⟨a, by simp, if_pos hc⟩
        · exact .inl (if_neg hc)
      · exact .inr ⟨b, by simp [hb], h3⟩

theorem foldl_max2 (h l : List (ℤ × ℤ)) (m : ℝ) :
    let r := l.foldl (fun m a => h.foldl (fun m b => if pointDist a b > m then pointDist a b else m) m) m
    m ≤ r ∧ (∀ a ∈ l, ∀ b ∈ h, pointDist a b ≤ r) ∧ (r = m ∨ ∃ a ∈ l, ∃ b ∈ h, r = pointDist a b) := by
  dsimp only
  induction l generalizing m with
  | nil => exact ⟨le_refl _, by simp, .inl rfl⟩
  | cons a l ih =>
    rw [List.foldl_cons]
    obtain ⟨h1, h2, h3⟩ := ih (h.foldl (fun m b => if pointDist a b > m then pointDist a b else m) m)
    obtain ⟨k1, k2, k3⟩ := foldl_max (pointDist a) h m
    refine ⟨k1.trans h1, ?_, ?_⟩
    · intro c hc b hb
      rcases List.mem_cons.1 hc with rfl | hc
      · exact (k2 b hb).trans h1
      · exact h2 c hc b hb
    · rcases h3 with h3 | ⟨c, hc, b, hb, h3⟩
      · rw [h3]
        rcases k3 with k3 | ⟨b, hb, k3⟩
        · exact .inl k3
        · exact .inr ⟨a, by simp, b, hb, k3⟩
      · exact .inr ⟨c, by simp [hc], b, hb, h3⟩

theorem pointDist_dist (a b : ℤ × ℤ) : pointDist a b = dist (planePoint a) (planePoint b) := by
  rw [Complex.dist_eq_re_im, pointDist]
  simp [planePoint]

/-- The hull's diameter is the diameter of all points. -/
theorem hull_diameter {hull : List (ℤ × ℤ) → List (ℤ × ℤ)} (hh : HullLaw hull) (pts : List (ℤ × ℤ)) :
    (∀ a ∈ pts, ∀ b ∈ pts, pointDist a b ≤ hullDiameter (hull pts)) ∧
    (pts ≠ [] → ∃ a ∈ pts, ∃ b ∈ pts, hullDiameter (hull pts) = pointDist a b) := by
  obtain ⟨h1, h2⟩ := hh pts
  obtain ⟨k0, k1, k2⟩ := foldl_max2 (hull pts) (hull pts) 0
  refine ⟨fun a ha b hb => ?_, fun hne => ?_⟩
  · obtain ⟨x, ⟨p, hp, rfl⟩, y, ⟨q, hq, rfl⟩, hd⟩ := convexHull_exists_dist_ge2 (h2 a ha) (h2 b hb)
    rw [pointDist_dist]
    refine hd.trans ?_
    rw [← pointDist_dist]
    exact k1 p hp q hq
  · rcases k2 with k2 | ⟨a, ha, b, hb, k2⟩
    · obtain ⟨a, ha⟩ := List.exists_mem_of_ne_nil _ hne
      refine ⟨a, ha, a, ha, k2.trans ?_⟩
      rw [pointDist_dist, dist_self]
    · exact ⟨a, h1 a ha, b, h1 b hb, k2⟩

/-! ## Truncation -/

/-- Truncation lengthens a difference by less than one and shortens it by less than two. -/
theorem toInt_diff {x y : ℝ} {m n : ℤ} (hx : toInt x = .ok m) (hy : toInt y = .ok n) :
    |(m : ℝ) - n| < |x - y| + 1 ∧ |x - y| < |(m : ℝ) - n| + 2 := by
  have frac : ∀ {x : ℝ} {m : ℤ}, toInt x = .ok m → (0 ≤ x ∧ (m : ℝ) ≤ x ∧ x < m + 1 ∧ (0 : ℝ) ≤ m) ∨ (x < 0 ∧ x ≤ (m : ℝ) ∧ (m : ℝ) - 1 < x ∧ (m : ℝ) ≤ 0) := by
    intro x m h
    unfold toInt at h
    dsimp only at h
    by_cases hx : 0 ≤ x
    · rw [if_pos hx] at h
      split at h
      · cases h
        exact .inl ⟨hx, Int.floor_le x, Int.lt_floor_add_one x, by exact_mod_cast Int.floor_nonneg.2 hx⟩
      · cases h
    · rw [if_neg hx] at h
      split at h
      · cases h
        have : ⌈x⌉ ≤ 0 := Int.ceil_le.2 (by push_cast; linarith [not_le.1 hx])
        exact .inr ⟨not_le.1 hx, Int.le_ceil x, by linarith [Int.ceil_lt_add_one x], by exact_mod_cast this⟩
      · cases h
  rcases frac hx with ⟨a1, a2, a3, a4⟩ | ⟨a1, a2, a3, a4⟩ <;> rcases frac hy with ⟨b1, b2, b3, b4⟩ | ⟨b1, b2, b3, b4⟩ <;>
    constructor <;> rcases abs_cases ((m : ℝ) - n) with ⟨e1, _⟩ | ⟨e1, _⟩ <;> rcases abs_cases (x - y) with ⟨e2, _⟩ | ⟨e2, _⟩ <;>
    rw [e1, e2] <;> linarith

/-- Lengthening both legs by less than `c` lengthens the distance by less than `c √2`. -/
theorem sqrt_legs {a b a' b' c : ℝ} (hc : 0 < c) (ha : |a'| < |a| + c) (hb : |b'| < |b| + c) : √(a' ^ 2 + b' ^ 2) < √(a ^ 2 + b ^ 2) + c * √2 := by
  have h2 : √2 * √2 = 2 := Real.mul_self_sqrt (by norm_num)
  have h20 : 0 < √2 := Real.sqrt_pos.2 (by norm_num)
  have hS := Real.mul_self_sqrt (show 0 ≤ a ^ 2 + b ^ 2 by positivity)
  have hS0 := Real.sqrt_nonneg (a ^ 2 + b ^ 2)
  have hab : |a| + |b| ≤ √2 * √(a ^ 2 + b ^ 2) := by
    rw [← Real.sqrt_mul (by norm_num)]
    refine Real.le_sqrt_of_sq_le ?_
    nlinarith [sq_nonneg (|a| - |b|), sq_abs a, sq_abs b]
  refine (Real.sqrt_lt' (by positivity)).2 ?_
  have h1 : a' ^ 2 < (|a| + c) ^ 2 := by rw [← sq_abs a']; exact pow_lt_pow_left₀ ha (abs_nonneg _) (by norm_num)
  have h3 : b' ^ 2 < (|b| + c) ^ 2 := by rw [← sq_abs b']; exact pow_lt_pow_left₀ hb (abs_nonneg _) (by norm_num)
  have e : (√(a ^ 2 + b ^ 2) + c * √2) ^ 2 = (a ^ 2 + b ^ 2) + 2 * c * (√2 * √(a ^ 2 + b ^ 2)) + c ^ 2 * 2 := by
    linear_combination hS + c ^ 2 * h2
  rw [e]
  nlinarith [sq_abs a, sq_abs b, mul_le_mul_of_nonneg_left hab (by linarith : (0 : ℝ) ≤ 2 * c)]

theorem toPoint_dist {u v : V3 ℝ} {p q : ℤ × ℤ} (hu : toPoint u = .ok p) (hv : toPoint v = .ok q) :
    pointDist p q < planarDist u v + √2 ∧ planarDist u v < pointDist p q + 2 * √2 := by
  unfold toPoint at hu hv
  obtain ⟨p1, g1, hu⟩ := bind_ok_iff.1 hu
  obtain ⟨p2, g2, hu⟩ := bind_ok_iff.1 hu
  obtain ⟨q1, g3, hv⟩ := bind_ok_iff.1 hv
  obtain ⟨q2, g4, hv⟩ := bind_ok_iff.1 hv
  cases hu
  cases hv
  obtain ⟨a1, a2⟩ := toInt_diff g1 g3
  obtain ⟨b1, b2⟩ := toInt_diff g2 g4
  unfold pointDist planarDist
  push_cast
  refine ⟨?_, ?_⟩
  · have := sqrt_legs one_pos a1 b1
    rwa [one_mul] at this
  · exact sqrt_legs two_pos a2 b2

theorem mapM_points {vs : List (V3 ℝ)} {pts : List (ℤ × ℤ)} (h : vs.mapM toPoint = .ok pts) :
    (∀ v ∈ vs, ∃ p ∈ pts, toPoint v = .ok p) ∧ (∀ p ∈ pts, ∃ v ∈ vs, toPoint v = .ok p) := by
  induction vs generalizing pts with
  | nil => cases h; simp
  | cons v vs ih =>
    rw [List.mapM_cons] at h
    obtain ⟨p, g1, h⟩ := bind_ok_iff.1 h
    obtain ⟨ps, g2, h⟩ := bind_ok_iff.1 h
    cases h
    obtain ⟨k1, k2⟩ := ih g2
    refine ⟨fun w hw => ?_, fun q hq => ?_⟩
    · rcases List.mem_cons.1 hw with rfl | hw
      · exact ⟨p, by simp, g1⟩
      · obtain ⟨q, hq, g⟩ := k1 w hw
        exact ⟨q, by simp [hq], g⟩
    · rcases List.mem_cons.1 hq with rfl | hq
      · exact ⟨v, by simp, g1⟩
      · obtain ⟨w, hw, g⟩ := k2 q hq
        exact ⟨w, by simp [hw], g⟩

/-! ## The property -/

/-- **The measured baseline is the greatest horizontal distance up to truncation**: it exceeds the greatest distance between any two
positions by less than `√2` and falls short of it by less than `2 √2` metres. -/
theorem C64_baseline_partial (hull : List (ℤ × ℤ) → List (ℤ × ℤ)) (hh : HullLaw hull) (vs : List (V3 ℝ)) (m D : ℝ)
    (h : maximumDistance hull vs = .ok m) (hD : IsBaseline vs D) : m < D + √2 ∧ D < m + 2 * √2 := by
  unfold maximumDistance at h
  obtain ⟨pts, g, h⟩ := bind_ok_iff.1 h
  cases h
  obtain ⟨k1, k2⟩ := mapM_points g
  obtain ⟨d1, d2⟩ := hull_diameter hh pts
  obtain ⟨⟨u, hu, v, hv, rfl⟩, hmax⟩ := hD
  obtain ⟨p, hp, gp⟩ := k1 u hu
  obtain ⟨q, hq, gq⟩ := k1 v hv
  refine ⟨?_, (toPoint_dist gp gq).2.trans_le (by linarith [d1 p hp q hq])⟩
  obtain ⟨a, ha, b, hb, e⟩ := d2 (List.ne_nil_of_mem hp)
  obtain ⟨x, hx, gx⟩ := k2 a ha
  obtain ⟨y, hy, gy⟩ := k2 b hb
  rw [e]
  linarith [(toPoint_dist gx gy).1, hmax x hx y hy]

/-- **A reference set on the baseline criterion has that baseline**, up to `√2`: when the evidence counts by the baseline, two of the
fixes, in the frame of their average, are more than the configured distance less `√2` apart horizontally. -/
theorem C64_evidence_partial (svd : M2 → M2 × M2) (hull : List (ℤ × ℤ) → List (ℤ × ℤ)) (hh : HullLaw hull) (p : EkfParams ℝ)
    (hp : p.gpsInitType = .baselineDist) (thr : ℝ) (xyz ecef : List (V3 ℝ)) (f : Ekf.GpsFit ℝ)
    (h : gpsFit svd hull thr xyz ecef = .ok f) (hev : Evidence p ecef.length f) :
    ∃ ref refLla enu, averageVectors ecef = .ok ref ∧ ecefToLla ref = .ok refLla ∧ ecef.mapM (fun x => ecefToEnu x refLla) = .ok enu ∧
      ∃ u ∈ enu, ∃ v ∈ enu, p.gpsInitBaselineDist - √2 < planarDist u v := by
  unfold gpsFit at h
  obtain ⟨ref, g1, h⟩ := bind_ok_iff.1 h
  obtain ⟨refLla, g2, h⟩ := bind_ok_iff.1 h
  obtain ⟨enu, g3, h⟩ := bind_ok_iff.1 h
  obtain ⟨al, g4, h⟩ := bind_ok_iff.1 h
  obtain ⟨dist, g5, h⟩ := bind_ok_iff.1 h
  have hd : f.maxDist = dist := by
    cases al with
    | none => cases h; rfl
    | some al => obtain ⟨pos, g6, h⟩ := bind_ok_iff.1 h; cases h; rfl
  refine ⟨ref, refLla, enu, g1, g2, g3, ?_⟩
  obtain ⟨hn, hev⟩ := hev
  rw [hp] at hev
  simp only at hev
  rw [hd] at hev
  unfold maximumDistance at g5
  obtain ⟨pts, gp, g5⟩ := bind_ok_iff.1 g5
  cases g5
  obtain ⟨k1, k2⟩ := mapM_points gp
  have hne : enu ≠ [] := by
    intro h0
    subst h0
    cases ecef with
    | nil => simp at hn
    | cons x xs =>
      rw [List.mapM_cons] at g3
      obtain ⟨y, _, g3⟩ := bind_ok_iff.1 g3
      obtain ⟨ys, _, g3⟩ := bind_ok_iff.1 g3
      cases g3
  obtain ⟨w, hw⟩ := List.exists_mem_of_ne_nil _ hne
  obtain ⟨q, hq, _⟩ := k1 w hw
  obtain ⟨a, ha, b, hb, e⟩ := (hull_diameter hh pts).2 (List.ne_nil_of_mem hq)
  obtain ⟨x, hx, gx⟩ := k2 a ha
  obtain ⟨y, hy, gy⟩ := k2 b hb
  refine ⟨x, hx, y, hy, ?_⟩
  linarith [(toPoint_dist gx gy).1]

/-! ## Violations -/

theorem toInt_of {x : ℝ} {n : ℤ} (h0 : 0 ≤ x) (h1 : (n : ℝ) ≤ x) (h2 : x < n + 1) (h3 : n < 2 ^ 31) : toInt x = .ok n := by
  have hf : ⌊x⌋ = n := Int.floor_eq_iff.2 ⟨h1, h2⟩
  have hn : 0 ≤ n := by rw [← hf]; exact Int.floor_nonneg.2 h0
  unfold toInt
  dsimp only
  rw [if_pos h0, hf, if_pos ⟨by linarith [show (-2 ^ 31 : ℤ) < 0 by norm_num], h3⟩]

theorem toInt_neg_of {x : ℝ} {n : ℤ} (h0 : x < 0) (h1 : (n : ℝ) - 1 < x) (h2 : x ≤ n) (h3 : -2 ^ 31 ≤ n) (h4 : n < 2 ^ 31) : toInt x = .ok n := by
  have hf : ⌈x⌉ = n := Int.ceil_eq_iff.2 ⟨h1, h2⟩
  unfold toInt
  dsimp only
  rw [if_neg (not_le.2 h0), hf, if_pos ⟨h3, h4⟩]

/-- Keeping all points is a hull. -/
theorem hullLaw_id : HullLaw id := fun _ => ⟨fun _ h => h, fun p hp => subset_convexHull ℝ _ ⟨p, hp, rfl⟩⟩

theorem maximumDistance_pair {hull : List (ℤ × ℤ) → List (ℤ × ℤ)} (hh : HullLaw hull) {u v : V3 ℝ} {p q : ℤ × ℤ} (hu : toPoint u = .ok p)
    (hv : toPoint v = .ok q) : maximumDistance hull [u, v] = .ok (pointDist p q) := by
  have hm : [u, v].mapM toPoint = .ok [p, q] := by
    simp only [List.mapM_cons, List.mapM_nil, hu, hv]; rfl
  unfold maximumDistance
  rw [hm]
  obtain ⟨d1, d2⟩ := hull_diameter hh [p, q]
  show Except.ok _ = _
  congr 1
  obtain ⟨a, ha, b, hb, e⟩ := d2 (by simp)
  have s : pointDist q p = pointDist p q := by rw [pointDist_dist, pointDist_dist, dist_comm]
  have z : ∀ x, pointDist x x = 0 := fun x => by rw [pointDist_dist, dist_self]
  have hpq := d1 p (by simp) q (by simp)
  have h0 : 0 ≤ pointDist p q := by rw [pointDist_dist]; exact dist_nonneg
  rw [e] at hpq ⊢
  simp only [List.mem_cons, List.not_mem_nil, or_false] at ha hb
  rcases ha with rfl | rfl <;> rcases hb with rfl | rfl
  · rw [z] at hpq ⊢; linarith
  · rfl
  · exact s
  · rw [z] at hpq ⊢; linarith

/-- **Violated**: the measured baseline is not the greatest distance.  For every hull function, two positions more than 2.6 metres
apart are measured as no distance at all, and two positions less than two millimetres apart as more than 1.4 metres. -/
theorem C64_violated (hull : List (ℤ × ℤ) → List (ℤ × ℤ)) (hh : HullLaw hull) :
    (∃ u v : V3 ℝ, 26 / 10 < planarDist u v ∧ maximumDistance hull [u, v] = .ok 0) ∧
    (∃ (u v : V3 ℝ) (m : ℝ), planarDist u v < 2 / 1000 ∧ maximumDistance hull [u, v] = .ok m ∧ 14 / 10 < m) := by
  refine ⟨⟨![-95 / 100, -95 / 100, 0], ![95 / 100, 95 / 100, 0], ?_, ?_⟩, ⟨![999 / 1000, 999 / 1000, 0], ![1, 1, 0], √2, ?_, ?_, ?_⟩⟩
  · unfold planarDist
    refine Real.lt_sqrt_of_sq_lt ?_
    simp; norm_num
  · have h1 : toPoint ![-95 / 100, -95 / 100, 0] = .ok (0, 0) := by
      unfold toPoint
      have : toInt (-95 / 100) = .ok 0 := toInt_neg_of (by norm_num) (by norm_num) (by norm_num) (by norm_num) (by norm_num)
      show (do let a ← toInt (-95 / 100); let b ← toInt (-95 / 100); pure (a, b)) = _
      rw [this]; rfl
    have h2 : toPoint ![95 / 100, 95 / 100, 0] = .ok (0, 0) := by
      unfold toPoint
      have : toInt (95 / 100) = .ok 0 := toInt_of (by norm_num) (by norm_num) (by norm_num) (by norm_num)
      show (do let a ← toInt (95 / 100); let b ← toInt (95 / 100); pure (a, b)) = _
      rw [this]; rfl
    rw [maximumDistance_pair hh h1 h2, pointDist_dist, dist_self]
  · unfold planarDist
    refine (Real.sqrt_lt' (by norm_num)).2 ?_
    simp; norm_num
  · have h1 : toPoint ![999 / 1000, 999 / 1000, 0] = .ok (0, 0) := by
      unfold toPoint
      have : toInt (999 / 1000) = .ok 0 := toInt_of (by norm_num) (by norm_num) (by norm_num) (by norm_num)
      show (do let a ← toInt (999 / 1000); let b ← toInt (999 / 1000); pure (a, b)) = _
      rw [this]; rfl
    have h2 : toPoint ![1, 1, 0] = .ok (1, 1) := by
      unfold toPoint
      have : toInt 1 = .ok 1 := toInt_of (by norm_num) (by norm_num) (by norm_num) (by norm_num)
      show (do let a ← toInt 1; let b ← toInt 1; pure (a, b)) = _
      rw [this]; rfl
    rw [maximumDistance_pair hh h1 h2, pointDist]
    congr 2
    norm_num
  · exact Real.lt_sqrt_of_sq_lt (by norm_num)

/-- **Height does not count**: positions above one another have no baseline, however far apart. -/
theorem C64_height_violated (hull : List (ℤ × ℤ) → List (ℤ × ℤ)) (hh : HullLaw hull) (z : ℝ) :
    maximumDistance hull [![0, 0, 0], ![0, 0, z]] = .ok 0 := by
  have h0 : toInt 0 = .ok 0 := toInt_of (le_refl _) (by norm_num) (by norm_num) (by norm_num)
  have h1 : ∀ z : ℝ, toPoint ![0, 0, z] = .ok (0, 0) := fun z => by
    show (do let a ← toInt 0; let b ← toInt 0; pure (a, b)) = _
    rw [h0]; rfl
  rw [maximumDistance_pair hh (h1 0) (h1 z), pointDist_dist, dist_self]

/-- The hypotheses of `C64_baseline_partial` are met: two positions five metres apart, measured exactly. -/
example : HullLaw id ∧ IsBaseline [![0, 0, 0], ![3, 4, 0]] 5 ∧ maximumDistance id [![0, 0, 0], ![3, 4, 0]] = .ok 5 := by
  have h5 : √(25 : ℝ) = 5 := by rw [show (25 : ℝ) = 5 ^ 2 by norm_num]; exact Real.sqrt_sq (by norm_num)
  refine ⟨hullLaw_id, ⟨⟨![0, 0, 0], by simp, ![3, 4, 0], by simp, ?_⟩, ?_⟩, ?_⟩
  · rw [planarDist, ← h5]; congr 1; simp; norm_num
  · intro u hu v hv
    simp only [List.mem_cons, List.not_mem_nil, or_false] at hu hv
    rcases hu with rfl | rfl <;> rcases hv with rfl | rfl <;> rw [planarDist, ← h5] <;> apply Real.sqrt_le_sqrt <;> simp <;> norm_num
  · have h0 : toInt 0 = .ok 0 := toInt_of (le_refl _) (by norm_num) (by norm_num) (by norm_num)
    have h3 : toInt 3 = .ok 3 := toInt_of (by norm_num) (by norm_num) (by norm_num) (by norm_num)
    have h4 : toInt 4 = .ok 4 := toInt_of (by norm_num) (by norm_num) (by norm_num) (by norm_num)
    have g0 : toPoint ![0, 0, 0] = .ok (0, 0) := by
      show (do let a ← toInt 0; let b ← toInt 0; pure (a, b)) = _
      rw [h0]; rfl
    have g1 : toPoint ![3, 4, 0] = .ok (3, 4) := by
      show (do let a ← toInt 3; let b ← toInt 4; pure (a, b)) = _
      rw [h3, h4]; rfl
    rw [maximumDistance_pair hullLaw_id g0 g1, pointDist, ← h5]
    congr 2
    norm_num

/-! ## A complete initialisation -/

namespace FitSample

/-- Fixes on the equator, up to a hundred metres east and west of the prime meridian. -/
noncomputable def ecef : List (V3 ℝ) := [![wgs84A, 100, 0], ![wgs84A, -100, 0], ![wgs84A, 50, 0], ![wgs84A, -50, 0]]
/-- The same seen from their average, which is also where the body has been. -/
def enu : List (V3 ℝ) := [![100, 0, 0], ![-100, 0, 0], ![50, 0, 0], ![-50, 0, 0]]

theorem hA : (0 : ℝ) < wgs84A := by norm_num [wgs84A]

theorem average : averageVectors ecef = .ok ![wgs84A, 0, 0] := by
  obtain ⟨a, ha, hm⟩ := C39_mean ecef (by simp [ecef])
  rw [ha]
  congr 1
  funext i
  have h := hm i
  fin_cases i <;> simp [ecef] at h ⊢ <;> linarith

theorem lla : ecefToLla ![wgs84A, 0, 0] = .ok 0 := by
  rw [ecefToLla, ecefToLlaOf_equator hA (by norm_num [wgs84E]) (w := wgs84A) (by norm_num [wgs84A, wgs84E]) _ (by simp) (by simp)]
  congr 1
  have : atan2 0 wgs84A = 0 := by
    unfold atan2
    exact Complex.arg_ofReal_of_nonneg hA.le
  funext i
  fin_cases i <;> simp [this]

theorem ref : llaToEcef 0 = .ok ![wgs84A, 0, 0] := by simp [llaToEcef, degToRad]

theorem seen (y : ℝ) : ecefToEnu ![wgs84A, y, 0] 0 = .ok ![y, 0, 0] := by
  simp only [ecefToEnu, ref, ok_bind, pure_res]
  congr 1
  funext i
  fin_cases i <;> simp [enuRotation, degToRad]

theorem frame : ecef.mapM (fun x => ecefToEnu x 0) = .ok enu := by
  simp only [ecef, List.mapM_cons, List.mapM_nil, seen, ok_bind, pure_res]
  rfl

theorem point (y : ℤ) (h0 : -2 ^ 31 ≤ y) (h1 : y < 2 ^ 31) : toPoint ![(y : ℝ), 0, 0] = .ok (y, 0) := by
  have a : toInt (y : ℝ) = .ok y := by
    by_cases h : (0 : ℝ) ≤ y
    · exact toInt_of h (le_refl _) (by linarith) h1
    · exact toInt_neg_of (not_le.1 h) (by linarith) (le_refl _) h0 h1
  have b : toInt 0 = .ok 0 := toInt_of (le_refl _) (by norm_num) (by norm_num) (by norm_num)
  show (do let a ← toInt (y : ℝ); let b ← toInt 0; pure (a, b)) = _
  rw [a, b]; rfl

theorem points : enu.mapM toPoint = .ok [(100, 0), (-100, 0), (50, 0), (-50, 0)] := by
  have a := point 100 (by norm_num) (by norm_num)
  have b := point (-100) (by norm_num) (by norm_num)
  have c := point 50 (by norm_num) (by norm_num)
  have d := point (-50) (by norm_num) (by norm_num)
  push_cast at a b c d
  simp only [enu, List.mapM_cons, List.mapM_nil, a, b, c, d, ok_bind, pure_res]

theorem distance {hull : List (ℤ × ℤ) → List (ℤ × ℤ)} (hh : HullLaw hull) : ∃ m, maximumDistance hull enu = .ok m ∧ 200 ≤ m := by
  unfold maximumDistance
  rw [points]
  refine ⟨_, rfl, ?_⟩
  refine le_trans ?_ ((hull_diameter hh [(100, 0), (-100, 0), (50, 0), (-50, 0)]).1 (100, 0) (by simp) (-100, 0) (by simp))
  unfold pointDist
  exact Real.le_sqrt_of_sq_le (by norm_num)

theorem exact : ExactMotion 0 0 enu enu := by
  unfold ExactMotion
  refine (List.map_id enu).symm.trans (List.map_congr_left fun x _ => ?_)
  funext i
  fin_cases i <;> simp [enuToLocal]

/-- The alignment succeeds and is the identity. -/
theorem aligned {svd : M2 → M2 × M2} (hsvd : SvdLaw svd) : ∃ al, kabsch2d svd enu enu = .ok (some al) ∧ al.shift = 0 := by
  have hd : ∃ al, kabsch2d svd enu enu = .ok (some al) := by
    obtain ⟨a, ha, _⟩ := C39_mean enu (by simp [enu])
    unfold kabsch2d
    rw [if_neg (by simp [enu])]
    simp only [ha, ok_bind]
    obtain ⟨d, m, hd, _⟩ := C39_spread (kabschErrors (liftRotation (kabschRotation (svd (planarCov (enu.map (· - a)) (enu.map (· - a)))).1
      (svd (planarCov (enu.map (· - a)) (enu.map (· - a)))).2)) (a - (liftRotation (kabschRotation (svd (planarCov (enu.map (· - a)) (enu.map (· - a)))).1
      (svd (planarCov (enu.map (· - a)) (enu.map (· - a)))).2)).mulVec a) a enu enu).1 (by simp [kabschErrors, enu])
    rw [hd]
    exact ⟨_, rfl⟩
  obtain ⟨al, hal⟩ := hd
  refine ⟨al, hal, ?_⟩
  rw [(C20_alignment svd hsvd 0 0 enu enu exact ⟨![100, 0, 0], by simp [enu], ![50, 0, 0], by simp [enu], by simp⟩ al hal).2]
  simp

/-- The whole computation is defined, and publishes the average fix as the reference. -/
theorem fit {svd : M2 → M2 × M2} (hsvd : SvdLaw svd) {hull : List (ℤ × ℤ) → List (ℤ × ℤ)} (hh : HullLaw hull) (thr : ℝ) :
    ∃ f, gpsFit svd hull thr enu ecef = .ok f ∧ f.success = true ∧ 200 ≤ f.maxDist ∧ f.refPos = 0 := by
  obtain ⟨al, h1, h2⟩ := aligned hsvd
  obtain ⟨m, h3, h4⟩ := distance hh
  have h5 : enuToLla (-al.shift) 0 = .ok 0 := by
    rw [h2, enuToLla, enuToEcef, ref]
    simp only [ok_bind, pure_res, neg_zero, Matrix.mulVec_zero, add_zero]
    exact lla
  unfold gpsFit
  rw [average]
  simp only [ok_bind, lla, frame, h1, h3, h5, pure_res]
  exact ⟨_, rfl, rfl, h4, rfl⟩

end FitSample

/-- The hypotheses of `C64_evidence_partial` (and of `C20_published`) are met: four fixes two hundred metres apart, with a baseline of a
hundred metres asked for. -/
example : ∃ (svd : M2 → M2 × M2) (f : Ekf.GpsFit ℝ), SvdLaw svd ∧ HullLaw id ∧ gpsFit svd id 1 FitSample.enu FitSample.ecef = .ok f ∧
    f.success = true ∧ ∀ p : EkfParams ℝ, p.gpsInitType = .baselineDist → p.gpsInitBaselineDist = 100 → Evidence p FitSample.ecef.length f := by
  obtain ⟨svd, hsvd⟩ := exists_svdLaw
  obtain ⟨f, h1, h2, h3, _⟩ := FitSample.fit hsvd hullLaw_id 1
  refine ⟨svd, f, hsvd, hullLaw_id, h1, h2, fun p hp hb => ⟨by simp [FitSample.ecef], ?_⟩⟩
  rw [hp]
  simp only [hb]
  linarith

end EkfCal
