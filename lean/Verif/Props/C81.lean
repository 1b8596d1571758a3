import Verif.Model.Nees
import Mathlib.Tactic.Linarith
import Mathlib.Tactic.Ring
import Mathlib.Tactic.FieldSimp
import Mathlib.Tactic.FinCases
import Mathlib.Analysis.SpecialFunctions.Trigonometric.Arctan

/-!
# C81: the normalised error of the report is the squared error in units of the reported uncertainty
-/

namespace EkfCal.Eval
open EkfCal

/-- What is promised: the sum of squared errors, each divided by the variance that the filter reports for it. -/
noncomputable def normalised (l : List (ℝ × ℝ)) : ℝ := (l.map fun p => p.1 ^ 2 / p.2).sum

theorem nees_ok (l : List (ℝ × ℝ)) (h : ∀ p ∈ l, p.2 ≠ 0) : nees l = .ok (l.map fun p => p.1 * p.1 / p.2 / p.2).sum := by
  rw [nees, if_pos]
  simpa using fun a b hb => h (a, b) hb

/-- The plotted value is right if every error is zero or has the reported variance one. -/
theorem C81_unit_partial (l : List (ℝ × ℝ)) (h0 : ∀ p ∈ l, p.2 ≠ 0) (h : ∀ p ∈ l, p.1 = 0 ∨ p.2 = 1) :
    nees l = .ok (normalised l) := by
  rw [nees_ok l h0, normalised]
  congr 2
  refine List.map_congr_left fun p hp => ?_
  rcases h p hp with h1 | h1
  · rw [h1]; simp
  · rw [h1]; ring

/-- For a single quantity these are the only cases. -/
theorem C81_single (e c : ℝ) (h : c ≠ 0) : nees [(e, c)] = .ok (normalised [(e, c)]) ↔ e = 0 ∨ c = 1 := by
  constructor
  · intro h1
    rw [nees_ok _ (by simpa using h)] at h1
    simp only [normalised, List.map_cons, List.map_nil, List.sum_cons, List.sum_nil, add_zero, Except.ok.injEq] at h1
    by_cases he : e = 0
    · exact .inl he
    · right
      have h2 : e ^ 2 ≠ 0 := pow_ne_zero 2 he
      field_simp at h1
      linarith
  · intro h1
    exact C81_unit_partial _ (by simpa using h) (by simpa using h1)

/-- Errors of exactly one reported standard deviation in each axis, normalised error three: the plot shows any positive value
that one likes. -/
theorem C81_variance_violated (truth : V3 ℝ) (x : ℝ) (hx : 0 < x) :
    ∃ est c : V3 ℝ, (∀ i, 0 < c i ∧ (est i - truth i) ^ 2 = c i) ∧ normalised (paired (est - truth) c) = 3 ∧
      gpsNees truth est c = .ok x := by
  have hc : 0 < 3 / x := by positivity
  have hs := Real.sq_sqrt hc.le
  have hs2 := Real.mul_self_sqrt hc.le
  have he (i : Fin 3) : ((fun i => truth i + Real.sqrt (3 / x)) - truth : V3 ℝ) i = Real.sqrt (3 / x) := by
    simp only [Pi.sub_apply]; ring
  refine ⟨fun i => truth i + Real.sqrt (3 / x), fun _ => 3 / x, fun i => ⟨hc, ?_⟩, ?_, ?_⟩
  · rw [add_sub_cancel_left, hs]
  · simp only [normalised, paired, he, List.map_cons, List.map_nil, List.sum_cons, List.sum_nil, hs]
    rw [div_self hc.ne']
    norm_num
  · rw [gpsNees, nees_ok _ (by simp only [paired]; simp [hx.ne'])]
    simp only [paired, he, List.map_cons, List.map_nil, List.sum_cons, List.sum_nil, hs2]
    rw [div_self hc.ne']
    congr 1
    field_simp
    ring

/-- The plotted value depends on the unit of length: errors and uncertainties in a unit `s` times smaller leave the normalised
error as it is and divide the plotted value by `s ^ 2`. -/
theorem C81_unit_violated (l : List (ℝ × ℝ)) (h0 : ∀ p ∈ l, p.2 ≠ 0) (s : ℝ) (hs : s ≠ 0) :
    normalised (l.map fun p => (s * p.1, s ^ 2 * p.2)) = normalised l ∧
    ∃ v, nees l = .ok v ∧ nees (l.map fun p => (s * p.1, s ^ 2 * p.2)) = .ok (v / s ^ 2) := by
  constructor
  · rw [normalised, normalised, List.map_map]
    congr 1
    refine List.map_congr_left fun p hp => ?_
    have := h0 p hp
    simp only [Function.comp]
    field_simp
  · refine ⟨_, nees_ok l h0, ?_⟩
    rw [nees_ok]
    · rw [List.map_map]
      congr 1
      have : ∀ l : List (ℝ × ℝ), (∀ p ∈ l, p.2 ≠ 0) →
          (l.map ((fun p => p.1 * p.1 / p.2 / p.2) ∘ fun p => (s * p.1, s ^ 2 * p.2))).sum =
            (l.map fun p => p.1 * p.1 / p.2 / p.2).sum / s ^ 2 := by
        intro l hl
        induction l with
        | nil => simp
        | cons p l ih =>
          rw [List.map_cons, List.sum_cons, ih fun q hq => hl q (by simp [hq]), List.map_cons, List.sum_cons, add_div]
          congr 1
          have := hl p (by simp)
          simp only [Function.comp]
          field_simp
      exact this l h0
    · intro p hp
      obtain ⟨q, hq, rfl⟩ := List.mem_map.1 hp
      exact mul_ne_zero (pow_ne_zero 2 hs) (h0 q hq)

/-! ### Orientations -/

/-- What is assumed of the Euler angles of SciPy: a turn about one axis by less than a quarter has this angle. -/
structure EulerLaw (euler : Quat ℝ → V3 ℝ) : Prop where
  x : ∀ a, |a| < Real.pi / 2 → euler (Quat.ofAngleAxis a ![1, 0, 0]) = ![a, 0, 0]
  y : ∀ a, |a| < Real.pi / 2 → euler (Quat.ofAngleAxis a ![0, 1, 0]) = ![0, a, 0]
  z : ∀ a, |a| < Real.pi / 2 → euler (Quat.ofAngleAxis a ![0, 0, 1]) = ![0, 0, a]

/-- The assumption can be met. -/
theorem EulerLaw.exists : ∃ euler, EulerLaw euler := by
  have h (a : ℝ) (ha : |a| < Real.pi / 2) : 2 * Real.arctan (Real.sin (a / 2) / Real.cos (a / 2)) = a := by
    rw [← Real.tan_eq_sin_div_cos, Real.arctan_tan]
    · ring
    · have := (abs_lt.1 ha).1; linarith [Real.pi_pos]
    · have := (abs_lt.1 ha).2; linarith [Real.pi_pos]
  refine ⟨fun q => ![2 * Real.arctan (q.x / q.w), 2 * Real.arctan (q.y / q.w), 2 * Real.arctan (q.z / q.w)], ?_, ?_, ?_⟩ <;>
    intro a ha <;> ext i <;> fin_cases i <;> simp [Quat.ofAngleAxis, h a ha]

/-- A turn by a quarter about the vertical. -/
noncomputable def quarter : Quat ℝ := ⟨Real.sqrt 2 / 2, 0, 0, Real.sqrt 2 / 2⟩

theorem quarter_err (q : Quat ℝ) : (quarter.mul q).mul quarter.inverse = ⟨q.w, -q.y, q.x, q.z⟩ := by
  have h2 : Real.sqrt 2 * Real.sqrt 2 = 2 := Real.mul_self_sqrt (by norm_num)
  have hn : quarter.normSq = 1 := by
    simp only [quarter, Quat.normSq]; linarith
  rw [Quat.inverse, if_pos (by rw [hn]; norm_num), hn]
  have h3 : Real.sqrt 2 ^ 2 = 2 := by rw [pow_two, h2]
  ext <;> simp only [Quat.mul, quarter, div_one] <;> ring_nf <;> rw [h3] <;> ring

/-- A small error of an orientation is plotted in the wrong unit: one reported standard deviation `a`, in radians, counts as
`10 ^ 6 / a ^ 2` instead of one. -/
theorem C81_angle_violated (euler : Quat ℝ → V3 ℝ) (he : EulerLaw euler) (p : V3 ℝ) (a : ℝ) (ha : |a| < Real.pi / 2)
    (h0 : a ≠ 0) :
    poseNees euler (p, Quat.ofAngleAxis a ![1, 0, 0]) (p, Quat.one) 1 (fun _ => a ^ 2) = .ok (10 ^ 6 / a ^ 2) := by
  have h1 : (Quat.ofAngleAxis a ![1, 0, 0]).mul (Quat.one : Quat ℝ).inverse = Quat.ofAngleAxis a ![1, 0, 0] := by
    have hn : (Quat.one : Quat ℝ).normSq = 1 := by simp [Quat.one, Quat.normSq]
    rw [Quat.inverse, if_pos (by rw [hn]; norm_num), hn]
    ext <;> simp [Quat.mul, Quat.one, Quat.ofAngleAxis]
  have h2 : a ^ 2 ≠ 0 := pow_ne_zero 2 h0
  rw [poseNees, nees_ok]
  · simp only [paired, quatErr, h1, he.x a ha, List.cons_append, List.nil_append, List.map_cons, List.map_nil, List.sum_cons,
      List.sum_nil, sub_self, Pi.zero_apply, Pi.one_apply]
    congr 1
    simp only [Matrix.cons_val_zero, Matrix.cons_val_one, Matrix.cons_val]
    field_simp
    ring
  · intro q hq
    simp only [paired, List.cons_append, List.nil_append, List.mem_cons, List.not_mem_nil, or_false] at hq
    rcases hq with rfl | rfl | rfl | rfl | rfl | rfl <;> first | exact one_ne_zero | exact h2

/-- An error of an orientation is counted against the uncertainty of another axis: the filter corrects an orientation on its
right, about the axes of the body, and the plots take the error on the left.  A body that faces a quarter turn to the side and
is off by `a` about its first axis is shown to be off about the second. -/
theorem C81_axis_violated (euler : Quat ℝ → V3 ℝ) (he : EulerLaw euler) (a : ℝ) (ha : |a| < Real.pi / 2) :
    quatErr euler (quarter.mul (Quat.ofAngleAxis a ![1, 0, 0])) quarter = ![0, a * 1000, 0] := by
  have h1 : (quarter.mul (Quat.ofAngleAxis a ![1, 0, 0])).mul quarter.inverse = Quat.ofAngleAxis a ![0, 1, 0] := by
    rw [quarter_err]
    ext <;> simp [Quat.ofAngleAxis]
  ext i
  rw [quatErr, h1, he.y a ha]
  fin_cases i <;> simp

/-- With two boards, the rows of the second are compared with the truth of the first: exact estimates are shown to be off by the
distance of the boards. -/
theorem C81_board_violated (t0 t1 : V3 ℝ) : boardErr [t0, t1] [(0, t0), (1, t1)] = .ok [0, t1 - t0] := by
  simp [boardErr]

/-! ### Concrete cases -/

/-- `C81_unit_partial`, `C81_single` and `C81_unit_violated` apply. -/
example : nees [(2, 1), (0, 5)] = .ok (normalised [(2, 1), (0, 5)]) := C81_unit_partial _ (by simp) (by simp)

example : ¬ nees [(1, 1 / 4)] = .ok (normalised [(1, 1 / 4)]) := by
  rw [C81_single _ _ (by norm_num)]
  norm_num

/-- Half a metre with the variance `1 / 4` in metres: the same in millimetres is a million times less. -/
example : normalised ([(1 / 2, 1 / 4)].map fun p => (1000 * p.1, 1000 ^ 2 * p.2)) = normalised [(1 / 2, 1 / 4)] ∧
    ∃ v, nees [(1 / 2, 1 / 4)] = .ok v ∧ nees ([(1 / 2, 1 / 4)].map fun p => (1000 * p.1, 1000 ^ 2 * p.2)) = .ok (v / 1000 ^ 2) :=
  C81_unit_violated _ (by simp) 1000 (by norm_num)

/-- The hypotheses of `C81_angle_violated` and `C81_axis_violated`: a hundredth of a radian. -/
example : |(1 / 100 : ℝ)| < Real.pi / 2 := by
  rw [abs_of_pos (by norm_num)]
  linarith [Real.two_le_pi]

end EkfCal.Eval
