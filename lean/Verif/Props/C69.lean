import Verif.Lemmas.Align

/-!
# C69 — how good the GPS alignment is judged to be does not depend on where the local frame has its origin
-/

namespace EkfCal

theorem meanOf_add (l : List (V3 ℝ)) (d : V3 ℝ) (h : l ≠ []) : meanOf (l.map (· + d)) = meanOf l + d := by
  have hn : (l.length : ℝ) ≠ 0 := by
    have := List.length_pos_iff.2 h
    positivity
  funext i
  simp only [meanOf, List.map_map, Function.comp_def, Pi.add_apply, List.length_map]
  rw [List.sum_map_add, add_div]
  congr 1
  simp only [List.map_const', List.sum_replicate, nsmul_eq_mul]
  field_simp

/-- The alignment when it is computed. -/
theorem kabsch2d_ok (svd : M2 → M2 × M2) (tgt src : List (V3 ℝ)) (hl : tgt.length = src.length) (h4 : 4 ≤ tgt.length) :
    ∃ (R : M3 ℝ) (ang : Option ℝ) (slopes : ℝ) (count : Nat), R = liftRotation (kabschRotation
      (svd (planarCov (src.map (· - meanOf src)) (tgt.map (· - meanOf tgt)))).1
      (svd (planarCov (src.map (· - meanOf src)) (tgt.map (· - meanOf tgt)))).2) ∧
    (slopes, count) = (kabschErrors R (meanOf tgt - R.mulVec (meanOf src)) (meanOf src) tgt src).2 ∧
    ang = (if count = 0 then none else some (√slopes / count)) ∧
    ∃ pos, meanStdDev ((tgt.zip src).map fun p => p.1 - (R.mulVec p.2 + (meanOf tgt - R.mulVec (meanOf src)))) = .ok pos ∧
      kabsch2d svd tgt src = .ok (some ⟨R, meanOf tgt - R.mulVec (meanOf src), pos, ang⟩) := by
  have ht : tgt ≠ [] := by rintro rfl; simp at h4
  have hs : src ≠ [] := by rintro rfl; simp at hl; simp [hl] at h4
  refine ⟨_, _, _, _, rfl, rfl, rfl, ?_⟩
  have hz : ((tgt.zip src).map fun p => p.1 - ((liftRotation (kabschRotation
      (svd (planarCov (src.map (· - meanOf src)) (tgt.map (· - meanOf tgt)))).1
      (svd (planarCov (src.map (· - meanOf src)) (tgt.map (· - meanOf tgt)))).2)).mulVec p.2 + (meanOf tgt - (liftRotation (kabschRotation
      (svd (planarCov (src.map (· - meanOf src)) (tgt.map (· - meanOf tgt)))).1
      (svd (planarCov (src.map (· - meanOf src)) (tgt.map (· - meanOf tgt)))).2)).mulVec (meanOf src)))) ≠ [] := by
    intro h
    have := congrArg List.length h
    simp only [List.length_map, List.length_zip, List.length_nil] at this
    omega
  have hpos := meanStdDev_ok _ hz
  refine ⟨_, hpos, ?_⟩
  rw [kabsch2d, if_neg (by omega), averageVectors_ok _ hs, ok_bind, averageVectors_ok _ ht, ok_bind]
  dsimp only [kabschErrors]
  rw [hpos, ok_bind]
  rfl

theorem kabsch2d_lengths {svd : M2 → M2 × M2} {tgt src : List (V3 ℝ)} {al : Alignment} (h : kabsch2d svd tgt src = .ok (some al)) :
    tgt.length = src.length ∧ 4 ≤ tgt.length := by
  by_contra hc
  rw [kabsch2d, if_pos (by omega)] at h
  cases h

theorem centred_add (l : List (V3 ℝ)) (d : V3 ℝ) (h : l ≠ []) :
    (l.map (· + d)).map (· - meanOf (l.map (· + d))) = l.map (· - meanOf l) := by
  rw [meanOf_add l d h, List.map_map]
  exact List.map_congr_left fun v _ => add_sub_add_right_eq_sub v (meanOf l) d

/-- **Moving the origin of the local frame** moves the shift found and changes neither the rotation nor the spread of the
position errors. -/
theorem C69_local_partial (svd : M2 → M2 × M2) (tgt src : List (V3 ℝ)) (d : V3 ℝ) (al : Alignment)
    (h : kabsch2d svd tgt src = .ok (some al)) :
    ∃ ang, kabsch2d svd (tgt.map (· + d)) src = .ok (some ⟨al.rot, al.shift + d, al.posStd, ang⟩) := by
  obtain ⟨hl, h4⟩ := kabsch2d_lengths h
  have ht : tgt ≠ [] := by rintro rfl; simp at h4
  obtain ⟨R, ang, sl, n, hR, _, _, pos, hpos, hk⟩ := kabsch2d_ok svd tgt src hl h4
  obtain ⟨R', ang', sl', n', hR', _, _, pos', hpos', hk'⟩ := kabsch2d_ok svd (tgt.map (· + d)) src (by simpa using hl) (by simpa using h4)
  rw [centred_add tgt d ht, ← hR] at hR'
  subst hR'
  have hm := meanOf_add tgt d ht
  have he : (((tgt.map (· + d)).zip src).map fun p => p.1 - (R'.mulVec p.2 + (meanOf (tgt.map (· + d)) - R'.mulVec (meanOf src)))) =
      (tgt.zip src).map fun p => p.1 - (R'.mulVec p.2 + (meanOf tgt - R'.mulVec (meanOf src))) := by
    rw [hm, List.zip_map_left, List.map_map]
    refine List.map_congr_left fun p _ => ?_
    simp only [Function.comp, Prod.map, id]
    abel
  rw [he, hpos] at hpos'
  cases hpos'
  rw [h] at hk
  simp only [Except.ok.injEq, Option.some.injEq] at hk
  subst hk
  refine ⟨ang', ?_⟩
  rw [hk', hm]
  congr 3
  dsimp only
  abel

/-- **Moving the origin of the east-north-up frame** likewise. -/
theorem C69_earth_partial (svd : M2 → M2 × M2) (tgt src : List (V3 ℝ)) (d : V3 ℝ) (al : Alignment)
    (h : kabsch2d svd tgt src = .ok (some al)) :
    ∃ ang, kabsch2d svd tgt (src.map (· + d)) = .ok (some ⟨al.rot, al.shift - al.rot.mulVec d, al.posStd, ang⟩) := by
  obtain ⟨hl, h4⟩ := kabsch2d_lengths h
  have hs : src ≠ [] := by rintro rfl; simp at hl; simp [hl] at h4
  obtain ⟨R, ang, sl, n, hR, _, _, pos, hpos, hk⟩ := kabsch2d_ok svd tgt src hl h4
  obtain ⟨R', ang', sl', n', hR', _, _, pos', hpos', hk'⟩ := kabsch2d_ok svd tgt (src.map (· + d)) (by simpa using hl) h4
  rw [centred_add src d hs, ← hR] at hR'
  subst hR'
  have hm := meanOf_add src d hs
  have he : ((tgt.zip (src.map (· + d))).map fun p => p.1 - (R'.mulVec p.2 + (meanOf tgt - R'.mulVec (meanOf (src.map (· + d)))))) =
      (tgt.zip src).map fun p => p.1 - (R'.mulVec p.2 + (meanOf tgt - R'.mulVec (meanOf src))) := by
    rw [hm, List.zip_map_right, List.map_map]
    refine List.map_congr_left fun p _ => ?_
    simp only [Function.comp, Prod.map, id, Matrix.mulVec_add]
    abel
  rw [he, hpos] at hpos'
  cases hpos'
  rw [h] at hk
  simp only [Except.ok.injEq, Option.some.injEq] at hk
  subst hk
  refine ⟨ang', ?_⟩
  rw [hk', hm]
  congr 3
  dsimp only
  rw [Matrix.mulVec_add]
  abel

/-! ## The angular error does depend on it -/

theorem V3.abs_le_norm (v : V3 ℝ) : |v 0| ≤ V3.norm v := by
  unfold V3.norm
  exact Real.abs_le_sqrt (by nlinarith [sq_nonneg (v 1), sq_nonneg (v 2)])

theorem V3.norm_nonneg' (v : V3 ℝ) : 0 ≤ V3.norm v := Real.sqrt_nonneg _

theorem list_bound {α : Type} (l : List α) (f : α → ℝ) : ∃ B, 0 ≤ B ∧ ∀ x ∈ l, f x ≤ B := by
  induction l with
  | nil => exact ⟨0, le_rfl, by simp⟩
  | cons a l ih =>
    obtain ⟨B, h0, h⟩ := ih
    refine ⟨max B (f a), le_max_of_le_left h0, fun x hx => ?_⟩
    rcases List.mem_cons.1 hx with rfl | hx
    · exact le_max_right _ _
    · exact (h x hx).trans (le_max_left _ _)

theorem V3.norm_pos {v : V3 ℝ} (h : v ≠ 0) : 0 < V3.norm v := by
  unfold V3.norm
  apply Real.sqrt_pos.2
  by_contra hc
  apply h
  have h0 : v 0 = 0 := by nlinarith [mul_self_nonneg (v 0), mul_self_nonneg (v 1), mul_self_nonneg (v 2)]
  have h1 : v 1 = 0 := by nlinarith [mul_self_nonneg (v 0), mul_self_nonneg (v 1), mul_self_nonneg (v 2)]
  have h2 : v 2 = 0 := by nlinarith [mul_self_nonneg (v 0), mul_self_nonneg (v 1), mul_self_nonneg (v 2)]
  funext i
  fin_cases i
  · exact h0
  · exact h1
  · exact h2

/-- Errors seen from far away are all counted, and small. -/
theorem far_slopes (cs : V3 ℝ) (tgt errs : List (V3 ℝ)) (hl : tgt.length = errs.length) (h1 : 1 ≤ tgt.length) (he : ∃ e ∈ errs, e ≠ 0)
    (ε : ℝ) (hε : 0 < ε) : ∃ d : V3 ℝ,
    (((tgt.map (· + d)).zip errs).filter fun p => decide (V3.norm (p.1 - cs) > V3.norm p.2)) = (tgt.map (· + d)).zip errs ∧
    0 < (((tgt.map (· + d)).zip errs).map fun p => (V3.norm p.2 / V3.norm (p.1 - cs)) ^ 2).sum ∧
    √(((tgt.map (· + d)).zip errs).map fun p => (V3.norm p.2 / V3.norm (p.1 - cs)) ^ 2).sum / (tgt.length : ℝ) < ε := by
  obtain ⟨B1, hB1, b1⟩ := list_bound tgt fun p => |p 0 - cs 0|
  obtain ⟨B2, hB2, b2⟩ := list_bound errs V3.norm
  obtain ⟨B, hB⟩ : ∃ B, B = max B1 B2 := ⟨_, rfl⟩
  have hB0 : 0 ≤ B := hB ▸ le_max_of_le_left hB1
  obtain ⟨δ, hδ⟩ : ∃ δ, δ = min ε 1 := ⟨_, rfl⟩
  have hδ0 : 0 < δ := hδ ▸ lt_min hε one_pos
  have hδ1 : δ ≤ 1 := hδ ▸ min_le_right _ _
  have hδε : δ ≤ ε := hδ ▸ min_le_left _ _
  have hq : B + 1 ≤ (B + 1) / δ := by rw [le_div_iff₀ hδ0]; nlinarith
  refine ⟨![B + (B + 1) / δ, 0, 0], ?_⟩
  set d : V3 ℝ := ![B + (B + 1) / δ, 0, 0] with hd
  have far : ∀ p ∈ (tgt.map (· + d)).zip errs, (B + 1) / δ ≤ V3.norm (p.1 - cs) ∧ V3.norm p.2 ≤ B := by
    intro p hp
    obtain ⟨hp1, hp2⟩ := List.of_mem_zip (a := p.1) (b := p.2) hp
    obtain ⟨q, hq, hqp⟩ := List.mem_map.1 hp1
    refine ⟨?_, (b2 _ hp2).trans (hB ▸ le_max_right _ _)⟩
    refine le_trans ?_ ((le_abs_self _).trans (V3.abs_le_norm (p.1 - cs)))
    have hq' : |q 0 - cs 0| ≤ B := (b1 q hq).trans (hB ▸ le_max_left _ _)
    have e0 : (p.1 - cs) 0 = q 0 - cs 0 + (B + (B + 1) / δ) := by
      rw [← hqp]
      simp only [Pi.sub_apply, Pi.add_apply, hd, Matrix.cons_val_zero]
      ring
    rw [e0]
    linarith [(abs_le.1 hq').1]
  have len : ((tgt.map (· + d)).zip errs).length = tgt.length := by simp [hl]
  have base : ∀ p ∈ (tgt.map (· + d)).zip errs, 0 < V3.norm (p.1 - cs) := fun p hp =>
    lt_of_lt_of_le (by positivity) (far p hp).1
  have small : ∀ p ∈ (tgt.map (· + d)).zip errs, V3.norm p.2 / V3.norm (p.1 - cs) ≤ B * δ / (B + 1) := by
    intro p hp
    obtain ⟨f1, f2⟩ := far p hp
    rw [div_le_div_iff₀ (base p hp) (by positivity)]
    have : (B + 1) ≤ δ * V3.norm (p.1 - cs) := by rwa [div_le_iff₀ hδ0, mul_comm] at f1
    have h3 := mul_le_mul_of_nonneg_left this hB0
    have h4 := mul_le_mul_of_nonneg_right f2 (by positivity : (0 : ℝ) ≤ B + 1)
    nlinarith
  refine ⟨?_, ?_, ?_⟩
  · rw [List.filter_eq_self]
    intro p hp
    obtain ⟨f1, f2⟩ := far p hp
    rw [decide_eq_true_iff]
    linarith
  · obtain ⟨e, hemem, hene⟩ := he
    obtain ⟨i, hi, rfl⟩ := List.getElem_of_mem hemem
    have hi' : i < ((tgt.map (· + d)).zip errs).length := by rw [len, hl]; exact hi
    have hm : ((tgt.map (· + d)).zip errs)[i] ∈ (tgt.map (· + d)).zip errs := List.getElem_mem hi'
    refine lt_of_lt_of_le ?_ (List.single_le_sum ?_ _ (List.mem_map_of_mem hm))
    · have : (((tgt.map (· + d)).zip errs)[i]).2 = errs[i] := by simp
      have hb := base _ hm
      have := V3.norm_pos (this ▸ hene)
      positivity
    · intro x hx
      obtain ⟨p, _, rfl⟩ := List.mem_map.1 hx
      positivity
  · have c0 : 0 ≤ B * δ / (B + 1) := by positivity
    have c1 : B * δ / (B + 1) < δ := by
      rw [div_lt_iff₀ (by positivity)]
      nlinarith
    have hsum : (((tgt.map (· + d)).zip errs).map fun p => (V3.norm p.2 / V3.norm (p.1 - cs)) ^ 2).sum ≤
        (tgt.length : ℝ) * (B * δ / (B + 1)) ^ 2 := by
      have := List.sum_le_card_nsmul (((tgt.map (· + d)).zip errs).map fun p => (V3.norm p.2 / V3.norm (p.1 - cs)) ^ 2)
        ((B * δ / (B + 1)) ^ 2) (by
          intro x hx
          obtain ⟨p, hp, rfl⟩ := List.mem_map.1 hx
          exact pow_le_pow_left₀ (div_nonneg (V3.norm_nonneg' _) (base p hp).le) (small p hp) 2)
      rwa [List.length_map, len, nsmul_eq_mul] at this
    have hn : (1 : ℝ) ≤ tgt.length := by exact_mod_cast h1
    rw [div_lt_iff₀ (by linarith)]
    have hsq : √(((tgt.map (· + d)).zip errs).map fun p => (V3.norm p.2 / V3.norm (p.1 - cs)) ^ 2).sum ≤ tgt.length * (B * δ / (B + 1)) := by
      apply Real.sqrt_le_iff.2
      refine ⟨by positivity, hsum.trans ?_⟩
      rw [mul_pow]
      exact mul_le_mul_of_nonneg_right (by nlinarith) (sq_nonneg _)
    have : (tgt.length : ℝ) * (B * δ / (B + 1)) < tgt.length * ε := by
      apply mul_lt_mul_of_pos_left (lt_of_lt_of_le c1 hδε)
      linarith
    linarith

/-- **Violated for the angular error**: it is measured against the distance of the body positions from a point of the other
frame.  Whatever the fixes and however badly they fit, if the local origin is far enough away the angular error reported is
below any threshold. -/
theorem C69_heading_violated (svd : M2 → M2 × M2) (tgt src : List (V3 ℝ)) (al : Alignment) (h : kabsch2d svd tgt src = .ok (some al))
    (herr : ∃ p ∈ tgt.zip src, p.1 ≠ al.rot.mulVec p.2 + al.shift) (ε : ℝ) (hε : 0 < ε) :
    ∃ d a, kabsch2d svd (tgt.map (· + d)) src = .ok (some ⟨al.rot, al.shift + d, al.posStd, some a⟩) ∧ 0 < a ∧ a < ε := by
  obtain ⟨hl, h4⟩ := kabsch2d_lengths h
  have ht : tgt ≠ [] := by rintro rfl; simp at h4
  obtain ⟨R, ang, sl, n, hR, _, _, pos, hpos, hk⟩ := kabsch2d_ok svd tgt src hl h4
  rw [h] at hk
  simp only [Except.ok.injEq, Option.some.injEq] at hk
  subst hk
  obtain ⟨errs, herrs⟩ : ∃ errs, errs = (tgt.zip src).map fun p => p.1 - (R.mulVec p.2 + (meanOf tgt - R.mulVec (meanOf src))) := ⟨_, rfl⟩
  obtain ⟨d, d1, d2, d3⟩ := far_slopes (meanOf src) tgt errs (by simp [herrs, hl]) (by omega) (by
    obtain ⟨p, hp, hne⟩ := herr
    exact ⟨_, herrs ▸ List.mem_map_of_mem hp, sub_ne_zero.2 hne⟩) ε hε
  obtain ⟨R', ang', sl', n', hR', hs', ha', pos', hpos', hk'⟩ := kabsch2d_ok svd (tgt.map (· + d)) src (by simpa using hl) (by simpa using h4)
  rw [centred_add tgt d ht, ← hR] at hR'
  subst hR'
  have hm := meanOf_add tgt d ht
  have he : (((tgt.map (· + d)).zip src).map fun p => p.1 - (R'.mulVec p.2 + (meanOf (tgt.map (· + d)) - R'.mulVec (meanOf src)))) = errs := by
    rw [hm, List.zip_map_left, List.map_map, herrs]
    refine List.map_congr_left fun p _ => ?_
    simp only [Function.comp, Prod.map, id]
    abel
  dsimp only [kabschErrors] at hs'
  rw [he, d1, Prod.mk.injEq] at hs'
  obtain ⟨rfl, hn⟩ := hs'
  have hn' : n' = tgt.length := by rw [hn]; simp [herrs, hl]
  subst hn'
  rw [if_neg (by omega)] at ha'
  rw [he, herrs, hpos] at hpos'
  cases hpos'
  refine ⟨d, _, ?_, div_pos (Real.sqrt_pos.2 d2) (by have : 0 < tgt.length := by omega
                                                     exact_mod_cast this), d3⟩
  rw [hk', hm, ha']
  congr 3
  dsimp only
  abel

/-- The hypotheses are met: four fixes along a line and body positions one of which is a metre too high. -/
example (svd : M2 → M2 × M2) : ∃ (tgt src : List (V3 ℝ)) (al : Alignment), kabsch2d svd tgt src = .ok (some al) ∧
    ∃ p ∈ tgt.zip src, p.1 ≠ al.rot.mulVec p.2 + al.shift := by
  obtain ⟨R, ang, sl, n, hR, _, _, pos, _, hk⟩ := kabsch2d_ok svd [![5, 0, 1], ![6, 0, 0], ![7, 0, 0], ![8, 0, 0]]
    [![0, 0, 0], ![1, 0, 0], ![2, 0, 0], ![3, 0, 0]] rfl (by simp)
  refine ⟨_, _, _, hk, (![5, 0, 1], ![0, 0, 0]), by simp, fun h => ?_⟩
  have h2 := congrFun h 2
  rw [hR] at h2
  have hz : ∀ (Q : M2) (v : V3 ℝ), ((liftRotation Q).mulVec v) 2 = v 2 := fun Q v => by
    simp [liftRotation, Matrix.mulVec, dotProduct, Fin.sum_univ_three]
  simp only [Pi.add_apply, Pi.sub_apply, hz] at h2
  simp [meanOf] at h2

end EkfCal
