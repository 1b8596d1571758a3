import Verif.Lemmas.Align

/-!
# C38 — planar alignment is the optimal proper rotation
-/

namespace EkfCal

theorem zip_fst_snd {tgt src : List (V3 ℝ)} (h : tgt.length = src.length) :
    (tgt.zip src).map (·.1) = tgt ∧ (tgt.zip src).map (·.2) = src :=
  ⟨List.map_fst_zip h.le, List.map_snd_zip h.ge⟩

/-- Fewer than four points, or unequally many, are refused; nothing else is. -/
theorem C38_refuses (svd : M2 → M2 × M2) (tgt src : List (V3 ℝ)) :
    (kabsch2d svd tgt src = .ok none ↔ tgt.length ≠ src.length ∨ tgt.length < 4) ∧
    (tgt.length = src.length → 4 ≤ tgt.length → ∃ al, kabsch2d svd tgt src = .ok (some al)) := by
  have key : tgt.length = src.length → 4 ≤ tgt.length → ∃ al, kabsch2d svd tgt src = .ok (some al) := by
    intro h h4
    have ht : tgt ≠ [] := by rintro rfl; simp at h4
    have hs : src ≠ [] := by rintro rfl; simp at h; simp [h] at ht
    unfold kabsch2d
    rw [if_neg (by push Not; exact ⟨h, h4⟩)]
    simp only [averageVectors_ok _ hs, averageVectors_ok _ ht, ok_bind, kabschErrors]
    rw [meanStdDev_ok _ (by
      intro hn
      have hz := congrArg List.length hn
      rw [List.length_map, List.length_zip, ← h, min_self, List.length_nil] at hz
      omega)]
    exact ⟨_, rfl⟩
  refine ⟨⟨fun h => ?_, fun h => by unfold kabsch2d; rw [if_pos h]⟩, key⟩
  by_contra hc
  push Not at hc
  obtain ⟨al, ha⟩ := key hc.1 hc.2
  rw [ha] at h
  cases h

/-- The pieces of an accepted alignment. -/
theorem kabsch_pieces {svd : M2 → M2 × M2} {tgt src : List (V3 ℝ)} {al : Alignment}
    (h : kabsch2d svd tgt src = .ok (some al)) :
    tgt.length = src.length ∧ 4 ≤ tgt.length ∧
    al.rot = liftRotation (kabschRotation (svd (planarCov (src.map (· - meanOf src)) (tgt.map (· - meanOf tgt)))).1
      (svd (planarCov (src.map (· - meanOf src)) (tgt.map (· - meanOf tgt)))).2) ∧
    al.shift = meanOf tgt - al.rot.mulVec (meanOf src) ∧
    meanStdDev (kabschErrors al.rot al.shift (meanOf src) tgt src).1 = .ok al.posStd ∧
    al.angStd = (if (kabschErrors al.rot al.shift (meanOf src) tgt src).2.2 = 0 then none else
      some (√(kabschErrors al.rot al.shift (meanOf src) tgt src).2.1 /
        (kabschErrors al.rot al.shift (meanOf src) tgt src).2.2)) := by
  unfold kabsch2d at h
  split at h
  · cases h
  · rename_i hc
    push Not at hc
    have ht : tgt ≠ [] := by rintro rfl; simp at hc
    have hs : src ≠ [] := by rintro rfl; simp at hc; simp [hc] at ht
    simp only [averageVectors_ok _ hs, averageVectors_ok _ ht, ok_bind, bind_ok_iff, pure_res, Except.ok.injEq,
      Option.some.injEq] at h
    obtain ⟨pos, hp, rfl⟩ := h
    exact ⟨hc.1, hc.2, rfl, rfl, hp, rfl⟩

/-- The rotation and shift found, in terms of a unit vector `(c, s)` that maximises the correlation. -/
theorem kabsch_optimum {svd : M2 → M2 × M2} (hsvd : SvdLaw svd) {tgt src : List (V3 ℝ)} {al : Alignment}
    (h : kabsch2d svd tgt src = .ok (some al)) :
    ∃ c s : ℝ, c ^ 2 + s ^ 2 = 1 ∧ al.rot = liftRotation !![c, -s; s, c] ∧
      ∀ c' s' t0 t1 : ℝ, c' ^ 2 + s' ^ 2 = 1 →
        S (tgt.zip src) (fun p => (p.1 0 - (c * p.2 0 - s * p.2 1 + al.shift 0)) ^ 2 +
          (p.1 1 - (s * p.2 0 + c * p.2 1 + al.shift 1)) ^ 2) ≤
        S (tgt.zip src) (fun p => (p.1 0 - (c' * p.2 0 - s' * p.2 1 + t0)) ^ 2 +
          (p.1 1 - (s' * p.2 0 + c' * p.2 1 + t1)) ^ 2) := by
  obtain ⟨hl, h4, hr, ht, _, _⟩ := kabsch_pieces h
  set L := tgt.zip src with hL
  obtain ⟨h1, h2⟩ := zip_fst_snd hl
  obtain ⟨hU, hV, s1, s2, g0, g1, hA⟩ := hsvd (planarCov (src.map (· - meanOf src)) (tgt.map (· - meanOf tgt)))
  obtain ⟨c, s, hcs, hR, hopt⟩ := kabschRotation_spec _ _ _ s1 s2 g0 g1 hU hV hA
  rw [hR] at hr
  refine ⟨c, s, hcs, hr, fun c' s' t0 t1 h' => ?_⟩
  have hlen : (L.length : ℝ) = tgt.length := by rw [hL, List.length_zip, ← hl, min_self]
  have hn : (0 : ℝ) < L.length := by rw [hlen]; exact_mod_cast (by omega : 0 < tgt.length)
  have hm1 : ∀ i, meanOf tgt i = S L (fun p => p.1 i) / L.length := by
    intro i
    rw [hlen]
    conv_lhs => rw [← h1]
    simp only [meanOf, List.map_map, List.length_map]
    rw [show ((L.length : ℕ) : ℝ) = tgt.length from hlen]
    rfl
  have hm2 : ∀ i, meanOf src i = S L (fun p => p.2 i) / L.length := by
    intro i
    conv_lhs => rw [← h2]
    simp only [meanOf, List.map_map, List.length_map]
    rfl
  have hcov : planarCov (src.map (· - meanOf src)) (tgt.map (· - meanOf tgt)) =
      !![S L (fun p => (p.2 0 - meanOf src 0) * (p.1 0 - meanOf tgt 0)), S L (fun p => (p.2 0 - meanOf src 0) * (p.1 1 - meanOf tgt 1));
         S L (fun p => (p.2 1 - meanOf src 1) * (p.1 0 - meanOf tgt 0)), S L (fun p => (p.2 1 - meanOf src 1) * (p.1 1 - meanOf tgt 1))] := by
    rw [← planarCov_entries L (meanOf src) (meanOf tgt), h1, h2]
  have ho := hopt c' s' h'
  rw [hcov] at ho
  simp only [Matrix.of_apply, Matrix.cons_val', Matrix.cons_val_zero, Matrix.cons_val_one, Matrix.cons_val_fin_one,
    cov_expand, hm1, hm2] at ho
  have e1 := error_expand L c s (al.shift 0) (al.shift 1)
  have e2 := error_expand L c' s' t0 t1
  rw [e1, e2]
  have ht0 : al.shift 0 = S L (fun p => p.1 0) / L.length -
      (c * (S L (fun p => p.2 0) / L.length) - s * (S L (fun p => p.2 1) / L.length)) := by
    rw [ht, hr, Pi.sub_apply, lift_mulVec]
    simp only [Matrix.cons_val_zero, hm1, hm2]
  have ht1 : al.shift 1 = S L (fun p => p.1 1) / L.length -
      (s * (S L (fun p => p.2 0) / L.length) + c * (S L (fun p => p.2 1) / L.length)) := by
    rw [ht, hr, Pi.sub_apply, lift_mulVec]
    simp only [Matrix.cons_val_one, Matrix.cons_val_zero, hm1, hm2]
  rw [ht0, ht1, hcs, h', S_add L (fun p => p.2 0 * p.1 0), S_sub L (fun p => p.2 0 * p.1 1)]
  set n : ℝ := (L.length : ℝ)
  set P0 := S L (fun p => p.1 0)
  set P1 := S L (fun p => p.1 1)
  set Q0 := S L (fun p => p.2 0)
  set Q1 := S L (fun p => p.2 1)
  set M00 := S L (fun p => p.2 0 * p.1 0)
  set M01 := S L (fun p => p.2 0 * p.1 1)
  set M10 := S L (fun p => p.2 1 * p.1 0)
  set M11 := S L (fun p => p.2 1 * p.1 1)
  set A := S L (fun p => p.1 0 ^ 2 + p.1 1 ^ 2)
  set B := S L (fun p => p.2 0 ^ 2 + p.2 1 ^ 2)
  have hd : ∀ a b u v : ℝ, a ^ 2 + b ^ 2 = 1 →
      A + 1 * B - 2 * a * (M00 + M11) - 2 * b * (M01 - M10) + n * (u ^ 2 + v ^ 2) - 2 * u * P0 - 2 * v * P1
        + 2 * u * (a * Q0 - b * Q1) + 2 * v * (b * Q0 + a * Q1) =
      A + B - (P0 ^ 2 + P1 ^ 2) / n - (Q0 ^ 2 + Q1 ^ 2) / n
        - 2 * (a * (M00 + M11 - (P0 * Q0 + P1 * Q1) / n) + b * (M01 - M10 - (P1 * Q0 - P0 * Q1) / n))
        + n * ((P0 / n - (a * (Q0 / n) - b * (Q1 / n)) - u) ^ 2 + (P1 / n - (b * (Q0 / n) + a * (Q1 / n)) - v) ^ 2) := by
    intro a b u v hab
    have hb : b ^ 2 = 1 - a ^ 2 := by linarith
    field_simp
    ring_nf
    rw [hb]
    ring
  rw [hd c s _ _ hcs, hd c' s' _ _ h']
  have hx : ∀ a b : ℝ, a * (M00 - Q0 / n * P0 - P0 / n * Q0 + n * (Q0 / n * (P0 / n)) +
        (M11 - Q1 / n * P1 - P1 / n * Q1 + n * (Q1 / n * (P1 / n)))) +
      b * (M01 - Q0 / n * P1 - P1 / n * Q0 + n * (Q0 / n * (P1 / n)) -
        (M10 - Q1 / n * P0 - P0 / n * Q1 + n * (Q1 / n * (P0 / n)))) =
      a * (M00 + M11 - (P0 * Q0 + P1 * Q1) / n) + b * (M01 - M10 - (P1 * Q0 - P0 * Q1) / n) := by
    intro a b
    field_simp
    ring
  rw [hx, hx] at ho
  have hz : n * ((P0 / n - (c * (Q0 / n) - s * (Q1 / n)) - (P0 / n - (c * (Q0 / n) - s * (Q1 / n)))) ^ 2 +
      (P1 / n - (s * (Q0 / n) + c * (Q1 / n)) - (P1 / n - (s * (Q0 / n) + c * (Q1 / n)))) ^ 2) = 0 := by ring
  rw [hz]
  have hnn : 0 ≤ n * ((P0 / n - (c' * (Q0 / n) - s' * (Q1 / n)) - t0) ^ 2 +
      (P1 / n - (s' * (Q0 / n) + c' * (Q1 / n)) - t1) ^ 2) := by positivity
  linarith

theorem planarError_eq (c s : ℝ) (t : V3 ℝ) (tgt src : List (V3 ℝ)) :
    planarError (liftRotation !![c, -s; s, c]) t tgt src =
      S (tgt.zip src) (fun p => (p.1 0 - (c * p.2 0 - s * p.2 1 + t 0)) ^ 2 +
        (p.1 1 - (s * p.2 0 + c * p.2 1 + t 1)) ^ 2) := by
  unfold planarError
  simp only [lift_mulVec, Matrix.cons_val_zero, Matrix.cons_val_one]

/-- An accepted alignment is a rotation about the vertical axis: proper, never a reflection. -/
theorem C38_rotation (svd : M2 → M2 × M2) (hsvd : SvdLaw svd) (tgt src : List (V3 ℝ)) (al : Alignment)
    (h : kabsch2d svd tgt src = .ok (some al)) :
    (∃ θ, al.rot = vertical θ) ∧ Matrix.det al.rot = 1 ∧ al.rot.transpose * al.rot = 1 := by
  obtain ⟨c, s, hcs, hr, _⟩ := kabsch_optimum hsvd h
  obtain ⟨θ, rfl, rfl⟩ := exists_angle hcs
  refine ⟨⟨θ, by rw [hr, vertical_lift]⟩, ?_, ?_⟩
  · rw [hr, Matrix.det_fin_three]
    simp [liftRotation]
    linear_combination hcs
  · rw [hr]
    ext i j
    fin_cases i <;> fin_cases j <;> simp [liftRotation, Matrix.mul_apply, Fin.sum_univ_three, Matrix.transpose] <;>
      first | linear_combination hcs | ring

/-- It maps the centroid of the sources to the centroid of the targets. -/
theorem C38_centroid (svd : M2 → M2 × M2) (tgt src : List (V3 ℝ)) (al : Alignment)
    (h : kabsch2d svd tgt src = .ok (some al)) : al.rot.mulVec (meanOf src) + al.shift = meanOf tgt := by
  obtain ⟨_, _, _, ht, _⟩ := kabsch_pieces h
  rw [ht]; abel

/-- No rotation about the vertical axis and shift has a smaller squared planar error. -/
theorem C38_optimal (svd : M2 → M2 × M2) (hsvd : SvdLaw svd) (tgt src : List (V3 ℝ)) (al : Alignment)
    (h : kabsch2d svd tgt src = .ok (some al)) (θ : ℝ) (t : V3 ℝ) :
    planarError al.rot al.shift tgt src ≤ planarError (vertical θ) t tgt src := by
  obtain ⟨c, s, _, hr, ho⟩ := kabsch_optimum hsvd h
  rw [hr, vertical_lift, planarError_eq, planarError_eq]
  exact ho _ _ _ _ (by rw [add_comm]; exact Real.sin_sq_add_cos_sq θ)

theorem height_min (L : List (V3 ℝ × V3 ℝ)) (hn : (0 : ℝ) < L.length) (t : ℝ) :
    S L (fun p => (p.1 2 - (p.2 2 + (S L (fun p => p.1 2) / L.length - S L (fun p => p.2 2) / L.length))) ^ 2) ≤
      S L (fun p => (p.1 2 - (p.2 2 + t)) ^ 2) := by
  have e : ∀ t, S L (fun p => (p.1 2 - (p.2 2 + t)) ^ 2) = S L (fun p => (p.1 2 - p.2 2) ^ 2)
      - 2 * t * (S L (fun p => p.1 2) - S L (fun p => p.2 2)) + L.length * t ^ 2 := by
    intro t
    clear hn
    induction L with
    | nil => simp [S]
    | cons p L ih =>
      simp only [S, List.map_cons, List.sum_cons, List.length_cons] at ih ⊢
      push_cast
      linear_combination ih
  rw [e, e]
  set n : ℝ := (L.length : ℝ)
  set P := S L (fun p => p.1 2)
  set Q := S L (fun p => p.2 2)
  have : n * (t - (P / n - Q / n)) ^ 2 = n * t ^ 2 - 2 * t * (P - Q) + n * (P / n - Q / n) ^ 2 := by
    field_simp
    ring
  have h2 : n * (P / n - Q / n) ^ 2 = (P / n - Q / n) * (P - Q) := by field_simp
  nlinarith [mul_nonneg hn.le (sq_nonneg (t - (P / n - Q / n)))]

/-- Nor a smaller squared error in space. -/
theorem C38_optimal_space (svd : M2 → M2 × M2) (hsvd : SvdLaw svd) (tgt src : List (V3 ℝ)) (al : Alignment)
    (h : kabsch2d svd tgt src = .ok (some al)) (θ : ℝ) (t : V3 ℝ) :
    spaceError al.rot al.shift tgt src ≤ spaceError (vertical θ) t tgt src := by
  have hp := C38_optimal svd hsvd tgt src al h θ t
  obtain ⟨c, s, _, hr, _⟩ := kabsch_optimum hsvd h
  obtain ⟨hl, h4, _, ht, _⟩ := kabsch_pieces h
  obtain ⟨h1, h2⟩ := zip_fst_snd hl
  have split : ∀ (c s : ℝ) (u : V3 ℝ), spaceError (liftRotation !![c, -s; s, c]) u tgt src =
      planarError (liftRotation !![c, -s; s, c]) u tgt src + S (tgt.zip src) (fun p => (p.1 2 - (p.2 2 + u 2)) ^ 2) := by
    intro c s u
    unfold spaceError planarError
    rw [← S_add]
    simp only [lift_mulVec, Matrix.cons_val]
  have hn : (0 : ℝ) < (tgt.zip src).length := by
    rw [List.length_zip, ← hl, min_self]; exact_mod_cast (by omega : 0 < tgt.length)
  have hz : al.shift 2 = S (tgt.zip src) (fun p => p.1 2) / (tgt.zip src).length -
      S (tgt.zip src) (fun p => p.2 2) / (tgt.zip src).length := by
    rw [ht, hr, Pi.sub_apply, lift_mulVec]
    simp only [Matrix.cons_val]
    congr 1
    · conv_lhs => rw [← h1]
      simp only [meanOf, List.map_map, List.length_map]; rfl
    · conv_lhs => rw [← h2]
      simp only [meanOf, List.map_map, List.length_map]; rfl
  have := height_min (tgt.zip src) hn (t 2)
  rw [hr, vertical_lift] at hp ⊢
  rw [split, split, hz]
  linarith

/-- A decomposition as assumed exists, and four points turned by a quarter are aligned. -/
example : ∃ svd, SvdLaw svd ∧ ∃ al,
    kabsch2d svd [![0, 1, 0], ![0, 2, 0], ![-1, 0, 0], ![-3, 1, 1]] [![1, 0, 0], ![2, 0, 0], ![0, 1, 0], ![1, 3, 1]] =
      .ok (some al) := by
  obtain ⟨svd, h⟩ := exists_svdLaw
  exact ⟨svd, h, (C38_refuses svd _ _).2 rfl (by simp)⟩

end EkfCal
