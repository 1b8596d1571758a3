import Verif.Props.C38
import Verif.Props.C24
import Verif.Spec.GpsEvidence
import Verif.Lemmas.RealPrim

/-!
# C20 — GPS initialisation recovers the true reference

The fixes are taken in the east-north-up frame of their average (`enu`).  The local frame has its origin at `o` and
heading `θ` in that frame if every body position is `enuToLocal (fix - o) θ`.  `gpsFit` publishes the origin
`-shift` and the heading `affineAngle rot` of the alignment (`C20_published`).
-/

namespace EkfCal

/-- `xyz` are the body positions of the fixes `enu` in a local frame with origin `o` and heading `θ`. -/
def ExactMotion (o : V3 ℝ) (θ : ℝ) (xyz enu : List (V3 ℝ)) : Prop := xyz = enu.map fun x => enuToLocal (x - o) θ

/-- Two fixes differ in the plane. -/
def Moved (enu : List (V3 ℝ)) : Prop := ∃ a ∈ enu, ∃ b ∈ enu, a 0 ≠ b 0 ∨ a 1 ≠ b 1

theorem enuToLocal_eq (x : V3 ℝ) (θ : ℝ) : enuToLocal x θ = (vertical θ).mulVec x := by
  funext i
  fin_cases i <;> simp [enuToLocal, vertical, Matrix.mulVec, dotProduct, Fin.sum_univ_three] <;> ring

/-- What the filter publishes once the evidence suffices: the alignment's negated shift, as a geodetic position, and
`affineAngle` of its rotation. -/
theorem C20_published (svd : M2 → M2 × M2) (hull : List (ℤ × ℤ) → List (ℤ × ℤ)) (thr : ℝ) (xyz ecef : List (V3 ℝ))
    (f : Ekf.GpsFit ℝ) (h : gpsFit svd hull thr xyz ecef = .ok f) (hs : f.success = true) :
    ∃ ref lla enu al, averageVectors ecef = .ok ref ∧ ecefToLla ref = .ok lla ∧
      (ecef.mapM fun x => ecefToEnu x lla) = .ok enu ∧ kabsch2d svd xyz enu = .ok (some al) ∧
      enuToLla (-al.shift) lla = .ok f.refPos ∧ f.refAng = affineAngle al.rot ∧ f.posStd = al.posStd ∧
      f.angStd = al.angStd := by
  unfold gpsFit at h
  simp only [bind_ok_iff] at h
  obtain ⟨ref, h1, lla, h2, enu, h3, al, h4, d, _, h⟩ := h
  cases al with
  | none => simp only [pure_res, Except.ok.injEq] at h; subst h; simp at hs
  | some al =>
    simp only [bind_ok_iff, pure_res, Except.ok.injEq] at h
    obtain ⟨pos, h5, rfl⟩ := h
    exact ⟨ref, lla, enu, al, h1, h2, h3, h4, h5, rfl, rfl, rfl⟩

theorem zip_map_left (enu : List (V3 ℝ)) (f : V3 ℝ → V3 ℝ) : (enu.map f).zip enu = enu.map fun x => (f x, x) := by
  induction enu with
  | nil => rfl
  | cons a l ih => simp [ih]

/-- A sum of squares vanishes only if every term does. -/
theorem zero_of_sum {α : Type} (l : List α) (f : α → ℝ) (h0 : ∀ a ∈ l, 0 ≤ f a) (h : (l.map f).sum ≤ 0) :
    ∀ a ∈ l, f a = 0 := by
  induction l with
  | nil => simp
  | cons a l ih =>
    simp only [List.map_cons, List.sum_cons] at h
    have ha := h0 a (by simp)
    have hl : 0 ≤ (l.map f).sum := by
      apply List.sum_nonneg
      intro x hx
      obtain ⟨b, hb, rfl⟩ := List.mem_map.1 hx
      exact h0 b (by simp [hb])
    intro b hb
    rcases List.mem_cons.1 hb with rfl | hb
    · linarith
    · exact ih (fun c hc => h0 c (by simp [hc])) (by linarith) b hb

/-- For exact data with some planar motion, the alignment is the true rotation and shift. -/
theorem C20_alignment (svd : M2 → M2 × M2) (hsvd : SvdLaw svd) (o : V3 ℝ) (θ : ℝ) (xyz enu : List (V3 ℝ))
    (hx : ExactMotion o θ xyz enu) (hm : Moved enu) (al : Alignment) (h : kabsch2d svd xyz enu = .ok (some al)) :
    al.rot = vertical θ ∧ al.shift = -(vertical θ).mulVec o := by
  have hopt := C38_optimal_space svd hsvd xyz enu al h θ (-(vertical θ).mulVec o)
  have hzero : spaceError (vertical θ) (-(vertical θ).mulVec o) xyz enu = 0 := by
    unfold spaceError
    rw [hx, zip_map_left, List.map_map]
    apply List.sum_eq_zero
    intro y hy
    obtain ⟨x, _, rfl⟩ := List.mem_map.1 hy
    simp only [Function.comp, enuToLocal_eq, Matrix.mulVec_sub, Pi.sub_apply, Pi.neg_apply]
    ring
  rw [hzero] at hopt
  have hpt : ∀ x ∈ enu, ∀ i, enuToLocal (x - o) θ i = al.rot.mulVec x i + al.shift i := by
    intro x hxm
    unfold spaceError at hopt
    rw [hx, zip_map_left] at hopt
    have := zero_of_sum _ _ (fun a _ => by positivity) hopt (enuToLocal (x - o) θ, x)
      (List.mem_map.2 ⟨x, hxm, rfl⟩)
    simp only at this
    have h0 : enuToLocal (x - o) θ 0 - (al.rot.mulVec x 0 + al.shift 0) = 0 := by
      refine pow_eq_zero_iff two_ne_zero |>.1 ?_
      nlinarith [sq_nonneg (enuToLocal (x - o) θ 0 - (al.rot.mulVec x 0 + al.shift 0)),
        sq_nonneg (enuToLocal (x - o) θ 1 - (al.rot.mulVec x 1 + al.shift 1)),
        sq_nonneg (enuToLocal (x - o) θ 2 - (al.rot.mulVec x 2 + al.shift 2))]
    have h1 : enuToLocal (x - o) θ 1 - (al.rot.mulVec x 1 + al.shift 1) = 0 := by
      refine pow_eq_zero_iff two_ne_zero |>.1 ?_
      nlinarith [sq_nonneg (enuToLocal (x - o) θ 0 - (al.rot.mulVec x 0 + al.shift 0)),
        sq_nonneg (enuToLocal (x - o) θ 1 - (al.rot.mulVec x 1 + al.shift 1)),
        sq_nonneg (enuToLocal (x - o) θ 2 - (al.rot.mulVec x 2 + al.shift 2))]
    have h2 : enuToLocal (x - o) θ 2 - (al.rot.mulVec x 2 + al.shift 2) = 0 := by
      refine pow_eq_zero_iff two_ne_zero |>.1 ?_
      nlinarith [sq_nonneg (enuToLocal (x - o) θ 0 - (al.rot.mulVec x 0 + al.shift 0)),
        sq_nonneg (enuToLocal (x - o) θ 1 - (al.rot.mulVec x 1 + al.shift 1)),
        sq_nonneg (enuToLocal (x - o) θ 2 - (al.rot.mulVec x 2 + al.shift 2))]
    intro i
    fin_cases i
    · exact sub_eq_zero.1 h0
    · exact sub_eq_zero.1 h1
    · exact sub_eq_zero.1 h2
  obtain ⟨⟨ψ, hψ⟩, _⟩ := C38_rotation svd hsvd xyz enu al h
  obtain ⟨a, ha, b, hb, hne⟩ := hm
  have hrot : Real.cos ψ = Real.cos θ ∧ Real.sin ψ = Real.sin θ := by
    have a0 := hpt a ha 0
    have b0 := hpt b hb 0
    have a1 := hpt a ha 1
    have b1 := hpt b hb 1
    rw [hψ, ← enuToLocal_eq] at a0 b0 a1 b1
    simp only [enuToLocal, Matrix.cons_val_zero, Matrix.cons_val_one, Pi.sub_apply] at a0 b0 a1 b1
    set u := a 0 - b 0 with hu
    set v := a 1 - b 1 with hv
    have d0 : (Real.cos θ - Real.cos ψ) * u - (Real.sin θ - Real.sin ψ) * v = 0 := by
      rw [hu, hv]; linear_combination a0 - b0
    have d1 : (Real.sin θ - Real.sin ψ) * u + (Real.cos θ - Real.cos ψ) * v = 0 := by
      rw [hu, hv]; linear_combination a1 - b1
    have huv : u ^ 2 + v ^ 2 ≠ 0 := by
      intro hz
      have hu0 : u = 0 := by nlinarith [sq_nonneg u, sq_nonneg v]
      have hv0 : v = 0 := by nlinarith [sq_nonneg u, sq_nonneg v]
      rcases hne with hne | hne
      · exact hne (by linarith)
      · exact hne (by linarith)
    have e0 : (Real.cos θ - Real.cos ψ) * (u ^ 2 + v ^ 2) = 0 := by linear_combination u * d0 + v * d1
    have e1 : (Real.sin θ - Real.sin ψ) * (u ^ 2 + v ^ 2) = 0 := by linear_combination u * d1 - v * d0
    rcases mul_eq_zero.1 e0 with e0 | e0
    · rcases mul_eq_zero.1 e1 with e1 | e1
      · exact ⟨by linarith, by linarith⟩
      · exact absurd e1 huv
    · exact absurd e0 huv
  have hv : vertical ψ = vertical θ := by unfold vertical; rw [hrot.1, hrot.2]
  rw [hv] at hψ
  refine ⟨hψ, ?_⟩
  funext i
  have := hpt a ha i
  rw [hψ, enuToLocal_eq, Matrix.mulVec_sub, Pi.sub_apply] at this
  rw [Pi.neg_apply]
  linarith

theorem affineAngle_vertical (θ : ℝ) : affineAngle (vertical θ) = Real.arccos (Real.cos θ) := by
  unfold affineAngle
  congr 1
  simp [Matrix.trace, Fin.sum_univ_three, vertical]

theorem cos_affine (θ : ℝ) : Real.cos (affineAngle (vertical θ)) = Real.cos θ := by
  rw [affineAngle_vertical, Real.cos_arccos (Real.neg_one_le_cos θ) (Real.cos_le_one θ)]

theorem sin_affine (θ : ℝ) : Real.sin (affineAngle (vertical θ)) = |Real.sin θ| := by
  rw [affineAngle_vertical, Real.sin_arccos, ← Real.abs_sin_eq_sqrt_one_sub_cos_sq]

theorem vertical_inj {x y : V3 ℝ} {θ : ℝ} (h : (vertical θ).mulVec x = (vertical θ).mulVec y) : x = y := by
  rw [← enuToLocal_eq, ← enuToLocal_eq] at h
  rw [← (C24_local x θ).1, h, (C24_local y θ).1]

/-- Exactly when the published reference is right: it maps the fixes onto the body positions if and only if the heading
is not negative (its sine is not) and the origin is fixed by the rotation. -/
theorem C20_right_iff_partial (svd : M2 → M2 × M2) (hsvd : SvdLaw svd) (o : V3 ℝ) (θ : ℝ) (xyz enu : List (V3 ℝ))
    (hx : ExactMotion o θ xyz enu) (hm : Moved enu) (al : Alignment) (h : kabsch2d svd xyz enu = .ok (some al)) :
    ExactMotion (-al.shift) (affineAngle al.rot) xyz enu ↔ 0 ≤ Real.sin θ ∧ (vertical θ).mulVec o = o := by
  obtain ⟨hr, ht⟩ := C20_alignment svd hsvd o θ xyz enu hx hm al h
  have hvert : 0 ≤ Real.sin θ → vertical (affineAngle (vertical θ)) = vertical θ := by
    intro hs
    unfold vertical
    have h1 := cos_affine θ
    have h2 := sin_affine θ
    unfold vertical at h1 h2
    rw [h1, h2, abs_of_nonneg hs]
  constructor
  · intro hex
    obtain ⟨hr', ht'⟩ := C20_alignment svd hsvd _ _ xyz enu hex hm al h
    rw [hr] at hr'
    have hs : Real.sin θ = |Real.sin θ| := by
      rw [← sin_affine]
      exact congrFun (congrFun hr' 1) 0
    have hs0 : 0 ≤ Real.sin θ := by rw [hs]; exact abs_nonneg _
    refine ⟨hs0, ?_⟩
    rw [ht, hr, neg_neg, hvert hs0, neg_inj] at ht'
    exact (vertical_inj ht').symm
  · rintro ⟨hs, ho⟩
    rw [hr, ht, neg_neg, ho]
    unfold ExactMotion at hx ⊢
    rw [hx]
    simp only [enuToLocal_eq, hvert hs]

/-- In particular without rotation the origin is recovered, whatever it is. -/
theorem C20_unrotated_partial (svd : M2 → M2 × M2) (hsvd : SvdLaw svd) (o : V3 ℝ) (xyz enu : List (V3 ℝ))
    (hx : ExactMotion o 0 xyz enu) (hm : Moved enu) (al : Alignment) (h : kabsch2d svd xyz enu = .ok (some al)) :
    -al.shift = o ∧ affineAngle al.rot = 0 := by
  obtain ⟨hr, ht⟩ := C20_alignment svd hsvd o 0 xyz enu hx hm al h
  have h1 : vertical 0 = 1 := by
    ext i j; fin_cases i <;> fin_cases j <;> simp [vertical]
  rw [ht, hr, neg_neg, affineAngle_vertical, h1]
  exact ⟨by simp, by simp⟩

/-- Five fixes along a right angle. -/
def sampleEnu : List (V3 ℝ) := [![0, 0, 0], ![1, 0, 0], ![2, 0, 0], ![2, 1, 0], ![2, 2, 0]]

theorem sampleEnu_moved : Moved sampleEnu := ⟨![0, 0, 0], by simp [sampleEnu], ![1, 0, 0], by simp [sampleEnu], by simp⟩

/-- A platform heading right of north (negative angle) from the reference itself: the published heading has the wrong
sign and the body positions are not mapped onto the fixes. -/
theorem C20_heading_violated (svd : M2 → M2 × M2) (hsvd : SvdLaw svd) :
    ∃ (xyz enu : List (V3 ℝ)) (al : Alignment), ExactMotion 0 (-(Real.pi / 2)) xyz enu ∧ Moved enu ∧
      kabsch2d svd xyz enu = .ok (some al) ∧ affineAngle al.rot = Real.pi / 2 ∧
      ¬ ExactMotion (-al.shift) (affineAngle al.rot) xyz enu := by
  obtain ⟨al, h⟩ := (C38_refuses svd (sampleEnu.map fun x => enuToLocal (x - 0) (-(Real.pi / 2))) sampleEnu).2
    (by simp) (by simp [sampleEnu])
  refine ⟨_, sampleEnu, al, rfl, sampleEnu_moved, h, ?_, ?_⟩
  · rw [(C20_alignment svd hsvd _ _ _ _ rfl sampleEnu_moved al h).1, affineAngle_vertical, Real.cos_neg,
      Real.cos_pi_div_two, Real.arccos_zero]
  · rw [C20_right_iff_partial svd hsvd _ _ _ _ rfl sampleEnu_moved al h]
    rintro ⟨h1, _⟩
    rw [Real.sin_neg, Real.sin_pi_div_two] at h1
    linarith

/-- A platform turned left by a quarter (the heading is found) that starts one metre east: the published origin is one
metre south instead. -/
theorem C20_origin_violated (svd : M2 → M2 × M2) (hsvd : SvdLaw svd) :
    ∃ (xyz enu : List (V3 ℝ)) (al : Alignment), ExactMotion ![1, 0, 0] (Real.pi / 2) xyz enu ∧ Moved enu ∧
      kabsch2d svd xyz enu = .ok (some al) ∧ affineAngle al.rot = Real.pi / 2 ∧ -al.shift = ![0, 1, 0] ∧
      ¬ ExactMotion (-al.shift) (affineAngle al.rot) xyz enu := by
  obtain ⟨al, h⟩ := (C38_refuses svd (sampleEnu.map fun x => enuToLocal (x - ![1, 0, 0]) (Real.pi / 2)) sampleEnu).2
    (by simp) (by simp [sampleEnu])
  obtain ⟨hr, ht⟩ := C20_alignment svd hsvd _ _ _ _ rfl sampleEnu_moved al h
  have hv : (vertical (Real.pi / 2)).mulVec ![1, 0, 0] = ![0, 1, 0] := by
    rw [← enuToLocal_eq]; funext i; fin_cases i <;> simp [enuToLocal]
  refine ⟨_, sampleEnu, al, rfl, sampleEnu_moved, h, ?_, ?_, ?_⟩
  · rw [hr, affineAngle_vertical, Real.cos_pi_div_two, Real.arccos_zero]
  · rw [ht, neg_neg, hv]
  · rw [C20_right_iff_partial svd hsvd _ _ _ _ rfl sampleEnu_moved al h]
    rintro ⟨_, h2⟩
    rw [hv] at h2
    have := congrFun h2 0
    norm_num at this

/-! ### Standing still -/

theorem meanOf_replicate (n : Nat) (hn : n ≠ 0) (v : V3 ℝ) : meanOf (List.replicate n v) = v := by
  funext i
  have : (n : ℝ) ≠ 0 := by exact_mod_cast hn
  simp only [meanOf, List.map_replicate, List.sum_replicate, List.length_replicate, nsmul_eq_mul]
  field_simp

/-- Four equal fixes at a body position that coincides with them: the alignment succeeds with position error zero, and
the angular error is left unwritten. -/
theorem kabsch_standstill (svd : M2 → M2 × M2) (v : V3 ℝ) :
    ∃ al, kabsch2d svd (List.replicate 4 v) (List.replicate 4 v) = .ok (some al) ∧ al.posStd = 0 ∧ al.angStd = none := by
  obtain ⟨al, h⟩ := (C38_refuses svd (List.replicate 4 v) (List.replicate 4 v)).2 rfl (by simp)
  obtain ⟨_, _, _, ht, hp, ha⟩ := kabsch_pieces h
  have hm := meanOf_replicate 4 (by norm_num) v
  rw [hm] at ht hp ha
  have herr : v - (al.rot.mulVec v + al.shift) = 0 := by rw [ht]; abel
  have hz : (List.replicate 4 v).zip (List.replicate 4 v) = List.replicate 4 (v, v) := by simp
  have hnorm : V3.norm (0 : V3 ℝ) = 0 := by simp [V3.norm]
  have hE : (kabschErrors al.rot al.shift v (List.replicate 4 v) (List.replicate 4 v)) =
      (List.replicate 4 0, 0, 0) := by
    simp only [kabschErrors, hz, List.map_replicate, herr]
    have hf : ((List.replicate 4 v).zip (List.replicate 4 (0 : V3 ℝ))).filter
        (fun p => decide (V3.norm (p.1 - v) > V3.norm p.2)) = [] := by
      rw [List.filter_eq_nil_iff]
      intro a ha
      rw [List.zip_replicate', List.mem_replicate] at ha
      rw [ha.2]
      simp [hnorm]
    rw [hf]
    rfl
  rw [hE] at hp ha
  refine ⟨al, h, ?_, by simpa using ha⟩
  rw [meanStdDev_ok _ (by simp), meanOf_replicate 4 (by norm_num)] at hp
  simp only [Except.ok.injEq] at hp
  rw [← hp]
  simp [hnorm]

/-- A filter that is to be initialised by error thresholds and receives four equal fixes while the body stands at the
same place reads the unwritten angular error: undefined behaviour although every argument is legal.  (The fixes are
given in the east-north-up frame; `fit` is the alignment.) -/
theorem C49_standstill_violated (svd : M2 → M2 × M2) : ∃ (p : EkfParams ℝ) (fit : List (V3 ℝ) → List (V3 ℝ) → Ekf.GpsFit ℝ),
    (∀ xyz enu al, kabsch2d svd xyz enu = .ok (some al) →
      fit xyz enu = ⟨true, al.posStd, al.angStd, 0, 1, 0, 0⟩) ∧
    Ekf.run realPrim (Ekf.init realPrim p)
      [.attemptGpsInit 0 0 fit, .attemptGpsInit 1 0 fit, .attemptGpsInit 2 0 fit, .attemptGpsInit 3 0 fit] =
        .error .uninitialised := by
  let fit : List (V3 ℝ) → List (V3 ℝ) → Ekf.GpsFit ℝ := fun xyz enu =>
    match kabsch2d svd xyz enu with
    | .ok (some al) => ⟨true, al.posStd, al.angStd, 0, 1, 0, 0⟩
    | _ => ⟨false, 0, none, 0, 1, 0, 0⟩
  have hfit : ∀ xyz enu al, kabsch2d svd xyz enu = .ok (some al) →
      fit xyz enu = ⟨true, al.posStd, al.angStd, 0, 1, 0, 0⟩ := fun xyz enu al h => by simp only [fit, h]
  let p : EkfParams ℝ := {
    augType := .none, augDeltaTime := 1, augPosError := 1, augAngError := 1, processNoise := ⟨18, fun _ => 1⟩
    posBInL := 0, angBToL := Quat.one, posEInG := 0, angLToE := 0, gpsInitType := .errorThreshold
    gpsInitBaselineDist := 100, gpsInitPosThresh := 1, gpsInitAngThresh := 1, useRoot := false, useFirstEstimate := false
    motionDetectionChiSquared := 1, imuNoiseScaleFactor := 1 }
  refine ⟨p, fit, hfit, ?_⟩
  obtain ⟨al, h1, h2, h3⟩ := kabsch_standstill svd 0
  have hf := hfit _ _ al h1
  have hl : List.replicate 4 (0 : V3 ℝ) = [0, 0, 0, 0] := rfl
  rw [hl] at hf
  have hpos : (Ekf.init realPrim p).state.body.pos = 0 := rfl
  simp only [Ekf.run, Ekf.step, Ekf.attemptGpsInit, Ekf.init, List.nil_append, List.length_cons, List.length_nil,
    List.cons_append, pure_res, ok_bind, State.default, BodyState.default, p]
  norm_num
  unfold Ekf.gpsAccept
  rw [hf, h2, h3]
  simp only [reduceCtorEq, false_and, if_false, true_and, zero_lt_one, if_true]
  rfl

end EkfCal
