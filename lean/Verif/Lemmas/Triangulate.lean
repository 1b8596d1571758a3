import Verif.Spec.Triangulate
import Verif.Spec.Cov
import Verif.Lemmas.Mat
import Verif.Lemmas.UMap
import Verif.Lemmas.QuatMat
import Mathlib.Tactic.LinearCombination
import Mathlib.Tactic.Linarith
import Mathlib.Tactic.Positivity
import Mathlib.LinearAlgebra.Matrix.Determinant.Basic

/-!
# Triangulation: answers of the filter along the loop, and the geometry of exact observations
-/

namespace EkfCal
open Ekf
variable {K : Type} [Field K] [LinearOrder K]

theorem Ekf.Looked.refl (e : Ekf K) : e.Looked e := ⟨rfl, fun _ => rfl⟩

theorem Ekf.Looked.trans {e e1 e2 : Ekf K} (h : e.Looked e1) (g : e1.Looked e2) : e.Looked e2 :=
  ⟨by rw [g.same, h.same], fun k => by rw [g.window, h.window]⟩

theorem looked_getAugState {N : Prim K} {e e' : Ekf K} {cam frame : Nat} {t : K} {a : AugState K}
    (h : e.getAugState N cam frame t = .ok (a, e')) : e.Looked e' := by
  unfold getAugState at h
  split at h
  · simp only [pure_res, Except.ok.injEq, Prod.mk.injEq] at h
    obtain ⟨_, rfl⟩ := h
    exact ⟨rfl, fun k => UMap.getD_touch _ _ _ _⟩
  · obtain ⟨x, _, h⟩ := bind_ok_iff.1 h
    simp only [pure_res, Except.ok.injEq, Prod.mk.injEq] at h
    obtain ⟨_, rfl⟩ := h
    exact ⟨rfl, fun k => UMap.getD_touch _ _ _ _⟩

theorem poseFor_looked (N : Prim K) {e e' : Ekf K} (h : e.Looked e') (cam : Nat) (p : FeaturePoint K) :
    e'.poseFor N cam p = e.poseFor N cam p := by
  obtain ⟨hs, hw⟩ := h
  unfold poseFor getAugState
  rw [hw cam]
  have h1 : e'.augType = e.augType := by rw [hs]
  have h2 : e'.primaryCameraId = e.primaryCameraId := by rw [hs]
  have h3 : ∀ w t, interpolateClone N e' w t = interpolateClone N e w t := fun w t => by
    unfold interpolateClone
    have h4 : e'.currentTime = e.currentTime := by rw [hs]
    have h5 : e'.state.body = e.state.body := by rw [hs]
    rw [h4, h5]
  rw [h1, h2]
  split
  · rfl
  · simp only [h3, hw]
    cases interpolateClone N e (e.state.augs.getD (if e.augType = .primary then e.primaryCameraId else 0) []) p.time <;> rfl

theorem getAugState_pose {N : Prim K} {e e' : Ekf K} {cam : Nat} {p : FeaturePoint K} {a : AugState K}
    (h : e.getAugState N cam p.frameId p.time = .ok (a, e')) : e.poseFor N cam p = .ok a := by
  unfold poseFor; rw [h]; rfl

/-- The loop adds up the terms of the observations, at the poses the filter had for them at the start. -/
theorem triangulateLoop_terms (N : Num K) (u : MsckfUpdater K) (a0 : AugState K) (ps : List (FeaturePoint K)) :
    ∀ (e : Ekf K) (A : M3 K) (b : V3 K) (r : M3 K × V3 K × Ekf K), u.triangulateLoop N a0 ps e A b = .ok r →
      ∃ as : List (AugState K), as.length = ps.length ∧
        (∀ (i : Nat) (p : FeaturePoint K) (a : AugState K), ps[i]? = some p → as[i]? = some a →
          e.poseFor N.toPrim u.id p = .ok a) ∧
        r.1 = A + ((as.zip ps).map fun x => (u.triangulateTerm N a0 x.1 x.2).1).sum ∧
        r.2.1 = b + ((as.zip ps).map fun x => (u.triangulateTerm N a0 x.1 x.2).2).sum ∧ e.Looked r.2.2 := by
  induction ps with
  | nil =>
    intro e A b r h
    simp only [MsckfUpdater.triangulateLoop, Except.ok.injEq] at h
    subst h
    exact ⟨[], rfl, by simp, by simp, by simp, .refl _⟩
  | cons p ps ih =>
    intro e A b r h
    unfold MsckfUpdater.triangulateLoop at h
    obtain ⟨⟨a, e1⟩, h1, h⟩ := bind_ok_iff.1 h
    obtain ⟨as, g1, g2, g3, g4, g5⟩ := ih e1 _ _ r h
    refine ⟨a :: as, by simp [g1], ?_, ?_, ?_, (looked_getAugState h1).trans g5⟩
    · intro i q c hq hc
      cases i with
      | zero =>
        simp only [List.getElem?_cons_zero, Option.some.injEq] at hq hc
        subst hq; subst hc
        exact getAugState_pose h1
      | succ i =>
        simp only [List.getElem?_cons_succ] at hq hc
        rw [← poseFor_looked N.toPrim (looked_getAugState h1)]
        exact g2 i q c hq hc
    · rw [g3]; simp [add_assoc]
    · rw [g4]; simp [add_assoc]

/-- `TriangulateFeature` taken apart: the solved depth and its consequences. -/
theorem triangulate_form {N : Num K} {u : MsckfUpdater K} {e : Ekf K} {f : FeatureTrack K} {r : Bool × Option (V3 K) × Ekf K}
    (h : u.triangulate N e f = .ok r) :
    ∃ p0 ps a0, f.track = p0 :: ps ∧ e.poseFor N.toPrim u.id p0 = .ok a0 ∧ e.Looked r.2.2 ∧
      ∃ as : List (AugState K), as.length = f.track.length ∧
        (∀ (i : Nat) (p : FeaturePoint K) (a : AugState K), f.track[i]? = some p → as[i]? = some a →
          e.poseFor N.toPrim u.id p = .ok a) ∧
        ∃ z : V3 K, z = N.solve (((as.zip f.track).map fun x => (u.triangulateTerm N a0 x.1 x.2).1).sum)
            (((as.zip f.track).map fun x => (u.triangulateTerm N a0 x.1 x.2).2).sum) ∧
          (u.useTruth = true → r.1 = true ∧ r.2.1 = f.truth) ∧
          (u.useTruth = false →
            (z 2 < u.minDist ∨ u.maxDist < z 2) ∧ r.1 = false ∧ r.2.1 = some 0 ∨
            ¬ (z 2 < u.minDist ∨ u.maxDist < z 2) ∧ r.1 = true ∧
              r.2.1 = some (a0.ang.toMat.mulVec (u.angC.rotate z + u.posC) + a0.pos)) := by
  unfold MsckfUpdater.triangulate at h
  split at h
  · cases h
  rename_i p0 ps hf
  obtain ⟨⟨a0, e1⟩, h1, h⟩ := bind_ok_iff.1 h
  obtain ⟨⟨A, b, e2⟩, h2, h⟩ := bind_ok_iff.1 h
  have hl := looked_getAugState h1
  obtain ⟨as, g1, g2, g3, g4, g5⟩ := triangulateLoop_terms N u a0 _ e1 0 0 _ h2
  simp only [zero_add] at g3 g4
  have hr2 : r.2.2 = e2 := by
    dsimp only at h
    split at h <;> split at h <;> (simp only [pure_res, Except.ok.injEq] at h; rw [← h])
  refine ⟨p0, ps, a0, hf, getAugState_pose h1, by rw [hr2]; exact hl.trans g5, as, by rw [hf]; exact g1, ?_, N.solve A b, ?_, ?_, ?_⟩
  · intro i p a hp ha
    rw [← poseFor_looked N.toPrim hl]
    rw [hf] at hp
    exact g2 i p a hp ha
  · rw [g3, g4, hf]
  · intro ht
    dsimp only at h
    rw [ht] at h
    simp only [if_true] at h
    split at h <;> (simp only [pure_res, Except.ok.injEq] at h; rw [← h]; exact ⟨rfl, rfl⟩)
  · intro ht
    dsimp only at h
    rw [ht] at h
    simp only [Bool.false_eq_true, if_false] at h
    split at h
    · rename_i hb
      simp only [pure_res, Except.ok.injEq] at h
      left; rw [← h]; exact ⟨hb, rfl, rfl⟩
    · rename_i hb
      simp only [pure_res, Except.ok.injEq] at h
      right; rw [← h]; exact ⟨hb, rfl, rfl⟩

section geometry

theorem cross_mulVec (M : M3 K) (v w : V3 K) :
    M.transpose.mulVec (V3.cross (M.mulVec v) (M.mulVec w)) = M.det • V3.cross v w := by
  funext i
  rw [Matrix.det_fin_three]
  fin_cases i <;>
    simp [V3.cross, Matrix.mulVec, dotProduct, Fin.sum_univ_three, Matrix.transpose_apply] <;> ring

theorem det_ne_zero_of_orthogonal {M : M3 K} (h : M.transpose * M = 1) : M.det ≠ 0 := by
  intro h0
  have := congrArg Matrix.det h
  rw [Matrix.det_mul, Matrix.det_transpose, h0, zero_mul, Matrix.det_one] at this
  exact zero_ne_one this

theorem skew_mulVec (a v : V3 K) : (skew a).mulVec v = V3.cross a v := by
  funext i
  fin_cases i <;> simp [V3.cross, skew, Matrix.mulVec, dotProduct, Fin.sum_univ_three] <;> ring

/-- The normal matrix of one ray vanishes on the ray. -/
theorem normal_ray (b v : V3 K) (c : K) (h : v = c • b) : ((skew b).transpose * skew b).mulVec v = 0 := by
  subst h
  rw [← Matrix.mulVec_mulVec, Matrix.mulVec_smul, skew_mulVec]
  have : V3.cross b b = 0 := by funext i; fin_cases i <;> simp [V3.cross] <;> ring
  rw [this, smul_zero, Matrix.mulVec_zero]

theorem normal_quad [IsStrictOrderedRing K] (b y : V3 K) :
    (((skew b).transpose * skew b).mulVec y) 0 * y 0 + (((skew b).transpose * skew b).mulVec y) 1 * y 1 +
      (((skew b).transpose * skew b).mulVec y) 2 * y 2 =
    V3.cross b y 0 * V3.cross b y 0 + V3.cross b y 1 * V3.cross b y 1 + V3.cross b y 2 * V3.cross b y 2 := by
  rw [← Matrix.mulVec_mulVec, skew_mulVec]
  simp [skew, V3.cross, Matrix.mulVec, dotProduct, Fin.sum_univ_three]
  ring

/-- A vector along two rays that are not parallel is zero. -/
theorem zero_of_two_rays [IsStrictOrderedRing K] {a b y : V3 K} (ha : V3.cross a y = 0) (hb : V3.cross b y = 0) (hab : V3.cross a b ≠ 0) : y = 0 := by
  by_contra hy
  apply hab
  have a0 := congrFun ha 0
  have a1 := congrFun ha 1
  have a2 := congrFun ha 2
  have b0 := congrFun hb 0
  have b1 := congrFun hb 1
  have b2 := congrFun hb 2
  simp [V3.cross] at a0 a1 a2 b0 b1 b2
  have A : ∀ i k : Fin 3, a i * y k = a k * y i := by
    intro i k
    fin_cases i <;> fin_cases k <;> simp only [Fin.zero_eta, Fin.mk_one, Fin.reduceFinMk, Fin.isValue] <;> linarith
  have B : ∀ i k : Fin 3, b i * y k = b k * y i := by
    intro i k
    fin_cases i <;> fin_cases k <;> simp only [Fin.zero_eta, Fin.mk_one, Fin.reduceFinMk, Fin.isValue] <;> linarith
  have key2 : ∀ k i j : Fin 3, y k * y k * (a i * b j - a j * b i) = 0 := fun k i j => by
    linear_combination (b j * y k) * A i k + (a k * y i) * B j k - (b i * y k) * A j k - (a k * y j) * B i k
  have key : ∀ k i : Fin 3, y k * y k * V3.cross a b i = 0 := by
    intro k i
    fin_cases i
    · exact key2 k 1 2
    · exact key2 k 2 0
    · exact key2 k 0 1
  have : ∃ k, y k ≠ 0 := by
    by_contra h
    push Not at h
    exact hy (funext h)
  obtain ⟨k, hk⟩ := this
  funext i
  have := key k i
  simpa [hk] using this

theorem toMat_transpose_mul [IsStrictOrderedRing K] {q : Quat K} (h : q.normSq = 1) : q.toMat.transpose * q.toMat = 1 := by
  rw [← Quat.toMat_inverse h, Quat.toMat_mul (Quat.inverse_unit h) h, Quat.inverse_mul_self h]
  funext i j
  fin_cases i <;> fin_cases j <;> simp [Quat.toMat, Quat.one]

theorem toMat_mul_transpose [IsStrictOrderedRing K] {q : Quat K} (h : q.normSq = 1) : q.toMat * q.toMat.transpose = 1 := by
  rw [← Quat.toMat_inverse h, Quat.toMat_mul h (Quat.inverse_unit h), Quat.mul_inverse_self h]
  funext i j
  fin_cases i <;> fin_cases j <;> simp [Quat.toMat, Quat.one]

/-- The ray of an observation in the frame of the first camera (line 118). -/
def MsckfUpdater.ray (N : Num K) (u : MsckfUpdater K) (a0 ai : AugState K) (p : FeaturePoint K) : V3 K :=
  let b : V3 K := ![normalisePixel u.intr p.x p.y 0, normalisePixel u.intr p.x p.y 1, 1]
  fun i => ((u.angC.toMat.transpose * a0.ang.toMat.transpose * ai.ang.toMat * u.angC.toMat).mulVec b) i / norm3 N.toPrim b

theorem term_fst (N : Num K) (u : MsckfUpdater K) (a0 ai : AugState K) (p : FeaturePoint K) :
    (u.triangulateTerm N a0 ai p).1 = (skew (u.ray N a0 ai p)).transpose * skew (u.ray N a0 ai p) := rfl

theorem term_snd (N : Num K) (u : MsckfUpdater K) (a0 ai : AugState K) (p : FeaturePoint K) :
    (u.triangulateTerm N a0 ai p).2 = (u.triangulateTerm N a0 ai p).1.mulVec
      ((u.angC.toMat.transpose * a0.ang.toMat.transpose).mulVec (u.centre ai - u.centre a0)) := rfl

theorem inCamera_eq (u : MsckfUpdater K) (a : AugState K) (F : V3 K) :
    u.inCamera a F = (u.angC.toMat.transpose * a.ang.toMat.transpose).mulVec (F - u.centre a) := by
  unfold MsckfUpdater.inCamera; rw [Matrix.mulVec_mulVec]

/-- Pixels and normalised coordinates determine each other. -/
theorem pixelAt_iff {c : Intrinsics K} (h : c.Usable) (x y : K) (v : V2 K) : (x, y) = c.pixelAt v ↔ normalisePixel c x y = v := by
  have h1 := h.fx
  have h2 := h.fy
  have h3 := h.pixelSize
  constructor
  · intro e
    rw [Intrinsics.pixelAt, Prod.mk.injEq] at e
    funext i
    fin_cases i
    · simp [normalisePixel, e.1]; field_simp
    · simp [normalisePixel, e.2]; field_simp
  · rintro rfl
    rw [Intrinsics.pixelAt, Prod.mk.injEq]
    constructor
    · simp [normalisePixel]; field_simp; ring
    · simp [normalisePixel]; field_simp; ring

/-- The line of sight is a positive multiple of the ray. -/
theorem sight_ray [IsStrictOrderedRing K] {N : Num K} (hs : N.toPrim.SqrtLaw) {u : MsckfUpdater K} {a0 ai : AugState K}
    {p : FeaturePoint K} {F : V3 K} (hc : u.angC.normSq = 1) (hi : ai.ang.normSq = 1) (h : u.Sees ai p F) :
    ∃ c : K, 0 < c ∧ (u.angC.toMat.transpose * a0.ang.toMat.transpose).mulVec (F - u.centre ai) = c • u.ray N a0 ai p := by
  obtain ⟨hz, hk, hp⟩ := h
  replace hp : normalisePixel u.intr p.x p.y = project (u.inCamera ai F) := (pixelAt_iff hk _ _ _).1 hp
  set x := u.inCamera ai F with hx
  set b : V3 K := ![normalisePixel u.intr p.x p.y 0, normalisePixel u.intr p.x p.y 1, 1] with hb
  have hxb : x = x 2 • b := by
    funext i
    rw [hb, hp]
    fin_cases i <;> simp [project] <;> field_simp
  have hn0 : 0 < b 0 * b 0 + b 1 * b 1 + b 2 * b 2 := by
    have : b 2 = 1 := by simp [hb]
    rw [this]; nlinarith [mul_self_nonneg (b 0), mul_self_nonneg (b 1)]
  obtain ⟨s1, s2⟩ := hs _ hn0.le
  have hn : 0 < norm3 N.toPrim b := by
    unfold norm3
    rcases s1.lt_or_eq with h | h
    · exact h
    · rw [← h] at s2; simp at s2; linarith
  refine ⟨x 2 * norm3 N.toPrim b, mul_pos hz hn, ?_⟩
  have h1 : F - u.centre ai = (ai.ang.toMat * u.angC.toMat).mulVec x := by
    rw [hx, inCamera_eq, Matrix.mulVec_mulVec]
    have : ai.ang.toMat * u.angC.toMat * (u.angC.toMat.transpose * ai.ang.toMat.transpose) = 1 := by
      rw [Matrix.mul_assoc, ← Matrix.mul_assoc u.angC.toMat, toMat_mul_transpose hc, Matrix.one_mul, toMat_mul_transpose hi]
    rw [this, Matrix.one_mulVec]
  have h2 : ∀ T : M3 K, T.mulVec x = x 2 • T.mulVec b := fun T => by
    conv_lhs => rw [hxb]
    rw [Matrix.mulVec_smul]
  rw [h1, Matrix.mulVec_mulVec, ← Matrix.mul_assoc, h2]
  funext i
  simp only [Pi.smul_apply, smul_eq_mul, MsckfUpdater.ray, ← hb]
  field_simp

theorem quad_sum [IsStrictOrderedRing K] (L : List (V3 K)) (y : V3 K)
    (h : ((L.map fun b => (skew b).transpose * skew b).sum).mulVec y = 0) : ∀ b ∈ L, V3.cross b y = 0 := by
  have key : ∀ L : List (V3 K),
      (((L.map fun b => (skew b).transpose * skew b).sum).mulVec y) 0 * y 0 +
      (((L.map fun b => (skew b).transpose * skew b).sum).mulVec y) 1 * y 1 +
      (((L.map fun b => (skew b).transpose * skew b).sum).mulVec y) 2 * y 2 =
      (L.map fun b => V3.cross b y 0 * V3.cross b y 0 + V3.cross b y 1 * V3.cross b y 1 + V3.cross b y 2 * V3.cross b y 2).sum := by
    intro L
    induction L with
    | nil => simp
    | cons b L ih =>
      simp only [List.map_cons, List.sum_cons, Matrix.add_mulVec, Pi.add_apply]
      rw [← ih, ← normal_quad b y]
      ring
  have hsq : ∀ b : V3 K, 0 ≤ V3.cross b y 0 * V3.cross b y 0 + V3.cross b y 1 * V3.cross b y 1 +
      V3.cross b y 2 * V3.cross b y 2 := fun b => by
    nlinarith [mul_self_nonneg (V3.cross b y 0), mul_self_nonneg (V3.cross b y 1), mul_self_nonneg (V3.cross b y 2)]
  have h0 := key L
  rw [h] at h0
  simp only [Pi.zero_apply, zero_mul, add_zero] at h0
  have all : ∀ L : List (V3 K), 0 = (L.map fun b => V3.cross b y 0 * V3.cross b y 0 + V3.cross b y 1 * V3.cross b y 1 +
      V3.cross b y 2 * V3.cross b y 2).sum → ∀ b ∈ L, V3.cross b y = 0 := by
    intro L
    induction L with
    | nil => intro _ b hb; cases hb
    | cons c L ih =>
      intro hs
      rw [List.map_cons, List.sum_cons] at hs
      have hL : 0 ≤ (L.map fun b => V3.cross b y 0 * V3.cross b y 0 + V3.cross b y 1 * V3.cross b y 1 +
          V3.cross b y 2 * V3.cross b y 2).sum := List.sum_nonneg (by
        intro x hx
        obtain ⟨b, _, rfl⟩ := List.mem_map.1 hx
        exact hsq b)
      have hc := hsq c
      have h1 : 0 = (L.map fun b => V3.cross b y 0 * V3.cross b y 0 + V3.cross b y 1 * V3.cross b y 1 +
          V3.cross b y 2 * V3.cross b y 2).sum := by linarith
      have h2 : V3.cross c y 0 * V3.cross c y 0 + V3.cross c y 1 * V3.cross c y 1 + V3.cross c y 2 * V3.cross c y 2 = 0 := by
        linarith
      intro b hb
      rcases List.mem_cons.1 hb with rfl | hb
      · funext i
        have e0 := mul_self_nonneg (V3.cross b y 0)
        have e1 := mul_self_nonneg (V3.cross b y 1)
        have e2 := mul_self_nonneg (V3.cross b y 2)
        have d0 : V3.cross b y 0 * V3.cross b y 0 = 0 := by linarith
        have d1 : V3.cross b y 1 * V3.cross b y 1 = 0 := by linarith
        have d2 : V3.cross b y 2 * V3.cross b y 2 = 0 := by linarith
        fin_cases i
        · exact mul_self_eq_zero.1 d0
        · exact mul_self_eq_zero.1 d1
        · exact mul_self_eq_zero.1 d2
      · exact ih h1 b hb
  exact all L h0

/-- Exact observations from two places not in line with the point determine it. -/
theorem solve_exact [IsStrictOrderedRing K] {N : Num K} (hs : N.toPrim.SqrtLaw) (hsol : N.SolveLaw) {u : MsckfUpdater K}
    {a0 : AugState K} {F : V3 K} (hc : u.angC.normSq = 1) (h0 : a0.ang.normSq = 1) (L : List (AugState K × FeaturePoint K))
    (hL : ∀ x ∈ L, x.1.ang.normSq = 1 ∧ u.Sees x.1 x.2 F)
    (hpar : ∃ x ∈ L, ∃ y ∈ L, V3.cross (F - u.centre x.1) (F - u.centre y.1) ≠ 0) :
    N.solve ((L.map fun x => (u.triangulateTerm N a0 x.1 x.2).1).sum)
      ((L.map fun x => (u.triangulateTerm N a0 x.1 x.2).2).sum) = u.inCamera a0 F := by
  apply hsol
  · clear hpar
    induction L with
    | nil => simp
    | cons x L ih =>
      simp only [List.map_cons, List.sum_cons, Matrix.add_mulVec]
      rw [ih fun y hy => hL y (List.mem_cons_of_mem _ hy)]
      congr 1
      obtain ⟨hi, hx⟩ := hL x (List.mem_cons_self ..)
      obtain ⟨c, _, hcr⟩ := sight_ray (a0 := a0) hs hc hi hx
      rw [term_snd, ← sub_eq_zero, ← Matrix.mulVec_sub, term_fst]
      apply normal_ray _ _ c
      rw [← hcr, inCamera_eq, ← Matrix.mulVec_sub]
      congr 1
      abel
  · intro y hy
    have hy' : ((L.map fun x => (skew (u.ray N a0 x.1 x.2)).transpose * skew (u.ray N a0 x.1 x.2)).sum).mulVec y = 0 := hy
    have hq := quad_sum (L.map fun x => u.ray N a0 x.1 x.2) y (by rw [List.map_map]; exact hy')
    obtain ⟨x, hx, z, hz, hxz⟩ := hpar
    obtain ⟨hi, hxs⟩ := hL x hx
    obtain ⟨hj, hzs⟩ := hL z hz
    obtain ⟨c, _, hcr⟩ := sight_ray (a0 := a0) hs hc hi hxs
    obtain ⟨d, _, hdr⟩ := sight_ray (a0 := a0) hs hc hj hzs
    refine zero_of_two_rays (hq _ (List.mem_map.2 ⟨x, hx, rfl⟩)) (hq _ (List.mem_map.2 ⟨z, hz, rfl⟩)) fun h => hxz ?_
    have hM : (u.angC.toMat.transpose * a0.ang.toMat.transpose).transpose *
        (u.angC.toMat.transpose * a0.ang.toMat.transpose) = 1 := by
      rw [Matrix.transpose_mul, Matrix.transpose_transpose, Matrix.transpose_transpose, Matrix.mul_assoc,
        ← Matrix.mul_assoc u.angC.toMat, toMat_mul_transpose hc, Matrix.one_mul, toMat_mul_transpose h0]
    have hk := cross_mulVec (u.angC.toMat.transpose * a0.ang.toMat.transpose) (F - u.centre x.1) (F - u.centre z.1)
    have hz0 : V3.cross (c • u.ray N a0 x.1 x.2) (d • u.ray N a0 z.1 z.2) = 0 := by
      have : V3.cross (c • u.ray N a0 x.1 x.2) (d • u.ray N a0 z.1 z.2) =
          (c * d) • V3.cross (u.ray N a0 x.1 x.2) (u.ray N a0 z.1 z.2) := by
        funext i; fin_cases i <;> simp [V3.cross] <;> ring
      rw [this, h, smul_zero]
    rw [hcr, hdr, hz0, Matrix.mulVec_zero] at hk
    exact (smul_eq_zero.1 hk.symm).resolve_left (det_ne_zero_of_orthogonal hM)

end geometry
end EkfCal
