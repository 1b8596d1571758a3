import Verif.Spec.Motion
import Verif.Lemmas.Window
import Verif.Props.C49
import Verif.Lemmas.RealPrim
import Verif.Lemmas.Rotation
import Verif.Spec.Samples
import Mathlib.Tactic.FieldSimp
import Mathlib.Tactic.LinearCombination
import Mathlib.Tactic.NormNum
import Mathlib.Tactic.Positivity

/-!
# C50: prediction moves the body with its estimated acceleration and rate
-/

namespace EkfCal
open Ekf
variable {K : Type} [Field K] [LinearOrder K]

/-- The flags a prediction keeps. -/
theorem predict_flags {N : Prim K} {e e' : Ekf K} {t : K} (h : predict N e t = .ok e') :
    e'.isGravityInitialized = e.isGravityInitialized ∧ e'.isZeroAcceleration = e.isZeroAcceleration := by
  by_cases ht : t < e.currentTime
  · obtain ⟨_, rfl⟩ | ⟨h2, _⟩ := predict_form h
    · exact ⟨rfl, rfl⟩
    · exact absurd ht (not_lt.2 h2)
  · have f := (frame2_predict ht h).toFrame
    exact ⟨f.gravity, f.zeroAcc⟩

/-- One prediction of the body state. -/
theorem C50_step (N : Prim K) (e e' : Ekf K) (t : K) (h : predict N e t = .ok e') (hg : e.isGravityInitialized = true)
    (ht : e.currentTime ≤ t) :
    (∀ i, e'.state.body.vel i = e.state.body.vel i + (t - e.currentTime) * e.coordAcc i) ∧
    (∀ i, e'.state.body.pos i = e.state.body.pos i + (t - e.currentTime) * e'.state.body.vel i) ∧
    e'.state.body.ang = (N.rotVecToQuat ((t - e.currentTime) • e.state.body.angVel)).mul e.state.body.ang ∧
    e'.state.body.acc = e.state.body.acc ∧ e'.state.body.angVel = e.state.body.angVel ∧
    e'.state.body.angAcc = e.state.body.angAcc ∧ e'.currentTime = t := by
  obtain ⟨h1, _⟩ | ⟨_, b, out, ⟨hg', _⟩ | ⟨_, rfl, _⟩, hp⟩ := predict_form h
  · exact absurd ht (not_le.2 h1)
  · rw [hg] at hg'; cases hg'
  · have h1 := augmentTimed_body hp
    have h2 := (frame2_augmentTimed hp).toFrame.currentTime
    have hr : (![e.state.body.angVel 0 * (t - e.currentTime), e.state.body.angVel 1 * (t - e.currentTime),
        e.state.body.angVel 2 * (t - e.currentTime)] : V3 K) = (t - e.currentTime) • e.state.body.angVel := by
      funext i
      fin_cases i <;> simp [mul_comm]
    rw [h1]
    refine ⟨fun i => ?_, fun i => ?_, ?_, rfl, rfl, rfl, h2⟩
    · simp only [predictBody, coordAcc]
      split <;> simp
    · simp only [predictBody, Pi.add_apply, Pi.smul_apply, smul_eq_mul]
    · simp only [predictBody]
      rw [hr]

/-- **Closed form over any sequence of requests**: the velocity is exact; the position is that of constant acceleration plus
half the acceleration times the sum of the squared intervals. -/
theorem C50_partial [IsStrictOrderedRing K] (N : Prim K) (ts : List K) (e e' : Ekf K)
    (h : run N e (ts.map Op.predict) = .ok e') (hg : e.isGravityInitialized = true) :
    (∀ i, e'.state.body.vel i = e.state.body.vel i + elapsed e.currentTime ts * e.coordAcc i) ∧
    (∀ i, e'.state.body.pos i =
      ballistic e.state.body.pos e.state.body.vel e.coordAcc (elapsed e.currentTime ts) i +
      ((intervals e.currentTime ts).map fun d => d ^ 2).sum / 2 * e.coordAcc i) ∧
    e'.state.body.acc = e.state.body.acc ∧ e'.state.body.angVel = e.state.body.angVel ∧
    e'.state.body.angAcc = e.state.body.angAcc := by
  induction ts generalizing e with
  | nil =>
    cases h
    simp [elapsed, intervals, ballistic]
  | cons t ts ih =>
    simp only [List.map_cons, run, step] at h
    rw [bind_ok_iff] at h
    obtain ⟨e1, h1, h⟩ := h
    by_cases ht : t < e.currentTime
    · have : e1 = e := by
        obtain ⟨_, rfl⟩ | ⟨h2, _⟩ := predict_form h1
        · rfl
        · exact absurd ht (not_lt.2 h2)
      subst this
      have := ih e1 h hg
      simpa only [elapsed, intervals, if_pos ht] using this
    · obtain ⟨s1, s2, _, s4, s5, s6, s7⟩ := C50_step N e e1 t h1 hg (not_lt.1 ht)
      obtain ⟨f1, f2⟩ := predict_flags h1
      obtain ⟨g1, g2, g3, g4, g5⟩ := ih e1 h (f1.trans hg)
      have ha : e1.coordAcc = e.coordAcc := by unfold coordAcc; rw [f2, s4]
      rw [s7, ha] at g1 g2
      simp only [elapsed, intervals, if_neg ht, List.sum_cons, List.map_cons, ballistic] at g1 g2 ⊢
      refine ⟨fun i => ?_, fun i => ?_, g3.trans s4, g4.trans s5, g5.trans s6⟩
      · rw [g1 i, s1 i]; ring
      · rw [g2 i, s2 i, s1 i]; ring

/-- **The position error is at most half the acceleration times the elapsed time times the longest interval.** -/
theorem C50_error [IsStrictOrderedRing K] (N : Prim K) (ts : List K) (e e' : Ekf K) (δ : K)
    (h : run N e (ts.map Op.predict) = .ok e') (hg : e.isGravityInitialized = true)
    (hδ : ∀ d ∈ intervals e.currentTime ts, d ≤ δ) (i : Fin 3) :
    |e'.state.body.pos i - ballistic e.state.body.pos e.state.body.vel e.coordAcc (elapsed e.currentTime ts) i| ≤
      |e.coordAcc i| / 2 * elapsed e.currentTime ts * δ := by
  obtain ⟨_, h2, _⟩ := C50_partial N ts e e' h hg
  rw [h2 i, add_sub_cancel_left, abs_mul, abs_div, abs_two]
  have hpos : ∀ (now : K) (ts : List K), ∀ d ∈ intervals now ts, 0 ≤ d := by
    intro now ts
    induction ts generalizing now with
    | nil => simp [intervals]
    | cons t ts ih =>
      intro d hd
      simp only [intervals] at hd
      split at hd
      · exact ih _ d hd
      · rename_i ht
        rcases List.mem_cons.1 hd with rfl | hd
        · exact sub_nonneg.2 (not_lt.1 ht)
        · exact ih _ d hd
  have hsum : ∀ l : List K, (∀ d ∈ l, 0 ≤ d) → (∀ d ∈ l, d ≤ δ) →
      0 ≤ (l.map fun d => d ^ 2).sum ∧ (l.map fun d => d ^ 2).sum ≤ l.sum * δ := by
    intro l
    induction l with
    | nil => simp
    | cons d l ih =>
      intro h1 h2
      obtain ⟨i1, i2⟩ := ih (fun x hx => h1 x (List.mem_cons_of_mem _ hx)) (fun x hx => h2 x (List.mem_cons_of_mem _ hx))
      have h3 := h1 d List.mem_cons_self
      have h4 := h2 d List.mem_cons_self
      simp only [List.map_cons, List.sum_cons]
      refine ⟨add_nonneg (sq_nonneg d) i1, ?_⟩
      have : d ^ 2 ≤ d * δ := by rw [pow_two]; exact mul_le_mul_of_nonneg_left h4 h3
      calc d ^ 2 + _ ≤ d * δ + l.sum * δ := add_le_add this i2
        _ = (d + l.sum) * δ := by ring
  obtain ⟨i1, i2⟩ := hsum _ (hpos e.currentTime ts) hδ
  rw [abs_of_nonneg i1]
  have : (0 : K) ≤ |e.coordAcc i| / 2 := div_nonneg (abs_nonneg _) zero_le_two
  have h3 := mul_le_mul_of_nonneg_left i2 this
  unfold elapsed
  calc _ = |e.coordAcc i| / 2 * ((intervals e.currentTime ts).map fun d => d ^ 2).sum := by ring
    _ ≤ _ := h3
    _ = _ := by ring

/-- **The predicted position is not that of constant acceleration**: from rest with coordinate acceleration 2, predicting
one second ahead moves the body 2 metres instead of 1; asking for the same time in two halves moves it 1.5 metres. -/
theorem C50_position_violated : ¬ ∀ (ts : List ℚ) (ops : List (Op ℚ)) (e e' : Ekf ℚ),
    run Samples.prim (init Samples.prim (Samples.params .all false)) ops = .ok e → e.isGravityInitialized = true →
    run Samples.prim e (ts.map Op.predict) = .ok e' →
    ∀ i, e'.state.body.pos i =
      ballistic e.state.body.pos e.state.body.vel e.coordAcc (elapsed e.currentTime ts) i := by
  intro h
  let ops : List (Op ℚ) := [.initializeAt 0 { BodyState.default with acc := ![2, 0, 980665 / 100000] }, .initializeGravity,
    .setZeroAcceleration false]
  have hrun : ∃ e, run Samples.prim (init Samples.prim (Samples.params .all false)) ops = .ok e ∧
      e.isGravityInitialized = true := ⟨_, rfl, rfl⟩
  obtain ⟨e, h1, h2⟩ := hrun
  have hrun' : ∃ e', run Samples.prim e ([1].map Op.predict) = .ok e' := by
    cases h1
    exact ⟨_, rfl⟩
  obtain ⟨e', h3⟩ := hrun'
  have g := h [1] ops e e' h1 h2 h3 0
  obtain ⟨_, g2, _⟩ := C50_partial Samples.prim [1] e e' h3 h2
  rw [g2 0] at g
  have ha : e.coordAcc 0 = 2 := by cases h1; decide +kernel
  have ht : e.currentTime = 0 := by cases h1; rfl
  rw [ha, ht] at g
  norm_num [intervals] at g

/-! ## Orientation -/

/-- Composition of rotations about one axis. -/
theorem Quat.ofAngleAxis_mul (a b : ℝ) (u : V3 ℝ) (hu : u 0 * u 0 + u 1 * u 1 + u 2 * u 2 = 1) :
    (Quat.ofAngleAxis a u).mul (Quat.ofAngleAxis b u) = Quat.ofAngleAxis (a + b) u := by
  have h : (a + b) / 2 = a / 2 + b / 2 := by ring
  have hc := Real.cos_add (a / 2) (b / 2)
  have hs := Real.sin_add (a / 2) (b / 2)
  apply Quat.ext <;> simp only [Quat.ofAngleAxis, Quat.mul, h, hc, hs]
  · linear_combination (-(Real.sin (a / 2) * Real.sin (b / 2))) * hu
  · ring
  · ring
  · ring

/-- The norm of a multiple. -/
theorem V3.norm_smul_nonneg (d : ℝ) (hd : 0 ≤ d) (w : V3 ℝ) : V3.norm (d • w) = d * V3.norm w := by
  apply V3.norm_eq_of_sq (mul_nonneg hd (V3.norm_nonneg w))
  have := V3.norm_sq w
  simp only [Pi.smul_apply, smul_eq_mul]
  linear_combination (-(d * d)) * this

/-- Rotation vectors above the threshold (or zero) about one axis add up. -/
theorem rotVecToQuat_add (w : V3 ℝ) (a b : ℝ) (ha : 0 ≤ a) (hb : 0 ≤ b)
    (h1 : a * V3.norm w = 0 ∨ 1 / 10 ^ 9 < a * V3.norm w) (h2 : b * V3.norm w = 0 ∨ 1 / 10 ^ 9 < b * V3.norm w) :
    (rotVecToQuat (a • w)).mul (rotVecToQuat (b • w)) = rotVecToQuat ((a + b) • w) := by
  have hw := V3.norm_nonneg w
  have key : ∀ c : ℝ, 0 ≤ c → 1 / 10 ^ 9 < c * V3.norm w →
      rotVecToQuat (c • w) = Quat.ofAngleAxis (c * V3.norm w) (fun i => w i / V3.norm w) := by
    intro c hc h
    rw [rotVecToQuat_large (by rw [V3.norm_smul_nonneg c hc]; exact h), V3.norm_smul_nonneg c hc]
    congr 1
    funext i
    have hc0 : c ≠ 0 := by rintro rfl; norm_num at h
    have hw0 : V3.norm w ≠ 0 := by intro h0; rw [h0] at h; norm_num at h
    simp only [Pi.smul_apply, smul_eq_mul]
    field_simp
  have zero : ∀ c : ℝ, 0 ≤ c → c * V3.norm w = 0 → rotVecToQuat (c • w) = Quat.one := by
    intro c hc h
    unfold rotVecToQuat
    rw [V3.norm_smul_nonneg c hc, h, if_neg (by norm_num)]
    rfl
  have one_mul : ∀ q : Quat ℝ, Quat.one.mul q = q := by intro q; apply Quat.ext <;> simp [Quat.mul, Quat.one]
  have mul_one : ∀ q : Quat ℝ, q.mul Quat.one = q := by intro q; apply Quat.ext <;> simp [Quat.mul, Quat.one]
  have hax : ∀ (_ : V3.norm w ≠ 0), (w 0 / V3.norm w) * (w 0 / V3.norm w) + (w 1 / V3.norm w) * (w 1 / V3.norm w) +
      (w 2 / V3.norm w) * (w 2 / V3.norm w) = 1 := fun h => V3.unit_sq h
  rcases h1 with h1 | h1 <;> rcases h2 with h2 | h2
  · rw [zero a ha h1, zero b hb h2, zero (a + b) (add_nonneg ha hb) (by rw [add_mul, h1, h2, add_zero]), one_mul]
  · rw [zero a ha h1, one_mul, key b hb h2, key (a + b) (add_nonneg ha hb) (by rw [add_mul, h1, zero_add]; exact h2)]
    congr 1
    rw [add_mul, h1, zero_add]
  · rw [zero b hb h2, mul_one, key a ha h1, key (a + b) (add_nonneg ha hb) (by rw [add_mul, h2, add_zero]; exact h1)]
    congr 1
    rw [add_mul, h2, add_zero]
  · have hw0 : V3.norm w ≠ 0 := by intro h0; rw [h0] at h1; norm_num at h1
    rw [key a ha h1, key b hb h2, key (a + b) (add_nonneg ha hb) (by rw [add_mul]; linarith), Quat.ofAngleAxis_mul _ _ _ (hax hw0)]
    congr 1
    ring

theorem Quat.mul_assoc' {K : Type} [Field K] (a b c : Quat K) : (a.mul b).mul c = a.mul (b.mul c) := by
  apply Quat.ext <;> simp only [Quat.mul] <;> ring

theorem intervals_nonneg (now : ℝ) (ts : List ℝ) : ∀ d ∈ intervals now ts, 0 ≤ d := by
  induction ts generalizing now with
  | nil => simp [intervals]
  | cons t ts ih =>
    intro d hd
    simp only [intervals] at hd
    split at hd
    · exact ih _ d hd
    · rename_i ht
      rcases List.mem_cons.1 hd with rfl | hd
      · exact sub_nonneg.2 (not_lt.1 ht)
      · exact ih _ d hd

/-- **Constant rate is integrated exactly** over any sequence of requests, as long as no interval turns the body by a
positive angle of at most 1e-9. -/
theorem C50_orientation_partial (ts : List ℝ) (e e' : Ekf ℝ) (h : run realPrim e (ts.map Op.predict) = .ok e')
    (hg : e.isGravityInitialized = true)
    (hr : ∀ d ∈ intervals e.currentTime ts, d * V3.norm e.state.body.angVel = 0 ∨
      1 / 10 ^ 9 < d * V3.norm e.state.body.angVel) :
    e'.state.body.ang = (rotVecToQuat (elapsed e.currentTime ts • e.state.body.angVel)).mul e.state.body.ang := by
  have one_mul : ∀ q : Quat ℝ, Quat.one.mul q = q := by intro q; apply Quat.ext <;> simp [Quat.mul, Quat.one]
  have aux : ∀ (l : List ℝ) (w : V3 ℝ), (∀ d ∈ l, 0 ≤ d) → (∀ d ∈ l, d * V3.norm w = 0 ∨ 1 / 10 ^ 9 < d * V3.norm w) →
      0 ≤ l.sum ∧ (l.sum * V3.norm w = 0 ∨ 1 / 10 ^ 9 < l.sum * V3.norm w) := by
    intro l w
    induction l with
    | nil => simp
    | cons d l ih =>
      intro h1 h2
      obtain ⟨i1, i2⟩ := ih (fun x hx => h1 x (List.mem_cons_of_mem _ hx)) (fun x hx => h2 x (List.mem_cons_of_mem _ hx))
      have h3 := h1 d List.mem_cons_self
      have h4 := h2 d List.mem_cons_self
      have hw := V3.norm_nonneg w
      simp only [List.sum_cons, add_mul]
      refine ⟨add_nonneg h3 i1, ?_⟩
      rcases h4 with h4 | h4 <;> rcases i2 with i2 | i2
      · left; rw [h4, i2, add_zero]
      · right; rw [h4, zero_add]; exact i2
      · right; rw [i2, add_zero]; exact h4
      · right; linarith
  induction ts generalizing e with
  | nil =>
    cases h
    have : rotVecToQuat ((0 : ℝ) • e'.state.body.angVel) = Quat.one := by
      unfold rotVecToQuat
      rw [V3.norm_smul_nonneg 0 le_rfl, if_neg (by norm_num)]
      rfl
    simp only [elapsed, intervals, List.sum_nil, this, one_mul]
  | cons t ts ih =>
    simp only [List.map_cons, run, step] at h
    rw [bind_ok_iff] at h
    obtain ⟨e1, h1, h⟩ := h
    by_cases ht : t < e.currentTime
    · have : e1 = e := by
        obtain ⟨_, rfl⟩ | ⟨h2, _⟩ := predict_form h1
        · rfl
        · exact absurd ht (not_lt.2 h2)
      subst this
      simp only [intervals, if_pos ht] at hr
      have := ih e1 h hg hr
      simpa only [elapsed, intervals, if_pos ht] using this
    · obtain ⟨_, _, s3, _, s5, _, s7⟩ := C50_step realPrim e e1 t h1 hg (not_lt.1 ht)
      obtain ⟨f1, _⟩ := predict_flags h1
      simp only [intervals, if_neg ht, List.mem_cons, forall_eq_or_imp] at hr
      have g := ih e1 h (f1.trans hg) (by rw [s7, s5]; exact hr.2)
      have hd : 0 ≤ t - e.currentTime := sub_nonneg.2 (not_lt.1 ht)
      obtain ⟨b1, b2⟩ := aux _ e.state.body.angVel (intervals_nonneg t ts) hr.2
      rw [g, s3, s5, s7, ← Quat.mul_assoc']
      change ((rotVecToQuat _).mul (rotVecToQuat _)).mul _ = _
      simp only [elapsed, intervals, if_neg ht, List.sum_cons]
      rw [rotVecToQuat_add _ _ _ b1 hd b2 hr.1, add_comm]

/-- **Slow rotation is lost**: when every interval turns the body by at most 1e-9, the orientation never changes, however
long the filter runs. -/
theorem C50_slow_rotation (ts : List ℝ) (e e' : Ekf ℝ) (h : run realPrim e (ts.map Op.predict) = .ok e')
    (hg : e.isGravityInitialized = true)
    (hr : ∀ d ∈ intervals e.currentTime ts, d * V3.norm e.state.body.angVel ≤ 1 / 10 ^ 9) :
    e'.state.body.ang = e.state.body.ang := by
  have one_mul : ∀ q : Quat ℝ, Quat.one.mul q = q := by intro q; apply Quat.ext <;> simp [Quat.mul, Quat.one]
  induction ts generalizing e with
  | nil => cases h; rfl
  | cons t ts ih =>
    simp only [List.map_cons, run, step] at h
    rw [bind_ok_iff] at h
    obtain ⟨e1, h1, h⟩ := h
    by_cases ht : t < e.currentTime
    · have : e1 = e := by
        obtain ⟨_, rfl⟩ | ⟨h2, _⟩ := predict_form h1
        · rfl
        · exact absurd ht (not_lt.2 h2)
      subst this
      simp only [intervals, if_pos ht] at hr
      exact ih e1 h hg hr
    · obtain ⟨_, _, s3, _, s5, _, s7⟩ := C50_step realPrim e e1 t h1 hg (not_lt.1 ht)
      obtain ⟨f1, _⟩ := predict_flags h1
      simp only [intervals, if_neg ht, List.mem_cons, forall_eq_or_imp] at hr
      have g := ih e1 h (f1.trans hg) (by rw [s7, s5]; exact hr.2)
      have hd : 0 ≤ t - e.currentTime := sub_nonneg.2 (not_lt.1 ht)
      rw [g, s3]
      have : realPrim.rotVecToQuat ((t - e.currentTime) • e.state.body.angVel) = Quat.one := by
        change rotVecToQuat _ = _
        unfold rotVecToQuat
        rw [V3.norm_smul_nonneg _ hd, if_neg (not_lt.2 hr.1)]
        rfl
      rw [this, one_mul]

/-- **Orientation is not independent of how often predictions are requested**: at 1e-9 rad/s one prediction over ten seconds
turns the body; ten predictions over one second each do not. -/
theorem C50_orientation_violated : ¬ ∀ (p : EkfParams ℝ) (ops : List (Op ℝ)) (ts : List ℝ) (e e' : Ekf ℝ),
    run realPrim (init realPrim p) ops = .ok e → e.isGravityInitialized = true →
    run realPrim e (ts.map Op.predict) = .ok e' →
    e'.state.body.ang = (rotVecToQuat (elapsed e.currentTime ts • e.state.body.angVel)).mul e.state.body.ang := by
  intro h
  let p : EkfParams ℝ := ⟨.all, 1, 1, 1, ⟨18, fun _ => 1⟩, 0, Quat.one, 0, 0, .constant, 100, 1, 1, 1, 100, false, false⟩
  have hrun : ∃ e, run realPrim (init realPrim p)
      [.initializeAt 0 { BodyState.default with angVel := ![1 / 10 ^ 9, 0, 0], ang := Quat.one }, .initializeGravity] = .ok e ∧
      e.isGravityInitialized = true ∧ e.state.body.angVel = ![1 / 10 ^ 9, 0, 0] ∧ e.state.body.ang = Quat.one ∧
      e.currentTime = 0 ∧ ∃ e', run realPrim e (([1, 2] : List ℝ).map Op.predict) = .ok e' := by
    refine ⟨_, rfl, rfl, rfl, rfl, rfl, ?_⟩
    have hs : SafeHistory realPrim (init realPrim p)
        [.initializeAt 0 { BodyState.default with angVel := ![1 / 10 ^ 9, 0, 0], ang := Quat.one }, .initializeGravity,
          .predict 1, .predict 2] := by
      refine ⟨rfl, trivial, fun _ _ => ⟨trivial, trivial, fun _ _ => ⟨trivial, trivial, fun _ _ => ⟨trivial, trivial, fun _ _ => trivial⟩⟩⟩⟩
    exact C49_history realPrim p rfl _ hs
  obtain ⟨e, h1, h2, h3, h4, h5, e', h6⟩ := hrun
  have hn : V3.norm (![1 / 10 ^ 9, 0, 0] : V3 ℝ) = 1 / 10 ^ 9 := by
    apply V3.norm_eq_of_sq (by positivity)
    simp
  have hi : intervals (0 : ℝ) [1, 2] = [1, 1] := by
    simp only [intervals]; norm_num
  have g1 := C50_slow_rotation [1, 2] e e' h6 h2 (by
    rw [h5, hi, h3, hn]
    simp)
  have g2 := h p _ [1, 2] e e' h1 h2 h6
  rw [g1, h4, h3, h5] at g2
  have he : elapsed (0 : ℝ) [1, 2] = 2 := by rw [elapsed, hi]; norm_num
  rw [he] at g2
  have mul_one : ∀ q : Quat ℝ, q.mul Quat.one = q := by intro q; apply Quat.ext <;> simp [Quat.mul, Quat.one]
  have hn2 : V3.norm ((2 : ℝ) • (![1 / 10 ^ 9, 0, 0] : V3 ℝ)) = 2 / 10 ^ 9 := by
    rw [V3.norm_smul_nonneg 2 (by norm_num), hn]; ring
  rw [mul_one, rotVecToQuat_large (by rw [hn2]; norm_num), hn2] at g2
  have g3 := congrArg Quat.x g2
  simp only [Quat.ofAngleAxis, Quat.one, hn2, Pi.smul_apply, smul_eq_mul, Matrix.cons_val_zero] at g3
  have hs : 0 < Real.sin (2 / 10 ^ 9 / 2) := Real.sin_pos_of_pos_of_lt_pi (by norm_num) (by
    have := Real.two_le_pi; linarith)
  have : (2 : ℝ) * (1 / 10 ^ 9) / (2 / 10 ^ 9) = 1 := by norm_num
  rw [this, _root_.mul_one] at g3
  exact absurd g3.symm hs.ne'

/-- **Nothing but the body pose and velocity moves** when clones are not taken by the clock: sensors and clones stay. -/
theorem C50_others (N : Prim K) (e e' : Ekf K) (t : K) (h : predict N e t = .ok e') (ha : ¬ AugType.Timed e.augType) :
    e'.state = { e.state with body := e'.state.body } := by
  obtain ⟨_, rfl⟩ | ⟨_, b, out, _, hp⟩ := predict_form h
  · rfl
  · obtain ⟨_, rfl⟩ | ⟨h1, _⟩ := augmentTimed_form hp
    · rfl
    · exact absurd h1 ha

/-- A filter that meets the hypotheses: it accelerates and turns at 1 rad/s, and is predicted to 1, 1/2 and 3 seconds. -/
example : ∃ e e', run realPrim (init realPrim
      ⟨.all, 1, 1, 1, ⟨18, fun _ => 1⟩, 0, Quat.one, 0, 0, .constant, 100, 1, 1, 1, 100, false, false⟩)
      [.initializeAt 0 { BodyState.default with angVel := ![1, 0, 0], acc := ![1, 2, 3] }, .initializeGravity] = .ok e ∧
    e.isGravityInitialized = true ∧ run realPrim e (([1, 1 / 2, 3] : List ℝ).map Op.predict) = .ok e' ∧
    intervals e.currentTime [1, 1 / 2, 3] = [1, 2] ∧
    ∀ d ∈ intervals e.currentTime [1, 1 / 2, 3], d * V3.norm e.state.body.angVel = 0 ∨
      1 / 10 ^ 9 < d * V3.norm e.state.body.angVel := by
  have hs : SafeHistory realPrim (init realPrim
      ⟨.all, 1, 1, 1, ⟨18, fun _ => 1⟩, 0, Quat.one, 0, 0, .constant, 100, 1, 1, 1, 100, false, false⟩)
      [.initializeAt 0 { BodyState.default with angVel := ![1, 0, 0], acc := ![1, 2, 3] }, .initializeGravity,
        .predict 1, .predict (1 / 2), .predict 3] :=
    ⟨rfl, trivial, fun _ _ => ⟨trivial, trivial, fun _ _ => ⟨trivial, trivial, fun _ _ => ⟨trivial, trivial, fun _ _ =>
      ⟨trivial, trivial, fun _ _ => trivial⟩⟩⟩⟩⟩
  obtain ⟨e', h⟩ := C49_history realPrim _ rfl _ hs
  have hn : V3.norm (![1, 0, 0] : V3 ℝ) = 1 := by
    apply V3.norm_eq_of_sq (by positivity)
    simp
  have hi : intervals (0 : ℝ) [1, 1 / 2, 3] = [1, 2] := by
    simp only [intervals]; norm_num
  refine ⟨_, e', rfl, rfl, h, hi, ?_⟩
  change ∀ d ∈ intervals (0 : ℝ) [1, 1 / 2, 3], d * V3.norm (![1, 0, 0] : V3 ℝ) = 0 ∨ 1 / 10 ^ 9 < d * V3.norm (![1, 0, 0] : V3 ℝ)
  rw [hi, hn]
  intro d hd
  right
  simp only [List.mem_cons, List.not_mem_nil, or_false] at hd
  rcases hd with rfl | rfl <;> norm_num

end EkfCal
