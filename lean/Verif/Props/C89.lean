import Verif.Spec.Splits
import Verif.Props.C09
import Verif.Props.C50

/-!
# C89 — how often the filter predicts in between does not matter

Violated. `EKF::PredictModel` is called for every message, so the same stretch of time is split differently by every set of
sensors. Velocity, acceleration and rates come out the same; position and its uncertainty do not.
-/

set_option linter.unusedSectionVars false

namespace EkfCal
open Ekf Finset
variable {K : Type} [Field K] [LinearOrder K]

theorem sum_lever [IsStrictOrderedRing K] (ds : List K) (hd : ∀ d ∈ ds, 0 ≤ d) :
    0 ≤ ds.sum ∧ ds.sum ^ 2 / 2 ≤ lever1 ds ∧ lever1 ds ≤ ds.sum ^ 2 ∧ ds.sum ^ 3 / 3 ≤ lever2 ds ∧
      lever2 ds ≤ ds.sum ^ 3 := by
  induction ds with
  | nil => simp [lever1, lever2]
  | cons d ds ih =>
    obtain ⟨h0, h1, h2, h3, h4⟩ := ih fun x hx => hd x (List.mem_cons_of_mem _ hx)
    have h := hd d List.mem_cons_self
    simp only [lever1, lever2, List.sum_cons]
    generalize ds.sum = T at *
    have e1 : 0 ≤ d * T := mul_nonneg h h0
    have e2 : 0 ≤ d * d * T := mul_nonneg (mul_nonneg h h) h0
    have e3 : 0 ≤ d * d * d := mul_nonneg (mul_nonneg h h) h
    have e4 : 0 ≤ d * T * T := mul_nonneg e1 h0
    have e5 : 0 ≤ d * d := mul_nonneg h h
    refine ⟨add_nonneg h h0, ?_, ?_, ?_, ?_⟩ <;> nlinarith

theorem lever2_fine [IsStrictOrderedRing K] (δ : K) (ds : List K) (hd : ∀ d ∈ ds, 0 ≤ d ∧ d ≤ δ) :
    lever2 ds ≤ ds.sum ^ 3 / 3 + δ * ds.sum ^ 2 ∧ lever1 ds ≤ ds.sum ^ 2 / 2 + δ * ds.sum := by
  induction ds with
  | nil => simp [lever1, lever2]
  | cons d ds ih =>
    have hd' := fun x hx => hd x (List.mem_cons_of_mem d hx)
    obtain ⟨h1, h2⟩ := ih hd'
    have h0 := (sum_lever ds fun x hx => (hd' x hx).1).1
    obtain ⟨h, hδ⟩ := hd d List.mem_cons_self
    simp only [lever1, lever2, List.sum_cons]
    generalize ds.sum = T at *
    have e1 : 0 ≤ d * d * (δ - d) := mul_nonneg (mul_nonneg h h) (sub_nonneg.2 hδ)
    have e2 : 0 ≤ d * T * (δ - d) := mul_nonneg (mul_nonneg h h0) (sub_nonneg.2 hδ)
    have e3 : 0 ≤ d * (δ - d) := mul_nonneg h (sub_nonneg.2 hδ)
    have e4 : 0 ≤ d * T * δ := mul_nonneg (mul_nonneg h h0) (h.trans hδ)
    have e5 : 0 ≤ d * d * d := mul_nonneg (mul_nonneg h h) h
    have e6 : 0 ≤ d * d := mul_nonneg h h
    constructor <;> nlinarith

/-- One interval after another. -/
theorem overTime_cons {n : Nat} (hn : 6 ≤ n) (P Q : Nat → Nat → K) (d : K) (ds : List K) (A : Nat → Nat → K)
    (hA : ∀ i j, i < n → j < n →
      A i j = congr n (transition d) (fun k l => P k l + if k = l then Q k k * d else 0) i j)
    {i j : Nat} (hi : i < n) (hj : j < n) : overTime n A Q ds i j = overTime n P Q (d :: ds) i j := by
  have hA' : ∀ i j, i < n → j < n →
      A i j = tr d (fun k => tr d (fun l => P k l + if k = l then Q k k * d else 0) j) i := fun i j hi hj => by
    rw [hA i j hi hj, congr_transition hn d _ hi hj]
  unfold overTime
  rw [congr_transition hn _ _ hi hj, congr_transition hn _ _ hi hj]
  simp only [lever1, lever2, List.sum_cons]
  generalize ds.sum = T
  generalize lever1 ds = L1
  generalize lever2 ds = L2
  simp only [tr]
  rw [hA' i j hi hj]
  by_cases h1 : i < 3 <;> by_cases h2 : j < 3
  · have a1 : i + 3 < n := by omega
    have a2 : j + 3 < n := by omega
    rw [hA' _ _ a1 hj, hA' _ _ hi a2, hA' _ _ a1 a2]
    have b1 : ¬ i + 3 < 3 := by omega
    have b2 : ¬ j + 3 < 3 := by omega
    have b3 : ¬ i + 3 = j := by omega
    have b4 : ¬ i = j + 3 := by omega
    have b5 : ¬ j = i + 3 := by omega
    by_cases h3 : i = j
    · subst h3
      simp only [tr, h1, b1, b4, b3, if_true, if_false, true_and, false_and, and_self, and_false]
      ring
    · have b6 : ¬ j = i := fun h => h3 h.symm
      have b7 : ¬ i + 3 = j + 3 := by omega
      simp only [tr, h1, h2, b1, b2, b3, b4, b5, b6, b7, h3, if_true, if_false, true_and, false_and, and_self, and_false]
      ring
  · have a1 : i + 3 < n := by omega
    rw [hA' _ _ a1 hj]
    have b1 : ¬ i + 3 < 3 := by omega
    have b2 : ¬ i = j := by omega
    have b3 : ¬ j = i := by omega
    by_cases h3 : j = i + 3
    · subst h3
      have b4 : ¬ i = i + 3 + 3 := by omega
      simp only [tr, h1, b1, b2, b3, b4, if_true, if_false, true_and, false_and, and_self, and_false]
      ring
    · have b6 : ¬ i + 3 = j := fun h => h3 h.symm
      have b4 : ¬ i = j + 3 := by omega
      simp only [tr, h1, h2, b1, b2, b3, b4, b6, h3, if_true, if_false, true_and, false_and, and_self, and_false]
      ring
  · have a1 : j + 3 < n := by omega
    rw [hA' _ _ hi a1]
    have b1 : ¬ j + 3 < 3 := by omega
    have b2 : ¬ i = j := by omega
    have b3 : ¬ j = i := by omega
    have b5 : ¬ j = i + 3 := by omega
    by_cases h3 : i = j + 3
    · subst h3
      simp only [tr, h2, b1, b2, b3, b5, if_true, if_false, true_and, false_and, and_self, and_false]
      ring
    · simp only [tr, h1, h2, b1, b2, b3, b5, h3, if_true, if_false, true_and, false_and, and_self, and_false]
      ring
  · by_cases h3 : i = j
    · subst h3
      simp only [tr, h1, if_true, if_false, true_and, false_and, and_self, and_false]
      ring
    · simp only [tr, h1, h2, h3, if_true, if_false, true_and, false_and, and_self, and_false]
      ring

namespace Ekf

/-- **The covariance after any requests for predictions**, standard form, no clock-driven cloning: nothing but the times
left matter, and those only for the position. -/
theorem C89_cov_partial (N : Prim K) (ts : List K) (e e' : Ekf K) (hi : Ekf.Inv e)
    (h : run N e (ts.map Op.predict) = .ok e') (hu : e.useRoot = false) (hg : e.isGravityInitialized = true)
    (ha : e.augType ≠ .time ∧ e.augType ≠ .error) :
    e'.stateSize = e.stateSize ∧ e'.processNoise = e.processNoise ∧ ∀ i j, i < e.stateSize → j < e.stateSize →
      e'.cov.get i j = overTime e.stateSize e.cov.get e.processNoise.get (intervals e.currentTime ts) i j := by
  have h18 : 18 ≤ e.stateSize := by rw [hi.size]; unfold State.dim; omega
  induction ts generalizing e with
  | nil =>
    cases h
    refine ⟨rfl, rfl, fun i j hi hj => ?_⟩
    rw [overTime, congr_transition (by omega) _ _ hi hj]
    simp [tr, intervals, lever1, lever2]
  | cons t ts ih =>
    simp only [List.map_cons, run, step] at h
    rw [bind_ok_iff] at h
    obtain ⟨e1, h1, h⟩ := h
    have hi1 : Ekf.Inv e1 := inv_step (N := N) (op := Op.predict t) hi trivial h1
    obtain ⟨hlt, rfl⟩ | ⟨ht, b, out, hc, hp⟩ := predict_form h1
    · have := ih e1 hi h hu hg ha h18
      simpa only [intervals, if_pos hlt] using this
    · obtain ⟨hg', _⟩ | ⟨_, _, hc⟩ := hc
      · rw [hg] at hg'; cases hg'
      · obtain ⟨out', g1, g2, g3, g4⟩ := predictCov_spec N e.cov e.processNoise (t - e.currentTime)
          (by rw [hi.covRows, hi.covCols]) (by rw [hi.covRows]; exact h18) (by rw [hi.noiseRows, hi.covRows])
          (by rw [hi.noiseCols, hi.covRows])
        rw [hu, ← hi.covRows, g1] at hc
        cases hc
        have hp' : e1 = { e with state := { e.state with body := b }, cov := out, currentTime := t } := by
          unfold augmentTimed at hp
          dsimp only at hp
          rw [if_pos (by cases hx : e.augType <;> simp_all)] at hp
          exact (Except.ok.inj hp).symm
        subst hp'
        obtain ⟨k1, k2, k3⟩ := ih _ hi1 h hu hg ha h18
        refine ⟨k1, k2, fun i j hi' hj' => ?_⟩
        rw [k3 i j hi' hj']
        simp only [intervals, if_neg (not_lt.2 ht)]
        refine overTime_cons (by omega) _ _ _ _ _ (fun a c h1 h2 => ?_) hi' hj'
        rw [← hi.covRows] at h1 h2
        rw [g4 a c h1 h2, hi.covRows]

theorem intervals_nonneg' [IsStrictOrderedRing K] (now : K) (ts : List K) : ∀ d ∈ intervals now ts, 0 ≤ d := by
  induction ts generalizing now with
  | nil => simp [intervals]
  | cons t ts ih =>
    intro d hd
    simp only [intervals] at hd
    split at hd
    · exact ih _ d hd
    · rename_i ht
      rcases List.mem_cons.1 hd with rfl | hd
      · exact sub_nonneg.2 (not_lt.1 ht)
      · exact ih _ d hd

/-- **What does not depend on the splitting**: two series of requests over the same time give the same velocity,
acceleration, rates, and the same covariance except between a position and itself or its own velocity. -/
theorem C89_same_partial [IsStrictOrderedRing K] (N : Prim K) (p : EkfParams K) (ops : List (Op K)) (hw : ∀ op ∈ ops, op.WF) (e e1 e2 : Ekf K)
    (h : run N (init N p) ops = .ok e) (hu : e.useRoot = false) (hg : e.isGravityInitialized = true)
    (ha : e.augType ≠ .time ∧ e.augType ≠ .error) (ts us : List K)
    (ht : run N e (ts.map Op.predict) = .ok e1) (hs : run N e (us.map Op.predict) = .ok e2)
    (hT : elapsed e.currentTime ts = elapsed e.currentTime us) :
    e1.state.body.vel = e2.state.body.vel ∧ e1.state.body.acc = e2.state.body.acc ∧
    e1.state.body.angVel = e2.state.body.angVel ∧ e1.state.body.angAcc = e2.state.body.angAcc ∧
    e1.stateSize = e2.stateSize ∧
    ∀ i j, i < e.stateSize → j < e.stateSize → ¬ (i < 3 ∧ (j = i ∨ j = i + 3)) → ¬ (j < 3 ∧ i = j + 3) →
      e1.cov.get i j = e2.cov.get i j := by
  have hi := inv_run (inv_init N p) hw h
  obtain ⟨a1, _, a3, a4, a5⟩ := C50_partial N ts e e1 ht hg
  obtain ⟨b1, _, b3, b4, b5⟩ := C50_partial N us e e2 hs hg
  obtain ⟨c1, _, c3⟩ := C89_cov_partial N ts e e1 hi ht hu hg ha
  obtain ⟨d1, _, d3⟩ := C89_cov_partial N us e e2 hi hs hu hg ha
  refine ⟨funext fun i => by rw [a1 i, b1 i, hT], a3.trans b3.symm, a4.trans b4.symm, a5.trans b5.symm, c1.trans d1.symm,
    fun i j h1 h2 h3 h4 => ?_⟩
  rw [c3 i j h1 h2, d3 i j h1 h2]
  unfold overTime
  unfold elapsed at hT
  have g1 : ¬ (i < 3 ∧ j = i) := fun x => h3 ⟨x.1, .inl x.2⟩
  have g2 : ¬ (i < 3 ∧ j = i + 3) := fun x => h3 ⟨x.1, .inr x.2⟩
  rw [hT, if_neg g1, if_neg g2, if_neg h4, if_neg g1, if_neg g2, if_neg h4]

/-- Without acceleration the position, without velocity noise the whole covariance is independent of the splitting too. -/
theorem C89_all_same_partial [IsStrictOrderedRing K] (N : Prim K) (p : EkfParams K) (ops : List (Op K)) (hw : ∀ op ∈ ops, op.WF) (e e1 e2 : Ekf K)
    (h : run N (init N p) ops = .ok e) (hu : e.useRoot = false) (hg : e.isGravityInitialized = true)
    (ha : e.augType ≠ .time ∧ e.augType ≠ .error) (ts us : List K)
    (ht : run N e (ts.map Op.predict) = .ok e1) (hs : run N e (us.map Op.predict) = .ok e2)
    (hT : elapsed e.currentTime ts = elapsed e.currentTime us) :
    (e.coordAcc = 0 → e1.state.body.pos = e2.state.body.pos) ∧
    ((∀ i, 3 ≤ i → i < 6 → e.processNoise.get i i = 0) → ∀ i j, i < e.stateSize → j < e.stateSize →
      e1.cov.get i j = e2.cov.get i j) := by
  have hi := inv_run (inv_init N p) hw h
  obtain ⟨_, a2, _⟩ := C50_partial N ts e e1 ht hg
  obtain ⟨_, b2, _⟩ := C50_partial N us e e2 hs hg
  obtain ⟨c1, _, c3⟩ := C89_cov_partial N ts e e1 hi ht hu hg ha
  obtain ⟨d1, _, d3⟩ := C89_cov_partial N us e e2 hi hs hu hg ha
  refine ⟨fun h0 => funext fun i => by rw [a2 i, b2 i, hT, h0]; simp, fun hq i j h1 h2 => ?_⟩
  rw [c3 i j h1 h2, d3 i j h1 h2]
  unfold overTime
  unfold elapsed at hT
  rw [hT]
  have k1 : ∀ x y : K, (if i < 3 ∧ j = i then e.processNoise.get (i + 3) (i + 3) * x else 0) =
      if i < 3 ∧ j = i then e.processNoise.get (i + 3) (i + 3) * y else 0 := fun x y => by
    split
    · rw [hq (i + 3) (by omega) (by omega), zero_mul, zero_mul]
    · rfl
  have k2 : ∀ x y : K, (if i < 3 ∧ j = i + 3 then e.processNoise.get j j * x else 0) =
      if i < 3 ∧ j = i + 3 then e.processNoise.get j j * y else 0 := fun x y => by
    split
    · rw [hq j (by omega) (by omega), zero_mul, zero_mul]
    · rfl
  have k3 : ∀ x y : K, (if j < 3 ∧ i = j + 3 then e.processNoise.get i i * x else 0) =
      if j < 3 ∧ i = j + 3 then e.processNoise.get i i * y else 0 := fun x y => by
    split
    · rw [hq i (by omega) (by omega), zero_mul, zero_mul]
    · rfl
  rw [k1 (lever2 (intervals e.currentTime ts)) (lever2 (intervals e.currentTime us)),
    k2 (lever1 (intervals e.currentTime ts)) (lever1 (intervals e.currentTime us)),
    k3 (lever1 (intervals e.currentTime ts)) (lever1 (intervals e.currentTime us))]

/-- The position variance the filter would report if velocity noise of density `q` contributed `q · c`. -/
def posVar (e : Ekf K) (T c : K) (i : Nat) : K :=
  congr e.stateSize (transition T) e.cov.get i i + e.processNoise.get i i * T + e.processNoise.get (i + 3) (i + 3) * c

/-- **How far the position variance depends on the splitting**: velocity noise of density `q` contributes at least `q T³/3`
and at most `q T³`; with intervals of at most `δ` it is within `q δ T²` of the former, which is what a body driven by white
noise all the time has. -/
theorem C89_variance_partial [IsStrictOrderedRing K] (N : Prim K) (p : EkfParams K) (ops : List (Op K))
    (hw : ∀ op ∈ ops, op.WF) (e e' : Ekf K)
    (h : run N (init N p) ops = .ok e) (hu : e.useRoot = false) (hg : e.isGravityInitialized = true)
    (ha : e.augType ≠ .time ∧ e.augType ≠ .error) (ts : List K) (ht : run N e (ts.map Op.predict) = .ok e')
    (i : Nat) (hi : i < 3) (hq : 0 ≤ e.processNoise.get (i + 3) (i + 3)) (T : K) (hT : T = elapsed e.currentTime ts) :
    posVar e T (T ^ 3 / 3) i ≤ e'.cov.get i i ∧ e'.cov.get i i ≤ posVar e T (T ^ 3) i ∧
    ∀ δ, (∀ d ∈ intervals e.currentTime ts, d ≤ δ) → e'.cov.get i i ≤ posVar e T (T ^ 3 / 3 + δ * T ^ 2) i := by
  have hinv := inv_run (inv_init N p) hw h
  have h18 : 18 ≤ e.stateSize := by rw [hinv.size]; unfold State.dim; omega
  obtain ⟨_, _, c3⟩ := C89_cov_partial N ts e e' hinv ht hu hg ha
  have hp := intervals_nonneg' e.currentTime ts
  obtain ⟨_, _, _, s3, s4⟩ := sum_lever _ hp
  have hc : e'.cov.get i i = posVar e T (lever2 (intervals e.currentTime ts)) i := by
    rw [c3 i i (by omega) (by omega)]
    unfold overTime posVar
    rw [if_pos rfl, if_pos ⟨hi, rfl⟩, if_neg (by omega), hT]
    unfold elapsed
    ring
  unfold elapsed at hT
  rw [hc]
  rw [← hT] at s3 s4
  have mono : ∀ a b, a ≤ b → posVar e T a i ≤ posVar e T b i := fun a b hab => by
    unfold posVar
    linarith [mul_le_mul_of_nonneg_left hab hq]
  refine ⟨mono _ _ s3, mono _ _ s4, fun δ hδ => mono _ _ ?_⟩
  rw [hT]
  exact (lever2_fine δ _ fun d hd => ⟨hp d hd, hδ d hd⟩).1

/-- The greatest variance is that of a single prediction. -/
theorem C89_once_partial (N : Prim K) (p : EkfParams K) (ops : List (Op K))
    (hw : ∀ op ∈ ops, op.WF) (e e' : Ekf K)
    (h : run N (init N p) ops = .ok e) (hu : e.useRoot = false) (hg : e.isGravityInitialized = true)
    (ha : e.augType ≠ .time ∧ e.augType ≠ .error) (t : K) (hle : e.currentTime ≤ t) (ht : run N e [.predict t] = .ok e')
    (i : Nat) (hi : i < 3) : e'.cov.get i i = posVar e (t - e.currentTime) ((t - e.currentTime) ^ 3) i := by
  have hinv := inv_run (inv_init N p) hw h
  have h18 : 18 ≤ e.stateSize := by rw [hinv.size]; unfold State.dim; omega
  obtain ⟨_, _, c3⟩ := C89_cov_partial N [t] e e' hinv ht hu hg ha
  rw [c3 i i (by omega) (by omega)]
  unfold overTime posVar
  rw [if_pos rfl, if_pos ⟨hi, rfl⟩, if_neg (by omega)]
  simp only [intervals, if_neg (not_lt.2 hle), lever2, List.sum_cons, List.sum_nil]
  ring

/-- A filter with a GPS antenna, started with acceleration `a`. -/
def splitOps (a : ℚ) : List (Op ℚ) := [.registerGPS 7 Samples.gps (Samples.cov 3),
  .initializeAt 0 { BodyState.default with acc := ![a, 0, 980665 / 100000] }, .initializeGravity, .setZeroAcceleration false]

theorem splitOps_wf (a : ℚ) : ∀ op ∈ splitOps a, op.WF := by
  intro op ho
  simp only [splitOps, List.mem_cons, List.not_mem_nil, or_false] at ho
  rcases ho with rfl | rfl | rfl | rfl <;> first | trivial | rfl

/-- **Splitting changes the position and its variance**: two seconds in one prediction or in two. -/
theorem C89_violated : ¬ ∀ (ops : List (Op ℚ)) (ts us : List ℚ) (e e1 e2 : Ekf ℚ),
    run Samples.prim (init Samples.prim (Samples.params .all false)) ops = .ok e → e.isGravityInitialized = true →
    run Samples.prim e (ts.map Op.predict) = .ok e1 → run Samples.prim e (us.map Op.predict) = .ok e2 →
    elapsed e.currentTime ts = elapsed e.currentTime us →
    e1.state.body.pos 0 = e2.state.body.pos 0 ∨ e1.cov.get 0 0 = e2.cov.get 0 0 := by
  intro h
  obtain ⟨e, h1, h2⟩ : ∃ e, run Samples.prim (init Samples.prim (Samples.params .all false)) (splitOps 2) = .ok e ∧
      e.isGravityInitialized = true := ⟨_, rfl, rfl⟩
  obtain ⟨e1, g1⟩ : ∃ e1, run Samples.prim e ([2].map Op.predict) = .ok e1 := by cases h1; exact ⟨_, rfl⟩
  obtain ⟨e2, g2⟩ : ∃ e2, run Samples.prim e ([1, 2].map Op.predict) = .ok e2 := by cases h1; exact ⟨_, rfl⟩
  have ht : e.currentTime = 0 := by cases h1; rfl
  have hacc : e.coordAcc 0 = 2 := by cases h1; decide +kernel
  have hq : e.processNoise.get 3 3 ≠ 0 := by cases h1; decide +kernel
  have hu : e.useRoot = false := by cases h1; rfl
  have ha : e.augType ≠ .time ∧ e.augType ≠ .error := by cases h1; decide
  have hw := splitOps_wf 2
  have hinv := inv_run (inv_init Samples.prim (Samples.params .all false)) hw h1
  have h18 : 18 ≤ e.stateSize := by rw [hinv.size]; unfold State.dim; omega
  have := h (splitOps 2) [2] [1, 2] e e1 e2 h1 h2 g1 g2 (by rw [ht]; norm_num [elapsed, intervals])
  obtain ⟨_, a2, _⟩ := C50_partial Samples.prim [2] e e1 g1 h2
  obtain ⟨_, b2, _⟩ := C50_partial Samples.prim [1, 2] e e2 g2 h2
  obtain ⟨_, _, c3⟩ := C89_cov_partial Samples.prim [2] e e1 hinv g1 hu h2 ha
  obtain ⟨_, _, d3⟩ := C89_cov_partial Samples.prim [1, 2] e e2 hinv g2 hu h2 ha
  rcases this with h3 | h3
  · rw [a2 0, b2 0, ht, hacc] at h3
    norm_num [intervals, elapsed, ballistic, hacc] at h3
  · rw [c3 0 0 (by omega) (by omega), d3 0 0 (by omega) (by omega), ht] at h3
    unfold overTime at h3
    norm_num [intervals, lever1, lever2] at h3
    exact hq h3

/-- The hypotheses are met: a started filter that accelerates, with noise, asked three times and once. -/
example : ∃ e e1 e2 : Ekf ℚ, run Samples.prim (init Samples.prim (Samples.params .all false)) (splitOps 2) = .ok e ∧
    (∀ op ∈ splitOps 2, op.WF) ∧ e.useRoot = false ∧ e.isGravityInitialized = true ∧
    (e.augType ≠ .time ∧ e.augType ≠ .error) ∧ 0 ≤ e.processNoise.get 3 3 ∧
    run Samples.prim e ([1, 1 / 2, 3 / 2, 2].map Op.predict) = .ok e1 ∧ run Samples.prim e ([2].map Op.predict) = .ok e2 ∧
    elapsed e.currentTime [1, 1 / 2, 3 / 2, 2] = elapsed e.currentTime [2] := by
  obtain ⟨e, h1⟩ : ∃ e, run Samples.prim (init Samples.prim (Samples.params .all false)) (splitOps 2) = .ok e := ⟨_, rfl⟩
  obtain ⟨e1, g1⟩ : ∃ e1, run Samples.prim e ([1, 1 / 2, 3 / 2, 2].map Op.predict) = .ok e1 := by
    obtain ⟨x, hx, _⟩ := Samples.ok_of_check (r := run Samples.prim (init Samples.prim (Samples.params .all false))
      (splitOps 2 ++ [1, 1 / 2, 3 / 2, 2].map Op.predict)) (P := fun _ : Ekf ℚ => True) (by decide +kernel)
    rw [run_append, h1] at hx
    exact ⟨x, hx⟩
  obtain ⟨e2, g2⟩ : ∃ e2, run Samples.prim e ([2].map Op.predict) = .ok e2 := by cases h1; exact ⟨_, rfl⟩
  refine ⟨e, e1, e2, h1, splitOps_wf 2, by cases h1; rfl, by cases h1; rfl, by cases h1; decide, by cases h1; decide +kernel,
    g1, g2, ?_⟩
  rw [show e.currentTime = 0 by cases h1; rfl]
  norm_num [elapsed, intervals]

end Ekf

end EkfCal
