import Verif.Lemmas.RootPredict
import Verif.Lemmas.RootUpdate
import Verif.Props.C08
import Verif.Props.C11

/-!
# C09 — the square-root prediction against the standard prediction

Full statement: a prediction in square-root form yields a factor of the covariance that standard form computes from
`RᵀR`.  The code differs twice: it moves the body rows of the sensor columns (`C09_cross_violated`), and it adds the
process noise after the motion instead of before (`C09_noise_violated`).  `C09_actual` says exactly what it computes;
`C09_equal_partial` says when the two forms agree.
-/

set_option linter.unusedSectionVars false

namespace EkfCal
open Ekf Finset
variable {K : Type} [Field K] [LinearOrder K]

theorem predict_root (N : Prim K) (hq : N.QrLaw) (hs : N.SqrtLaw) [IsStrictOrderedRing K] (e : Ekf K) (hi : Ekf.Inv e)
    (hu : e.useRoot = true) (hg : e.isGravityInitialized = true) (ha : e.augType ≠ .time ∧ e.augType ≠ .error) (t : K)
    (ht : e.currentTime ≤ t) :
    ∃ c : Mat K, predict N e t = .ok { e with
        state := { e.state with body := predictBody N e.isZeroAcceleration e.state.body (t - e.currentTime) }
        cov := c
        currentTime := t } ∧ c.rows = e.cov.rows ∧ c.cols = e.cov.rows ∧ c.Upper ∧
      ∀ i j, i < e.cov.rows → j < e.cov.rows → gram c i j =
        gram ⟨e.cov.rows, e.cov.rows, rootMoved (t - e.currentTime) e.cov.get⟩ i j +
          (t - e.currentTime) * gram e.processNoise i j := by
  have h18 : 18 ≤ e.cov.rows := by rw [hi.covRows, hi.size]; unfold State.dim; omega
  obtain ⟨M, out, h1, h2, h3, h4, h5⟩ := predictCov_root N e.cov e.processNoise (t - e.currentTime)
    (by rw [hi.covRows, hi.covCols]) h18 (by rw [hi.noiseCols, hi.covRows])
  have hsh : out.rows = e.cov.rows ∧ out.cols = e.cov.rows ∧ out.Upper := by
    unfold qrStack at h2
    split at h2
    · split at h2
      · cases h2; exact ⟨h4, h4, fun i j _ _ hij => if_neg (by omega)⟩
      · cases h2
    · cases h2
  refine ⟨out, ?_, hsh.1, hsh.2.1, hsh.2.2, fun i j hi hj => ?_⟩
  · have h1' : predictCov N e.useRoot e.stateSize e.cov e.processNoise (t - e.currentTime) = .ok out := by
      rw [hu, ← hi.covRows, h1]
    unfold predict
    simp only [if_neg (not_lt.2 ht), hg, if_true, h1', ok_bind, pure_res]
    unfold augmentTimed
    dsimp only
    rw [if_pos (by cases hx : e.augType <;> simp_all)]
    rfl
  · rw [hq _ _ _ h2 i j (by omega) (by omega), gram_smul, (hs _ (sub_nonneg.2 ht)).2]
    congr 1
    unfold gram
    dsimp only
    rw [h3]
    exact sum_congr rfl fun k hk => by
      rw [h5 k i (mem_range.1 hk) hi, h5 k j (mem_range.1 hk) hj]

/-- Square-root form, no clock-driven cloning, any history: the predicted covariance is that of the moved factor
`rootMoved` plus the process noise times the elapsed time. -/
theorem C09_actual [IsStrictOrderedRing K] (N : Prim K) (hq : N.QrLaw) (hs : N.SqrtLaw) (p : EkfParams K)
    (ops : List (Op K)) (hw : ∀ op ∈ ops, op.WF) (e : Ekf K) (h : run N (init N p) ops = .ok e) (hu : e.useRoot = true)
    (hg : e.isGravityInitialized = true) (ha : e.augType ≠ .time ∧ e.augType ≠ .error) (t : K) (ht : e.currentTime ≤ t) :
    ∃ e', predict N e t = .ok e' ∧ e'.cov.rows = e.cov.rows ∧ e'.cov.cols = e.cov.rows ∧ e'.cov.Upper ∧
      ∀ i j, i < e.cov.rows → j < e.cov.rows → gram e'.cov i j =
        gram ⟨e.cov.rows, e.cov.rows, rootMoved (t - e.currentTime) e.cov.get⟩ i j +
          (t - e.currentTime) * gram e.processNoise i j := by
  obtain ⟨c, h1, h2⟩ := predict_root N hq hs e (inv_run (inv_init N p) hw h) hu hg ha t ht
  exact ⟨_, h1, h2⟩

/-- The moved factor is `R Fᵀ` if the velocity rows of the sensor columns and the velocity columns of the sensor rows
vanish. -/
theorem rootMoved_eq (dt : K) (R : Nat → Nat → K) (n : Nat) (h1 : ∀ i j, 3 ≤ i → i < 6 → 18 ≤ j → j < n → R i j = 0)
    (h2 : ∀ i j, 18 ≤ i → i < n → 3 ≤ j → j < 6 → R i j = 0) (i j : Nat) (hi : i < n) (hj : j < n) :
    rootMoved dt R i j = tr dt (R i) j := by
  unfold rootMoved tr
  by_cases hi18 : i < 18
  · rw [if_pos hi18]
    by_cases hj18 : j < 18
    · rw [if_pos hj18]
    · rw [if_neg hj18, if_neg (show ¬ j < 3 by omega)]
      split
      · rw [h1 (i + 3) j (by omega) (by omega) (by omega) hj, mul_zero]
      · rfl
  · rw [if_neg hi18]
    split
    · rw [h2 i (j + 3) (by omega) hi (by omega) (by omega), mul_zero, add_zero]
    · rw [add_zero]

theorem gram_rootMoved (dt : K) (R : Mat K) (h18 : 18 ≤ R.rows)
    (h1 : ∀ i j, 3 ≤ i → i < 6 → 18 ≤ j → j < R.rows → R.get i j = 0)
    (h2 : ∀ i j, 18 ≤ i → i < R.rows → 3 ≤ j → j < 6 → R.get i j = 0) (i j : Nat) (hi : i < R.rows) (hj : j < R.rows) :
    gram ⟨R.rows, R.rows, rootMoved dt R.get⟩ i j = congr R.rows (transition dt) (gram R) i j := by
  rw [← gram_mul_transpose R R.rows (transition dt) R.rows R.rows i j rfl]
  unfold gram
  dsimp only
  refine sum_congr rfl fun k hk => ?_
  have e1 : ∀ j, j < R.rows → rootMoved dt R.get k j = ∑ l ∈ range R.rows, R.get k l * transition dt j l := by
    intro j hj
    rw [rootMoved_eq dt R.get R.rows h1 h2 k j (mem_range.1 hk) hj, ← sum_transition (by omega) dt _ hj]
    exact sum_congr rfl fun l _ => mul_comm _ _
  rw [e1 i hi, e1 j hj]

/-- `T D Tᵀ` of the factor's own noise: unchanged if there is no velocity noise. -/
theorem congr_noise (dt : K) (n : Nat) (hn : 6 ≤ n) (q : Nat → K) (h : ∀ i, 3 ≤ i → i < 6 → q i = 0) (i j : Nat)
    (hi : i < n) (hj : j < n) :
    congr n (transition dt) (fun k l => if k = l then q k else 0) i j = if i = j then q i else 0 := by
  rw [congr_transition hn dt _ hi hj]
  have e1 : ∀ k, tr dt (fun l => if k = l then q k else 0) j = if k = j then q k else 0 := by
    intro k
    unfold tr
    dsimp only
    by_cases h3 : j < 3
    · rw [if_pos h3]
      by_cases hk : k = j + 3
      · rw [if_pos hk, h k (by omega) (by omega), mul_zero, add_zero]
      · rw [if_neg hk, mul_zero, add_zero]
    · rw [if_neg h3, add_zero]
  simp only [e1]
  unfold tr
  dsimp only
  by_cases h3 : i < 3
  · rw [if_pos h3, h (i + 3) (by omega) (by omega), ite_self, mul_zero, add_zero]
  · rw [if_neg h3, add_zero]

theorem congr_add (n : Nat) (T A B : Nat → Nat → K) (i j : Nat) :
    congr n T (fun k l => A k l + B k l) i j = congr n T A i j + congr n T B i j := by
  unfold congr
  rw [← sum_add_distrib]
  refine sum_congr rfl fun k _ => ?_
  rw [← sum_add_distrib]
  exact sum_congr rfl fun l _ => by ring

/-- The standard-form prediction from the same start. -/
theorem predict_standard (N : Prim K) (e : Ekf K) (hi : Ekf.Inv e) (hg : e.isGravityInitialized = true)
    (ha : e.augType ≠ .time ∧ e.augType ≠ .error) (t : K) (ht : e.currentTime ≤ t) :
    ∃ out : Mat K, predict N e.standard t = .ok { e.standard with
        state := { e.state with body := predictBody N e.isZeroAcceleration e.state.body (t - e.currentTime) }
        cov := out
        currentTime := t } ∧
      ∀ i j, i < e.cov.rows → j < e.cov.rows → out.get i j = congr e.cov.rows (transition (t - e.currentTime))
        (fun k l => gram e.cov k l + if k = l then gram e.processNoise k k * (t - e.currentTime) else 0) i j := by
  have h18 : 18 ≤ e.cov.rows := by rw [hi.covRows, hi.size]; unfold State.dim; omega
  obtain ⟨out, g1, g2, g3, g4⟩ := predictCov_spec N e.standard.cov e.standard.processNoise (t - e.currentTime)
    (by show e.cov.rows = e.cov.cols; rw [hi.covRows, hi.covCols]) h18
    (by show e.processNoise.rows = e.cov.rows; rw [hi.noiseRows, hi.covRows])
    (by show e.processNoise.cols = e.cov.rows; rw [hi.noiseCols, hi.covRows])
  have hd : predict N e.standard t = .ok { e.standard with
      state := { e.state with body := predictBody N e.isZeroAcceleration e.state.body (t - e.currentTime) }
      cov := out
      currentTime := t } := by
    have h1' : predictCov N e.standard.useRoot e.standard.stateSize e.standard.cov e.standard.processNoise
        (t - e.standard.currentTime) = .ok out := by
      rw [← g1]
      show predictCov N false e.stateSize _ _ _ = predictCov N false e.cov.rows _ _ _
      rw [hi.covRows]; rfl
    have hg' : e.standard.isGravityInitialized = true := hg
    have ht' : ¬ t < e.standard.currentTime := not_lt.2 ht
    unfold predict
    simp only [if_neg ht', hg', if_true, h1', ok_bind, pure_res]
    unfold augmentTimed
    dsimp only
    have ha' : e.standard.augType = e.augType := rfl
    rw [if_pos (by rw [ha']; cases hx : e.augType <;> simp_all)]
    rfl
  exact ⟨out, hd, g4⟩

/-- The two forms agree exactly where they should if no sensor or clone column of the factor has velocity entries and no
velocity noise is configured: any history, any step. -/
theorem C09_equal_partial [IsStrictOrderedRing K] (N : Prim K) (hq : N.QrLaw) (hs : N.SqrtLaw) (p : EkfParams K)
    (ops : List (Op K)) (hw : ∀ op ∈ ops, op.WF) (e : Ekf K) (h : run N (init N p) ops = .ok e) (hu : e.useRoot = true)
    (hg : e.isGravityInitialized = true) (ha : e.augType ≠ .time ∧ e.augType ≠ .error) (t : K) (ht : e.currentTime ≤ t)
    (hc : ∀ i j, 3 ≤ i → i < 6 → 18 ≤ j → j < e.cov.rows → e.cov.get i j = 0)
    (hl : ∀ i j, 18 ≤ i → i < e.cov.rows → 3 ≤ j → j < 6 → e.cov.get i j = 0)
    (hv : ∀ i, 3 ≤ i → i < 6 → e.processNoise.get i i = 0) :
    ∃ e' f', predict N e t = .ok e' ∧ predict N e.standard t = .ok f' ∧ f'.state = e'.state ∧
      (∀ i j, i < e.cov.rows → j < e.cov.rows → f'.P i j = e'.P i j) ∧
      f' = { e'.standard with cov := f'.cov, processNoise := f'.processNoise } := by
  have hi := inv_run (inv_init N p) hw h
  have h18 : 18 ≤ e.cov.rows := by rw [hi.covRows, hi.size]; unfold State.dim; omega
  have hz : N.sqrt 0 = 0 := mul_self_eq_zero.1 (hs 0 le_rfl).2
  obtain ⟨c, h1, h2, h3, _, h5⟩ := predict_root N hq hs e hi hu hg ha t ht
  obtain ⟨out, hd, g4⟩ := predict_standard N e hi hg ha t ht
  refine ⟨_, _, h1, hd, rfl, fun i j hi' hj' => ?_, ?_⟩
  · have hQ : ∀ i j, i < e.cov.rows → j < e.cov.rows →
        gram e.processNoise i j = if i = j then e.processNoise.get i i * e.processNoise.get i i else 0 := by
      intro i j hi1 hj1
      have e1 : e.processNoise.rows = e.cov.rows := by rw [hi.noiseRows, hi.covRows]
      have e2 : e.processNoise.cols = e.cov.rows := by rw [hi.noiseCols, hi.covRows]
      exact gram_diag _ (fun i j _ _ hij => noise_diagonal hz h i j hij) (by omega) (by omega) (by omega)
    show (if e.standard.useRoot then _ else out.get i j) = (if e.useRoot then gram c i j else _)
    rw [hu, if_pos rfl, show e.standard.useRoot = false from rfl, if_neg (by simp), g4 i j hi' hj', h5 i j hi' hj',
      congr_add, gram_rootMoved (t - e.currentTime) e.cov h18 hc hl i j hi' hj',
      congr_noise _ _ (by omega) (fun k => gram e.processNoise k k * (t - e.currentTime)) ?_ i j hi' hj', hQ i j hi' hj']
    · congr 1
      split
      · rename_i hij; rw [hQ i i hi' hi', if_pos rfl, mul_comm]
      · rw [mul_zero]
    · intro k hk hk'
      show gram e.processNoise k k * _ = 0
      rw [hQ k k (by omega) (by omega), if_pos rfl, hv k hk hk', zero_mul, zero_mul]
  · rfl

/-! ## Witnesses -/

/-- One uncalibrated GPS, unit process noise: the square-root filter claims a smaller position variance than the standard
filter started from the same covariance. -/
theorem C09_noise_violated : ∃ (p : EkfParams ℝ) (ops : List (Op ℝ)) (e e' f' : Ekf ℝ), (∀ op ∈ ops, op.WF) ∧
    run realPrim (init realPrim p) ops = .ok e ∧ e.useRoot = true ∧ predict realPrim e 1 = .ok e' ∧
    predict realPrim e.standard 1 = .ok f' ∧ e'.P 0 0 < f'.P 0 0 := by
  let ops : List (Op ℝ) := [.registerGPS 7 GpsState.default (Mat.zero 3 3), .initializeGravity]
  have hw : ∀ op ∈ ops, op.WF := by
    intro op ho
    simp only [ops, List.mem_cons, List.not_mem_nil, or_false] at ho
    rcases ho with rfl | rfl
    · exact GpsState.wf_default
    · trivial
  obtain ⟨e, he, hc, hu, hg, ha, ht, hn⟩ : ∃ e, run realPrim (init realPrim C11_params) ops = .ok e ∧
      e.cov = (init realPrim C11_params).cov ∧ e.useRoot = true ∧ e.isGravityInitialized = true ∧ e.augType = .none ∧
      e.currentTime = 0 ∧ e.processNoise = (diagMat 18 fun k => if k < 18 then 1 else 0).map Real.sqrt :=
    ⟨_, rfl, rfl, rfl, rfl, rfl, rfl, rfl⟩
  have hi := inv_run (inv_init realPrim C11_params) hw he
  have ha' : e.augType ≠ .time ∧ e.augType ≠ .error := by rw [ha]; exact ⟨by simp, by simp⟩
  obtain ⟨c, h1, h2, h3, _, h5⟩ := predict_root realPrim realPrim_qr realPrim_sqrt e hi hu hg ha' 1 (by rw [ht]; norm_num)
  obtain ⟨out, g1, g2⟩ := predict_standard realPrim e hi hg ha' 1 (by rw [ht]; norm_num)
  refine ⟨C11_params, ops, e, _, _, hw, he, hu, h1, g1, ?_⟩
  have hcr : e.cov.rows = 18 := by rw [hc]; rfl
  have hQ : ∀ i j, i < 18 → j < 18 → gram e.processNoise i j = if i = j then 1 else 0 := by
    intro i j hi hj
    rw [hn, gram_diag _ (fun i j hi hj hij => ?_) rfl hi hj]
    · simp [Mat.map, diagMat, hi]
    · simp [Mat.map, diagMat, hij]
  show (if e.useRoot then gram c 0 0 else _) < (if e.standard.useRoot then _ else out.get 0 0)
  rw [hu, if_pos rfl, show e.standard.useRoot = false from rfl, if_neg (by simp), g2 0 0 (by omega) (by omega),
    h5 0 0 (by omega) (by omega), congr_add, gram_rootMoved _ e.cov (by omega) (by intro i j; omega)
      (by intro i j; omega) 0 0 (by omega) (by omega), ht, hQ 0 0 (by omega) (by omega), hcr]
  refine add_lt_add_right ?_ _
  rw [congr_transition (by omega) _ _ (by omega) (by omega)]
  have e0 := hQ 0 0 (by omega) (by omega)
  have e3 := hQ 3 3 (by omega) (by omega)
  simp [tr, e0, e3]

/-- One scalar measurement that involves a velocity and the antenna position. -/
def C09_H : Mat ℝ := ⟨1, 21, fun _ k => if k = 3 ∨ k = 18 then 1 else 0⟩
/-- One calibrated antenna, then gravity initialised, then that measurement. -/
noncomputable def C09_ops : List (Op ℝ) :=
  [.registerGPS 7 ((GpsState.default : GpsState ℝ).setIsExtrinsic true) (Mat.identity 3 3), .initializeGravity,
    .kalman C09_H ⟨1, fun _ => 1⟩ (Mat.identity 1 1)]

/-- Variances before the measurement. -/
noncomputable def C09_p (k : Nat) : ℝ := if k < 18 then 1 / 100 else 1

theorem sample_C09_started : ∃ e, run realPrim (init realPrim C11_params) (C09_ops.take 2) = .ok e ∧ e.useRoot = true ∧
    e.isGravityInitialized = true ∧ e.augType = .none ∧ e.currentTime = 0 ∧ e.cov.rows = 21 ∧
    ∀ i j, i < 21 → j < 21 → gram e.cov i j = if i = j then C09_p i else 0 := by
  obtain ⟨e, he, hu, hg, ha, ht, hc⟩ : ∃ e, run realPrim (init realPrim C11_params) (C09_ops.take 2) = .ok e ∧
      e.useRoot = true ∧ e.isGravityInitialized = true ∧ e.augType = .none ∧ e.currentTime = 0 ∧
      insertInMatrix ⟨3, 3, fun a b => if 0 + a = 0 + b then 1 else 0⟩ (init realPrim C11_params).cov 18 18 = .ok e.cov :=
    ⟨_, rfl, rfl, rfl, rfl, rfl, rfl⟩
  obtain ⟨out, h1, h2, h3, h4⟩ := insertInMatrix_spec ⟨3, 3, fun a b => if 0 + a = 0 + b then (1 : ℝ) else 0⟩
    (init realPrim C11_params).cov 18 18 le_rfl le_rfl
  obtain rfl : e.cov = out := Except.ok.inj (hc.symm.trans h1)
  refine ⟨e, he, hu, hg, ha, ht, h2, fun i j hi hj => ?_⟩
  have hm : ∀ i j, i < 21 → j < 21 → e.cov.get i j = if i = j then (if i < 18 then Real.sqrt (1 / 100) else 1) else 0 := by
    intro i j hi hj
    have hb : ∀ i j, (init realPrim C11_params).cov.get i j = Real.sqrt ((if i = j then 1 else 0) * (1 / 100)) :=
      fun _ _ => rfl
    rw [h4 i j hi hj]
    simp only [Nat.zero_add, hb]
    by_cases h18 : i < 18
    · rw [if_neg (by omega)]
      by_cases hj18 : j < 18
      · rw [if_neg (by omega), if_pos h18, if_pos hj18, if_pos h18]
        split <;> simp
      · rw [if_pos (by omega), if_neg (by omega)]
    · rw [if_pos (by omega), if_neg h18]
      by_cases hj18 : j < 18
      · rw [if_neg (by omega), if_neg (by omega)]
      · rw [if_pos (by omega)]
        by_cases hij : i = j
        · rw [if_pos (by omega), if_pos hij]
        · rw [if_neg (by omega), if_neg hij]
  have hr : e.cov.rows = 21 := h2
  have hcc : e.cov.cols = 21 := h3
  rw [gram_diag e.cov (fun i j hi hj hij => by rw [hm i j (by omega) (by omega), if_neg hij]) (by omega) (by omega)
    (by omega), hm i i hi hi, if_pos rfl]
  unfold C09_p
  split
  · split
    · rw [Real.mul_self_sqrt (by norm_num)]
    · norm_num
  · rfl

theorem congr_diag (n : Nat) (T A : Nat → Nat → K) (p : Nat → K)
    (h : ∀ i j, i < n → j < n → A i j = if i = j then p i else 0) (i j : Nat) :
    congr n T A i j = ∑ k ∈ range n, p k * T i k * T j k := by
  unfold congr
  refine sum_congr rfl fun k hk => ?_
  rw [sum_eq_single k]
  · rw [h k k (mem_range.1 hk) (mem_range.1 hk), if_pos rfl]; ring
  · intro l hl hlk
    rw [h k l (mem_range.1 hk) (mem_range.1 hl), if_neg (Ne.symm hlk)]; ring
  · intro hk'; exact absurd hk hk'

/-- After the measurement: the factor is upper triangular, positions are still uncorrelated with everything, and a
velocity is correlated with the antenna position. -/
theorem sample_C09_measured : ∃ e, run realPrim (init realPrim C11_params) C09_ops = .ok e ∧ e.useRoot = true ∧
    e.isGravityInitialized = true ∧ e.augType = .none ∧ e.currentTime = 0 ∧ e.cov.rows = 21 ∧ e.cov.cols = 21 ∧
    e.cov.Upper ∧ (∀ i j, i < 3 → j < 21 → gram e.cov i j = if i = j then 1 / 100 else 0) ∧ gram e.cov 3 18 ≠ 0 := by
  obtain ⟨e, he, hu, hg, ha, ht, hr, hP⟩ := sample_C09_started
  have hw : ∀ op ∈ C09_ops.take 2, op.WF := by
    intro op ho
    simp only [C09_ops, List.take, List.mem_cons, List.not_mem_nil, or_false] at ho
    rcases ho with rfl | rfl
    · exact GpsState.wf_setIsExtrinsic _ _
    · trivial
  have hi := inv_run (inv_init realPrim C11_params) hw he
  have hst : e.stateSize = 21 := hi.covRows.symm.trans hr
  obtain ⟨e', hk⟩ := kalman_defined realPrim e C09_H ⟨1, fun _ => 1⟩ (Mat.identity 1 1) hi (by rw [hst]; rfl) rfl rfl rfl
  have hS : ∀ a b, a < 1 → b < 1 → innovation e.cov.rows (gram e.cov) C09_H (Mat.identity 1 1) a b = 201 / 100 := by
    intro a b ha hb
    obtain rfl : a = 0 := by omega
    obtain rfl : b = 0 := by omega
    unfold innovation
    rw [hr, congr_diag 21 _ _ C09_p hP]
    simp only [C09_H, C09_p, Mat.identity, sum_range_succ, sum_range_zero]
    norm_num
  have hB : AreInverse C09_H.rows (innovation e.cov.rows (gram e.cov) C09_H (Mat.identity 1 1)) (fun _ _ => 100 / 201) := by
    constructor <;>
    · intro i j hi hj
      have hi : i < 1 := hi
      have hj : j < 1 := hj
      show ∑ k ∈ range 1, _ = _
      rw [sum_range_one, hS _ _ (by omega) (by omega), if_pos (by omega)]
      norm_num
  obtain ⟨_, h2, h3, h4, h5, h6⟩ := C11_update_partial realPrim realPrim_qr realPrim_inv realPrim_sqrt e e' C09_H
    ⟨1, fun _ => 1⟩ (Mat.identity 1 1) hu rfl (fun i j _ _ h => if_neg h) (fun i _ => by simp [Mat.identity]) hk _ hB
  refine ⟨e', ?_, by rw [h6]; exact hu, by rw [h6]; exact hg, by rw [h6]; exact ha, by rw [h6]; exact ht,
    h2.trans hr, h3.trans hr, h4, ?_, ?_⟩
  · have : C09_ops = C09_ops.take 2 ++ [.kalman C09_H ⟨1, fun _ => 1⟩ (Mat.identity 1 1)] := rfl
    rw [this, run_append, he]
    simp only [ok_bind, run, step, hk]
  all_goals
    have hG : ∀ i, i < 21 → kalmanGain e.cov.rows (gram e.cov) C09_H (fun _ _ => 100 / 201) i 0 =
        (if i = 3 ∨ i = 18 then C09_p i else 0) * (100 / 201) := by
      intro i hi
      unfold kalmanGain
      rw [hr]
      show ∑ b ∈ range 1, (∑ k ∈ range 21, gram e.cov i k * C09_H.get b k) * (100 / 201) = _
      rw [sum_range_one]
      congr 1
      rw [sum_eq_single i]
      · rw [hP i i hi hi, if_pos rfl]
        simp [C09_H]
      · intro k hk hki
        rw [hP i k hi (mem_range.1 hk), if_neg (Ne.symm hki), zero_mul]
      · intro h; exact absurd (mem_range.2 hi) h
    have hJ : ∀ i j, i < 21 → j < 21 → gram e'.cov i j = (∑ k ∈ range 21, C09_p k *
        ((if i = k then 1 else 0) - (if i = 3 ∨ i = 18 then C09_p i else 0) * (100 / 201) * (if k = 3 ∨ k = 18 then 1 else 0)) *
        ((if j = k then 1 else 0) - (if j = 3 ∨ j = 18 then C09_p j else 0) * (100 / 201) * (if k = 3 ∨ k = 18 then 1 else 0))) +
        (if i = 3 ∨ i = 18 then C09_p i else 0) * (100 / 201) * ((if j = 3 ∨ j = 18 then C09_p j else 0) * (100 / 201)) := by
      intro i j hi hj
      rw [h5 i j (by omega) (by omega)]
      unfold joseph
      congr 1
      · rw [hr, congr_diag 21 _ _ C09_p hP]
        refine sum_congr rfl fun k _ => ?_
        rw [hr] at hG
        show C09_p k * (_ - ∑ a ∈ range 1, kalmanGain 21 (gram e.cov) C09_H (fun _ _ => 100 / 201) i a * C09_H.get a k) *
          (_ - ∑ a ∈ range 1, kalmanGain 21 (gram e.cov) C09_H (fun _ _ => 100 / 201) j a * C09_H.get a k) = _
        rw [sum_range_one, sum_range_one, hG i hi, hG j hj]
        rfl
      · show ∑ a ∈ range 1, ∑ b ∈ range 1, _ * (Mat.identity 1 1).get a b * _ = _
        rw [sum_range_one, sum_range_one, hG i hi, hG j hj]
        simp [Mat.identity]
  · intro i j hi hj
    rw [hJ i j (by omega) hj, sum_eq_single i]
    · have h1 : ¬ (i = 3 ∨ i = 18) := by omega
      have h2 : C09_p i = 1 / 100 := if_pos (by omega)
      by_cases hij : i = j
      · subst hij; simp [h1, h2]
      · simp [h1, hij, Ne.symm hij]
    · intro k _ hk
      rw [if_neg (Ne.symm hk), if_neg (show ¬ (i = 3 ∨ i = 18) by omega)]
      ring
    · intro h; exact absurd (mem_range.2 (by omega)) h
  · rw [hJ 3 18 (by omega) (by omega)]
    simp only [C09_p, sum_range_succ, sum_range_zero]
    norm_num

/-- In that history, predicting one second ahead makes the square-root filter less certain of the fixed antenna position
than the standard filter started from the same covariance. -/
theorem C09_cross_violated : ∃ (p : EkfParams ℝ) (ops : List (Op ℝ)) (e e' f' : Ekf ℝ), (∀ op ∈ ops, op.WF) ∧
    run realPrim (init realPrim p) ops = .ok e ∧ e.useRoot = true ∧ predict realPrim e 1 = .ok e' ∧
    predict realPrim e.standard 1 = .ok f' ∧ f'.P 18 18 < e'.P 18 18 := by
  obtain ⟨e, he, hu, hg, ha, ht, hr, hcc, hU, h1, h2⟩ := sample_C09_measured
  have hw : ∀ op ∈ C09_ops, op.WF := by
    intro op ho
    simp only [C09_ops, List.mem_cons, List.not_mem_nil, or_false] at ho
    rcases ho with rfl | rfl | rfl
    · exact GpsState.wf_setIsExtrinsic _ _
    · trivial
    · trivial
  have hi := inv_run (inv_init realPrim C11_params) hw he
  have ha' : e.augType ≠ .time ∧ e.augType ≠ .error := by rw [ha]; exact ⟨by simp, by simp⟩
  obtain ⟨c, g1, _, _, _, g5⟩ := predict_root realPrim realPrim_qr realPrim_sqrt e hi hu hg ha' 1 (by rw [ht]; norm_num)
  obtain ⟨out, k1, k2⟩ := predict_standard realPrim e hi hg ha' 1 (by rw [ht]; norm_num)
  refine ⟨C11_params, C09_ops, e, _, _, hw, he, hu, g1, k1, ?_⟩
  show (if e.standard.useRoot then _ else out.get 18 18) < (if e.useRoot then gram c 18 18 else _)
  rw [hu, if_pos rfl, show e.standard.useRoot = false from rfl, if_neg (by simp), k2 18 18 (by omega) (by omega),
    g5 18 18 (by omega) (by omega), ht, hr]
  have hT : congr 21 (transition (1 - 0)) (fun k l => gram e.cov k l +
      if k = l then gram e.processNoise k k * (1 - 0) else 0) 18 18 =
      gram e.cov 18 18 + (1 - 0) * gram e.processNoise 18 18 := by
    rw [congr_transition (by omega) _ _ (by omega) (by omega)]
    simp [tr]
  rw [hT]
  -- the leading rows of the factor
  have hlow : ∀ i j, i < 21 → j < i → e.cov.get i j = 0 := fun i j h h' => hU i j (by omega) (by omega) h'
  have hsum : ∀ i j, i ≤ 3 → gram e.cov i j = ∑ k ∈ range (i + 1), e.cov.get k i * e.cov.get k j := by
    intro i j hi
    unfold gram
    rw [hr]
    symm
    refine sum_subset (range_subset_range.2 (by omega)) fun k hk hk' => ?_
    rw [hlow k i (mem_range.1 hk) (by simpa using hk'), zero_mul]
  have d0 := (hsum 0 0 (by omega)).symm.trans (h1 0 0 (by omega) (by omega))
  have d01 := (hsum 0 1 (by omega)).symm.trans (h1 0 1 (by omega) (by omega))
  have d02 := (hsum 0 2 (by omega)).symm.trans (h1 0 2 (by omega) (by omega))
  have d03 := (hsum 0 3 (by omega)).symm.trans (h1 0 3 (by omega) (by omega))
  have d018 := (hsum 0 18 (by omega)).symm.trans (h1 0 18 (by omega) (by omega))
  have d1 := (hsum 1 1 (by omega)).symm.trans (h1 1 1 (by omega) (by omega))
  have d12 := (hsum 1 2 (by omega)).symm.trans (h1 1 2 (by omega) (by omega))
  have d13 := (hsum 1 3 (by omega)).symm.trans (h1 1 3 (by omega) (by omega))
  have d118 := (hsum 1 18 (by omega)).symm.trans (h1 1 18 (by omega) (by omega))
  have d2 := (hsum 2 2 (by omega)).symm.trans (h1 2 2 (by omega) (by omega))
  have d23 := (hsum 2 3 (by omega)).symm.trans (h1 2 3 (by omega) (by omega))
  have d218 := (hsum 2 18 (by omega)).symm.trans (h1 2 18 (by omega) (by omega))
  have d318 := hsum 3 18 (by omega)
  simp [sum_range_succ] at d0 d01 d02 d03 d018
  have n0 : e.cov.get 0 0 ≠ 0 := by intro h; rw [h] at d0; norm_num at d0
  have z01 : e.cov.get 0 1 = 0 := d01.resolve_left n0
  have z02 : e.cov.get 0 2 = 0 := d02.resolve_left n0
  have z03 : e.cov.get 0 3 = 0 := d03.resolve_left n0
  have z018 : e.cov.get 0 18 = 0 := d018.resolve_left n0
  simp [sum_range_succ, z01] at d1 d12 d13 d118
  have n1 : e.cov.get 1 1 ≠ 0 := by intro h; rw [h] at d1; norm_num at d1
  have z12 : e.cov.get 1 2 = 0 := d12.resolve_left n1
  have z13 : e.cov.get 1 3 = 0 := d13.resolve_left n1
  have z118 : e.cov.get 1 18 = 0 := d118.resolve_left n1
  simp [sum_range_succ, z02, z12] at d2 d23 d218
  have n2 : e.cov.get 2 2 ≠ 0 := by intro h; rw [h] at d2; norm_num at d2
  have z23 : e.cov.get 2 3 = 0 := d23.resolve_left n2
  have z218 : e.cov.get 2 18 = 0 := d218.resolve_left n2
  simp [sum_range_succ, z03, z13, z23] at d318
  have n318 : e.cov.get 3 18 ≠ 0 := by intro h; rw [h, mul_zero] at d318; exact h2 d318
  -- compare
  have hm : gram e.cov 18 18 < gram ⟨21, 21, rootMoved (1 - 0) e.cov.get⟩ 18 18 := by
    unfold gram
    rw [hr]
    dsimp only
    refine sum_lt_sum (fun k hk => ?_) ⟨0, by simp, ?_⟩
    · unfold rootMoved
      have hk := mem_range.1 hk
      by_cases h3 : k < 3
      · have hz : e.cov.get k 18 = 0 := by
          interval_cases k
          · exact z018
          · exact z118
          · exact z218
        rw [hz]
        simp only [mul_zero]
        exact mul_self_nonneg _
      · split
        · rw [if_neg (by omega), add_zero]
        · exact le_rfl
    · simp only [rootMoved, z018]
      norm_num
      exact n318
  linarith

/-- The hypotheses of the agreeing case can be met, with a sensor in the state: right after registration. -/
example : ∃ e, run realPrim (init realPrim { C11_params with processNoise := ⟨18, fun _ => 0⟩ }) C09_ops.dropLast = .ok e ∧
    e.useRoot = true ∧ e.isGravityInitialized = true ∧ e.augType = .none ∧ e.cov.rows = 21 ∧
    (∀ i, 3 ≤ i → i < 6 → e.processNoise.get i i = 0) := by
  refine ⟨_, rfl, rfl, rfl, rfl, rfl, fun i h1 h2 => ?_⟩
  interval_cases i
  · exact Real.sqrt_zero
  · exact Real.sqrt_zero
  · exact Real.sqrt_zero

end EkfCal
