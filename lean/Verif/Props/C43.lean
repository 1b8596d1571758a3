import Verif.Lemmas.Station
import Verif.Lemmas.Alg
import Verif.Spec.Update
import Verif.Spec.Joint
import Verif.Spec.LawSamples

/-!
# C43 — zero-motion detection is a one-way decision
-/

set_option linter.unusedSectionVars false

namespace EkfCal
open Ekf Finset
variable {K : Type} [Field K] [LinearOrder K]

/-- The score the updater computes from one measurement, on the filter as the message finds it. -/
def ImuUpdater.testScore (N : Num K) (u : ImuUpdater) (e : Ekf K) (acc : V3 K) (accCov : M3 K) (omg : V3 K)
    (omgCov : M3 K) : Res K := do
  let jac ← u.zeroAccJacobian N (e.getImuState u.id).2
  let noise ← u.zeroAccNoise accCov omgCov
  ImuUpdater.score N (e.getImuState u.id).2 jac (u.zeroAccResidual (e.getImuState u.id).2 acc omg) noise

/-- What the score is, in terms of the matrix stored in the filter: with `S = H P Hᵀ + c R` (`P` the matrix stored in the filter, `c` the configured factor) and `B`
the inverse of `S`, it is `|rᵀ B r|`. -/
theorem C43_score_stored (N : Num K) (hN : N.toPrim.InvLaw) (e : Ekf K) (jac noise : Mat K) (resid : Vec K) (sc : K)
    (h : ImuUpdater.score N e jac resid noise = .ok sc) (B : Nat → Nat → K)
    (hB : AreInverse jac.rows (innovation e.cov.rows e.cov.get jac (noise.smul e.imuNoiseScaleFactor)) B) :
    sc = |quad resid.size B resid.get| ∧ resid.size = jac.rows := by
  unfold ImuUpdater.score at h
  simp only [bind_ok_iff] at h
  obtain ⟨m1, h1, m2, h2, S, h3, Si, h4, w, h5, _, h6, h⟩ := h
  obtain ⟨a1, rfl⟩ := Mat.mul_ok_iff.1 h1
  obtain ⟨a2, rfl⟩ := Mat.mul_ok_iff.1 h2
  obtain ⟨⟨a3, a4⟩, rfl⟩ := Mat.add_ok_iff.1 h3
  unfold Mat.inverse at h4
  split at h4
  · rename_i hsq
    cases h4
    obtain ⟨a5, rfl⟩ := Mat.mulVec_ok_iff.1 h5
    have hsz : resid.size = jac.rows := a5.symm
    have hcol : e.cov.cols = jac.cols := a2
    have hS : ∀ a b, (∑ l ∈ range e.cov.cols, (∑ k ∈ range jac.cols, jac.get a k * e.cov.get k l) * jac.get b l) +
        (noise.smul e.imuNoiseScaleFactor).get a b =
        innovation e.cov.rows e.cov.get jac (noise.smul e.imuNoiseScaleFactor) a b := by
      intro a b
      unfold innovation congr
      congr 1
      rw [hcol, a1, sum_comm]
      exact sum_congr rfl fun l _ => sum_mul _ _ _
    have hinv := hN _ B hsq (by intro i j hi hj; simp only [Mat.transpose]; simp only [hS]; exact hB.1 i j hi hj)
      (by intro i j hi hj; simp only [Mat.transpose]; simp only [hS]; exact hB.2 i j hi hj)
    cases h
    refine ⟨?_, hsz⟩
    congr 1
    rw [sumTo_eq]
    simp only [Mat.transpose, quad]
    rw [hsz, sum_comm]
    refine sum_congr rfl fun i hi => ?_
    rw [sum_mul]
    refine sum_congr rfl fun k hk => ?_
    have hki := hinv k i (mem_range.1 hk) (mem_range.1 hi)
    simp only [Mat.transpose] at hki
    first | rw [hki] | rw [← hki]
    ring
  · cases h4

/-- The stationary update is applied, and the filter marked as at rest, exactly if motion has not been detected before
and the score does not exceed the threshold or gravity is unknown; otherwise motion counts as detected from now on. -/
theorem C43_decision (N : Num K) (u : ImuUpdater) (e : Ekf K) (time : K) (acc : V3 K) (accCov : M3 K) (omg : V3 K)
    (omgCov : M3 K) (r : ImuUpdater × Ekf K) (h : u.update N e time acc accCov omg omgCov = .ok r) :
    (r.2.isZeroAcceleration = true ↔ u.motionDetected = false ∧
      ∃ sc, u.testScore N (e.calculateLocalTime time).2 acc accCov omg omgCov = .ok sc ∧
        (sc ≤ e.motionDetectionChiSquared ∨ e.isGravityInitialized = false)) ∧
    (r.1.motionDetected = true ↔ r.2.isZeroAcceleration = false) := by
  have hlt : (e.calculateLocalTime time).2.motionDetectionChiSquared = e.motionDetectionChiSquared ∧
      (e.calculateLocalTime time).2.isGravityInitialized = e.isGravityInitialized := by
    unfold calculateLocalTime; split <;> exact ⟨rfl, rfl⟩
  obtain ⟨b, u', e1, hz, hu, h⟩ := ImuUpdater.update_form h
  have hflag : r.2.isZeroAcceleration = b := by
    rcases h with ⟨rfl, h⟩ | ⟨rfl, e2, e3, h2, h3, h4⟩
    · rw [h]; rfl
    · have q2 : e2.isZeroAcceleration = false := by rw [h2]; rfl
      have q3 : e3.isZeroAcceleration = false := by
        rcases h3 with ⟨_, h3⟩ | ⟨_, _, _, _, _, hk⟩
        · rw [h3]; exact q2
        · rw [(frame2_kalman hk).zeroAcc]; exact q2
      have hf : StepFrame e3 (.predict _) r.2 := step_frame (op := .predict _) h4
      unfold StepFrame at hf
      dsimp only at hf
      split at hf
      · rw [hf]; exact q3
      · rw [hf.zeroAcc]; exact q3
  rw [hflag, hu]
  cases hz with
  | late hm => simp [hm]
  | moved e0 jac noise sc hm h0 hj hn hs hgt hg =>
    rw [hlt.1] at hgt
    rw [hlt.2] at hg
    refine ⟨⟨fun h => by simp at h, ?_⟩, by simp⟩
    rintro ⟨_, sc', h1, h2⟩
    simp only [ImuUpdater.testScore, ← h0, hj, hn, ok_bind, hs, Except.ok.injEq] at h1
    rw [← h1] at h2
    rcases h2 with h2 | h2
    · exact absurd hgt (not_lt.2 h2)
    · rw [hg] at h2; cases h2
  | still e0 e1 e2 e3 jac jac' noise sc hm h0 hj hn hs hle h1 h2 hj' h3 =>
    rw [hlt.1, hlt.2] at hle
    refine ⟨⟨fun _ => ⟨hm, sc, ?_, hle⟩, fun _ => rfl⟩, by simp [hm]⟩
    simp only [ImuUpdater.testScore, ← h0, hj, hn, ok_bind, hs]

/-- After the stationary update the acceleration is gravity and both angular rates are zero. -/
theorem C43_effect (N : Num K) (u : ImuUpdater) (e : Ekf K) (time : K) (acc : V3 K) (accCov : M3 K) (omg : V3 K)
    (omgCov : M3 K) (r : ImuUpdater × Ekf K) (h : u.update N e time acc accCov omg omgCov = .ok r)
    (hz : r.2.isZeroAcceleration = true) :
    r.2.state.body.acc = gravity ∧ r.2.state.body.angVel = 0 ∧ r.2.state.body.angAcc = 0 := by
  have hd := (C43_decision N u e time acc accCov omg omgCov r h).2
  obtain ⟨b, u', e1, hzo, hu, h⟩ := ImuUpdater.update_form h
  cases hzo with
  | late hm =>
    have := hd.1 (by rw [hu]; exact hm)
    rw [hz] at this; cases this
  | moved =>
    have := hd.1 (by rw [hu])
    rw [hz] at this; cases this
  | still =>
    rcases h with ⟨_, h⟩ | ⟨hb, _⟩
    · rw [h]; exact ⟨rfl, rfl, rfl⟩
    · cases hb

/-- Gravity becomes known exactly when a stationary update is applied with a score below the threshold. -/
theorem C43_gravity (N : Num K) (u : ImuUpdater) (e : Ekf K) (time : K) (acc : V3 K) (accCov : M3 K) (omg : V3 K)
    (omgCov : M3 K) (r : ImuUpdater × Ekf K) (h : u.update N e time acc accCov omg omgCov = .ok r)
    (hg : e.isGravityInitialized = false) :
    r.2.isGravityInitialized = true ↔ u.motionDetected = false ∧
      ∃ sc, u.testScore N (e.calculateLocalTime time).2 acc accCov omg omgCov = .ok sc ∧
        sc < e.motionDetectionChiSquared := by
  have hlt : (e.calculateLocalTime time).2.motionDetectionChiSquared = e.motionDetectionChiSquared ∧
      (e.calculateLocalTime time).2.isGravityInitialized = e.isGravityInitialized := by
    unfold calculateLocalTime; split <;> exact ⟨rfl, rfl⟩
  have hpred : ∀ {a b : Ekf K} {t : K}, a.predict N.toPrim t = .ok b → b.isGravityInitialized = a.isGravityInitialized := by
    intro a b t hp
    have hf : StepFrame a (.predict t) b := step_frame (op := .predict t) hp
    unfold StepFrame at hf
    dsimp only at hf
    split at hf
    · rw [hf]
    · exact hf.gravity
  obtain ⟨b, u', e1, hzo, hu, h⟩ := ImuUpdater.update_form h
  cases hzo with
  | late hm =>
    rcases h with ⟨hb, _⟩ | ⟨_, e2, e3, h2, h3, h4⟩
    · cases hb
    · have q2 : e2.isGravityInitialized = false := by rw [h2]; exact hlt.2.trans hg
      have q3 : e3.isGravityInitialized = false := by
        rcases h3 with ⟨_, h3⟩ | ⟨_, _, _, _, _, hk⟩
        · rw [h3]; exact q2
        · rw [(frame2_kalman hk).gravity]; exact q2
      rw [hpred h4, q3]
      simp [hm]
  | moved e0 jac noise sc hm h0 hj hn hs hgt hg' => rw [hlt.2, hg] at hg'; cases hg'
  | still e0 e1 e2 e3 jac jac' noise sc hm h0 hj hn hs hle h1 h2 hj' h3 =>
    rcases h with ⟨_, h⟩ | ⟨hb, _⟩
    · have q1 : r.2.isGravityInitialized = e1.isGravityInitialized := by
        rw [h]
        show e3.isGravityInitialized = _
        rw [(frame2_kalman h3).gravity, hpred h2]
      have hts : u.testScore N (e.calculateLocalTime time).2 acc accCov omg omgCov = .ok sc := by
        simp only [ImuUpdater.testScore, ← h0, hj, hn, ok_bind, hs]
      have q0 : e0.isGravityInitialized = false := by rw [h0]; exact hlt.2.trans hg
      rw [q1, h1, hlt.1]
      by_cases hsc : sc < e.motionDetectionChiSquared
      · simp only [hsc, if_true]
        exact ⟨fun _ => ⟨hm, sc, hts, hsc⟩, fun _ => rfl⟩
      · simp only [hsc, if_false, q0]
        refine ⟨fun h => by simp at h, ?_⟩
        rintro ⟨_, sc', h', hlt'⟩
        rw [hts] at h'
        cases h'
        exact absurd hlt' hsc
    · cases hb

/-- Once an IMU has detected motion, none of its later messages is treated as stationary, whatever happens in
between. -/
theorem C43_never_again (N : Num K) (G : GpsNum K) (s s' s'' : Station K) (cs : List (Call K)) (k : Nat) (u : ImuUpdater)
    (hu : s.imus.find? k = some u) (hm : u.motionDetected = true) (h : s.run N G cs = .ok s') (t : K) (a : V3 K)
    (ac : M3 K) (w : V3 K) (wc : M3 K) (h' : s'.step N G (.imu k t a ac w wc) = .ok s'') :
    s''.ekf.isZeroAcceleration = false := by
  have : ∃ u', s'.imus.find? k = some u' ∧ u'.motionDetected = true := by
    refine Station.run_induct (N := N) (G := G)
      (R := fun a b => (∃ u, a.imus.find? k = some u ∧ u.motionDetected = true) →
        ∃ u, b.imus.find? k = some u ∧ u.motionDetected = true)
      (fun _ => id) (fun _ _ _ g h => h ∘ g) ?_ h ⟨u, hu, hm⟩
    rintro a b c hs ⟨v, hv, hm⟩
    rcases Station.step_imu hs hv with h1 | ⟨t, x, xc, w, wc, r, rfl, h1, h2, _⟩
    · exact ⟨v, h1, hm⟩
    · exact ⟨r.1, h2, ImuUpdater.update_latch h1 hm⟩
  obtain ⟨u', hu', hm'⟩ := this
  simp only [Station.step, hu', bind_ok_iff, pure_res, Except.ok.injEq] at h'
  obtain ⟨r, h1, rfl⟩ := h'
  exact (C43_decision N u' s'.ekf t a ac w wc r h1).2.1 (ImuUpdater.update_latch h1 hm')

/-- In standard mode the decision is the normalised innovation test on the covariance: whatever `B` inverts
`S = H P Hᵀ + c R`, the stationary update is applied iff motion has not been detected and `|rᵀ B r|` does not exceed the
threshold or gravity is unknown.  Missing: square-root mode, where the code uses the factor instead of the
covariance (`C43_root_violated`). -/
theorem C43_test_partial (N : Num K) (hN : N.toPrim.InvLaw) (u : ImuUpdater) (e e0 : Ekf K) (time : K) (acc : V3 K)
    (accCov : M3 K) (omg : V3 K) (omgCov : M3 K) (r : ImuUpdater × Ekf K) (hroot : e.useRoot = false)
    (h : u.update N e time acc accCov omg omgCov = .ok r)
    (h0 : e0 = ((e.calculateLocalTime time).2.getImuState u.id).2)
    (H R : Mat K) (hH : u.zeroAccJacobian N e0 = .ok H) (hR : u.zeroAccNoise accCov omgCov = .ok R) (B : Nat → Nat → K)
    (hB : AreInverse H.rows (innovation e0.cov.rows e0.P H (R.smul e0.imuNoiseScaleFactor)) B) :
    r.2.isZeroAcceleration = true ↔ u.motionDetected = false ∧
      (|quad H.rows B (u.zeroAccResidual e0 acc omg).get| ≤ e.motionDetectionChiSquared ∨
        e.isGravityInitialized = false) := by
  have hr0 : e0.useRoot = false := by
    rw [h0, ← hroot]
    have : (e.calculateLocalTime time).2.useRoot = e.useRoot := by unfold calculateLocalTime; split <;> rfl
    rw [← this]; rfl
  have hP : e0.P = e0.cov.get := by funext i j; simp [Ekf.P, hr0]
  rw [hP] at hB
  have hs : ∀ sc, u.testScore N (e.calculateLocalTime time).2 acc accCov omg omgCov = .ok sc →
      sc = |quad H.rows B (u.zeroAccResidual e0 acc omg).get| := by
    intro sc hsc
    simp only [ImuUpdater.testScore, ← h0, hH, hR, ok_bind] at hsc
    obtain ⟨h1, h2⟩ := C43_score_stored N hN e0 H R _ sc hsc B hB
    rw [h2] at h1
    exact h1
  have hd := (C43_decision N u e time acc accCov omg omgCov r h).1
  rw [hd]
  constructor
  · rintro ⟨hm, sc, h1, h2⟩
    rw [hs sc h1] at h2
    exact ⟨hm, h2⟩
  · rintro ⟨hm, h2⟩
    obtain ⟨sc, hsc⟩ : ∃ sc, u.testScore N (e.calculateLocalTime time).2 acc accCov omg omgCov = .ok sc := by
      obtain ⟨b, u', e1, hzo, -, -⟩ := ImuUpdater.update_form h
      cases hzo with
      | late hm' => rw [hm] at hm'; cases hm'
      | moved e0' jac noise sc hm h0' hj hn hs' hgt hg =>
        exact ⟨sc, by simp only [ImuUpdater.testScore, ← h0', hj, hn, ok_bind, hs']⟩
      | still e0' e1 e2 e3 jac jac' noise sc hm h0' hj hn hs' hle h1 h2 hj' h3 =>
        exact ⟨sc, by simp only [ImuUpdater.testScore, ← h0', hj, hn, ok_bind, hs']⟩
    exact ⟨hm, sc, hsc, by rw [hs sc hsc]; exact h2⟩

/-- A standard filter with known gravity, a lawful inverse and a calm measurement: all hypotheses of `C43_test_partial`
hold and the message is treated as stationary. -/
example : ∃ (e : Ekf ℚ) (r : ImuUpdater × Ekf ℚ) (H R : Mat ℚ),
    Ekf.run Samples.adjPrim (Ekf.init Samples.adjPrim (Samples.params .none false))
      [.registerIMU 3 (Samples.imu false false) ⟨0, 0, fun _ _ => 0⟩, .initializeGravity] = .ok e ∧
    e.useRoot = false ∧
    (ImuUpdater.new 3 false false).update Samples.adjNum e 1 ![1 / 10, 0, 980665 / 100000] 1 0 1 = .ok r ∧
    (ImuUpdater.new 3 false false).zeroAccJacobian Samples.adjNum ((e.calculateLocalTime 1).2.getImuState 3).2 = .ok H ∧
    (ImuUpdater.new 3 false false).zeroAccNoise 1 1 = .ok R ∧ r.2.isZeroAcceleration = true := by
  let c : Res (Ekf ℚ × (ImuUpdater × Ekf ℚ) × Mat ℚ × Mat ℚ) := do
    let e ← Ekf.run Samples.adjPrim (Ekf.init Samples.adjPrim (Samples.params .none false))
      [.registerIMU 3 (Samples.imu false false) ⟨0, 0, fun _ _ => 0⟩, .initializeGravity]
    let r ← (ImuUpdater.new 3 false false).update Samples.adjNum e 1 ![1 / 10, 0, 980665 / 100000] 1 0 1
    let H ← (ImuUpdater.new 3 false false).zeroAccJacobian Samples.adjNum ((e.calculateLocalTime 1).2.getImuState 3).2
    let R ← (ImuUpdater.new 3 false false).zeroAccNoise 1 1
    pure (e, r, H, R)
  obtain ⟨⟨e, r, H, R⟩, hc, hr, hz⟩ := Samples.ok_of_check (r := c)
    (P := fun x => x.1.useRoot = false ∧ x.2.1.2.isZeroAcceleration = true) (by decide +kernel)
  simp only [c, bind_ok_iff, pure_res, Except.ok.injEq, Prod.mk.injEq] at hc
  obtain ⟨e', h1, r', h2, H', h3, R', h4, rfl, rfl, rfl, rfl⟩ := hc
  exact ⟨e', r', H', R', h1, hr, h2, h3, h4, hz⟩

/-- Motion is detected by the first message of the sample run; the later one is not treated as stationary. -/
example : ∃ s, (Station.init Samples.num (Samples.params .none false)).run Samples.num Samples.gpsNum
    (Samples.calls.take 11) = .ok s ∧ (∃ u, s.imus.find? 1 = some u ∧ u.motionDetected = true) ∧
    s.ekf.isZeroAcceleration = false := by
  obtain ⟨s, h, h1, h2⟩ := Samples.ok_of_check
    (r := (Station.init Samples.num (Samples.params .none false)).run Samples.num Samples.gpsNum
      (Samples.calls.take 11))
    (P := fun s => (s.imus.find? 1).map (·.motionDetected) = some true ∧ s.ekf.isZeroAcceleration = false)
    (by decide +kernel)
  refine ⟨s, h, ?_, h2⟩
  cases hf : s.imus.find? 1 with
  | none => rw [hf] at h1; cases h1
  | some u => rw [hf] at h1; exact ⟨u, rfl, by simpa using h1⟩

/-! ### Square-root mode: motion beyond the threshold is taken for rest -/

/-- Numerics exact on the values of the witness: square root of 1/100, inverse of diagonal matrices. -/
def C43_num : Num ℚ :=
  { Samples.num with
    sqrt := fun x => if x = 1 / 100 then 1 / 10 else x
    inv := fun m i j => if i = j then (m.get i i)⁻¹ else 0 }

/-- A fresh square-root filter with one uncalibrated IMU and known gravity. -/
def C43_ops : List (Ekf.Op ℚ) := [.registerIMU 3 (Samples.imu false false) ⟨0, 0, fun _ _ => 0⟩, .initializeGravity]

/-- The IMU's updater before any motion. -/
def C43_imu : ImuUpdater := ImuUpdater.new 3 false false

/-- The inverse of `H P Hᵀ + c R` in the witness. -/
def C43_inv (i j : Nat) : ℚ := if i = j then (if i < 2 then 1 / ((980665 / 100000) ^ 2 / 100 + 1) else 1) else 0

/-- In square-root mode the test statistic of the covariance exceeds the threshold, but the message is treated as
stationary, because the score is computed with the factor in place of the covariance. -/
theorem C43_root_violated : ∃ (e e0 : Ekf ℚ) (r : ImuUpdater × Ekf ℚ) (acc : V3 ℚ) (H R : Mat ℚ) (B : Nat → Nat → ℚ),
    Ekf.run C43_num.toPrim (Ekf.init C43_num.toPrim (Samples.params .none true)) C43_ops = .ok e ∧
    e.isGravityInitialized = true ∧ e.P 9 9 = 1 / 100 ∧
    C43_imu.update C43_num e 1 acc ((1 / 100 : ℚ) • 1) 0 1 = .ok r ∧
    e0 = ((e.calculateLocalTime 1).2.getImuState C43_imu.id).2 ∧
    C43_imu.zeroAccJacobian C43_num e0 = .ok H ∧ C43_imu.zeroAccNoise ((1 / 100 : ℚ) • 1) 1 = .ok R ∧
    AreInverse H.rows (innovation e0.cov.rows e0.P H (R.smul e0.imuNoiseScaleFactor)) B ∧
    e.motionDetectionChiSquared < |quad H.rows B (C43_imu.zeroAccResidual e0 acc 0).get| ∧
    r.2.isZeroAcceleration = true := by
  let acc : V3 ℚ := ![2, 0, 980665 / 100000]
  let c : Res (Ekf ℚ × (ImuUpdater × Ekf ℚ) × Mat ℚ × Mat ℚ) := do
    let e ← Ekf.run C43_num.toPrim (Ekf.init C43_num.toPrim (Samples.params .none true)) C43_ops
    let r ← C43_imu.update C43_num e 1 acc ((1 / 100 : ℚ) • 1) 0 1
    let H ← C43_imu.zeroAccJacobian C43_num ((e.calculateLocalTime 1).2.getImuState C43_imu.id).2
    let R ← C43_imu.zeroAccNoise ((1 / 100 : ℚ) • 1) 1
    pure (e, r, H, R)
  let S : Ekf ℚ × (ImuUpdater × Ekf ℚ) × Mat ℚ × Mat ℚ → Nat → Nat → ℚ := fun x =>
    innovation ((x.1.calculateLocalTime 1).2.getImuState C43_imu.id).2.cov.rows
      ((x.1.calculateLocalTime 1).2.getImuState C43_imu.id).2.P x.2.2.1
      (x.2.2.2.smul ((x.1.calculateLocalTime 1).2.getImuState C43_imu.id).2.imuNoiseScaleFactor)
  let w : Ekf ℚ × (ImuUpdater × Ekf ℚ) × Mat ℚ × Mat ℚ → ℚ := fun x => quad 3 C43_inv
    (C43_imu.zeroAccResidual ((x.1.calculateLocalTime 1).2.getImuState C43_imu.id).2 acc 0).get
  obtain ⟨⟨e, r, H, R⟩, hc, hg, hp, hrows, hi1, hi2, hq, hz⟩ := Samples.ok_of_check (r := c)
    (P := fun x => x.1.isGravityInitialized = true ∧ x.1.P 9 9 = 1 / 100 ∧ x.2.2.1.rows = 3 ∧
      (∀ i : Fin 3, ∀ j : Fin 3, ∑ k ∈ range 3, S x i k * C43_inv k j = if i = j then 1 else 0) ∧
      (∀ i : Fin 3, ∀ j : Fin 3, ∑ k ∈ range 3, C43_inv i k * S x k j = if i = j then 1 else 0) ∧
      x.1.motionDetectionChiSquared < |w x| ∧ x.2.1.2.isZeroAcceleration = true) (by decide +kernel)
  simp only [c, bind_ok_iff, pure_res, Except.ok.injEq, Prod.mk.injEq] at hc
  obtain ⟨e', h1, r', h2, H', h3, R', h4, rfl, rfl, rfl, rfl⟩ := hc
  dsimp only at hg hp hrows hi1 hi2 hq hz
  refine ⟨e', _, r', acc, H', R', C43_inv, h1, hg, hp, h2, rfl, h3, h4, ?_, ?_, hz⟩
  · rw [hrows]
    refine ⟨fun i j hi hj => (hi1 ⟨i, hi⟩ ⟨j, hj⟩).trans ?_, fun i j hi hj => (hi2 ⟨i, hi⟩ ⟨j, hj⟩).trans ?_⟩ <;>
      simp only [Fin.mk.injEq]
  · rw [hrows]; exact hq

end EkfCal
