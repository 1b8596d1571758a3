import Verif.Lemmas.Config
import Verif.Lemmas.Progress
import Verif.Props.C03

/-!
# C54: a constructed sensor starts with its configured calibration and uncertainty

Holds in standard covariance mode for cameras, GPS antennas, boards, and IMUs unless only the biases are calibrated.
False otherwise: an IMU with calibrated biases only gets the variances configured for its mounting, square-root mode
squares every variance, a build with assertions accepts no variance list with which a calibrated IMU can be constructed,
and the simulation's default variance is too short for a board.

As in C03, the new id must be the largest of its kind among the estimated ones.
-/

namespace EkfCal
open Ekf
variable {K : Type} [Field K] [LinearOrder K]

/-- The calibration and flags stored for an IMU. -/
def ImuConfig.Stored (p : ImuConfig K) (s : ImuState K) : Prop :=
  s.pos = p.calib.pos ∧ s.ang = p.calib.ang ∧ s.accBias = p.calib.accBias ∧ s.omgBias = p.calib.omgBias ∧
  s.posStability = p.calib.posStability ∧ s.angStability = p.calib.angStability ∧
  s.accBiasStability = p.calib.accBiasStability ∧ s.omgBiasStability = p.calib.omgBiasStability ∧
  s.isExtrinsic = p.isExtrinsic ∧ s.isIntrinsic = p.isIntrinsic

/-- The components of an IMU, with the rows of the documented variance list (position, orientation, accelerometer bias,
gyroscope bias) that belong to them. -/
def ImuConfig.documented (p : ImuConfig K) (id : Nat) : List (Label × Nat × Nat) :=
  (if p.isExtrinsic then [(.imuExt id, 0, 6)] else []) ++ (if p.isIntrinsic then [(.imuInt id, 6, 6)] else [])

/-- Uncorrelated entries with the variances `v`. -/
def uncorrelated (v : Nat → K) (k l : Nat) : K := if k = l then v k else 0

/-- IMU, in any mode and with any flags, as constructed: the exact outcome. -/
theorem newImu_outcome (N : Prim K) (e e' : Ekf K) (id : Nat) (p : ImuConfig K) (hr : e.Reachable N)
    (hnew : e.state.imus.find? id = none)
    (hid : (p.isExtrinsic = false ∧ p.isIntrinsic = false) ∨ ∀ x ∈ e.state.imus, id < x.1 → x.2.dim = 0)
    (h : newImuSensor N e id p = .ok e') :
    (∃ s, e'.state.imus.find? id = some s ∧ p.Stored s) ∧
    e.Registers e' (p.state.parts id) (uncorrelated fun k => if e.useRoot then
      bounded (p.variance.get k) * bounded (p.variance.get k) else bounded (p.variance.get k)) := by
  unfold newImuSensor at h
  rw [bind_ok_iff] at h
  obtain ⟨c, hc, h⟩ := h
  have hw : p.state.WF := rfl
  constructor
  · obtain ⟨j, hj⟩ := stored_imu hr.inv hnew h
    exact ⟨_, hj, rfl, rfl, rfl, rfl, rfl, rfl, rfl, rfl, rfl, rfl⟩
  · have hreg := C03_imu_partial N e e' id p.state c hr hw hnew (by
      rcases hid with ⟨h1, h2⟩ | h1
      · left
        show (if p.isExtrinsic then imuExtSize else 0) + (if p.isIntrinsic then imuIntSize else 0) = 0
        rw [h1, h2]; rfl
      · exact .inr h1) h
    have hsz := minBound_size p.variance
    have hget : ∀ (n : Nat), n ≤ (minBoundVector p.variance (1 / 10 ^ 6)).size → ∀ k l, k < n → l < n →
        startCov e.useRoot n (⟨n, (minBoundVector p.variance (1 / 10 ^ 6)).get⟩ : Vec K).asDiagonal k l =
        uncorrelated (fun k => if e.useRoot then
          bounded (p.variance.get k) * bounded (p.variance.get k) else bounded (p.variance.get k)) k l := by
      intro n hn k l hk hl
      rw [startCov_diag _ _ _ hk hl]
      dsimp only
      rw [minBound_get p.variance (by omega)]
      rfl
    have hdim : p.state.dim = (if p.isExtrinsic then 6 else 0) + (if p.isIntrinsic then 6 else 0) := rfl
    have hparts : p.state.parts id = (if p.isExtrinsic then [(.imuExt id, 0, 6)] else []) ++
      (if p.isIntrinsic then [(.imuInt id, if p.isExtrinsic then 6 else 0, 6)] else []) := rfl
    unfold ImuConfig.cov at hc
    refine Registers.congr (n := p.state.dim) hreg ?_ ?_
    · rw [hparts, hdim]
      cases p.isExtrinsic <;> cases p.isIntrinsic <;> simp
    · cases he : p.isExtrinsic <;> cases hn : p.isIntrinsic <;> rw [he, hn] at hc hdim <;>
        simp only [Bool.and_true, Bool.and_false, Bool.or_false, Bool.or_true, Bool.false_eq_true, if_false, if_true,
          bind_ok_iff, head_ok_iff, pure_res, Except.ok.injEq] at hc hdim
      · intro k l hk
        omega
      all_goals
        obtain ⟨_, ⟨h1, rfl⟩, rfl⟩ := hc
        rw [hdim]
        exact hget _ h1

/-- IMU, standard mode, any calibration of the mounting, with or without biases: the configured calibration is stored,
and the configured variances (at least 10⁻⁶) are those of the documented components; everything else in the covariance is
kept. -/
theorem C54_imu_partial (N : Prim K) (e e' : Ekf K) (id : Nat) (p : ImuConfig K) (hr : e.Reachable N)
    (hu : e.useRoot = false) (hf : p.isExtrinsic = true ∨ p.isIntrinsic = false) (hnew : e.state.imus.find? id = none)
    (hid : (p.isExtrinsic = false ∧ p.isIntrinsic = false) ∨ ∀ x ∈ e.state.imus, id < x.1 → x.2.dim = 0)
    (h : newImuSensor N e id p = .ok e') :
    (∃ s, e'.state.imus.find? id = some s ∧ p.Stored s) ∧
    e.Registers e' (p.documented id) (uncorrelated fun k => bounded (p.variance.get k)) := by
  obtain ⟨h1, h2⟩ := newImu_outcome N e e' id p hr hnew hid h
  refine ⟨h1, ?_⟩
  rw [hu] at h2
  have : p.state.parts id = p.documented id := by
    show (if p.isExtrinsic then [(Label.imuExt id, 0, 6)] else []) ++
      (if p.isIntrinsic then [(Label.imuInt id, if p.isExtrinsic then 6 else 0, 6)] else []) = _
    unfold ImuConfig.documented
    rcases hf with hf | hf <;> rw [hf] <;> simp
  rw [← this]
  exact h2

/-- A configuration with twelve variances always succeeds on a filter that was used within its contract. -/
theorem C54_imu_defined (N : Prim K) (q : EkfParams K) (hq : q.processNoise.size = 18) (ops : List (Op K))
    (hs : SafeHistory N (init N q) ops) (e : Ekf K) (h : run N (init N q) ops = .ok e) (id : Nat) (p : ImuConfig K)
    (hv : 12 ≤ p.variance.size) : ∃ e', newImuSensor N e id p = .ok e' := by
  obtain ⟨e1, h1, hr⟩ := run_defined (ready_init N q hq) hs
  rw [h] at h1
  cases h1
  have hsz := minBound_size p.variance
  unfold newImuSensor ImuConfig.cov
  have hdim : p.state.dim = (if p.isExtrinsic then 6 else 0) + (if p.isIntrinsic then 6 else 0) := rfl
  have g12 := (head_ok_iff (n := 12) (v := minBoundVector p.variance (1 / 10 ^ 6 : K))).2 ⟨by omega, rfl⟩
  have g6 := (head_ok_iff (n := 6) (v := minBoundVector p.variance (1 / 10 ^ 6 : K))).2 ⟨by omega, rfl⟩
  cases he : p.isExtrinsic <;> cases hn : p.isIntrinsic <;> rw [he, hn] at hdim <;>
    simp only [Bool.and_true, Bool.and_false, Bool.or_false, Bool.or_true, Bool.false_eq_true, if_false, if_true, g12, g6,
      ok_bind, pure_res] <;>
    exact registerIMU_defined N e id p.state _ hr.inv hr.noise rfl (.inr ⟨by rw [hdim]; exact Nat.le_refl _, by rw [hdim]; exact Nat.le_refl _⟩)

/-- An IMU of which only the biases are calibrated: their variances are those configured for the mounting. -/
theorem C54_bias_violated (N : Prim K) (e e' : Ekf K) (id : Nat) (p : ImuConfig K) (hr : e.Reachable N)
    (hu : e.useRoot = false) (he : p.isExtrinsic = false) (hi : p.isIntrinsic = true) (hnew : e.state.imus.find? id = none)
    (hid : ∀ x ∈ e.state.imus, id < x.1 → x.2.dim = 0) (h : newImuSensor N e id p = .ok e') (k : Nat) (hk : k < 6) :
    e'.joint (.imuInt id) (.imuInt id) k k = some (bounded (p.variance.get k)) := by
  obtain ⟨_, h2⟩ := newImu_outcome N e e' id p hr hnew (.inr hid) h
  have hm : (Label.imuInt id, 0, 6) ∈ p.state.parts id := by
    show _ ∈ (if p.isExtrinsic then _ else _) ++ (if p.isIntrinsic then [(Label.imuInt id, if p.isExtrinsic then 6 else 0, 6)] else _)
    rw [he, hi]
    simp
  rw [h2.start _ 0 6 _ 0 6 hm hm k k hk hk, hu]
  simp [uncorrelated]

/-- Camera, standard mode. -/
theorem C54_camera_partial (N : Prim K) (e e' : Ekf K) (id : Nat) (p : CamConfig K) (hr : e.Reachable N)
    (hu : e.useRoot = false) (hnew : e.state.cams.find? id = none)
    (hid : p.isExtrinsic = false ∨ ∀ x ∈ e.state.cams, id < x.1 → x.2.dim = 0) (hv : 6 ≤ p.variance.size)
    (h : newCameraSensor N e id p = .ok e') :
    (∃ s, e'.state.cams.find? id = some s ∧ s.rate = p.calib.rate ∧ s.pos = p.calib.pos ∧ s.ang = p.calib.ang ∧
      s.posStability = p.calib.posStability ∧ s.angStability = p.calib.angStability ∧ s.isExtrinsic = p.isExtrinsic) ∧
    e.Registers e' (if p.isExtrinsic then [(.cam id, 0, 6)] else []) (uncorrelated fun k => bounded (p.variance.get k)) := by
  unfold newCameraSensor at h
  constructor
  · obtain ⟨j, hj⟩ := stored_cam hr.inv hnew h
    exact ⟨_, hj, rfl, rfl, rfl, rfl, rfl, rfl⟩
  · have hreg := C03_camera_partial N e e' id p.state _ hr rfl hnew (by
      rcases hid with h1 | h1
      · left
        show (if p.isExtrinsic then camExtSize else 0) = 0
        rw [h1]; rfl
      · exact .inr h1) h
    refine Registers.congr (n := p.state.dim) hreg ?_ fun k l hk hl => ?_
    · show ∀ x ∈ (if p.isExtrinsic then [(Label.cam id, 0, 6)] else []), _ ≤ (if p.isExtrinsic then 6 else 0)
      cases p.isExtrinsic <;> simp
    · rw [startCov_diag _ _ _ hk hl, hu, if_neg Bool.false_ne_true]
      have : p.state.dim ≤ 6 := by
        show (if p.isExtrinsic then 6 else 0) ≤ 6
        split <;> omega
      rw [minBound_get _ (by omega)]
      rfl

/-- GPS antenna, standard mode; its variances are not bounded below. -/
theorem C54_gps_partial (N : Prim K) (e e' : Ekf K) (id : Nat) (p : GpsConfig K) (hr : e.Reachable N)
    (hu : e.useRoot = false) (hnew : e.state.gpss.find? id = none)
    (hid : p.isExtrinsic = false ∨ ∀ x ∈ e.state.gpss, id < x.1 → x.2.dim = 0) (h : newGpsSensor N e id p = .ok e') :
    (∃ s, e'.state.gpss.find? id = some s ∧ s.pos = p.pos ∧ s.posStability = p.posStability ∧
      s.isExtrinsic = p.isExtrinsic) ∧
    e.Registers e' (if p.isExtrinsic then [(.gps id, 0, 3)] else [])
      (uncorrelated fun k => if h : k < 3 then p.variance ⟨k, h⟩ else 0) := by
  unfold newGpsSensor at h
  constructor
  · obtain ⟨j, hj⟩ := stored_gps hr.inv hnew h
    exact ⟨_, hj, rfl, rfl, rfl⟩
  · have hreg := C03_gps_partial N e e' id p.state _ hr rfl hnew (by
      rcases hid with h1 | h1
      · left
        show (if p.isExtrinsic then gpsExtSize else 0) = 0
        rw [h1]; rfl
      · exact .inr h1) h
    refine Registers.congr (n := p.state.dim) hreg ?_ fun k l hk hl => ?_
    · show ∀ x ∈ (if p.isExtrinsic then [(Label.gps id, 0, 3)] else []), _ ≤ (if p.isExtrinsic then 3 else 0)
      cases p.isExtrinsic <;> simp
    · rw [startCov_diag _ _ _ hk hl, hu, if_neg Bool.false_ne_true]
      rfl

/-- Board, standard mode, no clones yet; its variances are not bounded below. -/
theorem C54_board_partial (N : Prim K) (e e' : Ekf K) (p : FidConfig K) (hr : e.Reachable N)
    (hu : e.useRoot = false) (hnew : e.state.fids.find? p.id = none)
    (hid : p.isExtrinsic = false ∨ ((∀ x ∈ e.state.fids, p.id < x.1 → x.2.dim = 0) ∧ ∀ k, e.window k = []))
    (h : newFiducialTracker N e p = .ok e') :
    (∃ s, e'.state.fids.find? p.id = some s ∧ s.pos = p.pos ∧ s.ang = p.ang ∧ s.isExtrinsic = p.isExtrinsic) ∧
    e.Registers e' (if p.isExtrinsic then [(.fid p.id, 0, 6)] else []) (uncorrelated fun k => p.variance.get k) := by
  unfold newFiducialTracker at h
  simp only [bind_ok_iff, guardUB_ok_iff] at h
  obtain ⟨_, hv, h⟩ := h
  constructor
  · obtain ⟨j, hj⟩ := stored_fid (s := p.state) hr.inv hnew h
    exact ⟨_, hj, rfl, rfl, rfl⟩
  · have hreg := C03_fiducial_partial N e e' p.state _ hr rfl hnew (by
      rcases hid with h1 | h1
      · left
        show (if p.isExtrinsic then fidExtSize else 0) = 0
        rw [h1]; rfl
      · exact .inr h1) h
    refine Registers.congr (n := p.state.dim) hreg ?_ fun k l hk hl => ?_
    · show ∀ x ∈ (if p.isExtrinsic then [(Label.fid p.id, 0, 6)] else []), _ ≤ (if p.isExtrinsic then 6 else 0)
      cases p.isExtrinsic <;> simp
    · rw [startCov_diag _ _ _ hk hl, hu, if_neg Bool.false_ne_true]
      rfl

/-- Square-root mode, the default: a calibrated antenna starts with the squares of the configured variances. -/
theorem C54_root_violated (N : Prim K) (e e' : Ekf K) (id : Nat) (p : GpsConfig K) (hr : e.Reachable N)
    (hu : e.useRoot = true) (he : p.isExtrinsic = true) (hnew : e.state.gpss.find? id = none)
    (hid : ∀ x ∈ e.state.gpss, id < x.1 → x.2.dim = 0) (h : newGpsSensor N e id p = .ok e') (k : Fin 3) :
    e'.joint (.gps id) (.gps id) k.val k.val = some (p.variance k * p.variance k) := by
  unfold newGpsSensor at h
  have hreg := C03_gps_partial N e e' id p.state _ hr rfl hnew (.inr hid) h
  have hm : (Label.gps id, 0, 3) ∈ (if p.state.isExtrinsic then [(Label.gps id, 0, 3)] else []) := by
    show _ ∈ (if p.isExtrinsic then _ else _)
    rw [he]; simp
  have hd : p.state.dim = 3 := by
    show (if p.isExtrinsic then 3 else 0) = 3
    rw [he]; rfl
  rw [hreg.start _ 0 3 _ 0 3 hm hm k.val k.val k.2 k.2, startCov_diag _ _ _ (by omega) (by omega), hu]
  simp

/-- In a build that keeps assertions, no variance list lets a calibrated IMU be constructed: three entries pass the
assertion and are too few, any other number fails it. -/
theorem C54_assert_violated (N : Prim K) (e : Ekf K) (id : Nat) (p : ImuConfig K)
    (hf : p.isExtrinsic = true ∨ p.isIntrinsic = true) (l : List K) :
    stdToEigVec true l = .error .assertFailed ∨
    ∃ v, stdToEigVec true l = .ok v ∧ newImuSensor N e id { p with variance := v } = .error .outOfRange := by
  by_cases hl : l.length = 3
  · right
    refine ⟨⟨l.length, fun i => l.getD i 0⟩, ?_, ?_⟩
    · unfold stdToEigVec
      rw [guardUB_true (by intro _; exact hl)]
      rfl
    · have hsz : (minBoundVector (⟨l.length, fun i => l.getD i 0⟩ : Vec K) (1 / 10 ^ 6)).size = 3 :=
        (minBound_size _).trans hl
      have herr : ∀ n, 3 < n → (minBoundVector (⟨l.length, fun i => l.getD i 0⟩ : Vec K) (1 / 10 ^ 6)).head n =
          .error .outOfRange := by
        intro n hn
        unfold Vec.head guardUB
        rw [if_neg (by omega)]
        rfl
      unfold newImuSensor ImuConfig.cov
      dsimp only
      rw [herr 12 (by omega), herr 6 (by omega)]
      cases he : p.isExtrinsic <;> cases hn : p.isIntrinsic <;> rw [he, hn] at hf
      · rcases hf with hf | hf <;> cases hf
      all_goals rfl
  · left
    unfold stdToEigVec guardUB
    rw [if_neg (by intro h; exact hl (h rfl))]
    rfl

/-- Sample configuration: variances 1, 2, …, 12. -/
def C54_imu (ext int : Bool) : ImuConfig ℚ :=
  ⟨ext, int, { (ImuState.default : ImuState ℚ) with pos := ![1, 2, 3], accBias := ![4, 5, 6] }, ⟨12, fun i => (i + 1 : ℕ)⟩⟩

theorem C54_sample_reachable (root : Bool) : (init Samples.prim (Samples.params .all root)).Reachable Samples.prim :=
  ⟨_, [], by simp, rfl⟩

/-- The hypotheses of `C54_imu_partial` are met: a filter with a smaller calibrated IMU. -/
example : ∃ e e' : Ekf ℚ, e.Reachable Samples.prim ∧ e.useRoot = false ∧ e.state.imus.find? 5 = none ∧
    (∀ x ∈ e.state.imus, 5 < x.1 → x.2.dim = 0) ∧ newImuSensor Samples.prim e 5 (C54_imu true true) = .ok e' := by
  obtain ⟨e, he, h1, h2, h3⟩ : ∃ e, run Samples.prim (init Samples.prim (Samples.params .all false))
      [.registerIMU 3 (Samples.imu true true) (Samples.cov 12)] = .ok e ∧ e.useRoot = false ∧
      e.state.imus.find? 5 = none ∧ ∀ x ∈ e.state.imus, 5 < x.1 → x.2.dim = 0 :=
    ⟨_, rfl, rfl, rfl, by decide⟩
  obtain ⟨e', h4⟩ := C54_imu_defined Samples.prim (Samples.params .all false) rfl
    [.registerIMU 3 (Samples.imu true true) (Samples.cov 12)] ⟨rfl, .inr ⟨by decide, by decide⟩, fun _ _ => trivial⟩ e he 5
    (C54_imu true true) (Nat.le_refl 12)
  refine ⟨e, e', ⟨_, _, ?_, he⟩, h1, h2, h3, h4⟩
  intro op hop
  rcases List.mem_singleton.1 hop with rfl
  rfl

/-- With variances 7, …, 12 configured for the biases, an IMU with calibrated biases only starts with 1, …, 6. -/
example : ∃ e' : Ekf ℚ, newImuSensor Samples.prim (init Samples.prim (Samples.params .all false)) 5 (C54_imu false true) = .ok e' ∧
    e'.joint (.imuInt 5) (.imuInt 5) 0 0 = some 1 ∧ (C54_imu false true).variance.get 6 = 7 := by
  obtain ⟨e', h⟩ := C54_imu_defined Samples.prim (Samples.params .all false) rfl [] trivial _ rfl 5 (C54_imu false true)
    (Nat.le_refl 12)
  refine ⟨e', h, ?_, by decide +kernel⟩
  rw [C54_bias_violated Samples.prim _ e' 5 (C54_imu false true) (C54_sample_reachable false) rfl rfl rfl rfl (by decide) h 0
    (by omega)]
  decide +kernel

/-- In square-root mode an antenna configured with variance 5 starts with variance 25. -/
example : ∃ e' : Ekf ℚ, newGpsSensor Samples.prim (init Samples.prim (Samples.params .all true)) 5
      ⟨true, ![0, 0, 0], 1, ![5, 5, 5]⟩ = .ok e' ∧ e'.joint (.gps 5) (.gps 5) 0 0 = some 25 := by
  obtain ⟨e', h⟩ : ∃ e', newGpsSensor Samples.prim (init Samples.prim (Samples.params .all true)) 5
      ⟨true, ![0, 0, 0], 1, ![5, 5, 5]⟩ = .ok e' := ⟨_, rfl⟩
  refine ⟨e', h, ?_⟩
  have := C54_root_violated Samples.prim _ e' 5 ⟨true, ![0, 0, 0], 1, ![5, 5, 5]⟩ (C54_sample_reachable true) rfl rfl rfl
    (by decide) h 0
  rw [show ((0 : Fin 3).val) = 0 from rfl] at this
  rw [this]
  decide +kernel

/-- The simulation's default variance (three entries) is too short for a board, calibrated or not. -/
theorem C54_board_default_violated (N : Prim K) (e : Ekf K) (p : FidConfig K) (a b c : K) :
    ∃ v, stdToEigVec true [a, b, c] = .ok v ∧ newFiducialTracker N e { p with variance := v } = .error .outOfRange := by
  refine ⟨⟨3, fun i => [a, b, c].getD i 0⟩, rfl, ?_⟩
  unfold newFiducialTracker guardUB
  rw [if_neg (by simp)]
  rfl

end EkfCal
