import Verif.Lemmas.CovHist
import Verif.Spec.Samples
import Mathlib.Tactic.NormNum

/-!
# C08 — prediction keeps the covariance a covariance
-/

set_option linter.unusedSectionVars false

namespace EkfCal
open Ekf Finset
variable {K : Type} [Field K] [LinearOrder K]

/-- The predicted covariance of the full state over a step `dt`: `F (P + dt·diag Q) Fᵀ`, `F` the constant-velocity
transition on the body extended by the identity. -/
def predicted (n : Nat) (P Q : Mat K) (dt : K) (i j : Nat) : K :=
  congr n (transition dt) (fun k l => P.get k l + if k = l then Q.get k k * dt else 0) i j

/-- Standard form, no clock-driven cloning: after any history, once gravity is initialised, predicting to a time not
before the filter time is defined and gives exactly `F (P + Q dt) Fᵀ`, at the same size. -/
theorem C08_formula (N : Prim K) (p : EkfParams K) (ops : List (Op K)) (hw : ∀ op ∈ ops, op.WF) (e : Ekf K)
    (h : run N (init N p) ops = .ok e) (hu : e.useRoot = false) (hg : e.isGravityInitialized = true)
    (ha : e.augType ≠ .time ∧ e.augType ≠ .error) (t : K) (ht : e.currentTime ≤ t) :
    ∃ e', predict N e t = .ok e' ∧ e'.cov.rows = e.cov.rows ∧ e'.cov.cols = e.cov.rows ∧
      ∀ i j, i < e.cov.rows → j < e.cov.rows →
        e'.cov.get i j = predicted e.cov.rows e.cov e.processNoise (t - e.currentTime) i j := by
  have hi := inv_run (inv_init N p) hw h
  have h18 : 18 ≤ e.cov.rows := by rw [hi.covRows, hi.size]; unfold State.dim; omega
  obtain ⟨out, h1, h2, h3, h4⟩ := predictCov_spec N e.cov e.processNoise (t - e.currentTime)
    (by rw [hi.covRows, hi.covCols]) h18 (by rw [hi.noiseRows, hi.covRows]) (by rw [hi.noiseCols, hi.covRows])
  have hd : predict N e t = .ok { e with
      state := { e.state with body := predictBody N e.isZeroAcceleration e.state.body (t - e.currentTime) }
      cov := out
      currentTime := t } := by
    have h1' : predictCov N e.useRoot e.stateSize e.cov e.processNoise (t - e.currentTime) = .ok out := by
      rw [hu, ← hi.covRows, h1]
    unfold predict
    simp only [if_neg (not_lt.2 ht), hg, if_true, h1', ok_bind, pure_res]
    unfold augmentTimed
    dsimp only
    rw [if_pos (by cases hx : e.augType <;> simp_all)]
    rfl
  exact ⟨_, hd, h2, h3, h4⟩

/-- Whatever the cloning policy: a defined prediction is the formula above followed by the cloning pass. -/
theorem C08_then_cloning (N : Prim K) (p : EkfParams K) (ops : List (Op K)) (hw : ∀ op ∈ ops, op.WF) (e e' : Ekf K)
    (h : run N (init N p) ops = .ok e) (hu : e.useRoot = false) (hg : e.isGravityInitialized = true)
    (t : K) (ht : e.currentTime ≤ t) (hp : predict N e t = .ok e') :
    ∃ mid : Ekf K, augmentTimed N mid = .ok e' ∧ mid.currentTime = t ∧ mid.stateSize = e.stateSize ∧
      mid.cov.rows = e.cov.rows ∧ mid.cov.cols = e.cov.rows ∧
      ∀ i j, i < e.cov.rows → j < e.cov.rows →
        mid.cov.get i j = predicted e.cov.rows e.cov e.processNoise (t - e.currentTime) i j := by
  have hi := inv_run (inv_init N p) hw h
  have h18 : 18 ≤ e.cov.rows := by rw [hi.covRows, hi.size]; unfold State.dim; omega
  obtain ⟨out, h1, h2, h3, h4⟩ := predictCov_spec N e.cov e.processNoise (t - e.currentTime)
    (by rw [hi.covRows, hi.covCols]) h18 (by rw [hi.noiseRows, hi.covRows]) (by rw [hi.noiseCols, hi.covRows])
  obtain ⟨hlt, _⟩ | ⟨_, b, out', hc, hp⟩ := predict_form hp
  · exact absurd ht (not_le.2 hlt)
  · obtain ⟨hg', _⟩ | ⟨_, _, hc⟩ := hc
    · rw [hg] at hg'; cases hg'
    · rw [hu, ← hi.covRows, h1] at hc
      cases hc
      exact ⟨_, hp, rfl, rfl, h2, h3, h4⟩

/-- One prediction keeps a covariance a covariance, for non-negative noise and any cloning policy. -/
theorem C08_step_psd [IsStrictOrderedRing K] (N : Prim K) (p : EkfParams K) (ops : List (Op K)) (hw : ∀ op ∈ ops, op.WF)
    (e e' : Ekf K) (h : run N (init N p) ops = .ok e) (hu : e.useRoot = false) (hP : e.cov.IsCov)
    (hQ : ∀ i, i < e.stateSize → 0 ≤ e.processNoise.get i i) (t : K) (hp : predict N e t = .ok e') : e'.cov.IsCov := by
  have hi := inv_run (inv_init N p) hw h
  obtain ⟨_, rfl⟩ | ⟨ht, b, out, hc, hp⟩ := predict_form hp
  · exact hP
  · refine cov_augmentTimed ?_ ?_ hp
    · exact hu
    obtain ⟨_, _, rfl⟩ | ⟨_, _, hc⟩ := hc
    · exact hP
    · rw [hu] at hc
      refine cov_predictCov hP hi.covRows ?_ hi.noiseRows hi.noiseCols hQ (sub_nonneg.2 ht) hc
      rw [hi.size]; unfold State.dim; omega

/-- Along every history of calls with covariance arguments that are covariances and non-negative noise densities, the
filter's covariance is square, symmetric and positive semidefinite: registrations, predictions, clones, removals and
updates included. -/
theorem C08_history_psd [IsStrictOrderedRing K] (N : Prim K) (p : EkfParams K) (hu : p.useRoot = false)
    (hn : ∀ k, k < 18 → 0 ≤ p.processNoise.get k) (ops : List (Op K)) (hw : ∀ op ∈ ops, op.WF)
    (ho : ∀ op ∈ ops, op.CovOK) (e : Ekf K) (h : run N (init N p) ops = .ok e) :
    e.cov.IsCov ∧ ∀ i, 0 ≤ e.processNoise.get i i := by
  have := covInv_run (covInv_init N p hu hn) hw ho h
  exact ⟨this.cov, this.diag_nonneg⟩

/-- A history with every kind of sensor, predictions, clones, and an update, whose arguments are covariances. -/
example : (Samples.params .all false).useRoot = false ∧
    (∀ k, k < 18 → 0 ≤ (Samples.params .all false).processNoise.get k) ∧ (∀ op ∈ Samples.ops, op.WF) ∧
    (∀ op ∈ Samples.ops, op.CovOK) ∧
    ∃ e, run Samples.prim (init Samples.prim (Samples.params .all false)) Samples.ops = .ok e ∧
      e.isGravityInitialized = true ∧ e.useRoot = false ∧ e.augType = .all := by
  have hcov : ∀ n m, (⟨n, n, (Samples.cov m).get⟩ : Mat ℚ).IsCov := fun n m =>
    IsCov.diag rfl (fun _ => 2) (fun _ _ => by norm_num) fun _ _ _ _ => rfl
  refine ⟨rfl, fun k _ => by simp [Samples.params], ?_, ?_, _, rfl, rfl, rfl, rfl⟩
  · intro op h; simp only [Samples.ops, List.mem_cons, List.not_mem_nil, or_false] at h
    rcases h with rfl | rfl | rfl | rfl | rfl | rfl | rfl | rfl | rfl | rfl | rfl | rfl <;> first | trivial | rfl
  · intro op h; simp only [Samples.ops, List.mem_cons, List.not_mem_nil, or_false] at h
    rcases h with rfl | rfl | rfl | rfl | rfl | rfl | rfl | rfl | rfl | rfl | rfl | rfl
    · exact ⟨hcov _ _, by simp [ImuState.noise, Samples.imu, ImuState.setIsExtrinsic, ImuState.setIsIntrinsic, ImuState.refreshSize, ImuState.default]⟩
    · exact ⟨hcov _ _, by simp [GpsState.noise, Samples.gps, GpsState.setIsExtrinsic, GpsState.default]⟩
    · exact ⟨hcov _ _, by simp [CamState.noise, Samples.cam, CamState.setIsExtrinsic, CamState.default]⟩
    · exact ⟨hcov _ _, by simp [FidState.noise, Samples.fid, FidState.setIsExtrinsic]⟩
    all_goals first
      | trivial
      | exact IsCov.diag (B := (⟨1, 1, fun _ _ => 1⟩ : Mat ℚ)) rfl (fun _ => 1) (fun _ _ => by norm_num) fun i j hi hj => by
          have : i = j := by dsimp only at hi hj; omega
          simp [this]
      | exact ⟨hcov _ _, by simp [ImuState.noise, Samples.imu, ImuState.setIsExtrinsic, ImuState.setIsIntrinsic, ImuState.refreshSize, ImuState.default]⟩

end EkfCal
