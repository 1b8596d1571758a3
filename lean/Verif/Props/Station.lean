import Verif.Lemmas.Station
import Verif.Spec.StationSamples
import Verif.Props.C01
import Verif.Props.C02
import Verif.Props.C08

/-!
# Histories of messages: C01, C02, C08 for a filter driven by its updaters
-/

namespace EkfCal
variable {K : Type} [Field K] [LinearOrder K]

/-- C01 for whole runs: whatever messages arrive in whatever order, sizes agree. -/
theorem C01_messages (N : Num K) (G : GpsNum K) (p : EkfParams K) (cs : List (Call K)) (hw : ∀ c ∈ cs, c.WF)
    (s : Station K) (h : Station.run N G (Station.init N p) cs = .ok s) :
    s.ekf.stateSize = s.ekf.cov.rows ∧ s.ekf.stateSize = s.ekf.cov.cols ∧
    s.ekf.stateSize = 18
      + (s.ekf.state.imus.map fun x => (if x.2.isExtrinsic then 6 else 0) + (if x.2.isIntrinsic then 6 else 0)).sum
      + (s.ekf.state.gpss.map fun x => if x.2.isExtrinsic then 3 else 0).sum
      + (s.ekf.state.cams.map fun x => if x.2.isExtrinsic then 6 else 0).sum
      + (s.ekf.state.fids.map fun x => if x.2.isExtrinsic then 6 else 0).sum
      + (s.ekf.state.augs.map fun x => 6 * x.2.length).sum := by
  obtain ⟨ops, h1, h2⟩ := Station.filter_reached hw h
  exact C01_sizes_agree N.toPrim p ops h2 s.ekf h1

/-- C02 for whole runs: the published index ranges tile the state. -/
theorem C02_messages (N : Num K) (G : GpsNum K) (p : EkfParams K) (cs : List (Call K)) (hw : ∀ c ∈ cs, c.WF)
    (s : Station K) (h : Station.run N G (Station.init N p) cs = .ok s) :
    Tiles s.ekf.state.blocks 0 s.ekf.stateSize ∧ s.ekf.state.MapsSorted := by
  obtain ⟨ops, h1, h2⟩ := Station.filter_reached hw h
  exact C02_indices_tile N.toPrim p ops h2 s.ekf h1

/-- C08 for whole runs in standard form: if messages carry covariances, the filter's covariance is symmetric positive
semidefinite after every event. -/
theorem C08_messages_psd [IsStrictOrderedRing K] (N : Num K) (G : GpsNum K) (p : EkfParams K) (hu : p.useRoot = false)
    (hn : ∀ k, k < 18 → 0 ≤ p.processNoise.get k) (cs : List (Call K)) (hw : ∀ c ∈ cs, c.WF)
    (hc : ∀ c ∈ cs, c.NoiseIsCov) (s : Station K) (h : Station.run N G (Station.init N p) cs = .ok s) :
    s.ekf.cov.IsCov ∧ ∀ i, 0 ≤ s.ekf.processNoise.get i i := by
  obtain ⟨ops, h1, h2⟩ := Station.run_ops (P := fun op => op.WF ∧ op.CovOK) (Q := Mat.IsCov)
    (fun _ => Ekf.Op.Inner.cov) (fun c h => Station.sends_cov (hw c h) (hc c h)) h
  exact C08_history_psd N.toPrim p hu hn ops (fun op h => (h2 op h).1) (fun op h => (h2 op h).2) s.ekf h1

/-- A run with every kind of sensor and message, its arguments admissible and its outcome defined. -/
example : (∀ c ∈ Samples.calls, c.WF) ∧ (∀ c ∈ Samples.calls, c.NoiseIsCov) ∧
    ∃ s, Station.run Samples.num Samples.gpsNum (Station.init Samples.num (Samples.params .all false)) Samples.calls
      = .ok s ∧ s.ekf.stateSize = 51 := by
  refine ⟨Samples.calls_wf, ?_, Samples.ok_of_check (by decide +kernel)⟩
  have hcov : ∀ n m, (⟨n, n, (Samples.cov m).get⟩ : Mat ℚ).IsCov := fun n m =>
    IsCov.diag rfl (fun _ => 2) (fun _ _ => by norm_num) fun _ _ _ _ => rfl
  have h1 : (M3.toMat (1 : M3 ℚ)).IsCov := by
    have := M3.isCov_diag (d := fun _ => (1 : ℚ)) (fun _ => zero_le_one)
    rwa [show (Matrix.diagonal fun _ => (1 : ℚ)) = (1 : M3 ℚ) from rfl] at this
  intro c h
  simp only [Samples.calls, List.mem_cons, List.not_mem_nil, or_false] at h
  rcases h with rfl | rfl | rfl | rfl | rfl | rfl | rfl | rfl | rfl | rfl | rfl | rfl | rfl | rfl | rfl | rfl | rfl
  · exact ⟨hcov _ _, by simp [ImuState.noise, Samples.imu, ImuState.setIsExtrinsic, ImuState.setIsIntrinsic, ImuState.refreshSize, ImuState.default]⟩
  · exact ⟨hcov _ _, by simp [GpsState.noise, Samples.gps, GpsState.setIsExtrinsic, GpsState.default]⟩
  · exact ⟨hcov _ _, by simp [CamState.noise, Samples.cam, CamState.setIsExtrinsic, CamState.default]⟩
  · exact ⟨hcov _ _, by simp [FidState.noise, Samples.fid, FidState.setIsExtrinsic]⟩
  all_goals first
    | trivial
    | exact ⟨h1, h1⟩
    | exact hcov 3 3
    | exact ⟨fun i => by fin_cases i <;> decide, fun i => by fin_cases i <;> decide⟩

end EkfCal
