import Verif.Lemmas.Inv
import Verif.Spec.Samples

/-!
# C01 — state size, covariance size and registered components always agree
-/

namespace EkfCal
open Ekf
variable {K : Type} [Field K] [LinearOrder K]

/-- After any history of calls that is defined, the reported size, the covariance's rows and columns and the number of
estimated quantities of the registered components and stored clones are the same number. -/
theorem C01_sizes_agree (N : Prim K) (p : EkfParams K) (ops : List (Op K)) (hw : ∀ op ∈ ops, op.WF) (e : Ekf K)
    (h : run N (init N p) ops = .ok e) :
    e.stateSize = e.cov.rows ∧ e.stateSize = e.cov.cols ∧
    e.stateSize = 18
      + (e.state.imus.map fun x => (if x.2.isExtrinsic then 6 else 0) + (if x.2.isIntrinsic then 6 else 0)).sum
      + (e.state.gpss.map fun x => if x.2.isExtrinsic then 3 else 0).sum
      + (e.state.cams.map fun x => if x.2.isExtrinsic then 6 else 0).sum
      + (e.state.fids.map fun x => if x.2.isExtrinsic then 6 else 0).sum
      + (e.state.augs.map fun x => 6 * x.2.length).sum := by
  have hi := inv_run (inv_init N p) hw h
  exact ⟨hi.covRows.symm, hi.covCols.symm, hi.size⟩

/-- The process noise matrix used by predictions has the same size, and the per-kind counters are right. -/
theorem C01_counters_agree (N : Prim K) (p : EkfParams K) (ops : List (Op K)) (hw : ∀ op ∈ ops, op.WF) (e : Ekf K)
    (h : run N (init N p) ops = .ok e) :
    e.processNoise.rows = e.stateSize ∧ e.processNoise.cols = e.stateSize ∧
    e.stateSize = 18 + e.imuStateSize + e.gpsStateSize + e.camStateSize + e.fidStateSize + e.augStateSize := by
  have hi := inv_run (inv_init N p) hw h
  refine ⟨hi.noiseRows, hi.noiseCols, ?_⟩
  rw [hi.imu, hi.gps, hi.cam, hi.fid, hi.aug]
  exact hi.size

/-- A defined history with every kind of sensor, clones, an unknown id and an update. -/
example : (∀ op ∈ Samples.ops, op.WF) ∧
    ∃ e, run Samples.prim (init Samples.prim (Samples.params .all false)) Samples.ops = .ok e ∧ e.stateSize = 63 := by
  refine ⟨by intro op h; simp only [Samples.ops, List.mem_cons, List.not_mem_nil, or_false] at h
             rcases h with rfl | rfl | rfl | rfl | rfl | rfl | rfl | rfl | rfl | rfl | rfl | rfl <;>
             first | trivial | rfl, _, rfl, rfl⟩

end EkfCal
