import Verif.Lemmas.Unit
import Verif.Lemmas.Station
import Verif.Lemmas.Rotation
import Verif.Lemmas.RealPrim
import Verif.Spec.Correct
import Verif.Spec.StationSamples
import Mathlib.Tactic.FieldSimp

/-!
# C21 — a correction moves exactly what is estimated, by the slice at the published index
-/

namespace EkfCal
open Ekf
variable {K : Type} [Field K] [LinearOrder K]

/-- In every filter reached by calls, a vector of at least `GetStateSize()` entries is applied without reading outside
it, and the result is the specified one (`State.moved`). -/
theorem C21_exact (N : Prim K) (p : EkfParams K) (ops : List (Op K)) (hw : ∀ op ∈ ops, op.WF) (e : Ekf K)
    (h : run N (init N p) ops = .ok e) (v : Vec K) (hv : e.stateSize ≤ v.size) :
    e.state.addVec N v = .ok (e.state.moved N v) :=
  State.addVec_moved N v e.state _ (inv_run (inv_init N p) hw h).tiles hv

/-- The same for whole runs with messages. -/
theorem C21_messages (N : Num K) (G : GpsNum K) (p : EkfParams K) (cs : List (Call K)) (hw : ∀ c ∈ cs, c.WF)
    (s : Station K) (h : Station.run N G (Station.init N p) cs = .ok s) (v : Vec K) (hv : s.ekf.stateSize ≤ v.size) :
    s.ekf.state.addVec N.toPrim v = .ok (s.ekf.state.moved N.toPrim v) := by
  obtain ⟨ops, h1, h2⟩ := Station.filter_reached hw h
  exact C21_exact N.toPrim p ops h2 s.ekf h1 v hv

/-- What a measurement update does to the estimate is such a correction, of `GetStateSize()` entries; indices and sizes
stay. -/
theorem C21_update (N : Prim K) (p : EkfParams K) (ops : List (Op K)) (hw : ∀ op ∈ ops, op.WF) (e : Ekf K)
    (h : run N (init N p) ops = .ok e) (H : Mat K) (r : Vec K) (R : Mat K) (e' : Ekf K)
    (hk : e.kalmanUpdate N H r R = .ok e') :
    ∃ v : Vec K, v.size = e.stateSize ∧ e'.state = e.state.moved N v ∧ e'.stateSize = e.stateSize := by
  have hi := inv_run (inv_init N p) hw h
  obtain ⟨s, c, v, rfl, h1, h2⟩ := kalmanUpdate_form' hk
  rw [hi.covRows] at h2
  rw [C21_exact N p ops hw e h v h2.ge] at h1
  cases h1
  exact ⟨v, h2, rfl, rfl⟩

/-- Unestimated quantities: an uncalibrated sensor keeps all its numbers, a calibrated one keeps its index. -/
theorem C21_unestimated (N : Prim K) (v : Vec K) :
    (∀ s : ImuState K, s.isExtrinsic = false → s.isIntrinsic = false → s.moved N v = s) ∧
    (∀ s : ImuState K, s.isExtrinsic = false → (s.moved N v).pos = s.pos ∧ (s.moved N v).ang = s.ang) ∧
    (∀ s : ImuState K, s.isIntrinsic = false → (s.moved N v).accBias = s.accBias ∧ (s.moved N v).omgBias = s.omgBias) ∧
    (∀ s : GpsState K, s.isExtrinsic = false → s.moved v = s) ∧
    (∀ s : CamState K, s.isExtrinsic = false → s.moved N v = s) ∧
    (∀ s : FidState K, s.isExtrinsic = false → s.moved N v = s) := by
  refine ⟨?_, ?_, ?_, ?_, ?_, ?_⟩ <;> intro s <;> rcases s <;> intros <;>
    simp_all [ImuState.moved, GpsState.moved, CamState.moved, FidState.moved]

/-- One correction keeps unit orientations unit. -/
theorem C21_unit (N : Prim K) (hN : N.UnitLaw) (s s' : State K) (v : Vec K) (hs : s.AllAng Quat.IsUnit)
    (h : s.addVec N v = .ok s') : s'.AllAng Quat.IsUnit :=
  allAng_addVec (unit_closed hN) h hs

/-- If callers supply unit orientations, every orientation in the filter is a unit quaternion after any history. -/
theorem C21_unit_history (N : Prim K) (hN : N.UnitLaw) (p : EkfParams K) (ops : List (Op K))
    (ho : ∀ op ∈ ops, op.AngOK Quat.IsUnit) (e : Ekf K) (h : run N (init N p) ops = .ok e) :
    e.state.AllAng Quat.IsUnit :=
  allAng_run (unit_closed hN) (allAng_init (unit_closed hN) p) ho h

/-- The same for whole runs with messages. -/
theorem C21_unit_messages (N : Num K) (G : GpsNum K) (hN : N.toPrim.UnitLaw) (p : EkfParams K) (cs : List (Call K))
    (ho : ∀ c ∈ cs, ∀ op, c = .filter op → op.AngOK Quat.IsUnit) (s : Station K)
    (h : Station.run N G (Station.init N p) cs = .ok s) : s.ekf.state.AllAng Quat.IsUnit := by
  obtain ⟨ops, h1, h2⟩ := Station.run_ops (P := Op.AngOK Quat.IsUnit) (Q := fun _ => True)
    (fun op h => by cases op <;> first | exact trivial | exact h.elim)
    (fun c hc => by cases c <;> first | exact ho _ hc _ rfl | simp [Call.Sends]) h
  exact C21_unit_history N.toPrim hN p ops h2 s.ekf h1

/-- The code's conversion meets the contract. -/
theorem C21_real_unit : realPrim.UnitLaw := rotVecToQuat_unit

/-- A rational conversion that meets the contract: the square of `1 + v`, normalised. -/
def C21_rot (v : V3 ℚ) : Quat ℚ :=
  let n := v 0 * v 0 + v 1 * v 1 + v 2 * v 2
  ⟨(1 - n) / (1 + n), 2 * v 0 / (1 + n), 2 * v 1 / (1 + n), 2 * v 2 / (1 + n)⟩

/-- Numerics with that conversion. -/
def C21_prim : Prim ℚ := { Samples.prim with rotVecToQuat := C21_rot }

theorem C21_prim_unit : C21_prim.UnitLaw := by
  intro v
  show (C21_rot v).normSq = 1
  have : 1 + (v 0 * v 0 + v 1 * v 1 + v 2 * v 2) ≠ 0 := by nlinarith [mul_self_nonneg (v 0), mul_self_nonneg (v 1), mul_self_nonneg (v 2)]
  simp only [C21_rot, Quat.normSq]
  field_simp
  ring

/-- A history with calibrated sensors, clones and an update: hypotheses hold, and a correction moves the camera. -/
example : (∀ op ∈ Samples.ops, op.WF) ∧ (∀ op ∈ Samples.ops, op.AngOK Quat.IsUnit) ∧
    ∃ e, run C21_prim (init C21_prim (Samples.params .all false)) Samples.ops = .ok e ∧ e.stateSize = 63 ∧
      ∃ s, e.state.addVec C21_prim ⟨63, fun i => i⟩ = .ok s ∧
        (s.cams.getD 1 CamState.default).pos 0 - (e.state.cams.getD 1 CamState.default).pos 0 = 39 := by
  have h1 : ∀ op ∈ Samples.ops, op.WF := by
    intro op h
    simp only [Samples.ops, List.mem_cons, List.not_mem_nil, or_false] at h
    rcases h with rfl | rfl | rfl | rfl | rfl | rfl | rfl | rfl | rfl | rfl | rfl | rfl <;> first | trivial | rfl
  have h2 : ∀ op ∈ Samples.ops, op.AngOK Quat.IsUnit := by
    have hq : (Quat.one : Quat ℚ).IsUnit := by simp [Quat.IsUnit, Quat.normSq, Quat.one]
    intro op h
    simp only [Samples.ops, List.mem_cons, List.not_mem_nil, or_false] at h
    rcases h with rfl | rfl | rfl | rfl | rfl | rfl | rfl | rfl | rfl | rfl | rfl | rfl <;> first | trivial | exact hq
  refine ⟨h1, h2, ?_⟩
  let c : Res (Ekf ℚ × State ℚ) := do
    let e ← run C21_prim (init C21_prim (Samples.params .all false)) Samples.ops
    let s ← e.state.addVec C21_prim ⟨63, fun i => i⟩
    pure (e, s)
  obtain ⟨⟨e, s⟩, hc, h3, h4⟩ := Samples.ok_of_check (r := c)
    (P := fun x => x.1.stateSize = 63 ∧
      (x.2.cams.getD 1 CamState.default).pos 0 - (x.1.state.cams.getD 1 CamState.default).pos 0 = 39) (by decide +kernel)
  simp only [c, bind_ok_iff, pure_res, Except.ok.injEq, Prod.mk.injEq] at hc
  obtain ⟨e', he, s', hs, rfl, rfl⟩ := hc
  exact ⟨e', he, h3, s', hs, h4⟩

end EkfCal
