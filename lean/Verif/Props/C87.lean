import Verif.Lemmas.Kept
import Verif.Lemmas.Station
import Verif.Lemmas.Frame
import Verif.Spec.Samples
import Verif.Spec.StationSamples

/-!
# C87 — what is not calibrated stays as configured
-/

set_option linter.unusedSectionVars false

namespace EkfCal
open Ekf
variable {K : Type} [Field K] [LinearOrder K]

/-- Through any sequence of calls: every sensor stays, with its flags and drifts, and what is not calibrated keeps its value. -/
theorem C87_calls (N : Prim K) (e e' : Ekf K) (ops : List (Op K)) (h : run N e ops = .ok e') : e.state.Keeps e'.state :=
  run_induct (P := fun _ => True) (R := fun e e' => e.state.Keeps e'.state) (fun _ => (State.Still.refl _).keeps)
    (fun _ _ _ => State.Keeps.trans) (fun _ _ _ _ h => keeps_step h) (fun _ _ => trivial) h

/-- Through any history of messages and calls. -/
theorem C87_messages (N : Num K) (G : GpsNum K) (s s' : Station K) (cs : List (Call K)) (h : s.run N G cs = .ok s') :
    s.ekf.state.Keeps s'.ekf.state := by
  obtain ⟨ops, hops⟩ := Station.filter_moves h
  exact C87_calls N.toPrim _ _ ops hops

/-- Calibrated values move in measurement updates only. -/
theorem C87_between (N : Prim K) (e e' : Ekf K) (ops : List (Op K)) (ho : ∀ op ∈ ops, ¬ op.IsUpdate) (h : run N e ops = .ok e') :
    e.state.Still e'.state :=
  run_induct (P := fun op => ¬ op.IsUpdate) (R := fun e e' => e.state.Still e'.state) (fun _ => State.Still.refl _)
    (fun _ _ _ => State.Still.trans) (fun _ _ _ ho h => still_step ho h) ho h

/-- From registration on: an IMU the filter does not know yet is stored as configured and keeps what is not calibrated for ever. -/
theorem C87_imu (N : Num K) (G : GpsNum K) (s s' : Station K) (id : Nat) (x : ImuState K) (c : Mat K) (cs : List (Call K))
    (hk : s.ekf.state.imus.find? id = none) (h : s.run N G (.filter (.registerIMU id x c) :: cs) = .ok s') :
    ∃ y, s'.ekf.state.imus.find? id = some y ∧ x.Keeps y := by
  simp only [Station.run, Station.step, step, bind_ok_iff, pure_res, Except.ok.injEq] at h
  obtain ⟨_, ⟨e1, h1, rfl⟩, h2⟩ := h
  obtain ⟨hk', rfl⟩ | ⟨_, _, _, h1⟩ := registerIMU_form h1
  · rw [hk] at hk'; cases hk'
  · have k1 := (still_refresh h1).keeps.1 id x (UMap.find?_insert_self ..)
    obtain ⟨y, hy, r1⟩ := k1
    obtain ⟨z, hz, r2⟩ := (C87_messages N G _ _ cs h2).1 id y hy
    exact ⟨z, hz, ImuState.Keeps.trans _ _ _ r1 r2⟩

theorem C87_gps (N : Num K) (G : GpsNum K) (s s' : Station K) (id : Nat) (x : GpsState K) (c : Mat K) (cs : List (Call K))
    (hk : s.ekf.state.gpss.find? id = none) (h : s.run N G (.filter (.registerGPS id x c) :: cs) = .ok s') :
    ∃ y, s'.ekf.state.gpss.find? id = some y ∧ x.Keeps y := by
  simp only [Station.run, Station.step, step, bind_ok_iff, pure_res, Except.ok.injEq] at h
  obtain ⟨_, ⟨e1, h1, rfl⟩, h2⟩ := h
  obtain ⟨hk', rfl⟩ | ⟨_, _, _, h1⟩ := registerGPS_form h1
  · rw [hk] at hk'; cases hk'
  · obtain ⟨y, hy, r1⟩ := (still_refresh h1).keeps.2 id x (UMap.find?_insert_self ..)
    obtain ⟨z, hz, r2⟩ := (C87_messages N G _ _ cs h2).2 id y hy
    exact ⟨z, hz, GpsState.Keeps.trans _ _ _ r1 r2⟩

theorem C87_camera (N : Num K) (G : GpsNum K) (s s' : Station K) (id : Nat) (x : CamState K) (c : Mat K) (cs : List (Call K))
    (hk : s.ekf.state.cams.find? id = none) (h : s.run N G (.filter (.registerCamera id x c) :: cs) = .ok s') :
    ∃ y, s'.ekf.state.cams.find? id = some y ∧ x.Keeps y := by
  simp only [Station.run, Station.step, step, bind_ok_iff, pure_res, Except.ok.injEq] at h
  obtain ⟨_, ⟨e1, h1, rfl⟩, h2⟩ := h
  obtain ⟨hk', rfl⟩ | ⟨_, _, _, _, h1⟩ := registerCamera_form h1
  · rw [hk] at hk'; cases hk'
  · obtain ⟨y, hy, r1⟩ := (still_refresh h1).keeps.3 id x (UMap.find?_insert_self ..)
    obtain ⟨z, hz, r2⟩ := (C87_messages N G _ _ cs h2).3 id y hy
    exact ⟨z, hz, CamState.Keeps.trans _ _ _ r1 r2⟩

theorem C87_board (N : Num K) (G : GpsNum K) (s s' : Station K) (x : FidState K) (c : Mat K) (cs : List (Call K))
    (hk : s.ekf.state.fids.find? x.id = none) (h : s.run N G (.filter (.registerFiducial x c) :: cs) = .ok s') :
    ∃ y, s'.ekf.state.fids.find? x.id = some y ∧ x.Keeps y := by
  simp only [Station.run, Station.step, step, bind_ok_iff, pure_res, Except.ok.injEq] at h
  obtain ⟨_, ⟨e1, h1, rfl⟩, h2⟩ := h
  obtain ⟨hk', rfl⟩ | ⟨_, _, _, h1⟩ := registerFiducial_form h1
  · rw [hk] at hk'; cases hk'
  · obtain ⟨y, hy, r1⟩ := (still_refresh h1).keeps.4 x.id x (UMap.find?_insert_self ..)
    obtain ⟨z, hz, r2⟩ := (C87_messages N G _ _ cs h2).4 x.id y hy
    exact ⟨z, hz, FidState.Keeps.trans _ _ _ r1 r2⟩

/-- An IMU whose biases alone are calibrated, mounted off the centre. -/
def C87_sample : ImuState ℚ := { Samples.imu false true with pos := ![1, 2, 3] }

/-- Example: an unknown IMU is registered and its message moves the bias; the mounting is the configured one. -/
example : (Station.init Samples.num (Samples.params .none false)).ekf.state.imus.find? 1 = none ∧
    ∃ s, (Station.init Samples.num (Samples.params .none false)).run Samples.num Samples.gpsNum
      [.filter (.registerIMU 1 C87_sample (Samples.cov 6)), .newImu 5 1 false true,
        .imu 5 11 ![1, 0, 9] 1 ![0, 1, 0] 1] = .ok s ∧
      (s.ekf.state.imus.find? 1).map (fun x => decide (x.accBias 0 = 0)) = some false ∧
      (s.ekf.state.imus.find? 1).map (fun x => x.pos 1) = some 2 := by
  refine ⟨rfl, ?_⟩
  exact Samples.ok_of_check
    (P := fun s : Station ℚ => (s.ekf.state.imus.find? 1).map (fun x => decide (x.accBias 0 = 0)) = some false ∧
      (s.ekf.state.imus.find? 1).map (fun x => x.pos 1) = some 2) (by decide +kernel)

/-- Example for `C87_calls` and `C87_between`: the calls of the sample contain updates and other calls. -/
example : (∃ op ∈ Samples.ops, op.IsUpdate) ∧ (∃ op ∈ Samples.ops, ¬ op.IsUpdate) ∧
    ∃ e, run Samples.prim (init Samples.prim (Samples.params .all false)) Samples.ops = .ok e ∧ e.stateSize = 63 := by
  refine ⟨?_, ⟨_, List.mem_cons_self .., id⟩, ?_⟩
  · simp [Samples.ops, Op.IsUpdate]
  · exact Samples.ok_of_check (P := fun e : Ekf ℚ => e.stateSize = 63) (by decide +kernel)

end EkfCal
