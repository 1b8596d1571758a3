import Verif.Lemmas.Station
import Verif.Spec.StationSamples

/-!
# C44 — first-estimate Jacobians freeze the linearisation point
-/

set_option linter.unusedSectionVars false

namespace EkfCal
open Ekf
variable {K : Type} [Field K] [LinearOrder K]

/-- Antenna position estimated by the filter. -/
def Ekf.antenna (e : Ekf K) (id : Nat) : V3 K := (e.state.gpss.getD id GpsState.default).pos
/-- Camera pose estimated by the filter. -/
def Ekf.cameraPose (e : Ekf K) (id : Nat) : V3 K × Quat K :=
  ((e.state.cams.getD id CamState.default).pos, (e.state.cams.getD id CamState.default).ang)
/-- Pose of a registered fiducial estimated by the filter. -/
def Ekf.fiducialPose (e : Ekf K) (id : Nat) : Option (V3 K × Quat K) := (e.state.fids.find? id).map fun f => (f.pos, f.ang)

/-- The filter at the moment a message stamped `time` is used: clock advanced, state predicted. -/
def Ekf.AtMessage (N : Num K) (e : Ekf K) (time : K) (e1 : Ekf K) : Prop :=
  (e.calculateLocalTime time).2.predict N.toPrim (e.calculateLocalTime time).1 = .ok e1

theorem getD_getGps (e : Ekf K) (id : Nat) : (e.getGpsState id).2.antenna id = e.antenna id := by
  simp only [antenna, getGpsState, UMap.getD]
  cases h : e.state.gpss.find? id with
  | none => simp [UMap.touch, h, UMap.find?_insert_self]
  | some s => simp [UMap.touch, h]

theorem getD_getCam (e : Ekf K) (id : Nat) : (e.getCamState id).2.cameraPose id = e.cameraPose id := by
  simp only [cameraPose, getCamState, UMap.getD]
  cases h : e.state.cams.find? id with
  | none => simp [UMap.touch, h, UMap.find?_insert_self]
  | some s => simp [UMap.touch, h]

theorem atMessage_config {N : Num K} {e e1 : Ekf K} {t : K} (h : e.AtMessage N t e1) :
    e1.useFirstEstimate = e.useFirstEstimate ∧ e1.isLlaInitialized = e.isLlaInitialized := by
  have h0 : (e.calculateLocalTime t).2.useFirstEstimate = e.useFirstEstimate ∧
      (e.calculateLocalTime t).2.isLlaInitialized = e.isLlaInitialized := by
    unfold calculateLocalTime; split <;> exact ⟨rfl, rfl⟩
  have hf : StepFrame _ (.predict _) e1 := step_frame (op := .predict _) h
  unfold StepFrame at hf
  dsimp only at hf
  split at hf
  · rw [hf]; exact h0
  · exact ⟨hf.useFirstEstimate.trans h0.1, hf.lla.trans h0.2⟩

theorem station_config {N : Num K} {G : GpsNum K} {a b : Station K} {c : Call K} (h : a.step N G c = .ok b) :
    SameConfig a.ekf b.ekf := by
  obtain ⟨ops, hops⟩ := Station.filter_moves (N := N) (G := G) (cs := [c]) (s := a) (s' := b)
    (by simp only [Station.run, h, ok_bind])
  exact run_induct (N := N.toPrim) (P := fun _ => True) (R := SameConfig) SameConfig.refl
    (fun _ _ _ => SameConfig.trans) (fun _ _ _ _ h => step_config h) (fun _ _ => trivial) hops

/-! ### GPS -/

/-- First use, or first-estimate Jacobians disabled: the antenna position used is the current estimate, both in the
Jacobian and in the predicted measurement. -/
theorem C44_gps_current (N : Num K) (G : GpsNum K) (u : GpsUpdater K) (e : Ekf K) (time : K) (lla : V3 K) (cov : Mat K)
    (r : GpsUpdater K × Ekf K) (h : u.update N G e time lla cov = .ok r) (hl : e.isLlaInitialized = true)
    (hc : u.isFirst = true ∨ e.useFirstEstimate = false) :
    ∃ e1 jac enu, e.AtMessage N time e1 ∧
      (⟨u.id, u.isExtrinsic, false, e1.antenna u.id⟩ : GpsUpdater K).jacobianOf N (e1.getGpsState u.id).2 = .ok jac ∧
      G.llaToEnu lla e1.posEInG = .ok enu ∧
      (e1.getGpsState u.id).2.kalmanUpdate N.toPrim jac (Vec.of3 (G.enuToLocal enu e1.angLToE -
        (e1.state.body.pos + e1.state.body.ang.rotate (e1.antenna u.id)))) cov = .ok r.2 ∧
      r.1 = ⟨u.id, u.isExtrinsic, false, e1.antenna u.id⟩ := by
  obtain ⟨e1, h1, h⟩ := GpsUpdater.update_form h
  have hcfg := atMessage_config h1
  rcases h with ⟨hl', _⟩ | ⟨_, e2, enu, jac, rfl, henu, hr, hj, hk⟩
  · rw [hcfg.2, hl] at hl'; cases hl'
  · have hr' : r.1 = ⟨u.id, u.isExtrinsic, false, e1.antenna u.id⟩ := by
      rw [hr, GpsUpdater.refresh, if_pos]
      · show (⟨u.id, u.isExtrinsic, false, (e1.getGpsState u.id).2.antenna u.id⟩ : GpsUpdater K) = _
        rw [getD_getGps]
      · rcases hc with h | h
        · exact .inr h
        · exact .inl (hcfg.1.trans h)
    rw [hr'] at hj hk
    exact ⟨e1, jac, enu, h1, hj, henu, hk, hr'⟩

/-- Enabled and used before: the Jacobian is evaluated at the stored antenna position. -/
theorem C44_gps_frozen_partial (N : Num K) (G : GpsNum K) (u : GpsUpdater K) (e : Ekf K) (time : K) (lla : V3 K) (cov : Mat K)
    (r : GpsUpdater K × Ekf K) (h : u.update N G e time lla cov = .ok r) (hl : e.isLlaInitialized = true)
    (hc : u.isFirst = false) (hf : e.useFirstEstimate = true) :
    ∃ e1 jac resid, e.AtMessage N time e1 ∧ u.jacobianOf N (e1.getGpsState u.id).2 = .ok jac ∧
      (e1.getGpsState u.id).2.kalmanUpdate N.toPrim jac resid cov = .ok r.2 ∧ r.1 = u := by
  obtain ⟨e1, h1, h⟩ := GpsUpdater.update_form h
  have hcfg := atMessage_config h1
  rcases h with ⟨hl', _⟩ | ⟨_, e2, enu, jac, rfl, henu, hr, hj, hk⟩
  · rw [hcfg.2, hl] at hl'; cases hl'
  · have hr' : r.1 = u := by
      rw [hr, GpsUpdater.refresh, if_neg]
      rintro (h | h)
      · have : (e1.getGpsState u.id).2.useFirstEstimate = e.useFirstEstimate := hcfg.1
        rw [this, hf] at h; cases h
      · rw [hc] at h; cases h
    rw [hr'] at hj hk
    exact ⟨e1, jac, _, h1, hj, hk, hr'⟩

theorem GpsUpdater.update_keeps {N : Num K} {G : GpsNum K} {u : GpsUpdater K} {e : Ekf K} {time : K} {lla : V3 K}
    {cov : Mat K} {r : GpsUpdater K × Ekf K} (h : u.update N G e time lla cov = .ok r) (hc : u.isFirst = false)
    (hf : e.useFirstEstimate = true) : r.1 = u := by
  have key : ∀ e' : Ekf K, e'.useFirstEstimate = true → u.refresh e' = u := by
    intro e' he'
    rw [GpsUpdater.refresh, if_neg]
    rintro (h | h)
    · rw [he'] at h; cases h
    · rw [hc] at h; cases h
  obtain ⟨e1, h1, h⟩ := GpsUpdater.update_form h
  have hcfg := atMessage_config h1
  rcases h with ⟨_, x, e2, _, h2, ⟨_, h3⟩ | ⟨_, rfl⟩⟩ | ⟨_, e2, enu, jac, rfl, henu, hr, hj, hk⟩
  · rw [GpsUpdater.multiUpdate_updater h3]
    split
    · rfl
    · refine key _ ?_
      obtain ⟨_, _, _, _, rfl⟩ := attemptGpsInit_form h2
      exact hcfg.1.trans hf
  · rfl
  · rw [hr]; exact key _ (hcfg.1.trans hf)

/-- Whatever happens afterwards, an updater that has been used keeps its linearisation point for ever. -/
theorem C44_gps_forever (N : Num K) (G : GpsNum K) (s s' : Station K) (cs : List (Call K)) (k : Nat) (u : GpsUpdater K)
    (hf : s.ekf.useFirstEstimate = true) (hu : s.gpss.find? k = some u) (hc : u.isFirst = false)
    (h : s.run N G cs = .ok s') : s'.gpss.find? k = some u ∧ s'.ekf.useFirstEstimate = true := by
  refine Station.run_induct (N := N) (G := G)
    (R := fun a b => a.gpss.find? k = some u ∧ a.ekf.useFirstEstimate = true →
      b.gpss.find? k = some u ∧ b.ekf.useFirstEstimate = true)
    (fun _ => id) (fun _ _ _ g h => h ∘ g) ?_ h ⟨hu, hf⟩
  rintro a b c hs ⟨hv, hfa⟩
  refine ⟨?_, ?_⟩
  · rcases Station.step_gps hs hv with h1 | ⟨t, x, v, r, rfl, h1, h2, _⟩
    · exact h1
    · rw [GpsUpdater.update_keeps h1 hc hfa] at h2; exact h2
  · exact (station_config hs).useFirstEstimate.trans hfa

/-! ### Fiducials -/

theorem C44_fid_current (N : Num K) (u : FidUpdater K) (e : Ekf K) (time : K) (d : BoardDetection K)
    (r : FidUpdater K × Ekf K) (h : u.update N e time d = .ok r) (hc : u.isFirst = true ∨ e.useFirstEstimate = false) :
    ∃ e1 e2 f jac resid noise, e.AtMessage N time e1 ∧ e2 = (e1.getCamState u.cameraId).2 ∧
      e2.state.fids.find? u.id = some f ∧ r.1.jacobianOf N e2 f = .ok jac ∧
      e2.kalmanUpdate N.toPrim jac resid noise = .ok r.2 ∧ r.1.isFirst = false ∧
      (r.1.posC, r.1.angC) = e1.cameraPose u.cameraId ∧ some (r.1.posF, r.1.angF) = e1.fiducialPose u.id := by
  obtain ⟨e1, e2, f, jac, noise, h1, rfl, hf, hr, hj, _, hk⟩ := FidUpdater.update_form h
  have hcfg := atMessage_config h1
  have hr' : r.1 = { u with posC := ((e1.getCamState u.cameraId).2.cameraPose u.cameraId).1
                            angC := ((e1.getCamState u.cameraId).2.cameraPose u.cameraId).2
                            posF := f.pos, angF := f.ang, isFirst := false } := by
    rw [hr, FidUpdater.refresh, if_pos]
    · rfl
    · rcases hc with h | h
      · exact .inr h
      · exact .inl (hcfg.1.trans h)
  refine ⟨e1, _, f, jac, _, noise, h1, rfl, hf, hj, hk, ?_, ?_, ?_⟩
  · rw [hr']
  · rw [hr', getD_getCam]
  · rw [hr']
    show _ = (e1.state.fids.find? u.id).map _
    have hf' : e1.state.fids.find? u.id = some f := hf
    rw [hf']; rfl

theorem FidUpdater.update_keeps {N : Num K} {u : FidUpdater K} {e : Ekf K} {time : K} {d : BoardDetection K}
    {r : FidUpdater K × Ekf K} (h : u.update N e time d = .ok r) (hc : u.isFirst = false)
    (hf : e.useFirstEstimate = true) : r.1 = u := by
  obtain ⟨e1, e2, f, jac, noise, h1, rfl, _, hr, _⟩ := FidUpdater.update_form h
  have hcfg := atMessage_config h1
  rw [hr, FidUpdater.refresh, if_neg]
  rintro (h | h)
  · have : (e1.getCamState u.cameraId).2.useFirstEstimate = e.useFirstEstimate := hcfg.1
    rw [this, hf] at h; cases h
  · rw [hc] at h; cases h

/-- Enabled and used before: the Jacobian is evaluated at the stored camera and fiducial poses. -/
theorem C44_fid_frozen_partial (N : Num K) (u : FidUpdater K) (e : Ekf K) (time : K) (d : BoardDetection K)
    (r : FidUpdater K × Ekf K) (h : u.update N e time d = .ok r) (hc : u.isFirst = false)
    (hf : e.useFirstEstimate = true) :
    ∃ e1 e2 f jac resid noise, e.AtMessage N time e1 ∧ e2 = (e1.getCamState u.cameraId).2 ∧
      e2.state.fids.find? u.id = some f ∧ u.jacobianOf N e2 f = .ok jac ∧
      e2.kalmanUpdate N.toPrim jac resid noise = .ok r.2 ∧ r.1 = u := by
  have hr := FidUpdater.update_keeps h hc hf
  obtain ⟨e1, e2, f, jac, noise, h1, he2, hf', _, hj, _, hk⟩ := FidUpdater.update_form h
  rw [hr] at hj hk
  exact ⟨e1, e2, f, jac, _, noise, h1, he2, hf', hj, hk, hr⟩

theorem C44_fid_forever (N : Num K) (G : GpsNum K) (s s' : Station K) (cs : List (Call K)) (k : Nat) (u : FidUpdater K)
    (hf : s.ekf.useFirstEstimate = true) (hu : s.fids.find? k = some u) (hc : u.isFirst = false)
    (h : s.run N G cs = .ok s') : s'.fids.find? k = some u ∧ s'.ekf.useFirstEstimate = true := by
  refine Station.run_induct (N := N) (G := G)
    (R := fun a b => a.fids.find? k = some u ∧ a.ekf.useFirstEstimate = true →
      b.fids.find? k = some u ∧ b.ekf.useFirstEstimate = true)
    (fun _ => id) (fun _ _ _ g h => h ∘ g) ?_ h ⟨hu, hf⟩
  rintro a b c hs ⟨hv, hfa⟩
  refine ⟨?_, ?_⟩
  · rcases Station.step_fid hs hv with h1 | ⟨t, x, r, rfl, h1, h2, _⟩
    · exact h1
    · rw [FidUpdater.update_keeps h1 hc hfa] at h2; exact h2
  · exact (station_config hs).useFirstEstimate.trans hfa

/-! ### Cameras -/

theorem C44_cam_current (N : Num K) (u : MsckfUpdater K) (e : Ekf K) (time : K) (intr : Intrinsics K)
    (fs : List (FeatureTrack K)) (px : K) (r : MsckfUpdater K × Ekf K) (h : u.update N e time intr fs px = .ok r)
    (hfs : fs ≠ []) (hc : u.isFirst = true ∨ e.useFirstEstimate = false) :
    ∃ e1, e.AtMessage N time e1 ∧ r.1.process N (e1.getCamState u.id).2 fs px = .ok r.2 ∧ r.1.isFirst = false ∧
      (r.1.posC, r.1.angC) = e1.cameraPose u.id ∧ r.1.intr = intr := by
  obtain ⟨e1, h1, ⟨hn, _⟩ | ⟨_, e2, rfl, hr, hp⟩⟩ := MsckfUpdater.update_form h
  · exact absurd hn hfs
  · have hcfg := atMessage_config h1
    have hr' : r.1 = { u with intr := intr, posC := ((e1.getCamState u.id).2.cameraPose u.id).1
                              angC := ((e1.getCamState u.id).2.cameraPose u.id).2, isFirst := false } := by
      rw [hr, MsckfUpdater.refresh, if_pos]
      · rfl
      · rcases hc with h | h
        · exact .inr h
        · exact .inl (hcfg.1.trans h)
    refine ⟨e1, h1, hp, ?_, ?_, ?_⟩
    · rw [hr']
    · rw [hr', getD_getCam]
    · rw [hr']

theorem MsckfUpdater.update_keeps {N : Num K} {u : MsckfUpdater K} {e : Ekf K} {time : K} {intr : Intrinsics K}
    {fs : List (FeatureTrack K)} {px : K} {r : MsckfUpdater K × Ekf K} (h : u.update N e time intr fs px = .ok r)
    (hc : u.isFirst = false) (hf : e.useFirstEstimate = true) : r.1 = u := by
  obtain ⟨e1, h1, ⟨_, rfl⟩ | ⟨_, e2, rfl, hr, hp⟩⟩ := MsckfUpdater.update_form h
  · rfl
  · have hcfg := atMessage_config h1
    rw [hr, MsckfUpdater.refresh, if_neg]
    rintro (h | h)
    · have : (e1.getCamState u.id).2.useFirstEstimate = e.useFirstEstimate := hcfg.1
      rw [this, hf] at h; cases h
    · rw [hc] at h; cases h

/-- Enabled and used before: the tracks are processed with the stored camera pose and intrinsics. -/
theorem C44_cam_frozen_partial (N : Num K) (u : MsckfUpdater K) (e : Ekf K) (time : K) (intr : Intrinsics K)
    (fs : List (FeatureTrack K)) (px : K) (r : MsckfUpdater K × Ekf K) (h : u.update N e time intr fs px = .ok r)
    (hfs : fs ≠ []) (hc : u.isFirst = false) (hf : e.useFirstEstimate = true) :
    ∃ e1, e.AtMessage N time e1 ∧ u.process N (e1.getCamState u.id).2 fs px = .ok r.2 ∧ r.1 = u := by
  have hr := MsckfUpdater.update_keeps h hc hf
  obtain ⟨e1, h1, ⟨hn, _⟩ | ⟨_, e2, rfl, _, hp⟩⟩ := MsckfUpdater.update_form h
  · exact absurd hn hfs
  · rw [hr] at hp
    exact ⟨e1, h1, hp, hr⟩

theorem C44_cam_forever (N : Num K) (G : GpsNum K) (s s' : Station K) (cs : List (Call K)) (k : Nat) (u : MsckfUpdater K)
    (hf : s.ekf.useFirstEstimate = true) (hu : s.cams.find? k = some u) (hc : u.isFirst = false)
    (h : s.run N G cs = .ok s') : s'.cams.find? k = some u ∧ s'.ekf.useFirstEstimate = true := by
  refine Station.run_induct (N := N) (G := G)
    (R := fun a b => a.cams.find? k = some u ∧ a.ekf.useFirstEstimate = true →
      b.cams.find? k = some u ∧ b.ekf.useFirstEstimate = true)
    (fun _ => id) (fun _ _ _ g h => h ∘ g) ?_ h ⟨hu, hf⟩
  rintro a b c hs ⟨hv, hfa⟩
  refine ⟨?_, ?_⟩
  · rcases Station.step_cam hs hv with h1 | ⟨t, i, fs, px, r, rfl, h1, h2, _⟩
    · exact h1
    · rw [MsckfUpdater.update_keeps h1 hc hfa] at h2; exact h2
  · exact (station_config hs).useFirstEstimate.trans hfa

/-! ### The residual is frozen too -/

/-- First-estimate Jacobians enabled, a calibrated antenna, one fix that moves the antenna estimate. -/
def C44_calls : List (Call ℚ) :=
  [.filter (.registerGPS 7 Samples.gps (Samples.cov 3)), .filter (.setGpsReference 0 0), .newGps 2 7 true,
   .gps 2 11 ![1, 0, 0] (Samples.cov 3)]

/-- Filter parameters with first-estimate Jacobians. -/
def C44_params : EkfParams ℚ := { Samples.params .none false with useFirstEstimate := true }

/-- The second fix is compared with the antenna position of the first update, not with the estimate of the moment: the
frozen calibration also enters the predicted measurement.  So the full property fails; `C44_gps_current`,
`C44_gps_frozen_partial`, `C44_gps_forever` and their fiducial and camera counterparts are the parts that hold. -/
theorem C44_residual_violated : ∃ (s : Station ℚ) (u : GpsUpdater ℚ) (e1 : Ekf ℚ) (r : GpsUpdater ℚ × Ekf ℚ),
    (Station.init Samples.num C44_params).run Samples.num Samples.gpsNum C44_calls = .ok s ∧
    s.gpss.find? 2 = some u ∧ u.update Samples.num Samples.gpsNum s.ekf 12 ![1, 0, 0] (Samples.cov 3) = .ok r ∧
    s.ekf.AtMessage Samples.num 12 e1 ∧
    (u.predictMeasurement (e1.getGpsState u.id).2).1 ≠
      e1.state.body.pos + e1.state.body.ang.rotate (e1.antenna u.id) := by
  let c : Res (Station ℚ × Option (GpsUpdater ℚ × (GpsUpdater ℚ × Ekf ℚ) × Ekf ℚ)) := do
    let s ← (Station.init Samples.num C44_params).run Samples.num Samples.gpsNum C44_calls
    match s.gpss.find? 2 with
    | none => pure (s, none)
    | some u => do
      let r ← u.update Samples.num Samples.gpsNum s.ekf 12 ![1, 0, 0] (Samples.cov 3)
      let e1 ← (s.ekf.calculateLocalTime 12).2.predict Samples.num.toPrim (s.ekf.calculateLocalTime 12).1
      pure (s, some (u, r, e1))
  obtain ⟨⟨s, o⟩, hc, hp⟩ := Samples.ok_of_check (r := c)
    (P := fun x => (match x.2 with
      | none => false
      | some (u, _, e1) => decide ((u.predictMeasurement (e1.getGpsState u.id).2).1 0 ≠
          (e1.state.body.pos + e1.state.body.ang.rotate (e1.antenna u.id)) 0)) = true) (by decide +kernel)
  simp only [c, bind_ok_iff, pure_res] at hc
  obtain ⟨s', h1, hc⟩ := hc
  split at hc
  · cases hc; simp at hp
  · rename_i u hu
    simp only [bind_ok_iff, Except.ok.injEq, Prod.mk.injEq] at hc
    obtain ⟨r, h2, e1, h3, rfl, rfl⟩ := hc
    refine ⟨s', u, e1, r, h1, hu, h2, h3, fun h => ?_⟩
    exact absurd (congrFun h 0) (of_decide_eq_true hp)

/-- The sample history meets the hypotheses of the theorems on enabled first-estimate Jacobians. -/
example : ∃ s u, (Station.init Samples.num C44_params).run Samples.num Samples.gpsNum C44_calls = .ok s ∧
    s.gpss.find? 2 = some u ∧ u.isFirst = false ∧ s.ekf.useFirstEstimate = true ∧ s.ekf.isLlaInitialized = true := by
  obtain ⟨s, h, h1, h2, h3⟩ := Samples.ok_of_check
    (r := (Station.init Samples.num C44_params).run Samples.num Samples.gpsNum C44_calls)
    (P := fun s => (s.gpss.find? 2).map (·.isFirst) = some false ∧ s.ekf.useFirstEstimate = true ∧
      s.ekf.isLlaInitialized = true) (by decide +kernel)
  cases hf : s.gpss.find? 2 with
  | none => rw [hf] at h1; cases h1
  | some u => rw [hf] at h1; exact ⟨s, u, h, hf, by simpa using h1, h2, h3⟩

/-- Likewise for a fiducial and a camera: both updaters have been used and are frozen. -/
example : ∃ s u v, (Station.init Samples.num C44_params).run Samples.num Samples.gpsNum
      [.filter (.registerCamera 1 Samples.cam (Samples.cov 6)), .filter (.registerFiducial (Samples.fid 4) (Samples.cov 6)),
       .newFid 3 4 1 true true, .newCam 4 1 true 1, .fid 3 11 ⟨![1, 0, 0], Quat.one, ![1, 1, 1], ![1, 1, 1]⟩,
       .cam 4 11 ⟨1 / 100, 1 / 100, 0, 0, 0, 0, 640, 480, 1 / 200000⟩ [] 1] = .ok s ∧
    s.fids.find? 3 = some u ∧ u.isFirst = false ∧ s.cams.find? 4 = some v ∧ s.ekf.useFirstEstimate = true := by
  obtain ⟨s, h, h1, h2, h3⟩ := Samples.ok_of_check
    (r := (Station.init Samples.num C44_params).run Samples.num Samples.gpsNum
      [.filter (.registerCamera 1 Samples.cam (Samples.cov 6)), .filter (.registerFiducial (Samples.fid 4) (Samples.cov 6)),
       .newFid 3 4 1 true true, .newCam 4 1 true 1, .fid 3 11 ⟨![1, 0, 0], Quat.one, ![1, 1, 1], ![1, 1, 1]⟩,
       .cam 4 11 ⟨1 / 100, 1 / 100, 0, 0, 0, 0, 640, 480, 1 / 200000⟩ [] 1])
    (P := fun s => (s.fids.find? 3).map (·.isFirst) = some false ∧ (s.cams.find? 4).isSome = true ∧
      s.ekf.useFirstEstimate = true) (by decide +kernel)
  cases hf : s.fids.find? 3 with
  | none => rw [hf] at h1; cases h1
  | some u =>
    rw [hf] at h1
    obtain ⟨v, hv⟩ := Option.isSome_iff_exists.1 h2
    exact ⟨s, u, v, h, hf, by simpa using h1, hv, h3⟩

end EkfCal
