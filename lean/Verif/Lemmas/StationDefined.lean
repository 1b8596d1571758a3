import Verif.Spec.SafeCalls
import Verif.Lemmas.Flags
import Verif.Lemmas.Progress
import Verif.Lemmas.Station
import Verif.Props.C59
import Verif.Props.C19
import Verif.Props.C37

/-! # Messages that keep their contract have a defined effect -/

set_option linter.unusedSectionVars false
set_option linter.unusedSimpArgs false

namespace EkfCal
open Ekf
variable {K : Type} [Field K] [LinearOrder K]

/-! ## What lasts -/

theorem ImuUpdater.Fits.mono {u v : ImuUpdater} {s s' : State K} (h : u.Fits s) (hf : FlagsLE s s') (hid : v.id = u.id)
    (he : v.isExtrinsic = u.isExtrinsic) (hi : v.isIntrinsic = u.isIntrinsic) : v.Fits s' := by
  refine ⟨fun h1 => ?_, fun h1 => ?_⟩
  · obtain ⟨i, h2, h3⟩ := h.1 (he ▸ h1)
    obtain ⟨i', h4, h5⟩ := hf.imus _ _ h2
    simp only [Prod.mk.injEq] at h5
    exact ⟨i', hid ▸ h4, h5.1.trans h3⟩
  · obtain ⟨i, h2, h3⟩ := h.2 (hi ▸ h1)
    obtain ⟨i', h4, h5⟩ := hf.imus _ _ h2
    simp only [Prod.mk.injEq] at h5
    exact ⟨i', hid ▸ h4, h5.2.trans h3⟩

theorem GpsUpdater.Fits.mono {u v : GpsUpdater K} {s s' : State K} (h : u.Fits s) (hf : FlagsLE s s') (hid : v.id = u.id)
    (he : v.isExtrinsic = u.isExtrinsic) : v.Fits s' := fun h1 => by
  obtain ⟨i, h2, h3⟩ := h (he ▸ h1)
  obtain ⟨i', h4, h5⟩ := hf.gpss _ _ h2
  exact ⟨i', hid ▸ h4, h5.trans h3⟩

theorem FidUpdater.Fits.mono {u v : FidUpdater K} {s s' : State K} (h : u.Fits s) (hf : FlagsLE s s') (hid : v.id = u.id)
    (hc : v.cameraId = u.cameraId) (he : v.isFidExtrinsic = u.isFidExtrinsic) (hi : v.isCamExtrinsic = u.isCamExtrinsic) :
    v.Fits s' := by
  obtain ⟨⟨f, h1, h2⟩, h3⟩ := h
  obtain ⟨f', h4, h5⟩ := hf.fids _ _ h1
  refine ⟨⟨f', hid ▸ h4, fun h6 => h5.trans (h2 (he ▸ h6))⟩, fun h6 => ?_⟩
  obtain ⟨i, h7, h8⟩ := h3 (hi ▸ h6)
  obtain ⟨i', h9, h10⟩ := hf.cams _ _ h7
  exact ⟨i', hc ▸ h9, h10.trans h8⟩

theorem MsckfUpdater.Fits.mono {u v : MsckfUpdater K} {s s' : State K} (h : u.Fits s) (hf : FlagsLE s s') (hid : v.id = u.id)
    (he : v.isCamExtrinsic = u.isCamExtrinsic) : v.Fits s' := fun h1 => by
  obtain ⟨i, h2, h3⟩ := h (he ▸ h1)
  obtain ⟨i', h4, h5⟩ := hf.cams _ _ h2
  exact ⟨i', hid ▸ h4, h5.trans h3⟩

theorem step_noise_inner {N : Prim K} {e e' : Ekf K} {op : Op K} {Q : Mat K → Prop} (hn : e.bodyProcessNoise.size = 18)
    (ho : op.Inner Q) (h : Ekf.step N e op = .ok e') : e'.bodyProcessNoise.size = 18 := by
  have h3 := step_frame h
  have fr : Frame e e' → e'.bodyProcessNoise.size = 18 := fun f => by rw [f.bodyNoise]; exact hn
  cases op with
  | predict t =>
    simp only [StepFrame] at h3
    split at h3
    · rw [h3]; exact hn
    · rw [h3.bodyNoise]; exact hn
  | localTime t =>
    simp only [StepFrame] at h3
    rw [h3]
    unfold calculateLocalTime
    split <;> exact hn
  | initializeGravity => simp only [StepFrame] at h3; rw [h3]; exact hn
  | setZeroAcceleration b => simp only [StepFrame] at h3; rw [h3]; exact hn
  | attemptGpsInit t x f => obtain ⟨p, a, l, _, rfl⟩ := attemptGpsInit_form h; exact hn
  | kalman _ _ _ => exact fr h3
  | getImu _ => exact fr h3
  | getGps _ => exact fr h3
  | getCam _ => exact fr h3
  | getAug _ _ _ => exact fr h3
  | setBodyMotion _ _ _ => exact fr h3
  | registerIMU _ _ _ => exact ho.elim
  | registerGPS _ _ _ => exact ho.elim
  | registerCamera _ _ _ => exact ho.elim
  | registerFiducial _ _ => exact ho.elim
  | frame _ _ => exact ho.elim
  | initializeAt _ _ => exact ho.elim
  | setMaxTrackLength _ => exact ho.elim
  | setGpsReference _ _ => exact ho.elim
  | setBodyProcessNoise _ => exact ho.elim

theorem ready_inner {N : Prim K} {Q : Mat K → Prop} : ∀ {ops : List (Op K)} {e e' : Ekf K}, Ready e → (∀ op ∈ ops, op.Inner Q) →
    Ekf.run N e ops = .ok e' → Ready e'
  | [], e, e', hr, _, h => by cases h; exact hr
  | op :: ops, e, e', hr, ho, h => by
    simp only [Ekf.run, bind_ok_iff] at h
    obtain ⟨e1, h1, h2⟩ := h
    have hi := ho op (List.mem_cons_self ..)
    have hr1 : Ready e1 := ⟨inv_step hr.inv hi.wf h1, step_noise_inner hr.noise hi h1, step_prev hr.prev h1⟩
    exact ready_inner hr1 (fun o h => ho o (List.mem_cons_of_mem _ h)) h2

theorem Via.ready {N : Prim K} {Q : Mat K → Prop} {a b : Ekf K} (h : Via N Q a b) (hr : Ready a) : Ready b := by
  obtain ⟨ops, h1, h2, _⟩ := h
  exact ready_inner hr h2 h1

theorem Via.flags {N : Prim K} {Q : Mat K → Prop} {a b : Ekf K} (h : Via N Q a b) : FlagsLE a.state b.state := by
  obtain ⟨ops, h1, _⟩ := h
  exact flagsLE_run h1

theorem Ekf.Ready.size {e : Ekf K} (h : Ready e) : 18 ≤ e.stateSize := by
  have := h.inv.size
  unfold State.dim at this
  omega

theorem Ekf.Ready.predict {N : Prim K} {e : Ekf K} (h : Ready e) (t : K) : ∃ e', e.predict N t = .ok e' ∧ Ready e' ∧
    FlagsLE e.state e'.state := by
  obtain ⟨e', h1⟩ := step_defined (N := N) (op := .predict t) h trivial trivial
  exact ⟨e', h1, ready_step (op := .predict t) h trivial trivial h1, flagsLE_step h1⟩

theorem Ekf.Ready.kalman {N : Prim K} {e : Ekf K} (h : Ready e) {J R : Mat K} {r : Vec K} (h1 : J.cols = e.stateSize)
    (h2 : R.rows = J.rows) (h3 : R.cols = J.rows) (h4 : r.size = J.rows) : ∃ e', e.kalmanUpdate N J r R = .ok e' :=
  kalman_defined N e J r R h.inv h1 h2 h3 h4

/-! ## IMU -/

theorem ImuUpdater.columns {u : ImuUpdater} {e : Ekf K} (hr : Ready e) (hf : u.Fits e.state) :
    (u.isExtrinsic = true → (u.imuOf e).indexExtrinsic + 6 ≤ e.stateSize) ∧
    (u.isIntrinsic = true → (u.imuOf e).indexIntrinsic + 6 ≤ e.stateSize) := by
  refine ⟨fun h => ?_, fun h => ?_⟩
  · obtain ⟨i, h1, h2⟩ := hf.1 h
    have : u.imuOf e = i := by simp only [imuOf, UMap.getD, h1, Option.getD_some]
    rw [this]; exact ((imu_columns hr.inv.tiles h1).1 h2).2
  · obtain ⟨i, h1, h2⟩ := hf.2 h
    have : u.imuOf e = i := by simp only [imuOf, UMap.getD, h1, Option.getD_some]
    rw [this]; exact ((imu_columns hr.inv.tiles h1).2.1 h2).2

theorem ImuUpdater.zeroAccJacobian_sized (N : Num K) {u : ImuUpdater} {e : Ekf K} (hr : Ready e) (hf : u.Fits e.state) :
    ∃ J, u.zeroAccJacobian N e = .ok J ∧ J.rows = (if u.isIntrinsic then 6 else 3) ∧ J.cols = e.stateSize := by
  have h18 := hr.size
  obtain ⟨hx, hi⟩ := u.columns hr hf
  unfold zeroAccJacobian
  have h3 : 3 ≤ (if u.isIntrinsic = true then 6 else 3) := by split <;> omega
  obtain ⟨J1, q1, r1, c1⟩ := setBlock_sized (m := (Mat.zero (if u.isIntrinsic then 6 else 3) e.stateSize : Mat K)) (i := 0) (j := 9)
    (p := 3) (q := 3) (t := M3.toMat (-(skew (u.gravityInImu e)) * (N.quatJac e.state.body.ang).transpose))
    ⟨by show 0 + 3 ≤ (if u.isIntrinsic = true then 6 else 3); omega, by show 9 + 3 ≤ e.stateSize; omega⟩ ⟨rfl, rfl⟩
  have r1' : J1.rows = (if u.isIntrinsic = true then 6 else 3) := r1
  have c1' : J1.cols = e.stateSize := c1
  dsimp only
  rw [q1, ok_bind]
  have key : ∀ J : Mat K, J.rows = J1.rows → J.cols = J1.cols → ∃ J', (if u.isIntrinsic = true then do
      let jac ← J.setBlock 0 ((u.imuOf e).indexIntrinsic + 0) 3 3 (M3.toMat (-1))
      jac.setBlock 3 ((u.imuOf e).indexIntrinsic + 3) 3 3 (M3.toMat (-1))
    else pure J : Res (Mat K)) = .ok J' ∧ J'.rows = (if u.isIntrinsic = true then 6 else 3) ∧ J'.cols = e.stateSize := by
    intro J hJr hJc
    by_cases h : u.isIntrinsic = true
    · have := hi h
      rw [if_pos h] at r1'
      rw [if_pos h]
      obtain ⟨J2, q2, r2, c2⟩ := setBlock_sized (m := J) (i := 0) (j := (u.imuOf e).indexIntrinsic + 0) (p := 3) (q := 3)
        (t := M3.toMat (-1)) ⟨by omega, by omega⟩ ⟨rfl, rfl⟩
      obtain ⟨J3, q3, r3, c3⟩ := setBlock_sized (m := J2) (i := 3) (j := (u.imuOf e).indexIntrinsic + 3) (p := 3) (q := 3)
        (t := M3.toMat (-1)) ⟨by omega, by omega⟩ ⟨rfl, rfl⟩
      rw [q2, ok_bind, q3]
      exact ⟨J3, rfl, by rw [if_pos h]; omega, by omega⟩
    · rw [if_neg h]
      exact ⟨J, rfl, hJr.trans r1', hJc.trans c1'⟩
  by_cases h : u.isExtrinsic = true
  · rw [if_pos h]
    have := hx h
    obtain ⟨J2, q2, r2, c2⟩ := setBlock_sized (m := J1) (i := 0) (j := (u.imuOf e).indexExtrinsic) (p := 3) (q := 3)
      (t := M3.toMat (-(skew (u.gravityInImu e)))) ⟨by omega, by omega⟩ ⟨rfl, rfl⟩
    rw [q2, ok_bind]
    exact key J2 r2 c2
  · rw [if_neg h, pure_res, ok_bind]
    exact key J1 rfl rfl

theorem ImuUpdater.zeroAccNoise_sized (u : ImuUpdater) (ac wc : M3 K) :
    ∃ R, u.zeroAccNoise ac wc = .ok R ∧ R.rows = (if u.isIntrinsic then 6 else 3) ∧ R.cols = (if u.isIntrinsic then 6 else 3) := by
  unfold zeroAccNoise
  cases h : u.isIntrinsic
  · exact ⟨_, rfl, rfl, rfl⟩
  · exact ⟨_, rfl, rfl, rfl⟩

theorem ImuUpdater.zeroAccResidual_size (u : ImuUpdater) (e : Ekf K) (a w : V3 K) :
    (u.zeroAccResidual e a w).size = (if u.isIntrinsic then 6 else 3) := by
  unfold zeroAccResidual
  cases h : u.isIntrinsic <;> rfl

theorem ImuUpdater.score_defined (N : Num K) {e : Ekf K} (hr : Ready e) {J R : Mat K} {r : Vec K} (h1 : J.cols = e.stateSize)
    (h2 : R.rows = J.rows) (h3 : R.cols = J.rows) (h4 : r.size = J.rows) : ∃ x, score N e J r R = .ok x := by
  have hcr := hr.inv.covRows
  have hcc := hr.inv.covCols
  unfold score
  obtain ⟨c1, e1, r1, s1⟩ := Mat.mul_def (a := J) (b := e.cov) (by omega)
  rw [e1, ok_bind]
  obtain ⟨c2, e2, r2, s2⟩ := Mat.mul_def (a := c1) (b := J.transpose) (by show c1.cols = J.cols; omega)
  have s2' : c2.cols = J.rows := s2
  rw [e2, ok_bind]
  obtain ⟨c3, e3, r3, s3⟩ := Mat.add_def (a := c2) (b := R.smul e.imuNoiseScaleFactor)
    (by show c2.rows = R.rows ∧ c2.cols = R.cols; omega)
  rw [e3, ok_bind]
  obtain ⟨c5, e5, r5, s5⟩ := Mat.inverse_def N.toPrim (a := c3) (by omega)
  rw [e5, ok_bind]
  obtain ⟨v, e7, sv⟩ : ∃ v, c5.transpose.mulVec r = .ok v ∧ v.size = c5.cols :=
    ⟨_, Mat.mulVec_ok_iff.2 ⟨by show c5.rows = r.size; omega, rfl⟩, rfl⟩
  rw [e7, ok_bind, guardUB_true (by omega), ok_bind]
  exact ⟨_, rfl⟩

theorem ImuUpdater.measurementJacobian_sized {u : ImuUpdater} {e : Ekf K} (hr : Ready e) (hf : u.Fits e.state) :
    ∃ J, u.measurementJacobian e = .ok J ∧ J.rows = 6 ∧ J.cols = e.stateSize := by
  have h18 := hr.size
  obtain ⟨hx, hi⟩ := u.columns hr hf
  have blk : ∀ (m t : Mat K) (i j : Nat), m.rows = 6 → m.cols = e.stateSize → t.rows = 3 → t.cols = 3 → i + 3 ≤ 6 →
      j + 3 ≤ e.stateSize → ∃ o, m.setBlock i j 3 3 t = .ok o ∧ o.rows = 6 ∧ o.cols = e.stateSize := by
    intro m t i j h1 h2 h3 h4 h5 h6
    obtain ⟨o, g1, g2, g3⟩ := setBlock_sized (m := m) (t := t) (i := i) (j := j) (p := 3) (q := 3) ⟨by omega, by omega⟩ ⟨h3, h4⟩
    exact ⟨o, g1, by omega, by omega⟩
  unfold measurementJacobian
  dsimp only
  obtain ⟨J1, q1, r1, c1⟩ := blk (Mat.zero 6 e.stateSize) (M3.toMat ((u.imuOf e).ang.inverse.toMat * e.state.body.ang.inverse.toMat))
    0 6 rfl rfl rfl rfl (by omega) (by omega)
  rw [q1, ok_bind]
  obtain ⟨J2, q2, r2, c2⟩ := blk J1 (M3.toMat ((u.imuOf e).ang.inverse.toMat * (skew e.state.body.angVel *
    (skew (u.imuOf e).pos).transpose + (skew (V3.cross e.state.body.angVel (u.imuOf e).pos)).transpose)))
    0 12 r1 c1 rfl rfl (by omega) (by omega)
  rw [q2, ok_bind]
  obtain ⟨J3, q3, r3, c3⟩ := blk J2 (M3.toMat (-(u.imuOf e).ang.inverse.toMat * skew (u.imuOf e).pos))
    0 15 r2 c2 rfl rfl (by omega) (by omega)
  rw [q3, ok_bind]
  obtain ⟨J4, q4, r4, c4⟩ := blk J3 (M3.toMat ((u.imuOf e).ang.inverse.toMat * e.state.body.ang.inverse.toMat))
    3 12 r3 c3 rfl rfl (by omega) (by omega)
  rw [q4, ok_bind]
  have key : ∀ J : Mat K, J.rows = 6 → J.cols = e.stateSize → ∃ J', (if u.isIntrinsic = true then do
      let jac ← J.setBlock 0 ((u.imuOf e).indexIntrinsic + 0) 3 3 (M3.toMat 1)
      jac.setBlock 3 ((u.imuOf e).indexIntrinsic + 3) 3 3 (M3.toMat 1)
    else pure J : Res (Mat K)) = .ok J' ∧ J'.rows = 6 ∧ J'.cols = e.stateSize := by
    intro J hJr hJc
    by_cases h : u.isIntrinsic = true
    · have := hi h
      rw [if_pos h]
      obtain ⟨J5, q5, r5, c5⟩ := blk J (M3.toMat 1) 0 ((u.imuOf e).indexIntrinsic + 0) hJr hJc rfl rfl (by omega) (by omega)
      obtain ⟨J6, q6, r6, c6⟩ := blk J5 (M3.toMat 1) 3 ((u.imuOf e).indexIntrinsic + 3) r5 c5 rfl rfl (by omega) (by omega)
      rw [q5, ok_bind, q6]
      exact ⟨J6, rfl, r6, c6⟩
    · rw [if_neg h]
      exact ⟨J, rfl, hJr, hJc⟩
  by_cases h : u.isExtrinsic = true
  · rw [if_pos h]
    have := hx h
    obtain ⟨J5, q5, r5, c5⟩ := blk J4 (M3.toMat ((u.imuOf e).ang.inverse.toMat * (skew e.state.body.angAcc +
      skew e.state.body.angVel * skew e.state.body.angVel))) 0 ((u.imuOf e).indexExtrinsic + 0) r4 c4 rfl rfl (by omega) (by omega)
    rw [q5, ok_bind]
    obtain ⟨J6, q6, r6, c6⟩ := blk J5 (M3.toMat (skew ((u.imuOf e).ang.inverse.rotate (V3.cross e.state.body.angAcc (u.imuOf e).pos +
      V3.cross e.state.body.angVel (V3.cross e.state.body.angVel (u.imuOf e).pos) +
      e.state.body.ang.inverse.rotate e.state.body.acc)))) 0 ((u.imuOf e).indexExtrinsic + 3) r5 c5 rfl rfl (by omega) (by omega)
    rw [q6, ok_bind]
    obtain ⟨J7, q7, r7, c7⟩ := blk J6 (M3.toMat (skew (((u.imuOf e).ang.inverse.mul e.state.body.ang.inverse).rotate
      e.state.body.angVel))) 3 ((u.imuOf e).indexExtrinsic + 3) r6 c6 rfl rfl (by omega) (by omega)
    rw [q7, ok_bind]
    exact key J7 r7 c7
  · rw [if_neg h, pure_res, ok_bind]
    exact key J4 r4 c4

theorem ImuUpdater.zeroAccUpdate_defined (N : Num K) {u : ImuUpdater} {e : Ekf K} (hr : Ready e) (hf : u.Fits e.state) (t : K)
    (a : V3 K) (ac : M3 K) (w : V3 K) (wc : M3 K) : ∃ r, u.zeroAccUpdate N e t a ac w wc = .ok r := by
  unfold zeroAccUpdate
  cases hm : u.motionDetected with
  | true => exact ⟨_, rfl⟩
  | false =>
    simp only [Bool.false_eq_true, if_false]
    obtain ⟨e0, h0⟩ : ∃ x, x = (e.getImuState u.id).2 := ⟨_, rfl⟩
    have hv : Via N.toPrim (fun _ => True) e e0 := h0 ▸ Via.getImu e _
    have hr0 := hv.ready hr
    have hf0 : u.Fits e0.state := hf.mono hv.flags rfl rfl rfl
    obtain ⟨J, hJ, jr, jc⟩ := zeroAccJacobian_sized N hr0 hf0
    obtain ⟨R, hR, rr, rc⟩ := u.zeroAccNoise_sized ac wc
    have hs := u.zeroAccResidual_size e0 a w
    obtain ⟨sc, hsc⟩ := score_defined N hr0 jc (rr.trans jr.symm) (rc.trans jr.symm) (hs.trans jr.symm)
    rw [← h0, hJ, ok_bind, hR, ok_bind, hsc, ok_bind]
    split
    · exact ⟨_, rfl⟩
    · obtain ⟨e1, h1⟩ : ∃ x, x = (if sc < e0.motionDetectionChiSquared then e0.initializeGravity else e0) := ⟨_, rfl⟩
      have hv1 : Via N.toPrim (fun _ => True) e0 e1 := by
        rw [h1]; split
        · exact Via.step .initializeGravity rfl trivial
        · exact Via.refl _
      have hr1 := hv1.ready hr0
      obtain ⟨e2, h2, hr2, hfl⟩ := hr1.predict (N := N.toPrim) t
      have hf2 : u.Fits e2.state := hf0.mono (hv1.flags.trans hfl) rfl rfl rfl
      obtain ⟨J', hJ', jr', jc'⟩ := zeroAccJacobian_sized N hr2 hf2
      obtain ⟨e3, h3⟩ := hr2.kalman (N := N.toPrim) (J := J') (R := R) (r := u.zeroAccResidual e0 a w) jc' (rr.trans jr'.symm)
        (rc.trans jr'.symm) (hs.trans jr'.symm)
      simp only [← h1]
      rw [h2, ok_bind, hJ', ok_bind, h3, ok_bind]
      exact ⟨_, rfl⟩

theorem ImuUpdater.zero_keeps {N : Num K} {u : ImuUpdater} {e : Ekf K} {t : K} {a : V3 K} {ac : M3 K} {w : V3 K} {wc : M3 K}
    {b : Bool} {u' : ImuUpdater} {e' : Ekf K} (h : ZeroOutcome N u e t a ac w wc b u' e') :
    u'.id = u.id ∧ u'.isExtrinsic = u.isExtrinsic ∧ u'.isIntrinsic = u.isIntrinsic := by
  cases h <;> exact ⟨rfl, rfl, rfl⟩

theorem ImuUpdater.update_defined (N : Num K) {u : ImuUpdater} {e : Ekf K} (hr : Ready e) (hf : u.Fits e.state) (time : K)
    (a : V3 K) (ac : M3 K) (w : V3 K) (wc : M3 K) : ∃ r, u.update N e time a ac w wc = .ok r := by
  have hv0 : Via N.toPrim (fun _ => True) e (e.calculateLocalTime time).2 := Via.localTime e time
  have hr0 := hv0.ready hr
  have hf0 : u.Fits (e.calculateLocalTime time).2.state := hf.mono hv0.flags rfl rfl rfl
  obtain ⟨⟨b, u', e1⟩, hz⟩ := zeroAccUpdate_defined N hr0 hf0 (e.calculateLocalTime time).1 a ac w wc
  have hzf := zeroAccUpdate_form hz
  dsimp only at hzf
  have hv1 : Via N.toPrim (fun _ => True) (e.calculateLocalTime time).2 e1 := zeroAcc_via hzf fun _ _ => trivial
  have hr1 := hv1.ready hr0
  obtain ⟨k1, k2, k3⟩ := zero_keeps hzf
  have hf1 : u'.Fits e1.state := hf0.mono hv1.flags k1 k2 k3
  unfold update
  dsimp only
  rw [hz, ok_bind]
  cases b with
  | true => exact ⟨_, rfl⟩
  | false =>
    simp only [Bool.false_eq_true, if_false]
    obtain ⟨e2, h2⟩ : ∃ x, x = ((e1.setZeroAcceleration false).getImuState u'.id).2 := ⟨_, rfl⟩
    have hv2 : Via N.toPrim (fun _ => True) e1 e2 := by
      rw [h2]; exact (Via.step (.setZeroAcceleration false) rfl trivial).trans (Via.getImu _ _)
    have hr2 := hv2.ready hr1
    have hf2 : u'.Fits e2.state := hf1.mono hv2.flags rfl rfl rfl
    simp only [← h2]
    split
    · rw [pure_res, ok_bind]
      have hv3 : Via N.toPrim (fun _ => True) e2 { e2 with state := { e2.state with body := { e2.state.body with
          acc := (e2.state.body.ang.mul (u'.imuOf e2).ang).rotate (a - (u'.imuOf e2).accBias)
          angVel := (e2.state.body.ang.mul (u'.imuOf e2).ang).rotate (w - (u'.imuOf e2).omgBias)
          angAcc := 0 } } } := Via.body e2 _ _ _
      obtain ⟨e3, h3, _⟩ := (hv3.ready hr2).predict (N := N.toPrim) (e.calculateLocalTime time).1
      rw [h3, ok_bind]
      exact ⟨_, rfl⟩
    · obtain ⟨J, hJ, jr, jc⟩ := measurementJacobian_sized hr2 hf2
      obtain ⟨R, hR, rr, rc⟩ : ∃ R, measurementNoise ac wc = .ok R ∧ R.rows = 6 ∧ R.cols = 6 := ⟨_, rfl, rfl, rfl⟩
      obtain ⟨e3, h3⟩ := hr2.kalman (N := N.toPrim) (J := J) (R := R)
        (r := ⟨6, fun i => (Vec.of6 a w).get i - (u'.predictMeasurement e2).get i⟩) jc (rr.trans jr.symm) (rc.trans jr.symm) jr.symm
      have hv3 : Via N.toPrim (fun _ => True) e2 e3 := Via.kalman h3 trivial
      obtain ⟨e4, h4, _⟩ := (hv3.ready hr2).predict (N := N.toPrim) (e.calculateLocalTime time).1
      simp only [hJ, ok_bind, hR, h3, h4]
      exact ⟨_, rfl⟩

/-! ## Stored fixes and reference -/

/-- Fixes are stored with their body positions, and a set reference is legal. -/
structure Ekf.GpsReady (Legal : V3 K → Prop) (e : Ekf K) : Prop where
  time : e.gpsTimeVec.length = e.gpsEcefVec.length
  xyz : e.gpsXyzVec.length = e.gpsEcefVec.length
  legal : e.isLlaInitialized = true → Legal e.posEInG

theorem Ekf.GpsReady.same {Legal : V3 K → Prop} {e e' : Ekf K} (h : GpsReady Legal e) (hs : e'.gpsData = e.gpsData) :
    GpsReady Legal e' := by
  simp only [Ekf.gpsData, Ekf.reference, Prod.mk.injEq] at hs
  obtain ⟨h1, h2, h3, h4, _, h5⟩ := hs
  exact ⟨by rw [h1, h2]; exact h.time, by rw [h3, h2]; exact h.xyz, fun h6 => by rw [h4]; exact h.legal (h5 ▸ h6)⟩

theorem Ekf.GpsReady.attempt {Legal : V3 K → Prop} {e e' : Ekf K} {t : K} {x : V3 K} {fit : List (V3 K) → List (V3 K) → GpsFit K}
    (h : GpsReady Legal e) (hl : (Op.attemptGpsInit t x fit).LegalReference Legal e) (ha : e.attemptGpsInit t x fit = .ok e') :
    GpsReady Legal e' := by
  have base : GpsReady Legal { e with gpsTimeVec := e.gpsTimeVec ++ [t], gpsEcefVec := e.gpsEcefVec ++ [x]
                                      gpsXyzVec := e.gpsXyzVec ++ [e.state.body.pos] } :=
    ⟨by simp [h.time], by simp [h.xyz], h.legal⟩
  unfold attemptGpsInit at ha
  dsimp only at ha
  split at ha
  · obtain ⟨b, _, ha⟩ := bind_ok_iff.1 ha
    cases b with
    | true => cases ha; exact ⟨base.time, base.xyz, fun _ => hl⟩
    | false => cases ha; exact base
  · cases ha; exact base

theorem Ekf.GpsReady.step {N : Prim K} {Legal : V3 K → Prop} {e e' : Ekf K} {op : Op K} (h : GpsReady Legal e)
    (hl : op.LegalReference Legal e) (hs : Ekf.step N e op = .ok e') : GpsReady Legal e' := by
  rcases gps_step hs with ⟨t, x, f, rfl, h1⟩ | ⟨p, a, rfl, rfl⟩ | ⟨_, _, h1⟩
  · exact h.attempt hl h1
  · exact ⟨h.time, h.xyz, fun _ => hl⟩
  · exact h.same h1

theorem gpsData_localTime (e : Ekf K) (t : K) : (e.calculateLocalTime t).2.gpsData = e.gpsData := by
  unfold calculateLocalTime; split <;> rfl

theorem gpsData_predict {N : Prim K} {e e' : Ekf K} {t : K} (h : e.predict N t = .ok e') : e'.gpsData = e.gpsData := by
  rcases gps_step (N := N) (op := .predict t) h with ⟨_, _, _, h1, _⟩ | ⟨_, _, h1, _⟩ | ⟨_, _, h1⟩
  · cases h1
  · cases h1
  · exact h1

theorem gpsData_kalman {N : Prim K} {e e' : Ekf K} {J R : Mat K} {r : Vec K} (h : e.kalmanUpdate N J r R = .ok e') :
    e'.gpsData = e.gpsData := by
  rcases gps_step (N := N) (op := .kalman J r R) h with ⟨_, _, _, h1, _⟩ | ⟨_, _, h1, _⟩ | ⟨_, _, h1⟩
  · cases h1
  · cases h1
  · exact h1

theorem gpsData_predicted {N : Prim K} {e e' : Ekf K} {t : K} (h : e.PredictedTo N t e') : e'.gpsData = e.gpsData :=
  (gpsData_predict h).trans (gpsData_localTime e t)

theorem ImuUpdater.update_gpsData {N : Num K} {u : ImuUpdater} {e : Ekf K} {time : K} {a : V3 K} {ac : M3 K} {w : V3 K}
    {wc : M3 K} {r : ImuUpdater × Ekf K} (h : u.update N e time a ac w wc = .ok r) : r.2.gpsData = e.gpsData := by
  obtain ⟨b, u', e1, hz, _, h⟩ := update_form h
  have g1 : e1.gpsData = e.gpsData := by
    refine Eq.trans ?_ (gpsData_localTime e time)
    cases hz with
    | late hm => rfl
    | moved e0 jac noise sc hm h0 hj hn hs hgt hg => rw [h0]; rfl
    | still e0 e1 e2 e3 jac jac' noise sc hm h0 hj hn hs hle h1 h2 hj' h3 =>
      have k3 := gpsData_kalman h3
      have k2 := gpsData_predict h2
      have k1 : e1.gpsData = e0.gpsData := by rw [h1]; split <;> rfl
      have k0 : e0.gpsData = (e.calculateLocalTime time).2.gpsData := by rw [h0]; rfl
      exact (show _ = e3.gpsData from rfl).trans (k3.trans (k2.trans (k1.trans k0)))
  rcases h with ⟨_, h⟩ | ⟨_, e2, e3, h2, h3, h4⟩
  · rw [h]; exact g1
  · refine (gpsData_predict h4).trans (Eq.trans ?_ g1)
    have k2 : e2.gpsData = e1.gpsData := by rw [h2]; rfl
    rcases h3 with ⟨_, h3⟩ | ⟨_, jac, noise, _, _, hk⟩
    · rw [h3]; exact k2
    · exact (gpsData_kalman hk).trans k2

/-! ## GPS -/

theorem GpsUpdater.refresh_keeps (u : GpsUpdater K) (e : Ekf K) : (u.refresh e).id = u.id ∧ (u.refresh e).isExtrinsic = u.isExtrinsic := by
  unfold refresh; split <;> exact ⟨rfl, rfl⟩

theorem GpsUpdater.jacobianOf_sized (N : Num K) {u : GpsUpdater K} {e : Ekf K} (hr : Ready e) (hf : u.Fits e.state) :
    ∃ J, u.jacobianOf N e = .ok J ∧ J.rows = 3 ∧ J.cols = e.stateSize := by
  have h18 := hr.size
  unfold jacobianOf
  dsimp only
  obtain ⟨J1, q1, r1, c1⟩ := setBlock_sized (m := (Mat.zero 3 e.stateSize : Mat K)) (i := 0) (j := 0) (p := 3) (q := 3)
    (t := M3.toMat 1) ⟨Nat.le_refl 3, by show 0 + 3 ≤ e.stateSize; omega⟩ ⟨rfl, rfl⟩
  have r1' : J1.rows = 3 := r1
  have c1' : J1.cols = e.stateSize := c1
  rw [q1, ok_bind]
  obtain ⟨J2, q2, r2, c2⟩ := setBlock_sized (m := J1) (i := 0) (j := 9) (p := 3) (q := 3)
    (t := M3.toMat (-e.state.body.ang.toMat * skew u.posAInB * N.quatJac e.state.body.ang)) ⟨by omega, by omega⟩ ⟨rfl, rfl⟩
  rw [q2, ok_bind]
  split
  · rename_i hx
    obtain ⟨g, h1, h2⟩ := hf hx
    have hg : u.gpsOf e = g := by simp only [gpsOf, UMap.getD, h1, Option.getD_some]
    have := (gps_columns hr.inv.tiles h1 h2).2
    obtain ⟨J3, q3, r3, c3⟩ := setBlock_sized (m := J2) (i := 0) (j := (u.gpsOf e).index) (p := 3) (q := 3)
      (t := M3.toMat e.state.body.ang.toMat) ⟨by omega, by rw [hg]; omega⟩ ⟨rfl, rfl⟩
    exact ⟨J3, q3, by omega, by omega⟩
  · exact ⟨J2, rfl, by omega, by omega⟩

theorem GpsUpdater.multiLoop_sized (N : Num K) {G : GpsNum K} {Legal : V3 K → Prop} (hG : G.LegalLaw Legal) {e : Ekf K}
    (hr : Ready e) (hp : Legal e.posEInG) : ∀ (xs ps : List (V3 K)) (i : Nat) (u : GpsUpdater K) (J : Mat K) (r : Vec K),
    u.Fits e.state → xs.length ≤ ps.length → 3 * (i + xs.length) ≤ J.rows → J.cols = e.stateSize → r.size = J.rows →
    ∃ o, multiLoop N G e i xs ps u J r = .ok o ∧ o.2.1.rows = J.rows ∧ o.2.1.cols = J.cols ∧ o.2.2.size = J.rows
  | [], ps, i, u, J, r, hf, hl, h1, h2, h3 => ⟨_, rfl, rfl, rfl, h3⟩
  | x :: xs, [], i, u, J, r, hf, hl, h1, h2, h3 => absurd hl (by simp)
  | x :: xs, p :: ps, i, u, J, r, hf, hl, h1, h2, h3 => by
    simp only [List.length_cons] at hl h1
    obtain ⟨y, hy⟩ := hG.fromEcef x _ hp
    have hf' : (u.refresh e).Fits e.state := hf.mono (FlagsLE.refl _) (u.refresh_keeps e).1 (u.refresh_keeps e).2
    obtain ⟨row, hrow, rr, rc⟩ := jacobianOf_sized N hr hf'
    obtain ⟨J1, q1, r1, c1⟩ := setBlock_sized (m := J) (i := 3 * i) (j := 0) (p := 3) (q := e.stateSize) (t := row)
      ⟨by omega, by omega⟩ ⟨rr, rc⟩
    obtain ⟨o, ho, o1, o2, o3⟩ := multiLoop_sized N hG hr hp xs ps (i + 1) (u.refresh e) J1
      ⟨r.size, fun k => if 3 * i ≤ k ∧ k < 3 * i + 3 then (Vec.of3 (G.enuToLocal y e.angLToE - p)).get (k - 3 * i) else r.get k⟩
      hf' (by omega) (by omega) (by omega) (by show r.size = _; omega)
    refine ⟨o, ?_, by omega, by omega, by omega⟩
    simp only [multiLoop, measurementJacobian, hy, hrow, ok_bind, pure_res, q1]
    rw [guardUB_true (by omega), ok_bind]
    exact ho

theorem compress_sized (N : Prim K) (J : Mat K) (r : Vec K) (h : r.size = J.rows) :
    ∃ o, compressMeasurements N J r = .ok o ∧ o.2.size = o.1.rows ∧ o.1.cols = J.cols := by
  by_cases hc : J.cols ≤ J.rows
  · exact ⟨_, compress_form hc (by omega), rfl, rfl⟩
  · exact ⟨_, C37_fat N J r (by omega), h, rfl⟩

theorem GpsUpdater.multiUpdate_defined (N : Num K) {G : GpsNum K} {Legal : V3 K → Prop} (hG : G.LegalLaw Legal)
    {u : GpsUpdater K} {e : Ekf K} (hr : Ready e) (hf : u.Fits e.state) (hg : GpsReady Legal e) (hl : e.isLlaInitialized = true) :
    ∃ r, u.multiUpdate N G e = .ok r := by
  obtain ⟨e0, h0⟩ : ∃ x, x = (e.getGpsState u.id).2 := ⟨_, rfl⟩
  have hv : Via N.toPrim (fun _ => True) e e0 := h0 ▸ Via.getGps e _
  have hr0 := hv.ready hr
  have hf0 : u.Fits e0.state := hf.mono hv.flags rfl rfl
  have hd : e0.gpsData = e.gpsData := by rw [h0]; rfl
  have hg0 : GpsReady Legal e0 := hg.same hd
  have hl0 : e0.isLlaInitialized = true := by rw [h0]; exact hl
  unfold multiUpdate
  simp only [← h0]
  have ht := hg0.time
  have hx := hg0.xyz
  obtain ⟨⟨u1, J, r⟩, h1, s1, s2, s3⟩ := multiLoop_sized N hG hr0 (hg0.legal hl0) e0.gpsEcefVec e0.gpsXyzVec 0 u
    (Mat.zero (3 * e0.gpsTimeVec.length) e0.stateSize) ⟨3 * e0.gpsTimeVec.length, fun _ => 0⟩ hf0 (by omega)
    (by show _ ≤ 3 * e0.gpsTimeVec.length; omega) rfl rfl
  dsimp only [Mat.zero] at s1 s2 s3
  obtain ⟨⟨J', r'⟩, h2, t1, t2⟩ := compress_sized N.toPrim J r (by omega)
  dsimp only at t1 t2
  rw [h1, ok_bind]
  dsimp only
  rw [h2, ok_bind]
  dsimp only
  split
  · exact ⟨_, rfl⟩
  · obtain ⟨e3, h3⟩ := hr0.kalman (N := N.toPrim) (J := J') (R := Mat.identity r'.size r'.size) (r := r') (t2.trans s2) t1 t1 t1
    rw [h3, ok_bind]
    exact ⟨_, rfl⟩

theorem GpsUpdater.update_defined (N : Num K) {G : GpsNum K} {Legal : V3 K → Prop} (hG : G.LegalLaw Legal) {u : GpsUpdater K}
    {e : Ekf K} (hr : Ready e) (hf : u.Fits e.state) (hg : GpsReady Legal e) (time : K) {x : V3 K} {c : Mat K} (hx : Legal x)
    (hc : c.rows = 3 ∧ c.cols = 3)
    (ha : ∀ e1 y, e.PredictedTo N.toPrim time e1 → e1.isLlaInitialized = false → G.llaToEcef x = .ok y →
      (Ekf.Op.attemptGpsInit time y G.fit).Safe e1 ∧ (Ekf.Op.attemptGpsInit time y G.fit).LegalReference Legal e1) :
    ∃ r, u.update N G e time x c = .ok r := by
  have hv0 : Via N.toPrim (fun _ => True) e (e.calculateLocalTime time).2 := Via.localTime e time
  obtain ⟨e1, h1, hr1, hfl⟩ := (hv0.ready hr).predict (N := N.toPrim) (e.calculateLocalTime time).1
  have hf1 : u.Fits e1.state := hf.mono (hv0.flags.trans hfl) rfl rfl
  have hg1 : GpsReady Legal e1 := hg.same (gpsData_predicted h1)
  unfold update
  dsimp only
  rw [h1, ok_bind]
  by_cases hl : e1.isLlaInitialized = false
  · rw [if_pos hl]
    obtain ⟨y, hy⟩ := hG.toEcef x hx
    obtain ⟨a1, a2⟩ := ha e1 y h1 hl hy
    obtain ⟨e2, h2⟩ := attemptGpsInit_defined e1 (e.calculateLocalTime time).1 y G.fit a1
    have hr2 : Ready e2 := ready_step (N := N.toPrim) (op := .attemptGpsInit (e.calculateLocalTime time).1 y G.fit) hr1 trivial a1 h2
    have hf2 : u.Fits e2.state :=
      hf1.mono (flagsLE_step (N := N.toPrim) (op := .attemptGpsInit (e.calculateLocalTime time).1 y G.fit) h2) rfl rfl
    have hg2 : GpsReady Legal e2 := hg1.attempt (t := (e.calculateLocalTime time).1) a2 h2
    rw [hy, ok_bind, h2, ok_bind]
    split
    · rename_i hl2
      exact multiUpdate_defined N hG hr2 hf2 hg2 hl2
    · exact ⟨_, rfl⟩
  · rw [if_neg hl]
    have hl1 : e1.isLlaInitialized = true := by simpa using hl
    obtain ⟨e2, h2⟩ : ∃ z, z = (e1.getGpsState u.id).2 := ⟨_, rfl⟩
    have hv2 : Via N.toPrim (fun _ => True) e1 e2 := h2 ▸ Via.getGps e1 _
    have hr2 := hv2.ready hr1
    have hp2 : Legal e2.posEInG := by rw [h2]; exact hg1.legal hl1
    have hf2 : (u.refresh e2).Fits e2.state := hf1.mono hv2.flags (u.refresh_keeps e2).1 (u.refresh_keeps e2).2
    obtain ⟨y, hy⟩ := hG.toEnu x _ hx hp2
    obtain ⟨J, hJ, jr, jc⟩ := jacobianOf_sized N hr2 hf2
    simp only [← h2, hy, ok_bind, predictMeasurement, measurementJacobian, refresh_idem, hJ, pure_res]
    obtain ⟨e3, h3⟩ := hr2.kalman (N := N.toPrim) (J := J) (R := c) (r := Vec.of3 (G.enuToLocal y e2.angLToE -
      (e2.state.body.pos + e2.state.body.ang.rotate (u.refresh e2).posAInB))) jc (hc.1.trans jr.symm) (hc.2.trans jr.symm) jr.symm
    rw [h3, ok_bind]
    exact ⟨_, rfl⟩

theorem GpsUpdater.update_ready {N : Num K} {G : GpsNum K} {Legal : V3 K → Prop} {u : GpsUpdater K} {e : Ekf K}
    (hg : GpsReady Legal e) {time : K} {x : V3 K} {c : Mat K} {r : GpsUpdater K × Ekf K}
    (ha : ∀ e1 y, e.PredictedTo N.toPrim time e1 → e1.isLlaInitialized = false → G.llaToEcef x = .ok y →
      (Ekf.Op.attemptGpsInit time y G.fit).LegalReference Legal e1)
    (h : u.update N G e time x c = .ok r) : GpsReady Legal r.2 ∧ r.1.id = u.id ∧ r.1.isExtrinsic = u.isExtrinsic := by
  obtain ⟨e1, h1, h⟩ := update_form h
  have hg1 : GpsReady Legal e1 := hg.same (gpsData_predicted h1)
  rcases h with ⟨hl, y, e2, hy, h2, h⟩ | ⟨hl, e2, enu, jac, h2, _, hu, _, hk⟩
  · have hg2 : GpsReady Legal e2 := hg1.attempt (t := (e.calculateLocalTime time).1) (ha e1 y h1 hl hy) h2
    rcases h with ⟨_, h⟩ | ⟨_, rfl⟩
    · have hu := multiUpdate_updater h
      refine ⟨?_, ?_⟩
      · unfold multiUpdate at h
        simp only [bind_ok_iff, pure_res, ok_bind] at h
        obtain ⟨⟨u1, jac, resid⟩, _, ⟨jac', resid'⟩, _, h⟩ := h
        dsimp only at h
        split at h
        · cases h; exact hg2.same rfl
        · simp only [bind_ok_iff, Except.ok.injEq] at h
          obtain ⟨e3, hk, rfl⟩ := h
          exact hg2.same ((gpsData_kalman hk).trans rfl)
      · rw [hu]
        split
        · exact ⟨rfl, rfl⟩
        · exact u.refresh_keeps _
    · exact ⟨hg2, rfl, rfl⟩
  · refine ⟨hg1.same ((gpsData_kalman hk).trans (by rw [h2]; rfl)), ?_⟩
    rw [hu]; exact u.refresh_keeps _

/-! ## Markers -/

theorem FidUpdater.refresh_keeps (u : FidUpdater K) (e : Ekf K) (f : FidState K) : (u.refresh e f).id = u.id ∧
    (u.refresh e f).cameraId = u.cameraId ∧ (u.refresh e f).isFidExtrinsic = u.isFidExtrinsic ∧
    (u.refresh e f).isCamExtrinsic = u.isCamExtrinsic := by
  unfold refresh; split <;> exact ⟨rfl, rfl, rfl, rfl⟩

theorem FidUpdater.jacobianOf_sized (N : Num K) {u : FidUpdater K} {e : Ekf K} {f : FidState K} (h18 : 18 ≤ e.stateSize)
    (hc : u.isCamExtrinsic = true → (u.camOf e).index + 6 ≤ e.stateSize)
    (hf : u.isFidExtrinsic = true → f.index + 6 ≤ e.stateSize) :
    ∃ J, u.jacobianOf N e f = .ok J ∧ J.rows = 6 ∧ J.cols = e.stateSize := by
  have blk : ∀ (m t : Mat K) (i j : Nat), m.rows = 6 → m.cols = e.stateSize → t.rows = 3 → t.cols = 3 → i + 3 ≤ 6 →
      j + 3 ≤ e.stateSize → ∃ o, m.setBlock i j 3 3 t = .ok o ∧ o.rows = 6 ∧ o.cols = e.stateSize := by
    intro m t i j h1 h2 h3 h4 h5 h6
    obtain ⟨o, g1, g2, g3⟩ := setBlock_sized (m := m) (t := t) (i := i) (j := j) (p := 3) (q := 3) ⟨by omega, by omega⟩ ⟨h3, h4⟩
    exact ⟨o, g1, by omega, by omega⟩
  have last : ∀ J : Mat K, J.rows = 6 → J.cols = e.stateSize → ∃ J', (if u.isFidExtrinsic = true then do
      let jac ← J.setBlock 0 (f.index + 0) 3 3 (M3.toMat 1)
      jac.setBlock 3 (f.index + 3) 3 3 (M3.toMat 1)
    else pure J : Res (Mat K)) = .ok J' ∧ J'.rows = 6 ∧ J'.cols = e.stateSize := by
    intro J hJr hJc
    by_cases h : u.isFidExtrinsic = true
    · have := hf h
      rw [if_pos h]
      obtain ⟨J5, q5, r5, c5⟩ := blk J (M3.toMat 1) 0 (f.index + 0) hJr hJc rfl rfl (by omega) (by omega)
      obtain ⟨J6, q6, r6, c6⟩ := blk J5 (M3.toMat 1) 3 (f.index + 3) r5 c5 rfl rfl (by omega) (by omega)
      rw [q5, ok_bind, q6]
      exact ⟨J6, rfl, r6, c6⟩
    · rw [if_neg h]
      exact ⟨J, rfl, hJr, hJc⟩
  have cams : ∀ (J A B C : Mat K), J.rows = 6 → J.cols = e.stateSize → (A.rows = 3 ∧ A.cols = 3) → (B.rows = 3 ∧ B.cols = 3) →
      (C.rows = 3 ∧ C.cols = 3) → u.isCamExtrinsic = true → ∃ J', (do
      let jac ← J.setBlock 0 ((u.camOf e).index + 0) 3 3 A
      let jac ← jac.setBlock 0 ((u.camOf e).index + 3) 3 3 B
      jac.setBlock 3 ((u.camOf e).index + 3) 3 3 C : Res (Mat K)) = .ok J' ∧ J'.rows = 6 ∧ J'.cols = e.stateSize := by
    intro J A B C hJr hJc hA hB hC h
    have := hc h
    obtain ⟨J5, q5, r5, c5⟩ := blk J A 0 ((u.camOf e).index + 0) hJr hJc hA.1 hA.2 (by omega) (by omega)
    obtain ⟨J6, q6, r6, c6⟩ := blk J5 B 0 ((u.camOf e).index + 3) r5 c5 hB.1 hB.2 (by omega) (by omega)
    obtain ⟨J7, q7, r7, c7⟩ := blk J6 C 3 ((u.camOf e).index + 3) r6 c6 hC.1 hC.2 (by omega) (by omega)
    rw [q5, ok_bind, q6, ok_bind, q7]
    exact ⟨J7, rfl, r7, c7⟩
  unfold jacobianOf
  dsimp only
  obtain ⟨J1, q1, r1, c1⟩ := blk (Mat.zero 6 e.stateSize)
    (M3.toMat (-(u.angC.toMat.transpose * e.state.body.ang.toMat.transpose))) 0 0 rfl rfl rfl rfl (by omega) (by omega)
  rw [q1, ok_bind]
  obtain ⟨J2, q2, r2, c2⟩ := blk J1 (M3.toMat (u.angC.toMat.transpose * e.state.body.ang.toMat.transpose *
    skew (u.posF - e.state.body.pos) * (N.quatJac e.state.body.ang).transpose)) 0 9 r1 c1 rfl rfl (by omega) (by omega)
  rw [q2, ok_bind]
  obtain ⟨J3, q3, r3, c3⟩ := blk J2 (M3.toMat (-(u.angC.toMat.transpose * e.state.body.ang.toMat.transpose) * u.angF.toMat *
    (N.quatJac e.state.body.ang).transpose)) 3 9 r2 c2 rfl rfl (by omega) (by omega)
  rw [q3, ok_bind]
  by_cases h : u.isCamExtrinsic = true
  · rw [if_pos h]
    obtain ⟨J4, q4, r4, c4⟩ := cams J3 (M3.toMat (-u.angC.toMat.transpose))
      (M3.toMat (u.angC.toMat.transpose * skew (e.state.body.ang.toMat.transpose.mulVec (u.posF - e.state.body.pos) - u.posC) *
        (N.quatJac u.angC).transpose))
      (M3.toMat (-u.angC.toMat.transpose * (N.quatJac u.angC).transpose * e.state.body.ang.toMat.transpose * u.angF.toMat))
      r3 c3 ⟨rfl, rfl⟩ ⟨rfl, rfl⟩ ⟨rfl, rfl⟩ h
    obtain ⟨J5, q5, g5⟩ := last J4 r4 c4
    refine ⟨J5, ?_, g5⟩
    simp only [bind_ok_iff] at q4 ⊢
    obtain ⟨x, hx, y, hy, hz⟩ := q4
    exact ⟨x, hx, y, hy, J4, hz, q5⟩
  · rw [if_neg h, pure_res, ok_bind]
    exact last J3 r3 c3

theorem fid_columns {s : State K} {n : Nat} (h : Tiles s.blocks 0 n) {k : Nat} {f : FidState K}
    (hf : s.fids.find? k = some f) (he : f.isExtrinsic = true) : 18 ≤ f.index ∧ f.index + 6 ≤ n := by
  obtain ⟨a, b, c, d, h1, h2, h3, h4, h5, _⟩ := State.tiles_kinds h
  have := h1.le'; have := h2.le'; have := h3.le'; have := h4.le'; have := h5.le'
  have := h4.mem_bounds (mem_mapBlocks (blocks := FidState.blocks) hf (x := (f.index, 6)) (by simp [FidState.blocks, he]))
  dsimp only at this
  omega

theorem FidUpdater.update_defined (N : Num K) {u : FidUpdater K} {e : Ekf K} (hr : Ready e) (hf : u.Fits e.state) (time : K)
    (d : BoardDetection K) : ∃ r, u.update N e time d = .ok r := by
  have hv0 : Via N.toPrim (fun _ => True) e (e.calculateLocalTime time).2 := Via.localTime e time
  obtain ⟨e1, h1, hr1, hfl⟩ := (hv0.ready hr).predict (N := N.toPrim) (e.calculateLocalTime time).1
  obtain ⟨e2, h2⟩ : ∃ z, z = (e1.getCamState u.cameraId).2 := ⟨_, rfl⟩
  have hv2 : Via N.toPrim (fun _ => True) e1 e2 := h2 ▸ Via.getCam e1 _
  have hr2 := hv2.ready hr1
  have hf2 : u.Fits e2.state := hf.mono ((hv0.flags.trans hfl).trans hv2.flags) rfl rfl rfl rfl
  obtain ⟨⟨f, f1, f2⟩, f3⟩ := hf2
  unfold update
  dsimp only
  rw [h1, ok_bind]
  simp only [← h2, f1]
  obtain ⟨k1, k2, k3, k4⟩ := u.refresh_keeps e2 f
  obtain ⟨J, hJ, jr, jc⟩ := jacobianOf_sized N (u := u.refresh e2 f) (e := e2) (f := f) hr2.size
    (fun hx => by
      rw [k4] at hx
      obtain ⟨c, c1, c2⟩ := f3 hx
      have : (u.refresh e2 f).camOf e2 = c := by simp only [camOf, k2, UMap.getD, c1, Option.getD_some]
      rw [this]; exact (cam_columns hr2.inv.tiles c1 c2).2)
    (fun hx => by
      rw [k3] at hx
      exact (fid_columns hr2.inv.tiles f1 (f2 hx)).2)
  obtain ⟨R, hR, rr, rc⟩ : ∃ R, noiseOf d = .ok R ∧ R.rows = 6 ∧ R.cols = 6 := ⟨_, rfl, rfl, rfl⟩
  obtain ⟨e3, h3⟩ := hr2.kalman (N := N.toPrim) (J := J) (R := R) (r := Vec.of6 (d.pos - ((u.refresh e2 f).predictOf N e2).1)
      (N.quatToRotVec ((N.rotVecToQuat ((u.refresh e2 f).predictOf N e2).2).mul d.ang.inverse))) jc (rr.trans jr.symm)
      (rc.trans jr.symm) jr.symm
  rw [hJ, ok_bind, hR, ok_bind, h3, ok_bind]
  exact ⟨_, rfl⟩

/-! ## Tracks -/

theorem foldl_frame_mem (f : Nat) : ∀ (w : List (AugState K)) (acc : AugState K),
    w.foldl (fun acc a => if a.frameId = f then a else acc) acc = acc ∨
    w.foldl (fun acc a => if a.frameId = f then a else acc) acc ∈ w
  | [], acc => .inl rfl
  | a :: w, acc => by
    simp only [List.foldl_cons]
    rcases foldl_frame_mem f w (if a.frameId = f then a else acc) with h | h
    · rw [h]
      split
      · exact .inr (List.mem_cons_self ..)
      · exact .inl rfl
    · exact .inr (List.mem_cons_of_mem _ h)

theorem bracket_mem (t : K) : ∀ (w : List (AugState K)) (acc r : K × AugState K × AugState K), bracket t w acc = .ok r →
    r.2.1 = acc.2.1 ∨ r.2.1 ∈ w
  | [], acc, r, h => by cases h; exact .inl rfl
  | [a], acc, r, h => by cases h; exact .inl rfl
  | a :: b :: rest, acc, r, h => by
    unfold bracket at h
    split at h
    · split at h
      · cases h
      · rcases bracket_mem t (b :: rest) _ r h with g | g
        · exact .inr (by rw [g]; exact List.mem_cons_self ..)
        · exact .inr (List.mem_cons_of_mem _ g)
    · rcases bracket_mem t (b :: rest) _ r h with g | g
      · exact .inl g
      · exact .inr (List.mem_cons_of_mem _ g)

/-- Whatever pose a query finds, its columns exist. -/
theorem pose_index {N : Prim K} {e : Ekf K} (hr : Ready e) {cam : Nat} {p : FeaturePoint K} {a : AugState K}
    (h : e.poseFor N cam p = .ok a) : a.index + 6 ≤ e.stateSize := by
  have h18 := hr.size
  have inW : ∀ {k : Nat} {b : AugState K}, b ∈ e.state.augs.getD k [] → b.index + 6 ≤ e.stateSize :=
    fun hb => (clone_bounds hr.inv.tiles hb).2
  have hd : (AugState.default : AugState K).index = 0 := rfl
  obtain ⟨e', hg, _⟩ := getAug_of_pose h
  unfold getAugState at hg
  split at hg
  · cases hg
    unfold findFrame
    rcases foldl_frame_mem p.frameId (e.state.augs.getD cam []) AugState.default with h1 | h1
    · rw [h1]; omega
    · exact inW h1
  · obtain ⟨b, hb, hg⟩ := bind_ok_iff.1 hg
    cases hg
    unfold interpolateClone at hb
    split at hb
    · rename_i first last h1 h2
      split at hb
      · cases hb
        exact inW (b := first) (List.mem_of_mem_head? h1)
      · split at hb
        · obtain ⟨⟨al, a0, a1⟩, h3, hb⟩ := bind_ok_iff.1 hb
          cases hb
          show a0.index + 6 ≤ _
          rcases bracket_mem _ _ _ _ h3 with g | g
          · dsimp only at g; rw [g]; omega
          · exact inW g
        · split at hb
          · cases hb
          · cases hb
            exact inW (b := last) (List.mem_of_getLast? h2)
    · cases hb

theorem triangulate_defined (N : Num K) (u : MsckfUpdater K) (e : Ekf K) (f : FeatureTrack K) (hne : f.track ≠ [])
    (ht : u.useTruth = true → ∃ F, f.truth = some F) (h : ∀ p ∈ f.track, ∃ a, e.poseFor N.toPrim u.id p = .ok a) :
    ∃ ok F e', u.triangulate N e f = .ok (ok, some F, e') ∧ e.Looked e' := by
  cases hu : u.useTruth with
  | true =>
    obtain ⟨F, hF⟩ := ht hu
    obtain ⟨e', h1, h2⟩ := triangulate_truth N u e f hu hne h
    exact ⟨true, F, e', by rw [h1, hF], h2⟩
  | false =>
    have key : ∃ r, u.triangulate N e f = .ok r := by
      unfold MsckfUpdater.triangulate
      cases ht : f.track with
      | nil => exact absurd ht hne
      | cons p0 ps =>
        rw [ht] at h
        obtain ⟨a0, ha0⟩ := h p0 (List.mem_cons_self ..)
        obtain ⟨e1, h1, hl⟩ := getAug_of_pose ha0
        dsimp only
        rw [h1, ok_bind]
        dsimp only
        obtain ⟨A, b, e2, h2⟩ := triangulateLoop_defined N u a0 (p0 :: ps) e1 0 0 fun q hq => by
          obtain ⟨c, hc⟩ := h q hq
          exact ⟨c, by rw [poseFor_looked N.toPrim hl]; exact hc⟩
        rw [h2, ok_bind]
        dsimp only
        rw [hu]
        split <;> exact ⟨_, rfl⟩
    obtain ⟨⟨b, q, e'⟩, hr⟩ := key
    obtain ⟨_, _, _, _, _, hl, _, _, _, z, _, _, hz⟩ := triangulate_form hr
    dsimp only at hz hl
    rcases hz hu with ⟨_, _, hq⟩ | ⟨_, _, hq⟩
    · rw [hq] at hr; exact ⟨b, _, e', hr, hl⟩
    · rw [hq] at hr; exact ⟨b, _, e', hr, hl⟩

/-- Usable tracks are processed up to the correction, and the stack keeps its size. -/
theorem featureLoop_sized (N : Num K) (u : MsckfUpdater K) (n cam : Nat) (h6 : 18 ≤ n) (h4 : u.isCamExtrinsic = true → cam + 6 ≤ n)
    (fs : List (FeatureTrack K)) :
    ∀ (e : Ekf K) (ct : Nat) (H : Mat K) (r : Vec K),
      (∀ f ∈ fs, 2 ≤ f.track.length ∧ (u.useTruth = true → ∃ F, f.truth = some F) ∧
        ∀ p ∈ f.track, ∃ a, e.poseFor N.toPrim u.id p = .ok a ∧ a.index + 6 ≤ n) →
      ct + (fs.map fun f => 2 * f.track.length).sum ≤ H.rows → H.cols = n → H.rows = r.size →
      ∃ out, u.featureLoop N n cam fs e ct H r = .ok out ∧ out.2.2.1.rows = H.rows ∧ out.2.2.1.cols = n ∧
        out.2.2.2.size = H.rows ∧ e.Looked out.1 := by
  induction fs with
  | nil => intro e ct H r _ _ hc hs; exact ⟨_, rfl, rfl, hc, hs.symm, .refl _⟩
  | cons f fs ih =>
    intro e ct H r h hr hcols hsz
    simp only [List.map_cons, List.sum_cons] at hr
    obtain ⟨hlen, hF, hp⟩ := h f (List.mem_cons_self ..)
    obtain ⟨ok, F, e1, h1, hl1⟩ := triangulate_defined N u e f (by intro h0; rw [h0] at hlen; simp at hlen) hF
      (fun p hpt => by obtain ⟨a, ha, _⟩ := hp p hpt; exact ⟨a, ha⟩)
    unfold MsckfUpdater.featureLoop
    rw [h1, ok_bind]
    dsimp only
    cases ok with
    | false =>
      rw [if_pos rfl]
      obtain ⟨out, ho, o1, o2, o3, o4⟩ := ih e1 ct H r (fun g hg => by
        obtain ⟨z1, z2, z3⟩ := h g (List.mem_cons_of_mem _ hg)
        refine ⟨z1, z2, fun p hpt => ?_⟩
        obtain ⟨a, ha, hi⟩ := z3 p hpt
        exact ⟨a, by rw [poseFor_looked N.toPrim hl1]; exact ha, hi⟩) (by omega) hcols hsz
      exact ⟨out, ho, o1, o2, o3, hl1.trans o4⟩
    | true =>
      rw [if_neg Bool.false_ne_true.symm]
      obtain ⟨⟨e2, Hf, Hc, res⟩, h2, s1, s2, s3⟩ := observeLoop_sized N u n cam F h6 h4 f.track 0 e1 (Mat.zero (2 * f.track.length) 3)
        (Mat.zero (2 * f.track.length) n) ⟨2 * f.track.length, fun _ => 0⟩
        (fun p hpt => by obtain ⟨a, ha, hi⟩ := hp p hpt; exact ⟨a, by rw [poseFor_looked N.toPrim hl1]; exact ha, hi⟩)
        (by show _ ≤ 2 * f.track.length; omega) ⟨by show _ ≤ 2 * f.track.length; omega, le_refl 3⟩
        ⟨by show _ ≤ 2 * f.track.length; omega, rfl⟩
      dsimp only [Mat.zero] at s1 s2 s3
      obtain ⟨⟨Hp, rp⟩, h3⟩ := C36_defined N Hf Hc res (by omega) (by omega) (by omega)
      obtain ⟨_, _, _, q1, q2, q3, _⟩ := nullspace_form h3
      dsimp only at q1 q2 q3
      have hl2 := observeLoop_looked _ h2
      obtain ⟨H1, k1, m1⟩ := setBlock_sized (m := H) (i := ct) (j := 0) (p := Hp.rows) (q := Hp.cols) (t := Hp)
        ⟨by omega, by omega⟩ ⟨rfl, rfl⟩
      obtain ⟨out, ho, o1, o2, o3, o4⟩ := ih e2 (ct + Hp.rows) H1
        ⟨r.size, fun k => if ct ≤ k ∧ k < ct + rp.size then rp.get (k - ct) else r.get k⟩
        (fun g hg => by
          obtain ⟨z1, z2, z3⟩ := h g (List.mem_cons_of_mem _ hg)
          refine ⟨z1, z2, fun p hpt => ?_⟩
          obtain ⟨a, ha, hi⟩ := z3 p hpt
          exact ⟨a, by rw [poseFor_looked N.toPrim (hl1.trans hl2)]; exact ha, hi⟩) (by omega) (by omega) (by show _ = r.size; omega)
      refine ⟨out, ?_, by omega, o2, by omega, (hl1.trans hl2).trans o4⟩
      rw [h2, ok_bind]
      dsimp only
      rw [h3, ok_bind]
      dsimp only
      rw [k1, ok_bind, guardUB_true (by omega), ok_bind]
      exact ho

theorem MsckfUpdater.refresh_keeps (u : MsckfUpdater K) (e : Ekf K) (i : Intrinsics K) : (u.refresh e i).id = u.id ∧
    (u.refresh e i).isCamExtrinsic = u.isCamExtrinsic ∧ (u.refresh e i).useTruth = u.useTruth := by
  unfold refresh; split <;> exact ⟨rfl, rfl, rfl⟩

theorem MsckfUpdater.process_defined (N : Num K) {u : MsckfUpdater K} {e : Ekf K} (hr : Ready e) (hf : u.Fits e.state)
    {fs : List (FeatureTrack K)} (h : ∀ f ∈ fs, f.Usable u e) (px : K) :
    ∃ e', u.process N e fs px = .ok e' ∧ e'.gpsData = e.gpsData := by
  obtain ⟨⟨e1, ct, H, r⟩, h1, s1, s2, s3, hl⟩ := featureLoop_sized N u e.stateSize (u.camOf e).index hr.size
    (fun hx => by
      obtain ⟨c, c1, c2⟩ := hf hx
      have : u.camOf e = c := by simp only [camOf, UMap.getD, c1, Option.getD_some]
      rw [this]; exact (cam_columns hr.inv.tiles c1 c2).2)
    fs e 0 (Mat.zero ((fs.map fun f => 2 * f.track.length).sum) e.stateSize) ⟨(fs.map fun f => 2 * f.track.length).sum, fun _ => 0⟩
    (fun f hm => by
      obtain ⟨z1, z2, z3⟩ := h f hm
      refine ⟨z1, z2, fun p hp => ?_⟩
      obtain ⟨⟨a, e'⟩, ha⟩ := getAug_defined N.toPrim e u.id p.frameId p.time (z3 p hp)
      have := getAugState_pose ha
      exact ⟨a, this, pose_index hr this⟩)
    (by show _ ≤ (fs.map fun f => 2 * f.track.length).sum; omega) rfl rfl
  dsimp only [Mat.zero] at s1 s2 s3 hl
  have hd : e1.gpsData = e.gpsData := by rw [hl.same]; rfl
  have hr1 : Ready e1 := (featureLoop_via (Q := fun _ => True) h1).ready hr
  have hn : e1.stateSize = e.stateSize := by rw [hl.same]
  unfold process
  dsimp only
  rw [h1, ok_bind]
  dsimp only
  split
  · exact ⟨_, rfl, hd⟩
  · obtain ⟨⟨J', r'⟩, h2, t1, t2⟩ := compress_sized N.toPrim H r (by omega)
    dsimp only at t1 t2
    rw [h2, ok_bind]
    dsimp only
    split
    · exact ⟨_, rfl, hd⟩
    · obtain ⟨e3, h3⟩ := hr1.kalman (N := N.toPrim) (J := J') (R := (Mat.identity r'.size r'.size).smul (max px (1 / 2) * max px (1 / 2)))
        (r := r') (by omega) t1 t1 t1
      exact ⟨e3, h3, (gpsData_kalman h3).trans hd⟩

theorem MsckfUpdater.update_defined (N : Num K) {u : MsckfUpdater K} {e : Ekf K} (hr : Ready e) (hf : u.Fits e.state) (time : K)
    (i : Intrinsics K) {fs : List (FeatureTrack K)} (h : ∀ e1, e.PredictedTo N.toPrim time e1 → ∀ f ∈ fs, f.Usable u e1) (px : K) :
    ∃ r, u.update N e time i fs px = .ok r ∧ r.2.gpsData = e.gpsData ∧ r.1.id = u.id ∧ r.1.isCamExtrinsic = u.isCamExtrinsic := by
  have hv0 : Via N.toPrim (fun _ => True) e (e.calculateLocalTime time).2 := Via.localTime e time
  obtain ⟨e1, h1, hr1, hfl⟩ := (hv0.ready hr).predict (N := N.toPrim) (e.calculateLocalTime time).1
  have hd := gpsData_predicted h1
  unfold update
  dsimp only
  rw [h1, ok_bind]
  split
  · exact ⟨_, rfl, hd, rfl, rfl⟩
  · obtain ⟨e2, h2⟩ : ∃ z, z = (e1.getCamState u.id).2 := ⟨_, rfl⟩
    have hv2 : Via N.toPrim (fun _ => True) e1 e2 := h2 ▸ Via.getCam e1 _
    have hr2 := hv2.ready hr1
    obtain ⟨k1, k2, k3⟩ := u.refresh_keeps e2 i
    have hf2 : (u.refresh e2 i).Fits e2.state := hf.mono ((hv0.flags.trans hfl).trans hv2.flags) k1 k2
    obtain ⟨e3, h3, hd3⟩ := process_defined N hr2 hf2 (fs := fs) (fun f hm => by
      obtain ⟨z1, z2, z3⟩ := h e1 h1 f hm
      refine ⟨z1, fun ht => z2 (k3 ▸ ht), fun p hp hc => ?_⟩
      rw [k1] at hc
      have hq := z3 p hp
      subst h2
      exact hq hc) px
    simp only [← h2, h3, ok_bind, pure_res]
    exact ⟨_, rfl, hd3.trans ((by rw [h2]; rfl : e2.gpsData = e1.gpsData).trans hd), k1, k2⟩

/-! ## The station -/

/-- What the station must satisfy for all safe events to have a defined effect. -/
structure Station.Ready (Legal : V3 K → Prop) (s : Station K) : Prop where
  filter : Ekf.Ready s.ekf
  gps : Ekf.GpsReady Legal s.ekf
  imus : ∀ k u, s.imus.find? k = some u → u.Fits s.ekf.state
  gpss : ∀ k u, s.gpss.find? k = some u → u.Fits s.ekf.state
  fids : ∀ k u, s.fids.find? k = some u → u.Fits s.ekf.state
  cams : ∀ k u, s.cams.find? k = some u → u.Fits s.ekf.state

theorem Station.ready_init (N : Num K) (Legal : V3 K → Prop) (p : EkfParams K) (hp : p.processNoise.size = 18)
    (hl : p.gpsInitType = .constant → Legal p.posEInG) : (Station.init N p).Ready Legal :=
  ⟨Ekf.ready_init N.toPrim p hp, ⟨rfl, rfl, fun h => hl (by simpa [Station.init, Ekf.init] using h)⟩,
    fun _ _ h => (by cases h), fun _ _ h => (by cases h), fun _ _ h => (by cases h), fun _ _ h => (by cases h)⟩

theorem find_new {V : Type} {m : UMap V} {k k' : Nat} {v w : V} {P : V → Prop} (h : ∀ k u, m.find? k = some u → P u) (hv : P v)
    (hw : (UMap.insert m k v).find? k' = some w) : P w := by
  by_cases hk : k' = k
  · subst hk
    rw [UMap.find?_insert_self] at hw
    cases hw; exact hv
  · rw [UMap.find?_insert_ne _ _ hk] at hw
    exact h _ _ hw

/-- An event that keeps its contract has a defined effect, after which the station is ready again. -/
theorem Station.step_defined {N : Num K} {G : GpsNum K} {Legal : V3 K → Prop} (hG : G.LegalLaw Legal) {s : Station K} {c : Call K}
    (hr : s.Ready Legal) (hc : c.Safe N G Legal s) : ∃ s', s.step N G c = .ok s' ∧ s'.Ready Legal := by
  have rest : ∀ {e' : Ekf K}, FlagsLE s.ekf.state e'.state →
      (∀ k u, s.imus.find? k = some u → u.Fits e'.state) ∧ (∀ k u, s.gpss.find? k = some u → u.Fits e'.state) ∧
      (∀ k u, s.fids.find? k = some u → u.Fits e'.state) ∧ (∀ k u, s.cams.find? k = some u → u.Fits e'.state) := fun hf =>
    ⟨fun k u h => (hr.imus k u h).mono hf rfl rfl rfl, fun k u h => (hr.gpss k u h).mono hf rfl rfl,
      fun k u h => (hr.fids k u h).mono hf rfl rfl rfl rfl, fun k u h => (hr.cams k u h).mono hf rfl rfl⟩
  cases c with
  | filter op =>
    obtain ⟨h1, h2, h3⟩ := hc
    obtain ⟨e', he⟩ := Ekf.step_defined (N := N.toPrim) hr.filter h1 h2
    obtain ⟨a, b, c, d⟩ := rest (flagsLE_step he)
    exact ⟨_, by simp only [step, he, ok_bind, pure_res]; rfl, Ekf.ready_step hr.filter h1 h2 he, hr.gps.step h3 he, a, b, c, d⟩
  | newImu k id ext int =>
    refine ⟨_, rfl, ?_⟩
    split
    · exact hr
    · exact ⟨hr.filter, hr.gps, fun _ _ h => find_new (P := fun u => u.Fits s.ekf.state) hr.imus hc h, hr.gpss, hr.fids, hr.cams⟩
  | newGps k id ext =>
    refine ⟨_, rfl, ?_⟩
    split
    · exact hr
    · exact ⟨hr.filter, hr.gps, hr.imus, fun _ _ h => find_new (P := fun u => u.Fits s.ekf.state) hr.gpss hc h, hr.fids, hr.cams⟩
  | newFid k id c fe ce =>
    refine ⟨_, rfl, ?_⟩
    split
    · exact hr
    · exact ⟨hr.filter, hr.gps, hr.imus, hr.gpss, fun _ _ h => find_new (P := fun u => u.Fits s.ekf.state) hr.fids hc h, hr.cams⟩
  | newCam k id ext d =>
    refine ⟨_, rfl, ?_⟩
    split
    · exact hr
    · exact ⟨hr.filter, hr.gps, hr.imus, hr.gpss, hr.fids, fun _ _ h => find_new (P := fun u => u.Fits s.ekf.state) hr.cams hc h⟩
  | imu k t a ac w wc =>
    cases hu : s.imus.find? k with
    | none => exact ⟨s, by simp only [step, hu]; rfl, hr⟩
    | some u =>
      obtain ⟨r, h⟩ := ImuUpdater.update_defined N hr.filter (hr.imus k u hu) t a ac w wc
      have hv : Via N.toPrim (fun _ => True) s.ekf r.2 := ImuUpdater.update_via h (fun _ _ => trivial) (fun _ _ => trivial)
      obtain ⟨_, _, _, hz, k1, _⟩ := ImuUpdater.update_form h
      obtain ⟨z1, z2, z3⟩ := ImuUpdater.zero_keeps hz
      rw [← k1] at z1 z2 z3
      obtain ⟨a', b, c, d⟩ := rest hv.flags
      exact ⟨_, by simp only [step, hu, h, ok_bind, pure_res]; rfl, hv.ready hr.filter, hr.gps.same (ImuUpdater.update_gpsData h),
        fun _ _ h => find_new (P := fun u : ImuUpdater => u.Fits r.2.state) a' ((hr.imus k u hu).mono hv.flags z1 z2 z3) h, b, c, d⟩
  | gps k t x cv =>
    obtain ⟨c1, c2, c3, c4⟩ := hc
    cases hu : s.gpss.find? k with
    | none => exact ⟨s, by simp only [step, hu]; rfl, hr⟩
    | some u =>
      obtain ⟨r, h⟩ := GpsUpdater.update_defined N hG hr.filter (hr.gpss k u hu) hr.gps t c1 ⟨c2, c3⟩ c4
      have hv : Via N.toPrim (fun _ => True) s.ekf r.2 := GpsUpdater.update_via h (fun _ => trivial) trivial
      obtain ⟨g, z1, z2⟩ := GpsUpdater.update_ready hr.gps (fun e1 y a1 a2 a3 => (c4 e1 y a1 a2 a3).2) h
      obtain ⟨a', b, c, d⟩ := rest hv.flags
      exact ⟨_, by simp only [step, hu, h, ok_bind, pure_res]; rfl, hv.ready hr.filter, g, a',
        fun _ _ h => find_new (P := fun u : GpsUpdater K => u.Fits r.2.state) b ((hr.gpss k u hu).mono hv.flags z1 z2) h, c, d⟩
  | fid k t dt =>
    cases hu : s.fids.find? k with
    | none => exact ⟨s, by simp only [step, hu]; rfl, hr⟩
    | some u =>
      obtain ⟨r, h⟩ := FidUpdater.update_defined N hr.filter (hr.fids k u hu) t dt
      have hv : Via N.toPrim (fun _ => True) s.ekf r.2 := FidUpdater.update_via h (fun _ _ => trivial)
      obtain ⟨e1, e2, f, jac, noise, p1, p2, p3, p4, _, _, p5⟩ := FidUpdater.update_form h
      obtain ⟨z1, z2, z3, z4⟩ := u.refresh_keeps e2 f
      rw [← p4] at z1 z2 z3 z4
      have g : r.2.gpsData = s.ekf.gpsData :=
        (gpsData_kalman p5).trans ((by rw [p2]; rfl : e2.gpsData = e1.gpsData).trans (gpsData_predicted p1))
      obtain ⟨a', b, c, d⟩ := rest hv.flags
      exact ⟨_, by simp only [step, hu, h, ok_bind, pure_res]; rfl, hv.ready hr.filter, hr.gps.same g, a', b,
        fun _ _ h => find_new (P := fun u : FidUpdater K => u.Fits r.2.state) c ((hr.fids k u hu).mono hv.flags z1 z2 z3 z4) h, d⟩
  | cam k t i fs px =>
    cases hu : s.cams.find? k with
    | none => exact ⟨s, by simp only [step, hu]; rfl, hr⟩
    | some u =>
      obtain ⟨r, h, g, z1, z2⟩ := MsckfUpdater.update_defined N hr.filter (hr.cams k u hu) t i (fun e1 h1 => hc u e1 hu h1) px
      have hv : Via N.toPrim (fun _ => True) s.ekf r.2 := MsckfUpdater.update_via h (fun _ => trivial)
      obtain ⟨a', b, c, d⟩ := rest hv.flags
      exact ⟨_, by simp only [step, hu, h, ok_bind, pure_res]; rfl, hv.ready hr.filter, hr.gps.same g, a', b, c,
        fun _ _ h => find_new (P := fun u : MsckfUpdater K => u.Fits r.2.state) d ((hr.cams k u hu).mono hv.flags z1 z2) h⟩

theorem Station.run_defined {N : Num K} {G : GpsNum K} {Legal : V3 K → Prop} (hG : G.LegalLaw Legal) :
    ∀ {cs : List (Call K)} {s : Station K}, s.Ready Legal → s.SafeHistory N G Legal cs → ∃ s', s.run N G cs = .ok s' ∧ s'.Ready Legal
  | [], s, hr, _ => ⟨s, rfl, hr⟩
  | c :: cs, s, hr, hc => by
    obtain ⟨s1, h1, hr1⟩ := step_defined hG hr hc.1
    obtain ⟨s2, h2, hr2⟩ := run_defined hG hr1 (hc.2 s1 h1)
    exact ⟨s2, by simp only [run, h1, ok_bind]; exact h2, hr2⟩

end EkfCal
