import Verif.Lemmas.Defined
import Verif.Spec.Safe

/-! # Every safe call is defined and keeps what later calls need -/

set_option linter.unusedSectionVars false
set_option linter.unusedSimpArgs false

namespace EkfCal
namespace Ekf
variable {K : Type} [Field K] [LinearOrder K]

theorem block_covers {c : Mat K} {n m : Nat} (h : c.Covers n) (hm : m = n) : c.block 0 0 m m = .ok ⟨m, m, fun a b => c.get (0 + a) (0 + b)⟩ := by
  subst hm; exact Mat.block_ok ⟨by have := h.1; omega, by have := h.2; omega⟩

theorem insert_defined (sub m : Mat K) (p : Nat) (h1 : p ≤ m.rows) (h2 : p ≤ m.cols) : ∃ out, insertInMatrix sub m p p = .ok out :=
  (insertInMatrix_ok_iff sub m p p).2 ⟨h1, h2⟩

theorem registerIMU_defined (N : Prim K) (e : Ekf K) (id : Nat) (s : ImuState K) (c : Mat K) (hi : Inv e)
    (hn : e.bodyProcessNoise.size = 18) (hw : s.WF) (hc : (e.state.imus.find? id).isSome = true ∨ c.Covers s.dim) :
    ∃ e', registerIMU N e id s c = .ok e' := by
  unfold registerIMU
  split
  · exact ⟨_, rfl⟩
  · rename_i hf
    have hcov : c.Covers s.dim := by rcases hc with hc | hc; exact absurd hc hf; exact hc
    have hnone : e.state.imus.find? id = none := by simpa using hf
    have hsz := hi.size
    have him := hi.imu
    have hcr := hi.covRows
    have hcc := hi.covCols
    unfold State.dim at hsz
    have hd := UMap.mapDim_insert (m := e.state.imus) ImuState.dim id s ImuState.default rfl hi.sorted.imus
    rw [show UMap.getD e.state.imus id ImuState.default = ImuState.default by simp [UMap.getD, hnone]] at hd
    have hd0 : ImuState.dim (ImuState.default : ImuState K) = 0 := rfl
    rw [hd0] at hd
    have hb := block_covers hcov hw
    obtain ⟨out, ho⟩ := insert_defined (⟨s.size, s.size, fun a b => c.get (0 + a) (0 + b)⟩ : Mat K) e.cov (bodySize + e.imuStateSize)
      (by simp only [bodySize]; omega) (by simp only [bodySize]; omega)
    cases he : s.isExtrinsic <;> cases hn' : s.isIntrinsic <;>
      simp only [he, hn', Bool.or_false, Bool.or_true, Bool.false_eq_true, if_false, if_true, pure_res, ok_bind, hb, ho] <;>
      exact refresh_defined N _ (by simp only [State.dim, ImuState.dim, he, hn', if_true, Bool.false_eq_true, if_false, imuExtSize, imuIntSize] at *; omega) hn

theorem registerGPS_defined (N : Prim K) (e : Ekf K) (id : Nat) (s : GpsState K) (c : Mat K) (hi : Inv e)
    (hn : e.bodyProcessNoise.size = 18) (hw : s.WF) (hc : (e.state.gpss.find? id).isSome = true ∨ c.Covers s.dim) :
    ∃ e', registerGPS N e id s c = .ok e' := by
  unfold registerGPS
  split
  · exact ⟨_, rfl⟩
  · rename_i hf
    have hcov : c.Covers s.dim := by rcases hc with hc | hc; exact absurd hc hf; exact hc
    have hnone : e.state.gpss.find? id = none := by simpa using hf
    have hsz := hi.size
    have him := hi.imu
    have hgp := hi.gps
    have hcr := hi.covRows
    have hcc := hi.covCols
    unfold State.dim at hsz
    have hd := UMap.mapDim_insert (m := e.state.gpss) GpsState.dim id s GpsState.default rfl hi.sorted.gpss
    rw [show UMap.getD e.state.gpss id GpsState.default = GpsState.default by simp [UMap.getD, hnone]] at hd
    have hd0 : GpsState.dim (GpsState.default : GpsState K) = 0 := rfl
    rw [hd0] at hd
    have hb := block_covers hcov hw
    obtain ⟨out, ho⟩ := insert_defined (⟨s.size, s.size, fun a b => c.get (0 + a) (0 + b)⟩ : Mat K) e.cov (bodySize + e.imuStateSize + e.gpsStateSize)
      (by simp only [bodySize]; omega) (by simp only [bodySize]; omega)
    cases he : s.isExtrinsic <;>
      simp only [he, Bool.false_eq_true, if_false, if_true, pure_res, ok_bind, hb, ho] <;>
      exact refresh_defined N _ (by simp only [State.dim, GpsState.dim, he, if_true, Bool.false_eq_true, if_false, gpsExtSize] at *; omega) hn

theorem registerFiducial_defined (N : Prim K) (e : Ekf K) (s : FidState K) (c : Mat K) (hi : Inv e)
    (hn : e.bodyProcessNoise.size = 18) (hw : s.WF) (hc : (e.state.fids.find? s.id).isSome = true ∨ c.Covers s.dim) :
    ∃ e', registerFiducial N e s c = .ok e' := by
  unfold registerFiducial
  split
  · exact ⟨_, rfl⟩
  · rename_i hf
    have hcov : c.Covers s.dim := by rcases hc with hc | hc; exact absurd hc hf; exact hc
    have hnone : e.state.fids.find? s.id = none := by simpa using hf
    have hsz := hi.size
    have hcr := hi.covRows
    have hcc := hi.covCols
    unfold State.dim at hsz
    have hd := UMap.mapDim_insert (m := e.state.fids) FidState.dim s.id s ⟨0, 0, Quat.one, 0, 0, 0, 0, 0, false⟩ rfl hi.sorted.fids
    rw [show UMap.getD e.state.fids s.id ⟨0, 0, Quat.one, 0, 0, 0, 0, 0, false⟩ = ⟨0, 0, Quat.one, 0, 0, 0, 0, 0, false⟩ by simp [UMap.getD, hnone]] at hd
    have hd0 : FidState.dim (⟨0, 0, Quat.one, 0, 0, 0, 0, 0, false⟩ : FidState K) = 0 := rfl
    rw [hd0] at hd
    have hb := block_covers hcov hw
    obtain ⟨out, ho⟩ := insert_defined (⟨s.size, s.size, fun a b => c.get (0 + a) (0 + b)⟩ : Mat K) e.cov e.stateSize
      (by omega) (by omega)
    cases he : s.isExtrinsic <;>
      simp only [he, Bool.false_eq_true, if_false, if_true, pure_res, ok_bind, hb, ho] <;>
      exact refresh_defined N _ (by simp only [State.dim, FidState.dim, he, if_true, Bool.false_eq_true, if_false, fidExtSize] at *; omega) hn

theorem registerCamera_defined (N : Prim K) (e : Ekf K) (id : Nat) (s : CamState K) (c : Mat K) (hi : Inv e)
    (hn : e.bodyProcessNoise.size = 18) (hw : s.WF)
    (hc : (e.state.cams.find? id).isSome = true ∨ (s.rate ≠ 0 ∧ c.Covers s.dim)) :
    ∃ e', registerCamera N e id s c = .ok e' := by
  unfold registerCamera
  split
  · exact ⟨_, rfl⟩
  · rename_i hf
    obtain ⟨hrate, hcov⟩ : s.rate ≠ 0 ∧ c.Covers s.dim := by rcases hc with hc | hc; exact absurd hc hf; exact hc
    have hnone : e.state.cams.find? id = none := by simpa using hf
    have hsz := hi.size
    have him := hi.imu
    have hgp := hi.gps
    have hcm := hi.cam
    have hcr := hi.covRows
    have hcc := hi.covCols
    unfold State.dim at hsz
    have hd := UMap.mapDim_insert (m := e.state.cams) CamState.dim id s CamState.default rfl hi.sorted.cams
    rw [show UMap.getD e.state.cams id CamState.default = CamState.default by simp [UMap.getD, hnone]] at hd
    have hd0 : CamState.dim (CamState.default : CamState K) = 0 := rfl
    rw [hd0] at hd
    have hb := block_covers hcov hw
    obtain ⟨out, ho⟩ := insert_defined (⟨s.size, s.size, fun a b => c.get (0 + a) (0 + b)⟩ : Mat K) e.cov (bodySize + e.imuStateSize + e.gpsStateSize + e.camStateSize)
      (by simp only [bodySize]; omega) (by simp only [bodySize]; omega)
    rw [guardUB_true hrate]
    cases he : s.isExtrinsic <;> by_cases hp : e.primaryCameraId = 0 <;>
      simp only [he, hp, Bool.false_eq_true, if_false, if_true, pure_res, ok_bind, hb, ho] <;>
      exact refresh_defined N _ (by simp only [State.dim, CamState.dim, he, if_true, Bool.false_eq_true, if_false, camExtSize] at *; omega) hn

theorem bracket_defined (t : K) : ∀ (w : List (AugState K)) (acc : K × AugState K × AugState K), DistinctTimes w →
    ∃ r, bracket t w acc = .ok r
  | [], acc, _ => ⟨acc, rfl⟩
  | [a], acc, _ => ⟨acc, rfl⟩
  | a :: b :: rest, acc, h => by
    unfold bracket
    split
    · rw [if_neg (sub_ne_zero.2 h.1)]
      exact bracket_defined t (b :: rest) _ h.2
    · exact bracket_defined t (b :: rest) _ h.2

theorem getAug_defined (N : Prim K) (e : Ekf K) (cam frame : Nat) (t : K) (h : ¬ e.ClonesFrame cam → e.QuerySafe t) :
    ∃ r, getAugState N e cam frame t = .ok r := by
  unfold getAugState
  split
  · exact ⟨_, rfl⟩
  · rename_i hc
    obtain ⟨first, last, h1, h2, h3⟩ := h hc
    have h1' : (UMap.getD e.state.augs (if e.augType = .primary then e.primaryCameraId else 0) []).head? = some first := h1
    have h2' : (UMap.getD e.state.augs (if e.augType = .primary then e.primaryCameraId else 0) []).getLast? = some last := h2
    suffices hs : ∃ a, interpolateClone N e (UMap.getD e.state.augs (if e.augType = .primary then e.primaryCameraId else 0) []) t = .ok a by
      obtain ⟨a, ha⟩ := hs
      simp only [ha, ok_bind]
      exact ⟨_, rfl⟩
    unfold interpolateClone
    rw [h1', h2']
    dsimp only
    by_cases c1 : t < first.time
    · rw [if_pos c1]; exact ⟨_, rfl⟩
    · rw [if_neg c1]
      rcases h3 with h3 | ⟨h3, h4⟩ | ⟨h3, h4⟩
      · exact absurd h3 c1
      · rw [if_pos h3]
        obtain ⟨r, hr⟩ := bracket_defined t _ (0, AugState.default, AugState.default) h4
        have hr' : bracket t (UMap.getD e.state.augs (if e.augType = .primary then e.primaryCameraId else 0) []) (0, AugState.default, AugState.default) = .ok r := hr
        rw [hr']
        exact ⟨_, rfl⟩
      · rw [if_neg (not_lt.2 h3), if_neg (sub_ne_zero.2 h4)]
        exact ⟨_, rfl⟩

theorem attemptGpsInit_defined (e : Ekf K) (t : K) (x : V3 K) (fit : List (V3 K) → List (V3 K) → GpsFit K)
    (h : (fit (e.gpsXyzVec ++ [e.state.body.pos]) (e.gpsEcefVec ++ [x])).angStd.isSome = true) :
    ∃ e', e.attemptGpsInit t x fit = .ok e' := by
  unfold attemptGpsInit
  dsimp only
  split
  · obtain ⟨a, ha⟩ := Option.isSome_iff_exists.1 h
    suffices hs : ∃ b, gpsAccept { e with
        gpsTimeVec := e.gpsTimeVec ++ [t]
        gpsEcefVec := e.gpsEcefVec ++ [x]
        gpsXyzVec := e.gpsXyzVec ++ [e.state.body.pos] } (fit (e.gpsXyzVec ++ [e.state.body.pos]) (e.gpsEcefVec ++ [x])) = .ok b by
      obtain ⟨b, hb⟩ := hs
      rw [hb, ok_bind]
      split <;> exact ⟨_, rfl⟩
    unfold gpsAccept
    rw [ha]
    split
    · exact ⟨_, rfl⟩
    · split <;> exact ⟨_, rfl⟩
  · exact ⟨_, rfl⟩

/-- What a filter must satisfy for all safe calls to be defined. -/
structure Ready (e : Ekf K) : Prop where
  inv : Inv e
  noise : e.bodyProcessNoise.size = 18
  prev : PrevOK e

theorem step_defined {N : Prim K} {e : Ekf K} {op : Op K} (hr : Ready e) (hw : op.WF) (hs : op.Safe e) :
    ∃ e', step N e op = .ok e' := by
  obtain ⟨hi, hn, hp⟩ := hr
  cases op with
  | registerIMU id s c => exact registerIMU_defined N e id s c hi hn hw hs
  | registerGPS id s c => exact registerGPS_defined N e id s c hi hn hw hs
  | registerCamera id s c => exact registerCamera_defined N e id s c hi hn hw hs
  | registerFiducial s c => exact registerFiducial_defined N e s c hi hn hw hs
  | predict t => exact predict_defined N e t hi hn hp
  | frame c f => exact augmentFrame_defined N e c f hi hn hs
  | kalman j r n => exact kalman_defined N e j r n hi hs.1 hs.2.1 hs.2.2.1 hs.2.2.2
  | getAug c f t =>
    obtain ⟨r, h⟩ := getAug_defined N e c f t hs
    exact ⟨r.2, by simp only [step, h, ok_bind, pure_res]⟩
  | attemptGpsInit t x f => exact attemptGpsInit_defined e t x f hs
  | _ => exact ⟨_, rfl⟩

theorem window_nil_iff {e : Ekf K} {k : Nat} : e.window k = [] ↔ e.stamps k = [] := by
  simp [stamps]

theorem prev_of {e e' : Ekf K} (hp : PrevOK e) (h1 : e'.augType = e.augType) (h2 : e'.stamps 0 = e.stamps 0)
    (h3 : e'.augPrevTime = e.augPrevTime) : PrevOK e' := by
  intro ht hw
  rw [h3]
  refine hp (h1 ▸ ht) ?_
  rw [Ne, window_nil_iff, ← h2, ← window_nil_iff]
  exact hw

theorem prevTime_refresh {N : Prim K} {e e' : Ekf K} (h : refreshIndices N e = .ok e') : e'.augPrevTime = e.augPrevTime := by
  rw [(refreshIndices_frame h).1]

theorem step_prev {N : Prim K} {e e' : Ekf K} {op : Op K} (hp : PrevOK e) (h : step N e op = .ok e') : PrevOK e' := by
  have gen : (∀ t, op ≠ .predict t) → (∀ c f, op ≠ .frame c f) → e'.augType = e.augType →
      e'.augPrevTime = e.augPrevTime → PrevOK e' := fun h1 h2 h3 h4 => prev_of hp h3 (stamps_step h h1 h2 0) h4
  cases op with
  | registerIMU id s c =>
    refine gen (by simp) (by simp) (frame2_registerIMU h).augType ?_
    rcases registerIMU_form h with ⟨_, rfl⟩ | ⟨_, _, _, h⟩
    · rfl
    · have := prevTime_refresh h; exact this
  | registerGPS id s c =>
    refine gen (by simp) (by simp) (frame2_registerGPS h).augType ?_
    rcases registerGPS_form h with ⟨_, rfl⟩ | ⟨_, _, _, h⟩
    · rfl
    · have := prevTime_refresh h; exact this
  | registerCamera id s c =>
    refine gen (by simp) (by simp) (frame_registerCamera h).augType ?_
    rcases registerCamera_form h with ⟨_, rfl⟩ | ⟨_, _, _, _, h⟩
    · rfl
    · have := prevTime_refresh h; exact this
  | registerFiducial s c =>
    refine gen (by simp) (by simp) (frame2_registerFiducial h).augType ?_
    rcases registerFiducial_form h with ⟨_, rfl⟩ | ⟨_, _, _, h⟩
    · rfl
    · have := prevTime_refresh h; exact this
  | predict t =>
    rcases records_predict h with ⟨_, rfl⟩ | ⟨_, b, out, hr, h⟩
    · exact hp
    · rcases records_timed h with ⟨hnt, rfl⟩ | ⟨hty, _, due, _, h'⟩
      · intro ht; exact absurd (Or.inl ht) hnt
      · rcases h' with ⟨_, h1, _, h2⟩ | ⟨_, h1, _, _⟩
        · intro ht hw
          rw [h1]
          refine hp ?_ ?_
          · have := (frame2_augmentTimed h).augType
            rw [this] at ht; exact ht
          · intro h0
            have hr0 := hr 0
            have e0 : e.records 0 = [] := by unfold records; rw [h0]; rfl
            rw [hr0, e0] at h2
            have : e'.records 0 = [] := h2
            unfold records at this
            exact hw (List.map_eq_nil_iff.1 this)
        · intro _ _; rw [h1]; simp
  | frame c f =>
    have hf := (frame2_augmentFrame h).augType
    intro ht hw
    rw [hf] at ht
    rcases augmentFrame_form h with ⟨_, rfl⟩ | ⟨hc, _⟩
    · exact hp ht hw
    · rw [ht] at hc; simp at hc
  | kalman j r n =>
    refine gen (by simp) (by simp) (frame2_kalman h).augType ?_
    obtain ⟨_, _, _, rfl, _⟩ := kalmanUpdate_form h
    rfl
  | getAug c f t =>
    have h' := h
    simp only [step, bind_ok_iff, pure_res, Except.ok.injEq] at h'
    obtain ⟨r, h1, rfl⟩ := h'
    refine gen (by simp) (by simp) (frame2_getAug h1).augType ?_
    obtain ⟨key, hk⟩ := getAugState_form h1
    rw [hk]
  | attemptGpsInit t x f =>
    obtain ⟨_, _, _, _, rfl⟩ := attemptGpsInit_form h
    exact hp
  | localTime t =>
    simp only [step, Except.ok.injEq] at h
    subst h
    unfold calculateLocalTime
    split <;> exact hp
  | getImu id => cases h; exact hp
  | getGps id => cases h; exact hp
  | getCam id => cases h; exact hp
  | initializeAt t b => cases h; exact hp
  | setMaxTrackLength n => cases h; exact hp
  | setGpsReference p a => cases h; exact hp
  | setZeroAcceleration b => cases h; exact hp
  | initializeGravity => cases h; exact hp
  | setBodyProcessNoise v => cases h; exact hp
  | setBodyMotion a w α => cases h; exact hp

theorem step_noise {N : Prim K} {e e' : Ekf K} {op : Op K} (hn : e.bodyProcessNoise.size = 18) (hs : op.Safe e)
    (h : step N e op = .ok e') : e'.bodyProcessNoise.size = 18 := by
  have h3 := step_frame h
  have fr : Frame e e' → e'.bodyProcessNoise.size = 18 := fun f => by rw [f.bodyNoise]; exact hn
  cases op with
  | predict t =>
    simp only [StepFrame] at h3
    split at h3
    · subst h3; exact hn
    · rw [h3.bodyNoise]; exact hn
  | initializeAt t b => cases h3; exact hn
  | setMaxTrackLength n => cases h3; exact hn
  | setGpsReference p a => cases h3; exact hn
  | setZeroAcceleration b => cases h3; exact hn
  | initializeGravity => cases h3; exact hn
  | localTime t =>
    cases h3
    unfold calculateLocalTime
    split <;> exact hn
  | setBodyProcessNoise v => cases h3; exact hs
  | attemptGpsInit t x f =>
    obtain ⟨_, _, _, _, rfl⟩ := attemptGpsInit_form h3
    exact hn
  | registerIMU _ _ _ => exact fr h3
  | registerGPS _ _ _ => exact fr h3
  | registerCamera _ _ _ => exact fr h3
  | registerFiducial _ _ => exact fr h3
  | frame _ _ => exact fr h3
  | kalman _ _ _ => exact fr h3
  | getImu _ => exact fr h3
  | getGps _ => exact fr h3
  | getCam _ => exact fr h3
  | getAug _ _ _ => exact fr h3
  | setBodyMotion _ _ _ => exact fr h3

theorem ready_init (N : Prim K) (p : EkfParams K) (hp : p.processNoise.size = 18) : Ready (init N p) :=
  ⟨inv_init N p, hp, fun _ h => absurd rfl h⟩

theorem ready_step {N : Prim K} {e e' : Ekf K} {op : Op K} (hr : Ready e) (hw : op.WF) (hs : op.Safe e)
    (h : step N e op = .ok e') : Ready e' :=
  ⟨inv_step hr.inv hw h, step_noise hr.noise hs h, step_prev hr.prev h⟩

theorem run_defined {N : Prim K} {ops : List (Op K)} {e : Ekf K} (hr : Ready e) (hs : SafeHistory N e ops) :
    ∃ e', run N e ops = .ok e' ∧ Ready e' := by
  induction ops generalizing e with
  | nil => exact ⟨e, rfl, hr⟩
  | cons op ops ih =>
    obtain ⟨hw, hs1, hs2⟩ := hs
    obtain ⟨e1, h1⟩ := step_defined (N := N) hr hw hs1
    obtain ⟨e2, h2, hr2⟩ := ih (ready_step hr hw hs1 h1) (hs2 e1 h1)
    exact ⟨e2, by simp only [run, h1, ok_bind, h2], hr2⟩

end Ekf
end EkfCal
