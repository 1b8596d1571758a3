import Verif.Lemmas.Inv

/-! # What calls leave untouched -/

set_option linter.unusedSectionVars false
set_option linter.unusedSimpArgs false

namespace EkfCal
namespace Ekf
variable {K : Type}

/-- Clock, flags, reference and configuration are the same. -/
structure Frame (e e' : Ekf K) : Prop where
  currentTime : e'.currentTime = e.currentTime
  referenceTime : e'.referenceTime = e.referenceTime
  timeInitialized : e'.timeInitialized = e.timeInitialized
  gravity : e'.isGravityInitialized = e.isGravityInitialized
  lla : e'.isLlaInitialized = e.isLlaInitialized
  posEInG : e'.posEInG = e.posEInG
  angLToE : e'.angLToE = e.angLToE
  gpsTimeVec : e'.gpsTimeVec = e.gpsTimeVec
  gpsEcefVec : e'.gpsEcefVec = e.gpsEcefVec
  gpsXyzVec : e'.gpsXyzVec = e.gpsXyzVec
  useRoot : e'.useRoot = e.useRoot
  augType : e'.augType = e.augType
  augDeltaTime : e'.augDeltaTime = e.augDeltaTime
  zeroAcc : e'.isZeroAcceleration = e.isZeroAcceleration
  maxTrackLength : e'.maxTrackLength = e.maxTrackLength
  bodyNoise : e'.bodyProcessNoise = e.bodyProcessNoise
  gpsInitType : e'.gpsInitType = e.gpsInitType
  gpsInitPosThresh : e'.gpsInitPosThresh = e.gpsInitPosThresh
  gpsInitAngThresh : e'.gpsInitAngThresh = e.gpsInitAngThresh
  gpsInitBaselineDist : e'.gpsInitBaselineDist = e.gpsInitBaselineDist
  useFirstEstimate : e'.useFirstEstimate = e.useFirstEstimate
  motionChi : e'.motionDetectionChiSquared = e.motionDetectionChiSquared
  imuNoiseScale : e'.imuNoiseScaleFactor = e.imuNoiseScaleFactor

theorem Frame.refl (e : Ekf K) : Frame e e :=
  ⟨rfl, rfl, rfl, rfl, rfl, rfl, rfl, rfl, rfl, rfl, rfl, rfl, rfl, rfl, rfl, rfl, rfl, rfl, rfl, rfl, rfl, rfl, rfl⟩

theorem Frame.trans {a b c : Ekf K} (h : Frame a b) (g : Frame b c) : Frame a c :=
  ⟨g.1.trans h.1, g.2.trans h.2, g.3.trans h.3, g.4.trans h.4, g.5.trans h.5, g.6.trans h.6, g.7.trans h.7,
    g.8.trans h.8, g.9.trans h.9, g.10.trans h.10, g.11.trans h.11, g.12.trans h.12, g.13.trans h.13, g.14.trans h.14,
    g.15.trans h.15, g.16.trans h.16, g.17.trans h.17, g.18.trans h.18, g.19.trans h.19, g.20.trans h.20,
    g.21.trans h.21, g.22.trans h.22, g.23.trans h.23⟩

/-- Camera timing, primary camera and clone bookkeeping are the same too. -/
structure Frame2 (e e' : Ekf K) : Prop extends Frame e e' where
  primary : e'.primaryCameraId = e.primaryCameraId
  framePeriod : e'.maxFramePeriod = e.maxFramePeriod
  trackDuration : e'.maxTrackDuration = e.maxTrackDuration
  minAugPeriod : e'.minAugPeriod = e.minAugPeriod

theorem Frame2.refl (e : Ekf K) : Frame2 e e := ⟨Frame.refl e, rfl, rfl, rfl, rfl⟩

theorem Frame2.trans {a b c : Ekf K} (h : Frame2 a b) (g : Frame2 b c) : Frame2 a c :=
  ⟨h.1.trans g.1, g.2.trans h.2, g.3.trans h.3, g.4.trans h.4, g.5.trans h.5⟩

variable [Field K] [LinearOrder K]

/-- The fields `refreshIndices` can change. -/
theorem refreshIndices_frame {N : Prim K} {e e' : Ekf K} (h : refreshIndices N e = .ok e') :
    e' = { e with
      state := e'.state, processNoise := e'.processNoise, imuStateStart := e'.imuStateStart
      gpsStateStart := e'.gpsStateStart, camStateStart := e'.camStateStart
      fidStateStart := e'.fidStateStart, augStateStart := e'.augStateStart } ∧
    e'.state.body = { e.state.body with index := 0 } := by
  unfold refreshIndices at h
  simp only [bind_ok_iff, pure_res, Except.ok.injEq] at h
  obtain ⟨_, _, _, _, ⟨_, _⟩, _, ⟨_, _⟩, _, ⟨_, _⟩, _, ⟨_, _⟩, _, rfl⟩ := h
  exact ⟨rfl, rfl⟩

theorem frame2_refresh {N : Prim K} {e e' : Ekf K} (h : refreshIndices N e = .ok e') : Frame2 e e' := by
  rw [(refreshIndices_frame h).1]
  exact ⟨⟨rfl, rfl, rfl, rfl, rfl, rfl, rfl, rfl, rfl, rfl, rfl, rfl, rfl, rfl, rfl, rfl, rfl, rfl, rfl, rfl, rfl, rfl, rfl⟩, rfl, rfl, rfl, rfl⟩

/-- Two filters that differ only in state, covariance, sizes and clone flags. -/
theorem frame2_of {e : Ekf K} (s : State K) (c : Mat K) (a b d f g i : Nat) (fr : Bool) (pt : Option K) :
    Frame2 e { e with
      state := s, cov := c, stateSize := a, imuStateSize := b, gpsStateSize := d, camStateSize := f,
      augStateSize := g, fidStateSize := i, frameReceived := fr, augPrevTime := pt } :=
  ⟨⟨rfl, rfl, rfl, rfl, rfl, rfl, rfl, rfl, rfl, rfl, rfl, rfl, rfl, rfl, rfl, rfl, rfl, rfl, rfl, rfl, rfl, rfl, rfl⟩, rfl, rfl, rfl, rfl⟩

theorem frame2_registerIMU {N : Prim K} {e e' : Ekf K} {id : Nat} {s : ImuState K} {c : Mat K}
    (h : registerIMU N e id s c = .ok e') : Frame2 e e' := by
  unfold registerIMU at h
  split at h
  · cases h; exact Frame2.refl _
  · cases he : s.isExtrinsic <;> cases hn : s.isIntrinsic <;>
      simp only [he, hn, Bool.or_self, Bool.or_true, Bool.true_or, Bool.or_false, Bool.false_eq_true, if_false,
        if_true, ok_bind, pure_res, bind_ok_iff] at h
    · exact (frame2_of _ _ _ _ _ _ _ _ _ _).trans (frame2_refresh h)
    all_goals
      obtain ⟨_, _, _, _, h⟩ := h
      exact (frame2_of _ _ _ _ _ _ _ _ _ _).trans (frame2_refresh h)

theorem frame2_registerGPS {N : Prim K} {e e' : Ekf K} {id : Nat} {s : GpsState K} {c : Mat K}
    (h : registerGPS N e id s c = .ok e') : Frame2 e e' := by
  unfold registerGPS at h
  split at h
  · cases h; exact Frame2.refl _
  · cases he : s.isExtrinsic <;>
      simp only [he, Bool.false_eq_true, if_false, if_true, ok_bind, pure_res, bind_ok_iff] at h
    · exact (frame2_of _ _ _ _ _ _ _ _ _ _).trans (frame2_refresh h)
    · obtain ⟨_, _, _, _, h⟩ := h
      exact (frame2_of _ _ _ _ _ _ _ _ _ _).trans (frame2_refresh h)

theorem frame2_registerFiducial {N : Prim K} {e e' : Ekf K} {s : FidState K} {c : Mat K}
    (h : registerFiducial N e s c = .ok e') : Frame2 e e' := by
  unfold registerFiducial at h
  split at h
  · cases h; exact Frame2.refl _
  · cases he : s.isExtrinsic <;>
      simp only [he, Bool.false_eq_true, if_false, if_true, ok_bind, pure_res, bind_ok_iff] at h
    · exact (frame2_of _ _ _ _ _ _ _ _ _ _).trans (frame2_refresh h)
    · obtain ⟨_, _, _, _, h⟩ := h
      exact (frame2_of _ _ _ _ _ _ _ _ _ _).trans (frame2_refresh h)

/-- A new camera changes the timing limits and possibly the primary camera as given, and nothing else of the frame. -/
theorem registerCamera_frame {N : Prim K} {e e' : Ekf K} {id : Nat} {s : CamState K} {c : Mat K}
    (hn : e.state.cams.find? id = none) (h : registerCamera N e id s c = .ok e') :
    s.rate ≠ 0 ∧ Frame e e' ∧
    e'.maxFramePeriod = max e.maxFramePeriod (1 / s.rate) ∧
    e'.maxTrackDuration = max e.maxFramePeriod (1 / s.rate) * ((e.maxTrackLength : K) + 1) ∧
    e'.minAugPeriod = min e.minAugPeriod (1 / s.rate) ∧
    e'.primaryCameraId = (if e.primaryCameraId = 0 then id else e.primaryCameraId) := by
  unfold registerCamera at h
  by_cases hp : e.primaryCameraId = 0 <;> cases he : s.isExtrinsic <;>
    simp only [hn, he, hp, Option.isSome_none, Bool.false_eq_true, if_false, if_true, ok_bind, pure_res, bind_ok_iff,
      guardUB_ok_iff] at h
  case pos.false | neg.false =>
    obtain ⟨_, hr, h⟩ := h
    have f := frame2_refresh h
    have g := f.toFrame
    simp only [hp, if_true, if_false]
    exact ⟨hr, ⟨g.1, g.2, g.3, g.4, g.5, g.6, g.7, g.8, g.9, g.10, g.11, g.12, g.13, g.14, g.15, g.16,
      g.17, g.18, g.19, g.20, g.21, g.22, g.23⟩, f.framePeriod,
      f.trackDuration, f.minAugPeriod, f.primary⟩
  all_goals
    obtain ⟨_, hr, _, _, _, _, h⟩ := h
    have f := frame2_refresh h
    have g := f.toFrame
    simp only [hp, if_true, if_false]
    exact ⟨hr, ⟨g.1, g.2, g.3, g.4, g.5, g.6, g.7, g.8, g.9, g.10, g.11, g.12, g.13, g.14, g.15, g.16,
      g.17, g.18, g.19, g.20, g.21, g.22, g.23⟩, f.framePeriod,
      f.trackDuration, f.minAugPeriod, f.primary⟩

theorem frame_registerCamera {N : Prim K} {e e' : Ekf K} {id : Nat} {s : CamState K} {c : Mat K}
    (h : registerCamera N e id s c = .ok e') : Frame e e' := by
  cases hn : e.state.cams.find? id with
  | some v => simp [registerCamera, hn] at h; exact h ▸ Frame.refl e
  | none => exact (registerCamera_frame hn h).2.1

theorem frame2_augmentAtBack {e e' : Ekf K} {k : Nat} (h : augmentAtBack e k = .ok e') : Frame2 e e' := by
  unfold augmentAtBack at h
  split at h
  · simp at h
  · simp only [bind_ok_iff, pure_res, Except.ok.injEq] at h
    obtain ⟨c, _, rfl⟩ := h
    exact frame2_of _ _ _ _ _ _ _ _ _ _

theorem frame2_augmentFrame {N : Prim K} {e e' : Ekf K} {c f : Nat} (h : augmentFrame N e c f = .ok e') :
    Frame2 e e' := by
  unfold augmentFrame at h
  dsimp only at h
  split at h
  · split at h
    · simp only [ok_bind, pure_res, bind_ok_iff] at h
      obtain ⟨e2, h2, h3⟩ := h
      exact (frame2_of _ _ _ _ _ _ _ _ _ _).trans ((frame2_refresh h2).trans (frame2_augmentAtBack h3))
    · split at h
      · simp at h
      · simp only [ok_bind, pure_res, bind_ok_iff] at h
        obtain ⟨_, _, e2, h2, h3⟩ := h
        exact (frame2_of _ _ _ _ _ _ _ _ _ _).trans ((frame2_refresh h2).trans (frame2_augmentAtBack h3))
  · cases h; exact frame2_of _ _ _ _ _ _ _ _ _ _

theorem frame2_pruneAt {N : Prim K} {e e' : Ekf K} {i : Nat} (h : pruneAt N e i = .ok e') : Frame2 e e' := by
  unfold pruneAt at h
  dsimp only at h
  split at h
  · simp at h
  · split at h
    · split at h
      · simp at h
      · simp only [bind_ok_iff] at h
        obtain ⟨c, _, h⟩ := h
        exact (frame2_of _ _ _ _ _ _ _ _ _ _).trans (frame2_refresh h)
    · cases h; exact Frame2.refl _

theorem frame2_pruneLoop {N : Prim K} {n : Nat} {e e' : Ekf K} (h : pruneLoop N n e = .ok e') : Frame2 e e' := by
  induction n generalizing e with
  | zero => cases h; exact Frame2.refl _
  | succ n ih =>
    simp only [pruneLoop, bind_ok_iff] at h
    obtain ⟨e1, h1, h2⟩ := h
    exact (frame2_pruneAt h1).trans (ih h2)

theorem frame2_augmentTimed {N : Prim K} {e e' : Ekf K} (h : augmentTimed N e = .ok e') : Frame2 e e' := by
  unfold augmentTimed at h
  split at h
  · cases h; exact Frame2.refl _
  · simp only [bind_ok_iff] at h
    obtain ⟨due, _, e1, h1, h⟩ := h
    have f1 := (frame2_of (e := e) _ _ _ _ _ _ _ _ _ _).trans (frame2_pruneLoop h1)
    split at h
    · simp only [bind_ok_iff, pure_res, Except.ok.injEq] at h
      obtain ⟨e2, h2, e3, h3, rfl⟩ := h
      exact f1.trans ((frame2_of _ _ _ _ _ _ _ _ _ _).trans ((frame2_refresh h2).trans
        ((frame2_augmentAtBack h3).trans (frame2_of _ _ _ _ _ _ _ _ _ _))))
    · cases h; exact f1

theorem frame2_predict {N : Prim K} {e e' : Ekf K} {t : K} (ht : ¬ t < e.currentTime) (h : predict N e t = .ok e') :
    Frame2 { e with currentTime := t } e' := by
  unfold predict at h
  rw [if_neg ht] at h
  split at h
  · simp only [bind_ok_iff, pure_res, ok_bind] at h
    obtain ⟨c, _, h⟩ := h
    exact (frame2_of (e := { e with currentTime := t }) _ _ _ _ _ _ _ _ _ _).trans (frame2_augmentTimed h)
  · simp only [pure_res, ok_bind] at h
    exact frame2_augmentTimed h

theorem frame2_kalman {N : Prim K} {e e' : Ekf K} {j : Mat K} {r : Vec K} {n : Mat K}
    (h : kalmanUpdate N e j r n = .ok e') : Frame2 e e' := by
  obtain ⟨s, c, v, rfl, _⟩ := kalmanUpdate_form h
  exact frame2_of _ _ _ _ _ _ _ _ _ _

theorem frame2_getAug {N : Prim K} {e : Ekf K} {r : AugState K × Ekf K} {c f : Nat} {t : K}
    (h : getAugState N e c f t = .ok r) : Frame2 e r.2 := by
  unfold getAugState at h
  split at h
  · cases h; exact frame2_of _ _ _ _ _ _ _ _ _ _
  · simp only [bind_ok_iff, pure_res, Except.ok.injEq] at h
    obtain ⟨a, _, rfl⟩ := h
    exact frame2_of _ _ _ _ _ _ _ _ _ _

/-- Effect of one call on clock, flags, reference and GPS records, call by call. -/
def StepFrame (e : Ekf K) (op : Op K) (e' : Ekf K) : Prop :=
  match op with
  | .predict t => if t < e.currentTime then e' = e else Frame { e with currentTime := t } e'
  | .initializeAt t b => e' = e.initializeAt t b
  | .setMaxTrackLength n => e' = e.setMaxTrackLength n
  | .setGpsReference p a => e' = e.setGpsReference p a
  | .setZeroAcceleration b => e' = e.setZeroAcceleration b
  | .initializeGravity => e' = e.initializeGravity
  | .localTime t => e' = (e.calculateLocalTime t).2
  | .setBodyProcessNoise v => e' = e.setBodyProcessNoise v
  | .attemptGpsInit t x f => e.attemptGpsInit t x f = .ok e'
  | _ => Frame e e'

theorem step_frame {N : Prim K} {e e' : Ekf K} {op : Op K} (h : step N e op = .ok e') : StepFrame e op e' := by
  cases op with
  | registerIMU id s c => exact (frame2_registerIMU h).toFrame
  | registerGPS id s c => exact (frame2_registerGPS h).toFrame
  | registerCamera id s c => exact frame_registerCamera h
  | registerFiducial s c => exact (frame2_registerFiducial h).toFrame
  | predict t =>
    unfold StepFrame
    dsimp only
    split
    · rename_i ht
      simp only [step, predict, ht, if_true, pure_res, Except.ok.injEq] at h
      exact h.symm
    · rename_i ht
      exact (frame2_predict ht h).toFrame
  | frame c f => exact (frame2_augmentFrame h).toFrame
  | kalman j r n => exact (frame2_kalman h).toFrame
  | getImu id => cases h; exact (frame2_of _ _ _ _ _ _ _ _ _ _).toFrame
  | getGps id => cases h; exact (frame2_of _ _ _ _ _ _ _ _ _ _).toFrame
  | getCam id => cases h; exact (frame2_of _ _ _ _ _ _ _ _ _ _).toFrame
  | getAug c f t =>
    simp only [step, bind_ok_iff, pure_res, Except.ok.injEq] at h
    obtain ⟨r, h1, rfl⟩ := h
    exact (frame2_getAug h1).toFrame
  | initializeAt t b => cases h; rfl
  | setMaxTrackLength n => cases h; rfl
  | setGpsReference p a => cases h; rfl
  | setZeroAcceleration b => cases h; rfl
  | initializeGravity => cases h; rfl
  | localTime t => simp only [step, Except.ok.injEq] at h; exact h.symm
  | setBodyProcessNoise v => cases h; rfl
  | attemptGpsInit t x f => exact h
  | setBodyMotion a w α => cases h; exact (frame2_of _ _ _ _ _ _ _ _ _ _).toFrame

/-- What `attemptGpsInit` can change. -/
theorem attemptGpsInit_form {e e' : Ekf K} {t : K} {x : V3 K} {fit : List (V3 K) → List (V3 K) → GpsFit K}
    (h : e.attemptGpsInit t x fit = .ok e') :
    ∃ p a l, (e.isLlaInitialized = true → l = true) ∧ e' = { e with
      gpsTimeVec := e.gpsTimeVec ++ [t], gpsEcefVec := e.gpsEcefVec ++ [x]
      gpsXyzVec := e.gpsXyzVec ++ [e.state.body.pos], posEInG := p, angLToE := a, isLlaInitialized := l } := by
  unfold attemptGpsInit at h
  dsimp only at h
  split at h
  · simp only [bind_ok_iff] at h
    obtain ⟨b, _, h⟩ := h
    split at h
    · cases h; exact ⟨_, _, true, fun _ => rfl, rfl⟩
    · cases h; exact ⟨_, _, _, fun h => h, rfl⟩
  · cases h; exact ⟨_, _, _, fun h => h, rfl⟩

/-- The configuration given to the constructor that no call changes. -/
structure SameConfig (e e' : Ekf K) : Prop where
  useRoot : e'.useRoot = e.useRoot
  augType : e'.augType = e.augType
  augDeltaTime : e'.augDeltaTime = e.augDeltaTime
  gpsInitType : e'.gpsInitType = e.gpsInitType
  gpsInitPosThresh : e'.gpsInitPosThresh = e.gpsInitPosThresh
  gpsInitAngThresh : e'.gpsInitAngThresh = e.gpsInitAngThresh
  gpsInitBaselineDist : e'.gpsInitBaselineDist = e.gpsInitBaselineDist
  useFirstEstimate : e'.useFirstEstimate = e.useFirstEstimate
  motionChi : e'.motionDetectionChiSquared = e.motionDetectionChiSquared
  imuNoiseScale : e'.imuNoiseScaleFactor = e.imuNoiseScaleFactor

theorem Frame.config {e e' : Ekf K} (h : Frame e e') : SameConfig e e' :=
  ⟨h.useRoot, h.augType, h.augDeltaTime, h.gpsInitType, h.gpsInitPosThresh, h.gpsInitAngThresh, h.gpsInitBaselineDist,
    h.useFirstEstimate, h.motionChi, h.imuNoiseScale⟩

theorem SameConfig.refl (e : Ekf K) : SameConfig e e := ⟨rfl, rfl, rfl, rfl, rfl, rfl, rfl, rfl, rfl, rfl⟩

theorem SameConfig.trans {a b c : Ekf K} (h : SameConfig a b) (g : SameConfig b c) : SameConfig a c :=
  ⟨g.1.trans h.1, g.2.trans h.2, g.3.trans h.3, g.4.trans h.4, g.5.trans h.5, g.6.trans h.6, g.7.trans h.7,
    g.8.trans h.8, g.9.trans h.9, g.10.trans h.10⟩

theorem step_config {N : Prim K} {e e' : Ekf K} {op : Op K} (h : step N e op = .ok e') : SameConfig e e' := by
  have h3 := step_frame h
  cases op with
  | predict t =>
    simp only [StepFrame] at h3
    split at h3
    · rw [h3]; exact SameConfig.refl e
    · exact ⟨h3.config.1, h3.config.2, h3.config.3, h3.config.4, h3.config.5, h3.config.6, h3.config.7, h3.config.8,
        h3.config.9, h3.config.10⟩
  | initializeAt t b => cases h3; exact ⟨rfl, rfl, rfl, rfl, rfl, rfl, rfl, rfl, rfl, rfl⟩
  | localTime t =>
    cases h3
    unfold calculateLocalTime
    split <;> exact ⟨rfl, rfl, rfl, rfl, rfl, rfl, rfl, rfl, rfl, rfl⟩
  | setMaxTrackLength n => cases h3; exact ⟨rfl, rfl, rfl, rfl, rfl, rfl, rfl, rfl, rfl, rfl⟩
  | setGpsReference p a => cases h3; exact ⟨rfl, rfl, rfl, rfl, rfl, rfl, rfl, rfl, rfl, rfl⟩
  | setZeroAcceleration b => cases h3; exact ⟨rfl, rfl, rfl, rfl, rfl, rfl, rfl, rfl, rfl, rfl⟩
  | initializeGravity => cases h3; exact ⟨rfl, rfl, rfl, rfl, rfl, rfl, rfl, rfl, rfl, rfl⟩
  | setBodyProcessNoise v => cases h3; exact ⟨rfl, rfl, rfl, rfl, rfl, rfl, rfl, rfl, rfl, rfl⟩
  | attemptGpsInit t x f =>
    obtain ⟨_, _, _, _, rfl⟩ := attemptGpsInit_form h3; exact ⟨rfl, rfl, rfl, rfl, rfl, rfl, rfl, rfl, rfl, rfl⟩
  | registerIMU _ _ _ => exact h3.config
  | registerGPS _ _ _ => exact h3.config
  | registerCamera _ _ _ => exact h3.config
  | registerFiducial _ _ => exact h3.config
  | frame _ _ => exact h3.config
  | kalman _ _ _ => exact h3.config
  | getImu _ => exact h3.config
  | getGps _ => exact h3.config
  | getCam _ => exact h3.config
  | getAug _ _ _ => exact h3.config
  | setBodyMotion _ _ _ => exact h3.config

theorem run_append {N : Prim K} {a b : List (Op K)} {e : Ekf K} :
    run N e (a ++ b) = (run N e a >>= fun e' => run N e' b) := by
  induction a generalizing e with
  | nil => rfl
  | cons op a ih =>
    simp only [List.cons_append, run]
    cases hs : step N e op with
    | error u => rfl
    | ok e1 => simpa [hs] using ih

/-- A one-step fact that composes holds along a whole history. -/
theorem run_induct {N : Prim K} {P : Op K → Prop} {R : Ekf K → Ekf K → Prop} (hrefl : ∀ e, R e e)
    (htrans : ∀ a b c, R a b → R b c → R a c)
    (hstep : ∀ e e' op, P op → step N e op = .ok e' → R e e') :
    ∀ {ops : List (Op K)} {e e' : Ekf K}, (∀ op ∈ ops, P op) → run N e ops = .ok e' → R e e'
  | [], e, e', _, h => by cases h; exact hrefl _
  | op :: ops, e, e', hp, h => by
    simp only [run, bind_ok_iff] at h
    obtain ⟨e1, h1, h2⟩ := h
    exact htrans _ _ _ (hstep _ _ _ (hp op (by simp)) h1)
      (run_induct hrefl htrans hstep (fun o ho => hp o (by simp [ho])) h2)

theorem flags_step {N : Prim K} {e e' : Ekf K} {op : Op K} (h : step N e op = .ok e') :
    (e.isGravityInitialized = true → e'.isGravityInitialized = true) ∧
    (e.isLlaInitialized = true → e'.isLlaInitialized = true) := by
  have hf := step_frame h
  cases op with
  | predict t =>
    unfold StepFrame at hf
    dsimp only at hf
    split at hf
    · rw [hf]; exact ⟨id, id⟩
    · exact ⟨fun x => hf.gravity.trans x, fun x => hf.lla.trans x⟩
  | initializeAt t b => unfold StepFrame at hf; dsimp only at hf; rw [hf]; exact ⟨id, id⟩
  | setMaxTrackLength n => unfold StepFrame at hf; dsimp only at hf; rw [hf]; exact ⟨id, id⟩
  | setGpsReference p a => unfold StepFrame at hf; dsimp only at hf; rw [hf]; exact ⟨id, fun _ => rfl⟩
  | setZeroAcceleration b => unfold StepFrame at hf; dsimp only at hf; rw [hf]; exact ⟨id, id⟩
  | initializeGravity => unfold StepFrame at hf; dsimp only at hf; rw [hf]; exact ⟨fun _ => rfl, id⟩
  | localTime t =>
    unfold StepFrame at hf; dsimp only at hf; rw [hf]; unfold calculateLocalTime; split <;> exact ⟨id, id⟩
  | setBodyProcessNoise v => unfold StepFrame at hf; dsimp only at hf; rw [hf]; exact ⟨id, id⟩
  | attemptGpsInit t x f =>
    obtain ⟨_, _, l, hl, rfl⟩ := attemptGpsInit_form h
    exact ⟨id, hl⟩
  | _ => exact ⟨fun x => Eq.trans hf.gravity x, fun x => Eq.trans hf.lla x⟩

/-- Once set, the flags stay set over a history. -/
theorem run_flags {N : Prim K} {e e' : Ekf K} {ops : List (Op K)} (h : run N e ops = .ok e') :
    (e.isGravityInitialized = true → e'.isGravityInitialized = true) ∧
    (e.isLlaInitialized = true → e'.isLlaInitialized = true) :=
  run_induct (P := fun _ => True)
    (R := fun a b => (a.isGravityInitialized = true → b.isGravityInitialized = true) ∧
      (a.isLlaInitialized = true → b.isLlaInitialized = true))
    (fun _ => ⟨id, id⟩) (fun _ _ _ g h => ⟨h.1 ∘ g.1, h.2 ∘ g.2⟩) (fun _ _ _ _ => flags_step) (fun _ _ => trivial) h

end Ekf
end EkfCal
