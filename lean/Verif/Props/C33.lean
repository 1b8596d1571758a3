import Verif.Lemmas.Frame
import Verif.Spec.Samples

/-!
# C33 — camera timing limits follow the registered cameras

The maximum track duration is computed by two functions with different formulas (`period * (length + 1)` at camera
registration, `period * length` when the length is set), so "the duration follows from period and length" is violated
(`C33_duration_violated`); `C33_duration_partial` is what holds.
-/

set_option linter.unusedSectionVars false

namespace EkfCal
open Ekf
variable {K : Type} [Field K] [LinearOrder K]

/-- Id and rate of a camera registered by this call, if the id is new. -/
def Ekf.Op.newCamera (e : Ekf K) : Op K → List (Nat × K)
  | .registerCamera id s _ => if id ∈ UMap.keys e.state.cams then [] else [(id, s.rate)]
  | _ => []

/-- Ids and rates of the cameras registered along a history, in order of registration. -/
def cameraLog (N : Prim K) : Ekf K → List (Op K) → List (Nat × K)
  | _, [] => []
  | e, op :: ops =>
    op.newCamera e ++ (match step N e op with
      | .ok e' => cameraLog N e' ops
      | .error _ => [])

/-- Timing limits and primary camera after one call. -/
theorem camera_step {N : Prim K} {e e' : Ekf K} {op : Op K} (h : step N e op = .ok e') :
    e'.maxFramePeriod = (op.newCamera e).foldl (fun m c => max m (1 / c.2)) e.maxFramePeriod ∧
    e'.minAugPeriod = (op.newCamera e).foldl (fun m c => min m (1 / c.2)) e.minAugPeriod ∧
    e'.primaryCameraId = (op.newCamera e).foldl (fun p c => if p = 0 then c.1 else p) e.primaryCameraId ∧
    (∀ c ∈ op.newCamera e, c.2 ≠ 0) := by
  have fr : op.newCamera e = [] → Frame2 e e' → e'.maxFramePeriod = (op.newCamera e).foldl (fun m c => max m (1 / c.2)) e.maxFramePeriod ∧
    e'.minAugPeriod = (op.newCamera e).foldl (fun m c => min m (1 / c.2)) e.minAugPeriod ∧
    e'.primaryCameraId = (op.newCamera e).foldl (fun p c => if p = 0 then c.1 else p) e.primaryCameraId ∧
    (∀ c ∈ op.newCamera e, c.2 ≠ 0) := by
    intro h0 f
    rw [h0]
    exact ⟨f.framePeriod, f.minAugPeriod, f.primary, by simp⟩
  cases op with
  | registerCamera id s c =>
    simp only [Op.newCamera]
    split
    · rename_i hm
      cases hf : e.state.cams.find? id with
      | none => exact absurd hm (UMap.find?_eq_none_iff.1 hf)
      | some v =>
        simp [step, registerCamera, hf] at h
        subst h
        exact ⟨rfl, rfl, rfl, by simp⟩
    · rename_i hm
      obtain ⟨h0, _, h1, _, h2, h3⟩ := registerCamera_frame (UMap.find?_eq_none_iff.2 hm) h
      exact ⟨h1, h2, h3, by simpa using h0⟩
  | registerIMU id s c => exact fr rfl (frame2_registerIMU h)
  | registerGPS id s c => exact fr rfl (frame2_registerGPS h)
  | registerFiducial s c => exact fr rfl (frame2_registerFiducial h)
  | predict t =>
    simp only [step] at h
    by_cases ht : t < e.currentTime
    · simp only [predict, ht, if_true, pure_res, Except.ok.injEq] at h
      subst h
      exact fr rfl (Frame2.refl _)
    · have f := frame2_predict ht h
      exact ⟨f.framePeriod, f.minAugPeriod, f.primary, by simp [Op.newCamera]⟩
  | frame c f => exact fr rfl (frame2_augmentFrame h)
  | kalman j r n => exact fr rfl (frame2_kalman h)
  | getImu id => cases h; exact fr rfl (frame2_of _ _ _ _ _ _ _ _ _ _)
  | getGps id => cases h; exact fr rfl (frame2_of _ _ _ _ _ _ _ _ _ _)
  | getCam id => cases h; exact fr rfl (frame2_of _ _ _ _ _ _ _ _ _ _)
  | getAug c f t =>
    simp only [step, bind_ok_iff, pure_res, Except.ok.injEq] at h
    obtain ⟨r, h1, rfl⟩ := h
    exact fr rfl (frame2_getAug h1)
  | initializeAt t b => cases h; exact ⟨rfl, rfl, rfl, by simp [Op.newCamera]⟩
  | setMaxTrackLength n => cases h; exact ⟨rfl, rfl, rfl, by simp [Op.newCamera]⟩
  | setGpsReference p a => cases h; exact ⟨rfl, rfl, rfl, by simp [Op.newCamera]⟩
  | setZeroAcceleration b => cases h; exact ⟨rfl, rfl, rfl, by simp [Op.newCamera]⟩
  | initializeGravity => cases h; exact ⟨rfl, rfl, rfl, by simp [Op.newCamera]⟩
  | localTime t =>
    simp only [step, Except.ok.injEq, calculateLocalTime] at h
    split at h <;> cases h <;> exact ⟨rfl, rfl, rfl, by simp [Op.newCamera]⟩
  | setBodyProcessNoise v => cases h; exact ⟨rfl, rfl, rfl, by simp [Op.newCamera]⟩
  | attemptGpsInit t x f =>
    obtain ⟨p, a, l, _, rfl⟩ := attemptGpsInit_form h
    exact ⟨rfl, rfl, rfl, by simp [Op.newCamera]⟩
  | setBodyMotion a w α => cases h; exact fr rfl (frame2_of _ _ _ _ _ _ _ _ _ _)

theorem camera_run {N : Prim K} {ops : List (Op K)} {e e' : Ekf K} (h : run N e ops = .ok e') :
    e'.maxFramePeriod = (cameraLog N e ops).foldl (fun m c => max m (1 / c.2)) e.maxFramePeriod ∧
    e'.minAugPeriod = (cameraLog N e ops).foldl (fun m c => min m (1 / c.2)) e.minAugPeriod ∧
    e'.primaryCameraId = (cameraLog N e ops).foldl (fun p c => if p = 0 then c.1 else p) e.primaryCameraId ∧
    (∀ c ∈ cameraLog N e ops, c.2 ≠ 0) := by
  induction ops generalizing e with
  | nil => cases h; exact ⟨rfl, rfl, rfl, by simp [cameraLog]⟩
  | cons op ops ih =>
    simp only [run, bind_ok_iff] at h
    obtain ⟨e1, h1, h2⟩ := h
    obtain ⟨a1, a2, a3, a4⟩ := camera_step h1
    obtain ⟨b1, b2, b3, b4⟩ := ih h2
    simp only [cameraLog, h1, List.foldl_append, ← a1, ← a2, ← a3, List.mem_append]
    exact ⟨b1, b2, b3, fun c hc => hc.elim (a4 c) (b4 c)⟩

/-- Greatest of a start value and the values of a list. -/
theorem foldl_max_spec {α : Type} (f : α → K) (l : List α) (a : K) :
    (a ≤ l.foldl (fun m c => max m (f c)) a ∧ ∀ c ∈ l, f c ≤ l.foldl (fun m c => max m (f c)) a) ∧
    (l.foldl (fun m c => max m (f c)) a = a ∨ ∃ c ∈ l, l.foldl (fun m c => max m (f c)) a = f c) := by
  induction l generalizing a with
  | nil => simp
  | cons x l ih =>
    obtain ⟨⟨h1, h2⟩, h3⟩ := ih (max a (f x))
    simp only [List.foldl_cons, List.mem_cons, forall_eq_or_imp, exists_eq_or_imp]
    refine ⟨⟨(le_max_left _ _).trans h1, (le_max_right _ _).trans h1, h2⟩, ?_⟩
    rcases h3 with h3 | h3
    · rw [h3]
      rcases max_choice a (f x) with h | h
      · exact .inl h
      · exact .inr (.inl h)
    · exact .inr (.inr h3)

theorem foldl_min_spec {α : Type} (f : α → K) (l : List α) (a : K) :
    (l.foldl (fun m c => min m (f c)) a ≤ a ∧ ∀ c ∈ l, l.foldl (fun m c => min m (f c)) a ≤ f c) ∧
    (l.foldl (fun m c => min m (f c)) a = a ∨ ∃ c ∈ l, l.foldl (fun m c => min m (f c)) a = f c) := by
  induction l generalizing a with
  | nil => simp
  | cons x l ih =>
    obtain ⟨⟨h1, h2⟩, h3⟩ := ih (min a (f x))
    simp only [List.foldl_cons, List.mem_cons, forall_eq_or_imp, exists_eq_or_imp]
    refine ⟨⟨h1.trans (min_le_left _ _), h1.trans (min_le_right _ _), h2⟩, ?_⟩
    rcases h3 with h3 | h3
    · rw [h3]
      rcases min_choice a (f x) with h | h
      · exact .inl h
      · exact .inr (.inl h)
    · exact .inr (.inr h3)

/-- After any history from a new filter: the longest frame period is the greatest `1 / rate` of all cameras registered
(0 if none or all negative), the shortest cloning period the least of 1 s and all `1 / rate`. -/
theorem C33_limits (N : Prim K) (p : EkfParams K) (ops : List (Op K)) (e : Ekf K)
    (h : run N (init N p) ops = .ok e) :
    let log := cameraLog N (init N p) ops
    (∀ c ∈ log, 1 / c.2 ≤ e.maxFramePeriod) ∧ 0 ≤ e.maxFramePeriod ∧
    (e.maxFramePeriod = 0 ∨ ∃ c ∈ log, e.maxFramePeriod = 1 / c.2) ∧
    (∀ c ∈ log, e.minAugPeriod ≤ 1 / c.2) ∧ e.minAugPeriod ≤ 1 ∧
    (e.minAugPeriod = 1 ∨ ∃ c ∈ log, e.minAugPeriod = 1 / c.2) := by
  obtain ⟨h1, h2, _, _⟩ := camera_run h
  obtain ⟨⟨a1, a2⟩, a3⟩ := foldl_max_spec (fun c : Nat × K => 1 / c.2) (cameraLog N (init N p) ops) (init N p).maxFramePeriod
  obtain ⟨⟨b1, b2⟩, b3⟩ := foldl_min_spec (fun c : Nat × K => 1 / c.2) (cameraLog N (init N p) ops) (init N p).minAugPeriod
  rw [← h1] at a1 a2 a3
  rw [← h2] at b1 b2 b3
  exact ⟨a2, a1, a3, b2, b1, b3⟩

/-- The primary camera is the first registered camera whose id is not 0, and 0 if there is none. -/
theorem C33_primary (N : Prim K) (p : EkfParams K) (ops : List (Op K)) (e : Ekf K)
    (h : run N (init N p) ops = .ok e) :
    e.primaryCameraId = (((cameraLog N (init N p) ops).map Prod.fst).find? (· ≠ 0)).getD 0 := by
  obtain ⟨_, _, h3, _⟩ := camera_run h
  rw [h3]
  have hz : (init N p).primaryCameraId = 0 := rfl
  rw [hz]
  generalize cameraLog N (init N p) ops = l
  have keep : ∀ (l : List (Nat × K)) (q : Nat), q ≠ 0 → l.foldl (fun p c => if p = 0 then c.1 else p) q = q := by
    intro l
    induction l with
    | nil => intro q _; rfl
    | cons x l ih => intro q hq; simp only [List.foldl_cons, if_neg hq]; exact ih q hq
  induction l with
  | nil => rfl
  | cons x l ih =>
    simp only [List.foldl_cons, if_true, List.map_cons, List.find?_cons]
    by_cases hx : x.1 = 0
    · simpa [hx] using ih
    · simp [hx, keep]

/-- Once a primary camera is set no later call changes it. -/
theorem C33_primary_stable (N : Prim K) (ops : List (Op K)) (e e' : Ekf K) (hp : e.primaryCameraId ≠ 0)
    (h : run N e ops = .ok e') : e'.primaryCameraId = e.primaryCameraId := by
  obtain ⟨_, _, h3, _⟩ := camera_run h
  rw [h3]
  generalize cameraLog N e ops = l
  induction l with
  | nil => rfl
  | cons x l ih => simpa [hp] using ih

/-- What is true of the maximum track duration in every reachable state: it is the longest frame period times the maximum
track length or times that length plus one. Missing from the property: which of the two depends on call order. -/
theorem C33_duration_partial (N : Prim K) (p : EkfParams K) (ops : List (Op K)) (e : Ekf K)
    (h : run N (init N p) ops = .ok e) :
    e.maxTrackDuration = e.maxFramePeriod * (e.maxTrackLength : K) ∨
    e.maxTrackDuration = e.maxFramePeriod * ((e.maxTrackLength : K) + 1) := by
  refine run_induct (N := N) (P := fun _ => True)
    (R := fun a b => (a.maxTrackDuration = a.maxFramePeriod * (a.maxTrackLength : K) ∨
      a.maxTrackDuration = a.maxFramePeriod * ((a.maxTrackLength : K) + 1)) →
      (b.maxTrackDuration = b.maxFramePeriod * (b.maxTrackLength : K) ∨
      b.maxTrackDuration = b.maxFramePeriod * ((b.maxTrackLength : K) + 1)))
    (fun _ h => h) (fun _ _ _ h g x => g (h x)) (fun a b op _ hs ha => ?_) (fun _ _ => trivial) h
    (by simp [init])
  have fr : Frame2 a b → b.maxTrackDuration = b.maxFramePeriod * (b.maxTrackLength : K) ∨
      b.maxTrackDuration = b.maxFramePeriod * ((b.maxTrackLength : K) + 1) := by
    intro f
    rw [f.trackDuration, f.framePeriod, f.maxTrackLength]
    exact ha
  cases op with
  | registerCamera id s c =>
    cases hf : a.state.cams.find? id with
    | some v => simp [step, registerCamera, hf] at hs; exact hs ▸ ha
    | none =>
      obtain ⟨_, f, h1, h2, _, _⟩ := registerCamera_frame hf hs
      right
      rw [h1, h2, f.maxTrackLength]
  | setMaxTrackLength n => cases hs; exact .inl rfl
  | registerIMU id s c => exact fr (frame2_registerIMU hs)
  | registerGPS id s c => exact fr (frame2_registerGPS hs)
  | registerFiducial s c => exact fr (frame2_registerFiducial hs)
  | predict t =>
    simp only [step] at hs
    by_cases ht : t < a.currentTime
    · simp only [predict, ht, if_true, pure_res, Except.ok.injEq] at hs
      exact hs ▸ ha
    · have f := frame2_predict ht hs
      rw [f.trackDuration, f.framePeriod, f.maxTrackLength]
      exact ha
  | frame c f => exact fr (frame2_augmentFrame hs)
  | kalman j r n => exact fr (frame2_kalman hs)
  | getImu id => cases hs; exact ha
  | getGps id => cases hs; exact ha
  | getCam id => cases hs; exact ha
  | getAug c f t =>
    simp only [step, bind_ok_iff, pure_res, Except.ok.injEq] at hs
    obtain ⟨r, h1, rfl⟩ := hs
    exact fr (frame2_getAug h1)
  | initializeAt t b => cases hs; exact ha
  | setGpsReference p a => cases hs; exact ha
  | setZeroAcceleration b => cases hs; exact ha
  | initializeGravity => cases hs; exact ha
  | localTime t =>
    simp only [step, Except.ok.injEq, calculateLocalTime] at hs
    split at hs <;> cases hs <;> exact ha
  | setBodyProcessNoise v => cases hs; exact ha
  | attemptGpsInit t x f =>
    obtain ⟨p, a, l, _, rfl⟩ := attemptGpsInit_form hs
    exact ha
  | setBodyMotion a w α => cases hs; exact ha

/-- The duration is not a function of period and length: setting the length before or after registering the same camera
gives equal periods and lengths but different durations. -/
theorem C33_duration_violated : ∃ a b : Ekf ℚ,
    run Samples.prim (init Samples.prim (Samples.params .all false))
      [.setMaxTrackLength 5, .registerCamera 1 Samples.cam (Samples.cov 6)] = .ok a ∧
    run Samples.prim (init Samples.prim (Samples.params .all false))
      [.registerCamera 1 Samples.cam (Samples.cov 6), .setMaxTrackLength 5] = .ok b ∧
    a.maxFramePeriod = b.maxFramePeriod ∧ a.maxTrackLength = b.maxTrackLength ∧
    a.maxTrackDuration = 6 ∧ b.maxTrackDuration = 5 := by
  refine ⟨_, _, rfl, rfl, rfl, rfl, ?_, ?_⟩ <;> decide +kernel

/-- A history with two cameras, the first with id 0, in which the log, the limits and the primary camera are non-trivial. -/
example : ∃ e : Ekf ℚ,
    run Samples.prim (init Samples.prim (Samples.params .all false))
      [.registerCamera 0 Samples.cam (Samples.cov 6), .registerCamera 4 { Samples.cam with rate := 10 } (Samples.cov 6),
       .registerCamera 2 { Samples.cam with rate := 1 / 2 } (Samples.cov 6)] = .ok e ∧
    e.primaryCameraId = 4 ∧ e.maxFramePeriod = 2 ∧ e.minAugPeriod = 1 / 10 := by
  exact Samples.ok_of_check (by decide +kernel)

end EkfCal
