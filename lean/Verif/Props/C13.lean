import Verif.Lemmas.Frame
import Verif.Spec.Samples

/-!
# C13 — local time is the offset from the first message
-/

namespace EkfCal
open Ekf
variable {K : Type} [Field K] [LinearOrder K]

/-- Once the time base is fixed no call changes it. -/
theorem timeBase_run {N : Prim K} {ops : List (Op K)} {e e' : Ekf K} (h0 : e.timeInitialized = true)
    (h : run N e ops = .ok e') : e'.timeInitialized = true ∧ e'.referenceTime = e.referenceTime := by
  refine run_induct (N := N) (P := fun _ => True)
    (R := fun a b => a.timeInitialized = true → b.timeInitialized = true ∧ b.referenceTime = a.referenceTime)
    (fun _ h => ⟨h, rfl⟩) (fun a b c h g ha => ?_) (fun a b op _ hs ha => ?_) (fun _ _ => trivial) h h0
  · obtain ⟨h1, h2⟩ := h ha
    obtain ⟨h3, h4⟩ := g h1
    exact ⟨h3, h4.trans h2⟩
  · have h3 := step_frame hs
    have fr : Frame a b → b.timeInitialized = true ∧ b.referenceTime = a.referenceTime :=
      fun f => ⟨f.timeInitialized.trans ha, f.referenceTime⟩
    cases op with
    | predict t =>
      simp only [StepFrame] at h3
      split at h3
      · subst h3; exact ⟨ha, rfl⟩
      · exact ⟨h3.timeInitialized.trans ha, h3.referenceTime⟩
    | initializeAt t b => cases h3; exact ⟨rfl, rfl⟩
    | localTime t =>
      simp only [StepFrame, calculateLocalTime, ha, if_true] at h3
      subst h3; exact ⟨ha, rfl⟩
    | setMaxTrackLength n => cases h3; exact ⟨ha, rfl⟩
    | setGpsReference p a => cases h3; exact ⟨ha, rfl⟩
    | setZeroAcceleration b => cases h3; exact ⟨ha, rfl⟩
    | initializeGravity => cases h3; exact ⟨ha, rfl⟩
    | setBodyProcessNoise v => cases h3; exact ⟨ha, rfl⟩
    | attemptGpsInit t x f =>
      obtain ⟨p, a, l, _, rfl⟩ := attemptGpsInit_form h3
      exact ⟨ha, rfl⟩
    | registerIMU _ _ _ => exact fr h3
    | registerGPS _ _ _ => exact fr h3
    | registerCamera _ _ _ => exact fr h3
    | registerFiducial _ _ => exact fr h3
    | frame _ _ => exact fr h3
    | kalman _ _ _ => exact fr h3
    | getImu _ => exact fr h3
    | getGps _ => exact fr h3
    | getCam _ => exact fr h3
    | getAug _ _ _ => exact fr h3
    | setBodyMotion _ _ _ => exact fr h3

/-- The calls that can set the time base. -/
def Ekf.Op.setsTimeBase : Op K → Bool
  | .localTime _ => true
  | .initializeAt _ _ => true
  | _ => false

/-- Without such a call a fresh filter has no time base, and its reference is 0. -/
theorem noTimeBase_run {N : Prim K} {ops : List (Op K)} {e e' : Ekf K} (hp : ∀ op ∈ ops, op.setsTimeBase = false)
    (h : run N e ops = .ok e') : e'.timeInitialized = e.timeInitialized ∧ e'.referenceTime = e.referenceTime := by
  refine run_induct (N := N) (P := fun op => op.setsTimeBase = false)
    (R := fun a b => b.timeInitialized = a.timeInitialized ∧ b.referenceTime = a.referenceTime)
    (fun _ => ⟨rfl, rfl⟩) (fun a b c h g => ⟨g.1.trans h.1, g.2.trans h.2⟩) (fun a b op hop hs => ?_) hp h
  have h3 := step_frame hs
  have fr : Frame a b → b.timeInitialized = a.timeInitialized ∧ b.referenceTime = a.referenceTime :=
    fun f => ⟨f.timeInitialized, f.referenceTime⟩
  cases op with
  | predict t =>
    simp only [StepFrame] at h3
    split at h3
    · subst h3; exact ⟨rfl, rfl⟩
    · exact ⟨h3.timeInitialized, h3.referenceTime⟩
  | initializeAt t b => simp [Op.setsTimeBase] at hop
  | localTime t => simp [Op.setsTimeBase] at hop
  | setMaxTrackLength n => cases h3; exact ⟨rfl, rfl⟩
  | setGpsReference p a => cases h3; exact ⟨rfl, rfl⟩
  | setZeroAcceleration b => cases h3; exact ⟨rfl, rfl⟩
  | initializeGravity => cases h3; exact ⟨rfl, rfl⟩
  | setBodyProcessNoise v => cases h3; exact ⟨rfl, rfl⟩
  | attemptGpsInit t x f =>
    obtain ⟨p, a, l, _, rfl⟩ := attemptGpsInit_form h3
    exact ⟨rfl, rfl⟩
  | registerIMU _ _ _ => exact fr h3
  | registerGPS _ _ _ => exact fr h3
  | registerCamera _ _ _ => exact fr h3
  | registerFiducial _ _ => exact fr h3
  | frame _ _ => exact fr h3
  | kalman _ _ _ => exact fr h3
  | getImu _ => exact fr h3
  | getGps _ => exact fr h3
  | getCam _ => exact fr h3
  | getAug _ _ _ => exact fr h3
  | setBodyMotion _ _ _ => exact fr h3

/-- In a new filter, after any calls that do not set the time base, the first stamp `t0` maps to 0; after any further
calls every stamp `t` maps to `t - t0`, and presenting it changes nothing. -/
theorem C13_offset (N : Prim K) (p : EkfParams K) (pre ops : List (Op K)) (e0 e : Ekf K) (t0 : K)
    (hp : ∀ op ∈ pre, op.setsTimeBase = false) (h0 : run N (init N p) pre = .ok e0)
    (h : run N (e0.calculateLocalTime t0).2 ops = .ok e) :
    (e0.calculateLocalTime t0).1 = 0 ∧ ∀ t, e.calculateLocalTime t = (t - t0, e) := by
  obtain ⟨h1, _⟩ := noTimeBase_run hp h0
  have hf : e0.timeInitialized = false := h1
  have hc : e0.calculateLocalTime t0 = (0, { e0 with referenceTime := t0, timeInitialized := true, currentTime := 0 }) := by
    simp [calculateLocalTime, hf]
  rw [hc] at h ⊢
  refine ⟨rfl, fun t => ?_⟩
  obtain ⟨g1, g2⟩ := timeBase_run rfl h
  simp [calculateLocalTime, g1, g2]

/-- Hence differences and order of stamps are preserved. -/
theorem C13_differences [IsStrictOrderedRing K] (N : Prim K) (p : EkfParams K) (pre ops : List (Op K)) (e0 e : Ekf K)
    (t0 : K) (hp : ∀ op ∈ pre, op.setsTimeBase = false) (h0 : run N (init N p) pre = .ok e0)
    (h : run N (e0.calculateLocalTime t0).2 ops = .ok e) (s t : K) :
    (e.calculateLocalTime t).1 - (e.calculateLocalTime s).1 = t - s ∧
    ((e.calculateLocalTime s).1 ≤ (e.calculateLocalTime t).1 ↔ s ≤ t) := by
  obtain ⟨_, h2⟩ := C13_offset N p pre ops e0 e t0 hp h0 h
  simp [h2]

/-- If the filter was initialised explicitly before any stamp was presented, stamps are used as they are. -/
theorem C13_explicit (N : Prim K) (p : EkfParams K) (pre ops : List (Op K)) (e0 e : Ekf K) (ti : K) (b : BodyState K)
    (hp : ∀ op ∈ pre, op.setsTimeBase = false) (h0 : run N (init N p) pre = .ok e0)
    (h : run N (e0.initializeAt ti b) ops = .ok e) (t : K) : e.calculateLocalTime t = (t, e) := by
  obtain ⟨_, h2⟩ := noTimeBase_run hp h0
  obtain ⟨g1, g2⟩ := timeBase_run rfl h
  have hr : e.referenceTime = 0 := g2.trans h2
  simp [calculateLocalTime, g1, hr]

/-- Concrete histories meeting the hypotheses: stamps 100, 107 in between other calls, and an explicit initialisation. -/
example : ∃ e0 e1 e2 : Ekf ℚ,
    run Samples.prim (init Samples.prim (Samples.params .all false)) (Samples.ops.take 4) = .ok e0 ∧
    (∀ op ∈ Samples.ops.take 4, op.setsTimeBase = false) ∧
    run Samples.prim (e0.calculateLocalTime 100).2 (Samples.ops.drop 4) = .ok e1 ∧
    (e1.calculateLocalTime 107).1 = 7 ∧
    run Samples.prim (e0.initializeAt 50 BodyState.default) [.predict 51] = .ok e2 ∧
    (e2.calculateLocalTime 107).1 = 107 := by
  refine ⟨_, _, _, rfl, ?_, rfl, ?_, rfl, ?_⟩
  · intro op h
    simp only [Samples.ops, List.take, List.mem_cons, List.not_mem_nil, or_false] at h
    rcases h with rfl | rfl | rfl | rfl <;> rfl
  · decide +kernel
  · decide +kernel

end EkfCal
