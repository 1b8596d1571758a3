import Verif.Lemmas.Frame
import Verif.Spec.Samples

/-!
# C12 — filter time never runs backwards
-/

namespace EkfCal
open Ekf
variable {K : Type} [Field K] [LinearOrder K]

/-- The time requested by a call, if it is a prediction. -/
def Ekf.Op.requested : Op K → Option K
  | .predict t => some t
  | _ => none

/-- The call is an explicit (re-)initialisation. -/
def Ekf.Op.isInitialize : Op K → Bool
  | .initializeAt _ _ => true
  | _ => false

/-- The call presents a time stamp to `CalculateLocalTime`. -/
def Ekf.Op.isLocalTime : Op K → Bool
  | .localTime _ => true
  | _ => false

/-- A prediction requested for the past changes nothing at all. -/
theorem C12_past (N : Prim K) (e : Ekf K) (t : K) (h : t < e.currentTime) : e.predict N t = .ok e := by
  simp [predict, h]

/-- Any other defined prediction leaves the clock exactly at the requested time. -/
theorem C12_exact (N : Prim K) (e e' : Ekf K) (t : K) (ht : e.currentTime ≤ t) (h : e.predict N t = .ok e') :
    e'.currentTime = t :=
  (frame2_predict (not_lt.2 ht) h).currentTime

/-- Along any history without explicit initialisation, in a filter whose time base is fixed (or whose history presents no
stamp to `CalculateLocalTime`), the clock is the maximum of its initial value and all requested prediction times. -/
theorem C12_history (N : Prim K) (ops : List (Op K)) (e e' : Ekf K) (hi : ∀ op ∈ ops, op.isInitialize = false)
    (ht : e.timeInitialized = true ∨ ∀ op ∈ ops, op.isLocalTime = false) (h : run N e ops = .ok e') :
    e'.currentTime = (ops.filterMap Op.requested).foldl max e.currentTime := by
  induction ops generalizing e with
  | nil => cases h; rfl
  | cons op ops ih =>
    simp only [run, bind_ok_iff] at h
    obtain ⟨e1, h1, h2⟩ := h
    have h3 := step_frame h1
    have hi1 := hi op (by simp)
    have hi2 : ∀ o ∈ ops, o.isInitialize = false := fun o ho => hi o (by simp [ho])
    have key : (e1.timeInitialized = e.timeInitialized ∨ op.isLocalTime = true) →
        (e.timeInitialized = true → e1.timeInitialized = true) →
        (e1.timeInitialized = true ∨ ∀ o ∈ ops, o.isLocalTime = false) := by
      intro _ hm
      rcases ht with ht | ht
      · exact .inl (hm ht)
      · exact .inr fun o ho => ht o (by simp [ho])
    have same : e1.currentTime = e.currentTime → e1.timeInitialized = e.timeInitialized →
        e'.currentTime = (ops.filterMap Op.requested).foldl max e.currentTime := by
      intro f g
      rw [← f]
      exact ih e1 hi2 (key (.inl g) (fun h => g.trans h)) h2
    have fr : Frame e e1 → e'.currentTime = (ops.filterMap Op.requested).foldl max e.currentTime :=
      fun f => same f.currentTime f.timeInitialized
    cases op with
    | predict t =>
      simp only [StepFrame] at h3
      simp only [List.filterMap_cons, Op.requested, List.foldl_cons]
      split at h3
      · rename_i hlt
        subst h3
        rw [max_eq_left hlt.le]
        exact ih _ hi2 (key (.inl rfl) id) h2
      · rename_i hlt
        rw [max_eq_right (not_lt.1 hlt)]
        have hc : e1.currentTime = t := h3.currentTime
        rw [← hc]
        exact ih e1 hi2 (key (.inl h3.timeInitialized) (fun h => h3.timeInitialized.trans h)) h2
    | initializeAt t b => simp [Op.isInitialize] at hi1
    | localTime t =>
      simp only [StepFrame] at h3
      have hi : e.timeInitialized = true := by
        rcases ht with ht | ht
        · exact ht
        · simpa [Op.isLocalTime] using ht (.localTime t) (by simp)
      simp only [calculateLocalTime, hi, if_true] at h3
      subst h3
      exact ih _ hi2 (.inl hi) h2
    | setMaxTrackLength n => cases h3; exact same rfl rfl
    | setGpsReference p a => cases h3; exact same rfl rfl
    | setZeroAcceleration b => cases h3; exact same rfl rfl
    | initializeGravity => cases h3; exact same rfl rfl
    | setBodyProcessNoise v => cases h3; exact same rfl rfl
    | attemptGpsInit t x f =>
      obtain ⟨p, a, l, _, rfl⟩ := attemptGpsInit_form h3
      exact same rfl rfl
    | registerIMU _ _ _ => exact fr h3
    | registerGPS _ _ _ => exact fr h3
    | registerCamera _ _ _ => exact fr h3
    | registerFiducial _ _ => exact fr h3
    | frame _ _ => exact fr h3
    | kalman _ _ _ => exact fr h3
    | getImu _ => exact fr h3
    | getGps _ => exact fr h3
    | getCam _ => exact fr h3
    | getAug _ _ _ => exact fr h3
    | setBodyMotion _ _ _ => exact fr h3

/-- Hence the clock never falls. -/
theorem C12_monotone (N : Prim K) (ops : List (Op K)) (e e' : Ekf K) (hi : ∀ op ∈ ops, op.isInitialize = false)
    (ht : e.timeInitialized = true ∨ ∀ op ∈ ops, op.isLocalTime = false) (h : run N e ops = .ok e') :
    e.currentTime ≤ e'.currentTime ∧ ∀ t ∈ ops.filterMap Op.requested, t ≤ e'.currentTime := by
  rw [C12_history N ops e e' hi ht h]
  generalize ops.filterMap Op.requested = l
  clear h hi ht
  generalize e.currentTime = a
  induction l generalizing a with
  | nil => simp
  | cons x l ih =>
    obtain ⟨h1, h2⟩ := ih (max a x)
    simp only [List.foldl_cons, List.mem_cons, forall_eq_or_imp]
    exact ⟨(le_max_left _ _).trans h1, (le_max_right _ _).trans h1, h2⟩

/-- The excluded point: the first stamp presented to a filter without time base sets the clock to 0, whatever it was. -/
theorem C12_first_stamp (e : Ekf K) (t : K) (h : e.timeInitialized = false) :
    (e.calculateLocalTime t).2.currentTime = 0 := by
  simp [calculateLocalTime, h]

/-- Out-of-order requests on a filter with a fixed time base. -/
example : ∃ e', run Samples.prim ((init Samples.prim (Samples.params .all false)).calculateLocalTime 100).2
    [.registerIMU 1 (Samples.imu true true) (Samples.cov 12), .initializeGravity, .predict 3, .predict 1, .localTime 7,
     .predict 4, .predict 2] = .ok e' ∧ e'.currentTime = 4 := by
  exact ⟨_, rfl, rfl⟩

end EkfCal
