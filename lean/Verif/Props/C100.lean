import Verif.Props.C99

/-!
# C100 — by the clock, a pose is remembered when the interval is exceeded and an image has come
-/

set_option linter.unusedSectionVars false

namespace EkfCal
open Ekf
variable {K : Type} [Field K] [LinearOrder K] [IsStrictOrderedRing K]

/-- **By the clock, a pose is remembered when the interval is exceeded and an image has come**: with poses remembered by the clock and one
kept, a prediction to a time `t` that is not past puts the body's new pose at the end of the kept ones if an image has come since and `t` is
further than the interval from the time `prev` of the last pose remembered; and otherwise it remembers nothing. -/
theorem C100_due_partial (N : Prim K) (e e' : Ekf K) (t prev : K) (ha : e.augType = .time) (hw : e.window 0 ≠ [])
    (hp : e.augPrevTime = some prev) (ht : e.currentTime ≤ t) (h : step N e (.predict t) = .ok e') :
    (e.frameReceived = true ∧ e.augDeltaTime < |t - prev| →
      (∃ kept, (∀ a ∈ kept, a ∈ e.records 0) ∧ e'.records 0 = kept ++ [⟨0, t, e'.state.body.pos, e'.state.body.ang, 0, 0⟩]) ∧
      e'.augPrevTime = some t ∧ e'.frameReceived = false) ∧
    (¬ (e.frameReceived = true ∧ e.augDeltaTime < |t - prev|) →
      (∀ a ∈ e'.records 0, a ∈ e.records 0) ∧ e'.augPrevTime = some prev ∧ e'.frameReceived = e.frameReceived) := by
  obtain ⟨h1, _⟩ | ⟨_, b, out, _, h2⟩ := predict_form h
  · exact absurd ht (not_le.2 h1)
  have hb := augmentTimed_body h2
  obtain ⟨hn, _⟩ | ⟨_, _, due, hd, hr⟩ := records_timed h2
  · exact absurd (.inl ha) hn
  obtain ⟨a, hl⟩ : ∃ a, (e.window 0).getLast? = some a := ⟨_, List.getLast?_eq_some_getLast hw⟩
  have hdue : due = decide (|t - prev| > e.augDeltaTime) := by
    unfold cloneDue at hd
    have hl' : (Ekf.window { e with state := { e.state with body := b }, cov := out, currentTime := t } 0).getLast? = some a := hl
    rw [hl'] at hd
    simp only [ha, hp, Except.ok.injEq] at hd
    exact hd.symm
  subst hdue
  simp only [decide_eq_true_eq] at hr
  obtain ⟨hc, r1, r2, r3⟩ | ⟨hc, r1, r2, r3⟩ := hr
  · refine ⟨fun hx => absurd ⟨hx.2, hx.1⟩ hc, fun _ => ⟨fun a ha => ?_, r1.trans hp, r2⟩⟩
    rw [r3] at ha
    exact prune_subset _ _ _ a ha
  · refine ⟨fun _ => ⟨⟨prune t e.maxTrackDuration (e.records 0), fun a ha => prune_subset _ _ _ a ha, ?_⟩, r1, r2⟩, fun hx => absurd ⟨hc.2, hc.1⟩ hx⟩
    rw [r3]
    unfold poseClone
    rw [hb]
    rfl

/-- The time stored by the clock is the time of the newest pose kept. -/
def NewestStored (e : Ekf K) : Prop := e.augType = .time → ∀ a, (e.window 0).getLast? = some a → e.augPrevTime = some a.time

/-- Pruning keeps the newest pose. -/
theorem prune_getLast (now d : K) (l : List (AugState K)) : (prune now d l).getLast? = l.getLast? := by
  induction l with
  | nil => rfl
  | cons x l ih =>
    unfold prune
    split
    · rename_i hx
      have : l = [] := by by_contra hl; exact prune_ne_nil hl hx
      rw [this]
    · rename_i b rest hx
      rw [hx] at ih
      have hl : l ≠ [] := by rintro rfl; simp at ih
      obtain ⟨y, ys, rfl⟩ := List.exists_cons_of_ne_nil hl
      split
      · rw [ih, List.getLast?_cons_cons]
      · rw [List.getLast?_cons_cons, ih, List.getLast?_cons_cons]

theorem newest_of {e e' : Ekf K} (hp : NewestStored e) (h1 : e'.augType = e.augType) (h2 : e'.stamps 0 = e.stamps 0)
    (h3 : e'.augPrevTime = e.augPrevTime) : NewestStored e' := by
  intro ht a ha
  have y1 : ((e'.window 0).map AugState.stamp).getLast? = some a.stamp := by rw [List.getLast?_map, ha]; rfl
  have y2 : ((e.window 0).map AugState.stamp).getLast? = some a.stamp := by rw [← y1]; exact congrArg List.getLast? h2.symm
  rw [List.getLast?_map] at y2
  obtain ⟨c, c1, c2⟩ := Option.map_eq_some_iff.1 y2
  have c3 : c.time = a.time := congrArg Prod.snd c2
  rw [h3, hp (h1 ▸ ht) c c1, c3]

theorem step_newest {N : Prim K} {e e' : Ekf K} {op : Op K} (hp : NewestStored e) (h : step N e op = .ok e') : NewestStored e' := by
  have gen : (∀ t, op ≠ .predict t) → (∀ c f, op ≠ .frame c f) → e'.augType = e.augType →
      e'.augPrevTime = e.augPrevTime → NewestStored e' := fun h1 h2 h3 h4 => newest_of hp h3 (stamps_step h h1 h2 0) h4
  cases op with
  | registerIMU id s c =>
    refine gen (by simp) (by simp) (frame2_registerIMU h).augType ?_
    rcases registerIMU_form h with ⟨_, rfl⟩ | ⟨_, _, _, h⟩
    · rfl
    · have := prevTime_refresh h; exact this
  | registerGPS id s c =>
    refine gen (by simp) (by simp) (frame2_registerGPS h).augType ?_
    rcases registerGPS_form h with ⟨_, rfl⟩ | ⟨_, _, _, h⟩
    · rfl
    · have := prevTime_refresh h; exact this
  | registerCamera id s c =>
    refine gen (by simp) (by simp) (frame_registerCamera h).augType ?_
    rcases registerCamera_form h with ⟨_, rfl⟩ | ⟨_, _, _, _, h⟩
    · rfl
    · have := prevTime_refresh h; exact this
  | registerFiducial s c =>
    refine gen (by simp) (by simp) (frame2_registerFiducial h).augType ?_
    rcases registerFiducial_form h with ⟨_, rfl⟩ | ⟨_, _, _, h⟩
    · rfl
    · have := prevTime_refresh h; exact this
  | predict t =>
    rcases records_predict h with ⟨_, rfl⟩ | ⟨_, b, out, hr, h⟩
    · exact hp
    · rcases records_timed h with ⟨hnt, rfl⟩ | ⟨hty, _, due, _, h'⟩
      · intro ht; exact absurd (Or.inl ht) hnt
      · rcases h' with ⟨_, h1, _, h2⟩ | ⟨_, h1, _, h3⟩
        · intro ht a ha
          rw [h1]
          have ht' : e.augType = .time := by
            have := (frame2_augmentTimed h).augType
            rw [this] at ht; exact ht
          have y1 : (e'.records 0).getLast? = some a.record := by
            show ((e'.window 0).map AugState.record).getLast? = _
            rw [List.getLast?_map, ha]; rfl
          have hr0 := hr 0
          rw [h2, prune_getLast, hr0] at y1
          have y2 : ((e.window 0).map AugState.record).getLast? = some a.record := y1
          rw [List.getLast?_map] at y2
          obtain ⟨c, c1, c2⟩ := Option.map_eq_some_iff.1 y2
          have c3 : c.time = a.time := by have := congrArg AugState.time c2; exact this
          have := hp ht' c c1
          rw [c3] at this
          exact this
        · intro _ a ha
          have y1 : (e'.records 0).getLast? = some a.record := by
            show ((e'.window 0).map AugState.record).getLast? = _
            rw [List.getLast?_map, ha]; rfl
          rw [h3, List.getLast?_concat] at y1
          have c3 := congrArg AugState.time (Option.some.inj y1)
          rw [h1]
          exact congrArg some c3
  | frame c f =>
    have hf := (frame2_augmentFrame h).augType
    intro ht hw
    rw [hf] at ht
    rcases augmentFrame_form h with ⟨_, rfl⟩ | ⟨hc, _⟩
    · exact hp ht hw
    · rw [ht] at hc; simp at hc
  | kalman j r n =>
    refine gen (by simp) (by simp) (frame2_kalman h).augType ?_
    obtain ⟨_, _, _, rfl, _⟩ := kalmanUpdate_form h
    rfl
  | getAug c f t =>
    have h' := h
    simp only [step, bind_ok_iff, pure_res, Except.ok.injEq] at h'
    obtain ⟨r, h1, rfl⟩ := h'
    refine gen (by simp) (by simp) (frame2_getAug h1).augType ?_
    obtain ⟨key, hk⟩ := getAugState_form h1
    rw [hk]
  | attemptGpsInit t x f =>
    obtain ⟨_, _, _, _, rfl⟩ := attemptGpsInit_form h
    exact hp
  | localTime t =>
    simp only [step, Except.ok.injEq] at h
    subst h
    unfold calculateLocalTime
    split <;> exact hp
  | getImu id => cases h; exact hp
  | getGps id => cases h; exact hp
  | getCam id => cases h; exact hp
  | initializeAt t b => cases h; exact hp
  | setMaxTrackLength n => cases h; exact hp
  | setGpsReference p a => cases h; exact hp
  | setZeroAcceleration b => cases h; exact hp
  | initializeGravity => cases h; exact hp
  | setBodyProcessNoise v => cases h; exact hp
  | setBodyMotion a w α => cases h; exact hp

/-- In every history the clock starts with the newest pose kept. -/
theorem newest_run {N : Prim K} (ops : List (Op K)) : ∀ {e e' : Ekf K}, NewestStored e → run N e ops = .ok e' → NewestStored e' := by
  induction ops with
  | nil => intro e e' hp h; cases h; exact hp
  | cons op ops ih =>
    intro e e' hp h
    simp only [run, bind_ok_iff] at h
    obtain ⟨e1, h1, h⟩ := h
    exact ih (step_newest hp h1) h

/-- The same in every history, with the interval counted from the newest pose that is kept: a prediction remembers the body's new pose exactly
if an image has come since and more than the interval has passed. -/
theorem C100_clock_partial (N : Prim K) (p : EkfParams K) (ops : List (Op K)) (e e' : Ekf K) (t : K)
    (he : run N (init N p) ops = .ok e) (ha : p.augType = .time) (newest : AugState K) (hw : (e.window 0).getLast? = some newest)
    (ht : e.currentTime ≤ t) (h : step N e (.predict t) = .ok e') :
    (e.frameReceived = true ∧ e.augDeltaTime < |t - newest.time| →
      (∃ kept, (∀ a ∈ kept, a ∈ e.records 0) ∧ e'.records 0 = kept ++ [⟨0, t, e'.state.body.pos, e'.state.body.ang, 0, 0⟩]) ∧
      e'.frameReceived = false) ∧
    (¬ (e.frameReceived = true ∧ e.augDeltaTime < |t - newest.time|) →
      (∀ a ∈ e'.records 0, a ∈ e.records 0) ∧ e'.frameReceived = e.frameReceived) := by
  have hty : e.augType = .time := (config_run he).augType.trans ha
  have hs : NewestStored e := newest_run ops (fun _ a h0 => by cases (show (none : Option (AugState K)) = some a from h0)) he
  have := C100_due_partial N e e' t newest.time hty (fun hx => by rw [hx] at hw; cases hw) (hs hty _ hw) ht h
  exact ⟨fun hx => ⟨(this.1 hx).1, (this.1 hx).2.2⟩, fun hx => ⟨(this.2 hx).1, (this.2 hx).2.2⟩⟩

set_option synthInstance.maxSize 2000 in
open Samples in
/-- The filter of C99 remembers a pose at time 1 and has got another image. -/
example : ∃ e e' : Ekf ℚ, run C91_num.toPrim (init C91_num.toPrim (params .time false)) C99_clock = .ok e ∧ e.augType = .time ∧
    (∃ newest, (e.window 0).getLast? = some newest ∧ newest.time = 1) ∧ e.window 0 ≠ [] ∧ e.augPrevTime = some 1 ∧ e.frameReceived = true ∧ e.augDeltaTime < |3 - 1| ∧ e.currentTime ≤ 3 ∧
    step C91_num.toPrim e (.predict 3) = .ok e' := by
  obtain ⟨p, hr, hp⟩ := ok_of_check (r := do
      let e ← run C91_num.toPrim (init C91_num.toPrim (params .time false)) C99_clock
      let e' ← step C91_num.toPrim e (.predict 3)
      pure (e, e'))
    (P := fun p : Ekf ℚ × Ekf ℚ => p.1.augType = .time ∧ (p.1.window 0).map AugState.time = [1] ∧ p.1.augPrevTime = some 1 ∧ p.1.frameReceived = true ∧
      p.1.augDeltaTime < |3 - 1| ∧ p.1.currentTime ≤ 3) (by decide +kernel)
  simp only [bind_ok_iff, pure_res, Except.ok.injEq] at hr
  obtain ⟨e, h0, e', h1, rfl⟩ := hr
  obtain ⟨p1, p2, p3, p4, p5, p6⟩ := hp
  have hl : (e.window 0).getLast?.map AugState.time = some 1 := by rw [← List.getLast?_map]; exact congrArg List.getLast? p2
  have hne : e.window 0 ≠ [] := by intro hx; rw [hx] at hl; cases hl
  exact ⟨e, e', h0, p1, Option.map_eq_some_iff.1 hl, hne, p3, p4, p5, p6, h1⟩

end EkfCal
