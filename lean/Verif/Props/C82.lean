import Verif.Lemmas.ClockShift
import Verif.Props.C44
import Verif.Props.C17

/-!
# C82: the origin of the clock does not matter
-/

set_option linter.unusedSectionVars false

namespace EkfCal
open Ekf
variable {K : Type} [Field K] [LinearOrder K]

/-- **One event**: the same event from a clock that started `δ` earlier does the same; only the stamp that counts as time
zero is later by `δ`.  (Not for `Initialize`, and not if observations carry stamps and come from a camera whose frames are not
cloned.) -/
theorem C82_event_partial (N : Num K) (G : GpsNum K) (δ ε : K) (s : Station K) (c : Call K) (hk : c.KeepsClock)
    (ht : ε = 0 ∨ c.TracksCloned s) : (s.later δ).step N G (c.shift δ ε) = Station.later δ <$> s.step N G c :=
  Station.step_later N G δ s c hk ε ht

theorem C82_run (N : Num K) (G : GpsNum K) (δ ε : K) (cs : List (Call K)) :
    ∀ s : Station K, (∀ c ∈ cs, c.KeepsClock) →
      (ε = 0 ∨ ∀ pre c post, cs = pre ++ c :: post → ∀ s', s.run N G pre = .ok s' → c.TracksCloned s') →
      (s.later δ).run N G (cs.map (·.shift δ ε)) = Station.later δ <$> s.run N G cs := by
  induction cs with
  | nil => intro s _ _; rfl
  | cons c cs ih =>
    intro s hk ht
    refine bind_mapped_of (C82_event_partial N G δ ε s c (hk c (List.mem_cons_self ..))
      (ht.imp_right fun ht => ht [] c cs rfl s rfl)) fun s1 h1 => ?_
    refine ih s1 (fun c' h => hk c' (List.mem_cons_of_mem _ h)) (ht.imp_right fun ht pre c' post h s' h' => ?_)
    refine ht (c :: pre) c' post (by rw [h]; rfl) s' ?_
    show (do let s ← s.step N G c; Station.run N G s pre) = _
    rw [h1]
    exact h'

/-- **The origin of the clock does not matter, live**: a history with all stamps later by `δ`, the tracks being those of the
feature tracker, ends as it ended before – in the same state, with the same updaters, or with the same failure – except that
the stamp that counts as time zero is later by `δ`.  (For histories without `Initialize`.) -/
theorem C82_live_partial (N : Num K) (G : GpsNum K) (p : EkfParams K) (δ : K) (cs : List (Call K)) (hk : ∀ c ∈ cs, c.KeepsClock) :
    (Station.init N p).run N G (cs.map (·.laterLive δ)) = Station.later δ <$> (Station.init N p).run N G cs :=
  C82_run N G δ 0 cs (Station.init N p) hk (.inl rfl)

/-- **The origin of the clock does not matter, simulated**: the same when the observations in tracks carry stamps, provided
tracks come only from cameras whose frames are cloned. -/
theorem C82_stamped_partial (N : Num K) (G : GpsNum K) (p : EkfParams K) (δ : K) (cs : List (Call K)) (hk : ∀ c ∈ cs, c.KeepsClock)
    (ht : ∀ pre c post, cs = pre ++ c :: post → ∀ s, (Station.init N p).run N G pre = .ok s → c.TracksCloned s) :
    (Station.init N p).run N G (cs.map (·.later δ)) = Station.later δ <$> (Station.init N p).run N G cs :=
  C82_run N G δ δ cs (Station.init N p) hk (.inr ht)

theorem augType_run {N : Num K} {G : GpsNum K} {cs : List (Call K)} {s s' : Station K} (h : s.run N G cs = .ok s') :
    s'.ekf.augType = s.ekf.augType := by
  induction cs generalizing s with
  | nil => cases h; rfl
  | cons c cs ih =>
    obtain ⟨s1, h1, h2⟩ := bind_ok_iff.1 h
    rw [ih h2, (station_config h1).augType]

/-- Cloning every frame, the condition on the tracks is met. -/
theorem C82_all_partial (N : Num K) (G : GpsNum K) (p : EkfParams K) (hp : p.augType = .all) (δ : K) (cs : List (Call K))
    (hk : ∀ c ∈ cs, c.KeepsClock) :
    (Station.init N p).run N G (cs.map (·.later δ)) = Station.later δ <$> (Station.init N p).run N G cs := by
  refine C82_stamped_partial N G p δ cs hk fun pre c post _ s hs => ?_
  have h : s.ekf.augType = .all := (augType_run hs).trans hp
  cases c with
  | cam k t i fs px => exact .inr fun u _ => .inl h
  | _ => trivial

/-- Without tracks, any way of cloning will do. -/
theorem C82_trackless_partial (N : Num K) (G : GpsNum K) (p : EkfParams K) (δ : K) (cs : List (Call K))
    (hk : ∀ c ∈ cs, c.KeepsClock) (ht : ∀ c ∈ cs, c.Trackless) :
    (Station.init N p).run N G (cs.map (·.later δ)) = Station.later δ <$> (Station.init N p).run N G cs := by
  refine C82_stamped_partial N G p δ cs hk fun pre c post h s _ => ?_
  have hc := ht c (by rw [h]; simp)
  cases c with
  | cam k t i fs px => exact .inl hc
  | _ => trivial

/-- What the user sees: the estimate and its covariance. -/
theorem C82_estimate_partial (N : Num K) (G : GpsNum K) (p : EkfParams K) (hp : p.augType = .all) (δ : K) (cs : List (Call K))
    (hk : ∀ c ∈ cs, c.KeepsClock) (s : Station K) (h : (Station.init N p).run N G cs = .ok s) :
    ∃ s', (Station.init N p).run N G (cs.map (·.later δ)) = .ok s' ∧ s'.ekf.state = s.ekf.state ∧ s'.ekf.cov = s.ekf.cov ∧
      s'.ekf.currentTime = s.ekf.currentTime ∧
      (s.ekf.timeInitialized = true → s'.ekf.referenceTime = s.ekf.referenceTime + δ) := by
  refine ⟨s.later δ, ?_, rfl, rfl, rfl, fun h => ?_⟩
  · rw [C82_all_partial N G p hp δ cs hk, h]; rfl
  · show (if s.ekf.timeInitialized then _ else _) = _
    rw [if_pos h]

/-! ## Tracks of a camera whose frames are not cloned

`MsckfUpdater::UpdateEKF` takes the time of the message as a stamp and the times of the observations as times of the filter.
Simulated tracks carry stamps in both places.  The simulation program calls `Initialize` with time zero, which makes stamps and
times of the filter the same; a program that lets the filter start with its first message and hands it such tracks is met by
what follows. -/

theorem poseFor_late (N : Prim K) {e : Ekf K} {cam : Nat} (p : FeaturePoint K) (hc : ¬ e.ClonesFrame cam) {last : AugState K}
    (hl : (e.window e.queryKey).getLast? = some last) (hf : ∀ a ∈ e.window e.queryKey, a.time ≤ last.time) (ht : last.time ≤ p.time) :
    (e.currentTime = last.time → e.poseFor N cam p = .error .nonFinite) ∧
    (e.currentTime ≠ last.time → ∃ a, e.poseFor N cam p = .ok a ∧
      a.pos = last.pos + ((p.time - last.time) / (e.currentTime - last.time)) • (e.state.body.pos - last.pos)) := by
  obtain ⟨first, hh⟩ : ∃ first, (e.window e.queryKey).head? = some first := by
    cases h : e.window e.queryKey with
    | nil => rw [h] at hl; cases hl
    | cons a w => exact ⟨a, rfl⟩
  have h1 : ¬ p.time < first.time := not_lt.2 ((hf first (List.mem_of_mem_head? hh)).trans ht)
  have h2 : ¬ p.time < last.time := not_lt.2 ht
  unfold poseFor
  rw [getAug_interp N e cam p.frameId p.time hc]
  unfold interpolateClone
  rw [hh, hl]
  simp only [h1, h2, if_false]
  constructor
  · intro h
    rw [if_pos (sub_eq_zero.2 h)]
    rfl
  · intro h
    rw [if_neg (sub_ne_zero.2 h)]
    exact ⟨_, rfl, rfl⟩

/-- **The origin of the clock matters** when observations carry stamps and the frames of the camera are not cloned: the stamps are
compared with times of the filter, as if the clock had started with the filter.  An observation stamped `δ` later gets a pose that is off by
`δ`, in units of the time since the last clone, times the way since then. -/
theorem C82_displaced_violated (N : Prim K) (e : Ekf K) (cam : Nat) (p : FeaturePoint K) (δ : K) (hc : ¬ e.ClonesFrame cam)
    (last : AugState K) (hl : (e.window e.queryKey).getLast? = some last) (hf : ∀ a ∈ e.window e.queryKey, a.time ≤ last.time)
    (ht : last.time ≤ p.time) (hδ : last.time ≤ p.time + δ) (hn : e.currentTime ≠ last.time) :
    ∃ a a', e.poseFor N cam p = .ok a ∧ (e.later δ).poseFor N cam (p.later δ) = .ok a' ∧
      a'.pos = a.pos + (δ / (e.currentTime - last.time)) • (e.state.body.pos - last.pos) := by
  obtain ⟨a, ha, hp⟩ := (poseFor_late N p hc hl hf ht).2 hn
  obtain ⟨a', ha', hp'⟩ := (poseFor_late N (e := e.later δ) (p.later δ) hc hl hf hδ).2 hn
  refine ⟨a, a', ha, ha', ?_⟩
  rw [hp, hp', add_assoc, ← add_smul, ← add_div]
  have h1 : (p.later δ).time - last.time = p.time - last.time + δ := by show p.time + δ - last.time = _; ring
  rw [h1]
  rfl

/-- Just after a clone, observations stamped late enough are divided by zero. -/
theorem C82_infinite_violated (N : Num K) (e : Ekf K) (u : MsckfUpdater K) (p : FeaturePoint K) (ps : List (FeaturePoint K))
    (truth : Option (V3 K)) (δ : K) (hc : ¬ e.ClonesFrame u.id) (last : AugState K)
    (hl : (e.window e.queryKey).getLast? = some last) (hf : ∀ a ∈ e.window e.queryKey, a.time ≤ last.time)
    (hδ : last.time ≤ p.time + δ) (hn : e.currentTime = last.time) :
    u.triangulate N (e.later δ) (FeatureTrack.later δ ⟨p :: ps, truth⟩) = .error .nonFinite := by
  have h := (poseFor_late N.toPrim (e := e.later δ) (p.later δ) hc hl hf hδ).1 hn
  unfold MsckfUpdater.triangulate
  show ((e.later δ).getAugState N.toPrim u.id p.frameId (p.time + δ) >>= _) = _
  unfold poseFor at h
  have h' : (e.later δ).getAugState N.toPrim u.id p.frameId (p.time + δ) = .error .nonFinite := by
    revert h
    show (·.1) <$> (e.later δ).getAugState N.toPrim u.id p.frameId (p.time + δ) = _ → _
    generalize (e.later δ).getAugState N.toPrim u.id p.frameId (p.time + δ) = x
    intro h
    cases x with
    | error u => cases h; rfl
    | ok a => cases h
  rw [h']
  rfl

/-! ## Concrete histories -/

/-- A lens. -/
def C82_lens : Intrinsics ℚ := ⟨1 / 100, 1 / 100, 0, 0, 0, 0, 640, 480, 1 / 200000⟩

/-- Frames at the times 0, 3/2 and 3; with the last one comes a track that ended before it. -/
def C82_frames : List (Call ℚ) :=
  [.filter (.registerCamera 1 Samples.cam (Samples.cov 6)), .newCam 4 1 true 1, .filter (.localTime 0),
   .filter (.frame 1 10), .cam 4 0 C82_lens [] 1, .filter (.frame 1 11), .cam 4 (3 / 2) C82_lens [] 1, .filter (.frame 1 12),
   .cam 4 3 C82_lens [⟨[⟨10, 0, 420, 240⟩, ⟨11, 3 / 2, 320, 240⟩], some ![1, 0, 20]⟩] 1]

/-- Did it fail with a value that is not finite? -/
def C82_blown {α : Type} : Res α → Bool
  | .error .nonFinite => true
  | _ => false

theorem C82_blown_iff {α : Type} {x : Res α} (h : C82_blown x = true) : x = .error .nonFinite := by
  cases x with
  | ok a => cases h
  | error u => cases u <;> first | rfl | cases h

/-- **The origin of the clock decides whether the filter works**: with time-driven cloning, a simulated track that is used when the clock
starts with the filter is divided by zero when the clock has been running for a hundred seconds. -/
theorem C82_origin_violated : ∃ (N : Num ℚ) (G : GpsNum ℚ) (p : EkfParams ℚ) (cs : List (Call ℚ)) (s : Station ℚ) (δ : ℚ),
    (∀ c ∈ cs, c.KeepsClock) ∧ (Station.init N p).run N G cs = .ok s ∧ 0 < δ ∧
    (Station.init N p).run N G (cs.map (·.later δ)) = .error .nonFinite := by
  obtain ⟨s, hs, _⟩ := Samples.ok_of_check
    (r := (Station.init Samples.num (Samples.params .time false)).run Samples.num Samples.gpsNum C82_frames)
    (P := fun _ : Station ℚ => True) (by decide +kernel)
  refine ⟨Samples.num, Samples.gpsNum, Samples.params .time false, C82_frames, s, 100, ?_, hs, by norm_num,
    C82_blown_iff (by decide +kernel)⟩
  intro c hc
  simp only [C82_frames, List.mem_cons, List.not_mem_nil, or_false] at hc
  rcases hc with rfl | rfl | rfl | rfl | rfl | rfl | rfl | rfl | rfl <;> trivial

/-- The hypotheses of `C82_all_partial` are met by a history with a track, which ends well; a hundred seconds later as well. -/
example : ∃ s, (Station.init Samples.num (Samples.params .all false)).run Samples.num Samples.gpsNum C82_frames = .ok s ∧
    (∀ c ∈ C82_frames, c.KeepsClock) ∧ s.ekf.referenceTime = 0 ∧ s.ekf.timeInitialized = true ∧
    ∃ s', (Station.init Samples.num (Samples.params .all false)).run Samples.num Samples.gpsNum (C82_frames.map (·.later 100)) = .ok s' ∧
      s'.ekf.state = s.ekf.state ∧ s'.ekf.referenceTime = 100 := by
  obtain ⟨s, hs, h1, h2⟩ := Samples.ok_of_check
    (r := (Station.init Samples.num (Samples.params .all false)).run Samples.num Samples.gpsNum C82_frames)
    (P := fun s : Station ℚ => s.ekf.referenceTime = 0 ∧ s.ekf.timeInitialized = true) (by decide +kernel)
  have hk : ∀ c ∈ C82_frames, c.KeepsClock := by
    intro c hc
    simp only [C82_frames, List.mem_cons, List.not_mem_nil, or_false] at hc
    rcases hc with rfl | rfl | rfl | rfl | rfl | rfl | rfl | rfl | rfl <;> trivial
  obtain ⟨s', h3, h4, _, _, h5⟩ := C82_estimate_partial Samples.num Samples.gpsNum (Samples.params .all false) rfl 100 C82_frames hk s hs
  exact ⟨s, hs, hk, h1, h2, s', h3, h4, by rw [h5 h2, h1]; norm_num⟩

/-- The hypotheses of `C82_trackless_partial` are met by the sample history with all kinds of sensors and messages. -/
example : (∀ c ∈ Samples.calls, c.KeepsClock) ∧ (∀ c ∈ Samples.calls, c.Trackless) := by
  constructor <;> intro c hc <;> simp only [Samples.calls, List.mem_cons, List.not_mem_nil, or_false] at hc <;>
    rcases hc with rfl | rfl | rfl | rfl | rfl | rfl | rfl | rfl | rfl | rfl | rfl | rfl | rfl | rfl | rfl | rfl | rfl <;>
    first | trivial | rfl

/-- A filter between two clones, with the body under way: the hypotheses of `C82_displaced_violated`. -/
def C82_between : Res (Ekf ℚ) :=
  Ekf.run Samples.prim (Ekf.init Samples.prim (Samples.params .time false))
    [.localTime 0, .initializeAt 0 { (BodyState.default : BodyState ℚ) with vel := ![1, 0, 0] }, .initializeGravity,
     .frame 1 10, .predict 0, .predict 2]

example : ∃ e last, C82_between = .ok e ∧ ¬ e.ClonesFrame 1 ∧ (e.window e.queryKey).getLast? = some last ∧
    (∀ a ∈ e.window e.queryKey, a.time ≤ last.time) ∧ last.time ≤ 1 ∧ e.currentTime ≠ last.time ∧ e.state.body.pos ≠ last.pos := by
  obtain ⟨e, he, h1, h2, h3, h4⟩ := Samples.ok_of_check (r := C82_between)
    (P := fun e : Ekf ℚ => e.augType = .time ∧ (times (e.window e.queryKey)) = [0] ∧ e.currentTime = 2 ∧
      (e.window e.queryKey).map (fun a => e.state.body.pos 0 - a.pos 0) = [2]) (by decide +kernel)
  cases hw : e.window e.queryKey with
  | nil => rw [hw] at h2; cases h2
  | cons a w =>
    rw [hw] at h2 h4
    obtain ⟨h5, h6⟩ : a.time = 0 ∧ times w = [] := by
      simp only [times, List.map_cons, List.cons.injEq] at h2
      exact h2
    have hw0 : w = [] := by cases w with
      | nil => rfl
      | cons b w => cases h6
    subst hw0
    simp only [List.map_cons, List.map_nil, List.cons.injEq, and_true] at h4
    refine ⟨e, a, he, ?_, by rw [hw]; rfl, ?_, by rw [h5]; norm_num, by rw [h5, h3]; norm_num, fun h => ?_⟩
    · rintro (h | ⟨h, _⟩) <;> rw [h1] at h <;> cases h
    · intro b hb
      rw [hw, List.mem_singleton] at hb
      rw [hb]
    · rw [h] at h4; norm_num at h4

end EkfCal
