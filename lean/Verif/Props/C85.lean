import Verif.Lemmas.Named
import Verif.Props.C83
import Verif.Props.C67

/-!
# C85: frame numbers are only names
-/

set_option linter.unusedSectionVars false

namespace EkfCal
open Ekf
variable {K : Type} [Field K] [LinearOrder K]

/-- **One event**: under other frame numbers an event does the same, and leaves everything the same but the numbers that clones carry. -/
theorem C85_event (N : Num K) (G : GpsNum K) {f : Nat → Nat} (hf : Renumbers f) (s : Station K) (c : Call K) :
    (s.named f).step N G (c.named f) = Station.named f <$> s.step N G c :=
  Station.step_named N G hf s c

theorem run_named (N : Num K) (G : GpsNum K) {f : Nat → Nat} (hf : Renumbers f) (cs : List (Call K)) :
    ∀ s : Station K, (s.named f).run N G (cs.map (·.named f)) = Station.named f <$> s.run N G cs := by
  induction cs with
  | nil => intro s; rfl
  | cons c cs ih => intro s; exact bind_mapped (C85_event N G hf s c) ih

theorem init_named (N : Num K) (p : EkfParams K) (f : Nat → Nat) : (Station.init N p).named f = Station.init N p := rfl

/-- **Frame numbers are only names**: give the frames of a history other numbers, different ones to different frames.  The run ends as
before, well or badly, and if well with everything the same but the numbers that clones carry. -/
theorem C85_numbers (N : Num K) (G : GpsNum K) (p : EkfParams K) {f : Nat → Nat} (hf : Renumbers f) (cs : List (Call K)) :
    (Station.init N p).run N G (cs.map (·.named f)) = Station.named f <$> (Station.init N p).run N G cs := by
  rw [← init_named N p f]
  exact run_named N G hf cs (Station.init N p)

/-- What the user sees: all estimates, the covariance and the updaters are the same, and the windows hold the same poses. -/
theorem C85_estimate (N : Num K) (G : GpsNum K) (p : EkfParams K) {f : Nat → Nat} (hf : Renumbers f) (cs : List (Call K)) (s : Station K)
    (h : (Station.init N p).run N G cs = .ok s) :
    ∃ s', (Station.init N p).run N G (cs.map (·.named f)) = .ok s' ∧
      s'.ekf.state.body = s.ekf.state.body ∧ s'.ekf.state.imus = s.ekf.state.imus ∧ s'.ekf.state.gpss = s.ekf.state.gpss ∧
      s'.ekf.state.cams = s.ekf.state.cams ∧ s'.ekf.state.fids = s.ekf.state.fids ∧ s'.ekf.cov = s.ekf.cov ∧
      s'.ekf.currentTime = s.ekf.currentTime ∧ s'.ekf.stateSize = s.ekf.stateSize ∧
      s'.imus = s.imus ∧ s'.gpss = s.gpss ∧ s'.fids = s.fids ∧ s'.cams = s.cams ∧
      (∀ k, (s'.ekf.window k).map (·.unnamed) = (s.ekf.window k).map (·.unnamed)) ∧
      (∀ k, s.ekf.ClonesFrame k → (s'.ekf.window k).map (·.frameId) = (s.ekf.window k).map fun a => f a.frameId) := by
  have hw : ∀ k, (s.named f).ekf.window k = (s.ekf.window k).map (·.named (s.ekf.naming f)) := fun k => window_named _ _ _
  refine ⟨s.named f, ?_, rfl, rfl, rfl, rfl, rfl, rfl, rfl, rfl, rfl, rfl, rfl, rfl, fun k => ?_, fun k hk => ?_⟩
  · rw [C85_numbers N G p hf, h]; rfl
  · rw [hw, List.map_map]; rfl
  · rw [hw, List.map_map, naming_clones f hk]; rfl

/-- **Clones**: what is found for a frame under its other number is the same pose, at the same place in the state vector. -/
theorem C85_clone (N : Prim K) {f : Nat → Nat} (hf : Renumbers f) (e : Ekf K) (cam frame : Nat) (t : K) (a : AugState K) (e1 : Ekf K)
    (h : e.getAugState N cam frame t = .ok (a, e1)) :
    ∃ a' e1', (e.named f).getAugState N cam (f frame) t = .ok (a', e1') ∧ a'.pos = a.pos ∧ a'.ang = a.ang ∧ a'.index = a.index ∧
      a'.alpha = a.alpha := by
  have hg := getAugState_named N hf e cam frame t
  rw [h] at hg
  cases h' : (e.named f).getAugState N cam (f frame) t with
  | error u => rw [h'] at hg; cases hg
  | ok x =>
    rw [h'] at hg
    obtain ⟨a', e1'⟩ := x
    have ha : a'.unnamed = a.unnamed := congrArg Prod.fst (Except.ok.inj hg)
    exact ⟨a', e1', rfl, (congrArg AugState.pos ha :), (congrArg AugState.ang ha :), (congrArg AugState.index ha :),
      (congrArg AugState.alpha ha :)⟩

/-! ## Trackers and cameras

A tracker asks whether a track has an observation in the current image by comparing numbers for order: the numbers have to grow from
image to image. -/

/-- **Trackers**: under other numbers that keep the order a tracker delivers the same tracks, over the frames with the other numbers. -/
theorem C85_tracker (N : Prim K) {f : Nat → Nat} (hf : Increases f) (xs : List (TrackFrame K)) : ∀ t : FeatureTracker K,
    (t.named f).runTrack N (xs.map (·.named f)) = (fun y => (y.1.named f, namedTracks f y.2)) <$> t.runTrack N xs := by
  induction xs with
  | nil => intro t; rfl
  | cons x xs ih =>
    intro t
    refine bind_mapped (FeatureTracker.track_named N hf t x) fun y => ?_
    refine bind_mapped (ih y.1) fun z => ?_
    refine congrArg Except.ok ?_
    simp only [namedTracks, List.map_append]

/-- A tracker that has seen no key points does not look at the number of its last image, which is not set then. -/
theorem C85_fresh (N : Prim K) (t : FeatureTracker K) (h : t.prevKeys = []) (n : Nat) (x : TrackFrame K) :
    ({ t with prevFrameId := n } : FeatureTracker K).track N x = t.track N x :=
  FeatureTracker.track_fresh N t h n x

/-- **Simulated trackers** as well. -/
theorem C85_simulated (f : Nat → Nat) (hf : Increases f) (xs : List (Nat × K × List (Nat × K × K))) : ∀ t : SimTracker K,
    (t.named f).run (xs.map fun x => (f x.1, x.2)) = (fun y => (y.1.named f, namedTracks f y.2)) <$> t.run xs := by
  induction xs with
  | nil => intro t; rfl
  | cons x xs ih =>
    intro t
    refine bind_mapped (SimTracker.generate_named hf t x.1 x.2.1 x.2.2) fun y => ?_
    refine bind_mapped (ih y.1) fun z => ?_
    refine congrArg Except.ok ?_
    simp only [namedTracks, List.map_append]

/-- **Cameras**: images with other numbers that keep the order, between any other calls.  The camera hands the same tracks to its updaters,
and the filter does the same. -/
theorem C85_camera (N : Num K) {f : Nat → Nat} (hf : Increases f) (evs : List (Camera.Event K)) : ∀ (c : Camera K) (e : Ekf K),
    Camera.run N (c.named f) (e.named f) (evs.map (·.named f)) =
      (fun x => (x.1.named f, x.2.1.named f, x.2.2.map (·.named f))) <$> Camera.run N c e evs := by
  induction evs with
  | nil => intro c e; rfl
  | cons ev evs ih =>
    intro c e
    cases ev with
    | image m =>
      refine bind_mapped (Camera.callback_named N hf c e m) fun x => ?_
      refine bind_mapped (ih x.1 x.2.1) fun y => ?_
      refine congrArg Except.ok ?_
      simp only [List.map_append]
    | other op => exact bind_mapped (Ekf.step_named N.toPrim hf.renumbers e op) fun e => ih c e

/-! ## Concrete cases -/

/-- Every frame gets twice its number and seven. -/
def C85_other (n : Nat) : Nat := 2 * n + 7

theorem other_increases : Increases C85_other := by
  intro m n h
  unfold C85_other
  omega

/-- The hypothesis of `C85_numbers` and `C85_estimate`, and a run with a track. -/
example : Renumbers C85_other ∧ ∃ s, (Station.init Samples.num (Samples.params .all false)).run Samples.num Samples.gpsNum
      ((.filter (.initializeAt 0 C83_start) :: (C83_before ++ [C83_last])).map (·.named C85_other)) = .ok s ∧
    (s.ekf.window 1).map (·.frameId) = [27, 29, 31] := by
  refine ⟨other_increases.renumbers, ?_⟩
  exact Samples.ok_of_check (P := fun s : Station ℚ => (s.ekf.window 1).map (·.frameId) = [27, 29, 31]) (by decide +kernel)

/-- Different frames do have to get different numbers: with one number for all frames the last clone is found for each of them. -/
example : ∃ s, (Station.init Samples.num (Samples.params .all false)).run Samples.num Samples.gpsNum
      (.filter (.initializeAt 0 C83_start) :: C83_before) = .ok s ∧
    (findFrame (s.ekf.window 1) 10).pos = ![0, 0, 0] ∧
    (findFrame ((s.ekf.named fun _ => 5).window 1) 5).pos = ![3 / 2, 0, 0] :=
  Samples.ok_of_check (P := fun s : Station ℚ => (findFrame (s.ekf.window 1) 10).pos = ![0, 0, 0] ∧
    (findFrame ((s.ekf.named fun _ => 5).window 1) 5).pos = ![3 / 2, 0, 0]) (by decide +kernel)

/-- The hypothesis of `C85_camera`, and a run in which tracks are delivered. -/
example : Increases C85_other ∧ ∃ e r, WindowSample.filter = .ok e ∧
    Camera.run Samples.diagNum ((WindowSample.camera 3).named C85_other) (e.named C85_other)
      ([WindowSample.image 1 true, WindowSample.image 2 true, WindowSample.image 3 true].map (·.named C85_other)) = .ok r ∧
    (r.2.2.flatMap fun d => d.tracks.flatMap fun o => o.2.map (·.frameId)).take 3 = [9, 11, 13] := by
  refine ⟨other_increases, ?_⟩
  have h := Samples.ok_of_check (r := do
      let e ← WindowSample.filter
      let r ← Camera.run Samples.diagNum ((WindowSample.camera 3).named C85_other) (e.named C85_other)
        ([WindowSample.image 1 true, WindowSample.image 2 true, WindowSample.image 3 true].map (·.named C85_other))
      pure (e, r))
    (P := fun x : Ekf ℚ × Camera ℚ × Ekf ℚ × List (Delivery ℚ) =>
      (x.2.2.2.flatMap fun d => d.tracks.flatMap fun o => o.2.map (·.frameId)).take 3 = [9, 11, 13]) (by decide +kernel)
  obtain ⟨x, hx, hp⟩ := h
  obtain ⟨e, he, hx⟩ := bind_ok_iff.1 hx
  obtain ⟨r, hr, hx⟩ := bind_ok_iff.1 hx
  cases hx
  exact ⟨e, r, he, hr, hp⟩

/-- Trackers need the order: with numbers that fall from image to image a track that has ended is kept. -/
example : (do
      let (t, _) ← (SimTracker.mk 1 5 [] : SimTracker ℚ).generate 1 0 [(4, 1, 1)]
      let (_, out) ← t.generate 2 1 []
      pure (out.map Prod.fst) : Res (List Nat)) = .ok [4] ∧
    (do
      let (t, _) ← (SimTracker.mk 1 5 [] : SimTracker ℚ).generate 9 0 [(4, 1, 1)]
      let (_, out) ← t.generate 8 1 []
      pure (out.map Prod.fst) : Res (List Nat)) = .ok [] := ⟨rfl, rfl⟩

end EkfCal
