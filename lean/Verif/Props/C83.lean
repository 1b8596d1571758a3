import Verif.Lemmas.Displaced
import Verif.Props.C82

/-!
# C83: the origin of the local frame does not matter
-/

set_option linter.unusedSectionVars false

namespace EkfCal
open Ekf
variable {K : Type} [Field K] [LinearOrder K]

/-- **One event**: with body, boards and clones displaced by `d`, an event that is no position fix does the same, and leaves them
displaced by `d`.  (For frames that have a clone, where frames are cloned.) -/
theorem C83_event_partial (N : Num K) (G : GpsNum K) (d : V3 K) (s : Station K) (c : Call K) (hg : c.NoFix) (hk : c.Known s) :
    (s.displaced d).step N G (c.displaced d) = Station.displaced d <$> s.step N G c :=
  Station.step_displaced N G d s c hg hk

theorem C83_run (N : Num K) (G : GpsNum K) (d : V3 K) (cs : List (Call K)) :
    ∀ s : Station K, (∀ c ∈ cs, c.NoFix) →
      (∀ pre c post, cs = pre ++ c :: post → ∀ s', s.run N G pre = .ok s' → c.Known s') →
      (s.displaced d).run N G (cs.map (·.displaced d)) = Station.displaced d <$> s.run N G cs := by
  induction cs with
  | nil => intro s _ _; rfl
  | cons c cs ih =>
    intro s hg hk
    refine bind_mapped_of (C83_event_partial N G d s c (hg c (List.mem_cons_self ..)) (hk [] c cs rfl s rfl)) fun s1 h1 => ?_
    refine ih s1 (fun c' h => hg c' (List.mem_cons_of_mem _ h)) fun pre c' post h s' h' => ?_
    refine hk (c :: pre) c' post (by rw [h]; rfl) s' ?_
    show (do let s ← s.step N G c; Station.run N G s pre) = _
    rw [h1]
    exact h'

/-- **The origin of the local frame does not matter**: start a filter at a place displaced by `d` and let the boards be displaced by `d` as
well.  Without position fixes the run ends as before, well or badly, and if well with the estimates of body, boards and clones
displaced by `d` and with the same everything else.  (For frames that have a clone, where frames are cloned.) -/
theorem C83_origin_partial (N : Num K) (G : GpsNum K) (p : EkfParams K) (d : V3 K) (t : K) (b : BodyState K) (cs : List (Call K))
    (hg : ∀ c ∈ cs, c.NoFix)
    (hk : ∀ pre c post, cs = pre ++ c :: post → ∀ s, (Station.init N p).run N G (.filter (.initializeAt t b) :: pre) = .ok s → c.Known s) :
    (Station.init N p).run N G (.filter (.initializeAt t (b.displaced d)) :: cs.map (·.displaced d)) =
      Station.displaced d <$> (Station.init N p).run N G (.filter (.initializeAt t b) :: cs) := by
  refine bind_mapped_of (x := (Station.init N p).step N G (.filter (.initializeAt t b))) (φ := Station.displaced d) rfl fun s1 h1 => ?_
  refine C83_run N G d cs s1 hg fun pre c post h s' h' => hk pre c post h s' ?_
  show (do let s ← (Station.init N p).step N G (.filter (.initializeAt t b)); Station.run N G s pre) = _
  rw [h1]
  exact h'

/-- Where clones are made by time or by error, or not at all, the condition on the frames is met. -/
theorem C83_interpolated_partial (N : Num K) (G : GpsNum K) (p : EkfParams K) (hp : p.augType ≠ .all) (hp' : p.augType ≠ .primary)
    (d : V3 K) (t : K) (b : BodyState K) (cs : List (Call K)) (hg : ∀ c ∈ cs, c.NoFix) :
    (Station.init N p).run N G (.filter (.initializeAt t (b.displaced d)) :: cs.map (·.displaced d)) =
      Station.displaced d <$> (Station.init N p).run N G (.filter (.initializeAt t b) :: cs) := by
  refine C83_origin_partial N G p d t b cs hg fun pre c post _ s hs => ?_
  have hn : ∀ cam frame, s.ekf.Knows cam frame := by
    intro cam frame hc
    have ha : s.ekf.augType = p.augType := augType_run hs
    rcases hc with hc | ⟨hc, _⟩
    · exact absurd (ha.symm.trans hc) hp
    · exact absurd (ha.symm.trans hc) hp'
  cases c with
  | cam k t i fs px => exact fun u _ f _ q _ => hn u.id q.frameId
  | filter op => cases op <;> first | trivial | exact hn _ _
  | _ => trivial

/-- Without tracks any way of cloning will do. -/
theorem C83_trackless_partial (N : Num K) (G : GpsNum K) (p : EkfParams K) (d : V3 K) (t : K) (b : BodyState K) (cs : List (Call K))
    (hg : ∀ c ∈ cs, c.NoFix) (ht : ∀ c ∈ cs, c.Trackless) (ha : ∀ c f t, Call.filter (.getAug c f t) ∉ cs) :
    (Station.init N p).run N G (.filter (.initializeAt t (b.displaced d)) :: cs.map (·.displaced d)) =
      Station.displaced d <$> (Station.init N p).run N G (.filter (.initializeAt t b) :: cs) := by
  refine C83_origin_partial N G p d t b cs hg fun pre c post h s hs => ?_
  have hc : c ∈ cs := by rw [h]; simp
  have hl := ht c hc
  cases c with
  | cam k t i fs px =>
    have : fs = [] := hl
    subst this
    intro u _ f hf
    cases hf
  | filter op => cases op <;> first | trivial | exact absurd hc (ha _ _ _)
  | _ => trivial

/-- What the user sees: the position estimate moves with the origin; the other estimates of the body, the sensors and the covariance
are the same; boards move with the origin. -/
theorem C83_estimate_partial (N : Num K) (G : GpsNum K) (p : EkfParams K) (d : V3 K) (t : K) (b : BodyState K) (cs : List (Call K))
    (hg : ∀ c ∈ cs, c.NoFix)
    (hk : ∀ pre c post, cs = pre ++ c :: post → ∀ s, (Station.init N p).run N G (.filter (.initializeAt t b) :: pre) = .ok s → c.Known s)
    (s : Station K) (h : (Station.init N p).run N G (.filter (.initializeAt t b) :: cs) = .ok s) :
    ∃ s', (Station.init N p).run N G (.filter (.initializeAt t (b.displaced d)) :: cs.map (·.displaced d)) = .ok s' ∧
      s'.ekf.state.body.pos = s.ekf.state.body.pos + d ∧ s'.ekf.state.body.vel = s.ekf.state.body.vel ∧
      s'.ekf.state.body.acc = s.ekf.state.body.acc ∧ s'.ekf.state.body.ang = s.ekf.state.body.ang ∧
      s'.ekf.state.body.angVel = s.ekf.state.body.angVel ∧ s'.ekf.state.body.angAcc = s.ekf.state.body.angAcc ∧
      s'.ekf.state.imus = s.ekf.state.imus ∧ s'.ekf.state.gpss = s.ekf.state.gpss ∧ s'.ekf.state.cams = s.ekf.state.cams ∧
      s'.ekf.cov = s.ekf.cov ∧
      (∀ k f, s.ekf.state.fids.find? k = some f → ∃ f', s'.ekf.state.fids.find? k = some f' ∧ f'.pos = f.pos + d ∧ f'.ang = f.ang) := by
  refine ⟨s.displaced d, ?_, rfl, rfl, rfl, rfl, rfl, rfl, rfl, rfl, rfl, rfl, fun k f hf => ⟨f.displaced d, ?_, rfl, rfl⟩⟩
  · rw [C83_origin_partial N G p d t b cs hg hk, h]; rfl
  · show (s.ekf.state.fids.mapValues (·.displaced d)).find? k = _
    rw [UMap.find?_mapValues, hf]
    rfl

/-! ## Frames without a clone

`GetAugState` answers a request for a frame whose clone is gone, or never was, with a default clone, whose position is the origin of the
local frame. -/

/-- Frames are cloned, and this one has no clone. -/
def Ekf.Misses (e : Ekf K) (cam frame : Nat) : Prop := e.ClonesFrame cam ∧ ∀ a ∈ e.window cam, a.frameId ≠ frame

theorem findFrame_missing (frame : Nat) (w : List (AugState K)) (h : ∀ a ∈ w, a.frameId ≠ frame) :
    findFrame w frame = AugState.default := by
  have : ∀ acc : AugState K, w.foldl (fun acc a => if a.frameId = frame then a else acc) acc = acc := by
    induction w with
    | nil => intro acc; rfl
    | cons a w ih =>
      intro acc
      rw [List.foldl_cons, if_neg (h a (List.mem_cons_self ..))]
      exact ih (fun b hb => h b (List.mem_cons_of_mem _ hb)) acc
  exact this _

theorem getAugState_missing (N : Prim K) {e : Ekf K} {cam frame : Nat} (h : e.Misses cam frame) (t : K) :
    getAugState N e cam frame t =
      .ok (AugState.default, { e with state := { e.state with augs := e.state.augs.touch cam [] } }) := by
  have hc := h.1
  unfold ClonesFrame at hc
  unfold getAugState
  rw [if_pos hc]
  refine congrArg (fun a => Except.ok (a, _)) ?_
  exact findFrame_missing frame _ h.2

theorem Ekf.Misses.displaced {e : Ekf K} {cam frame : Nat} (h : e.Misses cam frame) (d : V3 K) : (e.displaced d).Misses cam frame := by
  refine ⟨h.1, ?_⟩
  have hw : (e.displaced d).window cam = (e.window cam).map (·.displaced d) := window_displaced d e.state.augs cam
  rw [hw]
  intro a ha
  obtain ⟨b, hb, rfl⟩ := List.mem_map.1 ha
  exact h.2 b hb

theorem Ekf.Looked.misses {e e' : Ekf K} (h : e.Looked e') {cam frame : Nat} (hm : e.Misses cam frame) : e'.Misses cam frame := by
  have h1 : e'.augType = e.augType := by rw [h.same]
  have h2 : e'.primaryCameraId = e.primaryCameraId := by rw [h.same]
  have hw : e'.window cam = e.window cam := h.window cam
  refine ⟨?_, by rw [hw]; exact hm.2⟩
  have hc := hm.1
  unfold ClonesFrame at hc ⊢
  rw [h1, h2]
  exact hc

theorem getAugState_stays (N : Prim K) (d : V3 K) {e : Ekf K} {cam frame : Nat} (h : e.Misses cam frame) (t : K) :
    getAugState N (e.displaced d) cam frame t = (fun x => (x.1, x.2.displaced d)) <$> getAugState N e cam frame t := by
  rw [getAugState_missing N h, getAugState_missing N (h.displaced d)]
  refine congrArg (fun x => Except.ok (_, x)) ?_
  simp only [Ekf.displaced, State.displaced, touch_displaced]

theorem triangulateLoop_stays (N : Num K) (d : V3 K) (u : MsckfUpdater K) (a0 : AugState K) (ps : List (FeaturePoint K)) :
    ∀ (e : Ekf K) (A : M3 K) (b : V3 K), (∀ p ∈ ps, e.Misses u.id p.frameId) →
      u.triangulateLoop N a0 ps (e.displaced d) A b = (fun x => (x.1, x.2.1, x.2.2.displaced d)) <$> u.triangulateLoop N a0 ps e A b := by
  induction ps with
  | nil => intro e A b _; rfl
  | cons p ps ih =>
    intro e A b hk
    refine bind_mapped_of (getAugState_stays N.toPrim d (hk p (List.mem_cons_self ..)) p.time) fun x hx => ?_
    exact ih x.2 _ _ fun q hq => (looked_getAugState hx).misses (hk q (List.mem_cons_of_mem _ hq))

theorem ite_mapped_false {α β : Type} {b : Bool} (hb : b = false) {x y : Res α} {x' y' : Res β} {φ : α → β} (hy : y' = φ <$> y) :
    (if b = true then x' else y') = φ <$> (if b = true then x else y) := by
  subst hb
  exact hy

/-- **The origin of the local frame matters** for tracks over frames without clones: wherever the body is, the feature is put at the same place
in the local frame. -/
theorem C83_missing_violated (N : Num K) (d : V3 K) (u : MsckfUpdater K) (hu : u.useTruth = false) (e : Ekf K) (f : FeatureTrack K)
    (hm : ∀ p ∈ f.track, e.Misses u.id p.frameId) :
    u.triangulate N (e.displaced d) (f.displaced d) = (fun x => (x.1, x.2.1, x.2.2.displaced d)) <$> u.triangulate N e f := by
  obtain ⟨track, truth⟩ := f
  cases track with
  | nil => rfl
  | cons p ps =>
    refine bind_mapped_of (getAugState_stays N.toPrim d (hm p (List.mem_cons_self ..)) p.time) fun x hx => ?_
    refine bind_mapped (triangulateLoop_stays N d u x.1 (p :: ps) x.2 0 0 fun q hq => (looked_getAugState hx).misses (hm q hq))
      fun y => ?_
    refine ite_mapped ?_ ?_
    · exact ite_mapped_false hu rfl
    · exact ite_mapped_false hu rfl

/-- The pixels expected for a frame without a clone: the displaced feature as seen from a body that has not been displaced. -/
theorem C83_expected_violated (N : Num K) (d F : V3 K) (u : MsckfUpdater K) (e : Ekf K) (n cam i : Nat) (p : FeaturePoint K)
    (s : Mat K × Mat K × Vec K) (hm : e.Misses u.id p.frameId) :
    u.observeLoop N n cam (F + d) i [p] (e.displaced d) s =
      (fun x => (x.1.displaced d, x.2)) <$> u.observeLoop N n cam (F + d) i [p] e s := by
  refine bind_mapped (getAugState_stays N.toPrim d hm p.time) fun x => ?_
  exact bind_same fun _ => rfl

/-! ## Concrete histories -/

/-- A moving body. -/
def C83_start : BodyState ℚ := { (BodyState.default : BodyState ℚ) with vel := ![1, 0, 0] }

/-- Frames of one camera; a track with the third frame would come next. -/
def C83_before : List (Call ℚ) :=
  [.filter .initializeGravity, .filter (.registerCamera 1 Samples.cam (Samples.cov 6)), .filter (.setMaxTrackLength 3),
   .newCam 4 1 true 1, .filter (.registerFiducial (Samples.fid 4) (Samples.cov 6)), .newFid 3 4 1 true true,
   .filter (.localTime 0), .filter (.frame 1 10), .cam 4 0 C82_lens [] 1, .filter (.frame 1 11),
   .cam 4 (3 / 2) C82_lens [] 1, .filter (.frame 1 12)]

/-- The third frame brings a track over the first two. -/
def C83_last : Call ℚ := .cam 4 3 C82_lens [⟨[⟨10, 0, 420, 240⟩, ⟨11, 3 / 2, 320, 240⟩], some ![1, 0, 20]⟩] 1

theorem nofix_before83 : ∀ c ∈ C83_before ++ [C83_last], c.NoFix := by
  intro c hc
  simp only [C83_before, C83_last, List.cons_append, List.nil_append, List.mem_cons, List.not_mem_nil, or_false] at hc
  rcases hc with rfl | rfl | rfl | rfl | rfl | rfl | rfl | rfl | rfl | rfl | rfl | rfl | rfl <;> trivial

/-- The hypotheses of `C83_interpolated_partial` are met by a history with a track, and the run ends well. -/
example : (Samples.params .time false).augType ≠ .all ∧ (Samples.params .time false).augType ≠ .primary ∧
    (∀ c ∈ C83_before ++ [C83_last], c.NoFix) ∧
    ∃ s, (Station.init Samples.num (Samples.params .time false)).run Samples.num Samples.gpsNum
      (.filter (.initializeAt 0 C83_start) :: (C83_before ++ [C83_last])) = .ok s ∧ s.ekf.currentTime = 3 :=
  ⟨by decide, by decide, nofix_before83, Samples.ok_of_check (P := fun s : Station ℚ => s.ekf.currentTime = 3) (by decide +kernel)⟩

/-- Those of `C83_trackless_partial` by the history without the track, but with a view of a board. -/
example : (∀ c ∈ C83_before ++ [.fid 3 3 ⟨![1, 0, 0], Quat.one, ![1, 1, 1], ![1, 1, 1]⟩], c.NoFix ∧ c.Trackless) ∧
    ∃ s, (Station.init Samples.num (Samples.params .all false)).run Samples.num Samples.gpsNum (.filter (.initializeAt 0 C83_start) ::
      (C83_before ++ [.fid 3 3 ⟨![1, 0, 0], Quat.one, ![1, 1, 1], ![1, 1, 1]⟩])) = .ok s ∧ s.ekf.currentTime = 3 := by
  refine ⟨?_, Samples.ok_of_check (P := fun s : Station ℚ => s.ekf.currentTime = 3) (by decide +kernel)⟩
  intro c hc
  simp only [C83_before, List.cons_append, List.nil_append, List.mem_cons, List.not_mem_nil, or_false] at hc
  rcases hc with rfl | rfl | rfl | rfl | rfl | rfl | rfl | rfl | rfl | rfl | rfl | rfl | rfl <;> exact ⟨by trivial, by trivial⟩

/-- Those of `C83_origin_partial` and `C83_estimate_partial` as well: with every frame cloned, the frames of the track have clones. -/
example : (∀ pre c post, C83_before ++ [C83_last] = pre ++ c :: post → ∀ s,
      (Station.init Samples.num (Samples.params .all false)).run Samples.num Samples.gpsNum
        (.filter (.initializeAt 0 C83_start) :: pre) = .ok s → c.Known s) ∧
    ∃ s, (Station.init Samples.num (Samples.params .all false)).run Samples.num Samples.gpsNum
      (.filter (.initializeAt 0 C83_start) :: (C83_before ++ [C83_last])) = .ok s ∧ s.ekf.currentTime = 3 := by
  refine ⟨?_, Samples.ok_of_check (P := fun s : Station ℚ => s.ekf.currentTime = 3) (by decide +kernel)⟩
  intro pre c post h s hs
  rcases List.eq_nil_or_concat post with rfl | ⟨post', x, rfl⟩
  · obtain ⟨h1, h2⟩ := List.append_inj' h rfl
    cases h2
    rw [← h1] at hs
    obtain ⟨s', hs', hc, hw⟩ := Samples.ok_of_check
      (r := (Station.init Samples.num (Samples.params .all false)).run Samples.num Samples.gpsNum
        (.filter (.initializeAt 0 C83_start) :: C83_before))
      (P := fun s : Station ℚ => (s.cams.find? 4).map (·.id) = some 1 ∧ (s.ekf.window 1).map (·.frameId) = [10, 11, 12]) (by decide +kernel)
    have hss : s = s' := Except.ok.inj (hs.symm.trans hs')
    subst hss
    clear hs hs'
    intro u hu f hf q hq _
    rw [hu, Option.map_some, Option.some.injEq] at hc
    rw [hc]
    have hm : q.frameId ∈ (s.ekf.window 1).map (·.frameId) := by
      rw [hw]
      rw [List.mem_singleton] at hf
      subst hf
      simp only [List.mem_cons, List.not_mem_nil, or_false] at hq
      rcases hq with rfl | rfl <;> decide
    obtain ⟨a, ha, h⟩ := List.mem_map.1 hm
    exact ⟨a, ha, h⟩
  · have hc : c ∈ C83_before := by
      have : C83_before ++ [C83_last] = (pre ++ c :: post') ++ [x] := by rw [h]; simp
      rw [(List.append_inj' this rfl).1]
      simp
    clear hs h
    simp only [C83_before, List.mem_cons, List.not_mem_nil, or_false] at hc
    rcases hc with rfl | rfl | rfl | rfl | rfl | rfl | rfl | rfl | rfl | rfl | rfl | rfl <;>
      first | exact True.intro | (intro u _ f hf; cases hf)

/-- The window being full, the fourth frame drops the clone of the first one: the hypotheses of the two negative theorems. -/
example : ∃ s, (Station.init Samples.num (Samples.params .all false)).run Samples.num Samples.gpsNum
      (.filter (.initializeAt 0 C83_start) :: (C83_before ++ [C83_last, .filter (.frame 1 13)])) = .ok s ∧
    s.ekf.Misses 1 10 ∧ ¬ s.ekf.Misses 1 11 := by
  obtain ⟨s, hs, ha, hw⟩ := Samples.ok_of_check
    (r := (Station.init Samples.num (Samples.params .all false)).run Samples.num Samples.gpsNum
      (.filter (.initializeAt 0 C83_start) :: (C83_before ++ [C83_last, .filter (.frame 1 13)])))
    (P := fun s : Station ℚ => s.ekf.augType = .all ∧ (s.ekf.window 1).map (·.frameId) = [11, 12, 13]) (by decide +kernel)
  refine ⟨s, hs, ⟨.inl ha, fun a h => ?_⟩, fun h => ?_⟩
  · have : a.frameId ∈ (s.ekf.window 1).map (·.frameId) := List.mem_map_of_mem h
    rw [hw] at this
    intro h'
    rw [h'] at this
    revert this
    decide
  · have : 11 ∈ (s.ekf.window 1).map (·.frameId) := by rw [hw]; decide
    obtain ⟨a, ha, h'⟩ := List.mem_map.1 this
    exact h.2 a ha h'

/-- The pixels expected from the origin differ: a feature at `(1, 0, 20)` displaced by `(2, 0, 0)` is expected at `1/20` and at `3/20`. -/
example : project (![1, 0, 20] : V3 ℚ) 0 = 1 / 20 ∧ project (![1, 0, 20] + ![2, 0, 0] : V3 ℚ) 0 = 3 / 20 := by
  constructor <;> simp [project] <;> norm_num

end EkfCal
