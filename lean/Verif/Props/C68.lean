import Verif.Lemmas.Clock
import Verif.Lemmas.SimTracks
import Verif.Props.C67

/-!
# C68 — an observation handed to the filter is a point seen in the image it names, with that image's time and pixel
-/

set_option linter.unusedSectionVars false
set_option synthInstance.maxSize 2000

namespace EkfCal
open Ekf
variable {K : Type} [Field K] [LinearOrder K]

/-! ## One tracker -/

/-- All observations in a map satisfy `P`. -/
def AllIn (P : Nat → FeaturePoint K → Prop) (m : TrackMap K) : Prop := UMap.Sorted m ∧ ∀ e ∈ m, ∀ p ∈ e.2, P e.1 p

theorem AllIn.push {P : Nat → FeaturePoint K → Prop} {m : TrackMap K} (h : AllIn P m) {id : Nat} {p : FeaturePoint K}
    (hp : P id p) : AllIn P (m.push id p) := by
  refine ⟨TrackMap.push_sorted h.1 _ _, fun e he q hq => ?_⟩
  rcases (TrackMap.mem_push h.1).1 he with ⟨_, he⟩ | rfl
  · exact h.2 e he q hq
  · rcases List.mem_append.1 hq with hq | hq
    · rcases FeatureTracker.getD_mem h.1 id with h0 | h0
      · rw [h0] at hq; cases hq
      · exact h.2 _ h0 q hq
    · rw [List.mem_singleton] at hq; rw [hq]; exact hp

theorem flush_sublist {minLen maxLen F : Nat} : ∀ {m : TrackMap K} {out left},
    flushTracks minLen maxLen F m = .ok (out, left) → out.Sublist m ∧ left.Sublist m
  | [], out, left, h => by
    simp only [flushTracks, Except.ok.injEq, Prod.mk.injEq] at h
    obtain ⟨rfl, rfl⟩ := h
    exact ⟨List.Sublist.refl _, List.Sublist.refl _⟩
  | (id, pts) :: rest, out, left, h => by
    unfold flushTracks at h
    split at h
    · cases h
    · rw [bind_ok_iff] at h
      obtain ⟨⟨o, l⟩, h1, h⟩ := h
      obtain ⟨g1, g2⟩ := flush_sublist h1
      dsimp only at h
      split_ifs at h <;> (cases h) <;>
        first
          | exact ⟨g1.cons_cons _, g2.cons _⟩
          | exact ⟨g1.cons _, g2.cons _⟩
          | exact ⟨g1.cons _, g2.cons_cons _⟩

theorem AllIn.sublist {P : Nat → FeaturePoint K → Prop} {m l : TrackMap K} (h : AllIn P m) (hl : l.Sublist m) : AllIn P l :=
  ⟨List.Pairwise.sublist hl h.1, fun e he => h.2 e (hl.subset he)⟩

/-- Everything a tracker remembers satisfies `P`. -/
def FeatureTracker.Holds (P : FeaturePoint K → Prop) (t : FeatureTracker K) : Prop :=
  AllIn (fun _ => P) t.map ∧ ∀ k ∈ t.prevKeys, P ⟨t.prevFrameId, t.prevTime, k.x, k.y⟩

theorem FeatureTracker.holds_fresh {P : FeaturePoint K → Prop} {t : FeatureTracker K} (h : t.Fresh) : t.Holds P := by
  refine ⟨⟨?_, ?_⟩, ?_⟩
  · rw [h.2]; exact UMap.sorted_nil
  · rw [h.2]; simp
  · rw [h.1]; simp

/-- Everything the loop over the matches holds satisfies `P`. -/
def FeatureTracker.Matching.Holds (P : FeaturePoint K → Prop) (pf : Nat) (pt : K) (F : Nat) (now : K)
    (s : FeatureTracker.Matching K) : Prop :=
  AllIn (fun _ => P) s.map ∧ (∀ k ∈ s.prev, P ⟨pf, pt, k.x, k.y⟩) ∧ ∀ k ∈ s.curr, P ⟨F, now, k.x, k.y⟩

theorem FeatureTracker.matchStep_holds {P : FeaturePoint K → Prop} {pf : Nat} {pt : K} {F : Nat} {now : K}
    {s s' : FeatureTracker.Matching K} {m : DMatch K} (hs : FeatureTracker.matchStep pf pt F now s m = .ok s')
    (h : s.Holds P pf pt F now) : s'.Holds P pf pt F now := by
  obtain ⟨h1, h2, h3⟩ := h
  unfold FeatureTracker.matchStep at hs
  rw [bind_ok_iff] at hs
  obtain ⟨p, hp, hs⟩ := hs
  rw [FeatureTracker.keyAt_ok_iff] at hp
  have hP := h2 p (List.mem_of_getElem? hp)
  have cur : ∀ {c : KeyPoint K} {i : Nat} (id : Option Nat), s.curr[i]? = some c →
      ∀ k ∈ s.curr.set i { c with classId := id }, P ⟨F, now, k.x, k.y⟩ := by
    intro c i id hc k hk
    rcases List.mem_or_eq_of_mem_set hk with hk | rfl
    · exact h3 k hk
    · exact h3 c (List.mem_of_getElem? hc)
  cases hcl : p.classId with
  | some id =>
    simp only [hcl] at hs
    rw [bind_ok_iff] at hs
    obtain ⟨c, hc, hs⟩ := hs
    rw [FeatureTracker.keyAt_ok_iff] at hc
    cases hs
    exact ⟨h1.push (h3 c (List.mem_of_getElem? hc)), h2, cur _ hc⟩
  | none =>
    simp only [hcl] at hs
    rw [bind_ok_iff] at hs
    obtain ⟨c, hc, hs⟩ := hs
    rw [FeatureTracker.keyAt_ok_iff] at hc
    cases hs
    refine ⟨(h1.push hP).push (h3 c (List.mem_of_getElem? hc)), fun k hk => ?_, cur _ hc⟩
    rcases List.mem_or_eq_of_mem_set hk with hk | rfl
    · exact h2 k hk
    · exact hP

theorem FeatureTracker.matchLoop_holds {P : FeaturePoint K → Prop} {pf : Nat} {pt : K} {F : Nat} {now : K}
    {ms : List (DMatch K)} : ∀ {s s' : FeatureTracker.Matching K},
    ms.foldlM (FeatureTracker.matchStep pf pt F now) s = .ok s' → s.Holds P pf pt F now → s'.Holds P pf pt F now := by
  induction ms with
  | nil => intro s s' hs h; cases hs; exact h
  | cons m ms ih =>
    intro s s' hs h
    rw [List.foldlM_cons, bind_ok_iff] at hs
    obtain ⟨s1, h1, hs⟩ := hs
    exact ih hs (matchStep_holds h1 h)

theorem FeatureTracker.Holds.track {N : Prim K} {P : FeaturePoint K → Prop} {t t' : FeatureTracker K} {f : TrackFrame K} {out}
    (h : t.Holds P) (hs : t.track N f = .ok (t', out)) (hk : ∀ k ∈ f.keys, P ⟨f.frameId, f.now, k.x, k.y⟩) :
    t'.Holds P ∧ t'.prevTime = f.now ∧ ∀ o ∈ out, ∀ p ∈ o.2, P p := by
  unfold FeatureTracker.track at hs
  dsimp only at hs
  split_ifs at hs with hc
  · rw [bind_ok_iff] at hs
    obtain ⟨ms, hms, hs⟩ := hs
    rw [bind_ok_iff] at hs
    obtain ⟨s, hloop, hs⟩ := hs
    rw [bind_ok_iff] at hs
    obtain ⟨⟨o, left⟩, hflush, hs⟩ := hs
    simp only [pure, Except.pure, Except.ok.injEq, Prod.mk.injEq] at hs
    obtain ⟨rfl, rfl⟩ := hs
    obtain ⟨g1, _, g3⟩ := matchLoop_holds (P := P) hloop ⟨h.1, h.2, hk⟩
    obtain ⟨k1, k2⟩ := flush_sublist hflush
    exact ⟨⟨g1.sublist k2, g3⟩, rfl, (g1.sublist k1).2⟩
  · simp only [pure, Except.pure, Except.ok.injEq, Prod.mk.injEq] at hs
    obtain ⟨rfl, rfl⟩ := hs
    exact ⟨⟨h.1, hk⟩, rfl, by simp⟩

/-! ## Cameras -/

theorem PointTracker.track_holds {N : Num K} {P : FeaturePoint K → Prop} {t t' : PointTracker K} {e e' : Ekf K} {time : K}
    {F : Nat} {intr : Intrinsics K} {s : PointSight K} {ds : List (Delivery K)} (ht : t.tracker.Holds P) (he : e.Settled time)
    (hk : ∀ k ∈ s.keys, P ⟨F, e.currentTime, k.x, k.y⟩) (h : t.track N e time F intr s = .ok (t', e', ds)) :
    t'.tracker.Holds P ∧ Frame e e' ∧ ∀ d ∈ ds, ∀ o ∈ d.tracks, ∀ p ∈ o.2, P p := by
  unfold PointTracker.track at h
  rw [bind_ok_iff] at h
  obtain ⟨⟨tr, out⟩, h1, h⟩ := h
  obtain ⟨g1, g2, g3⟩ := ht.track h1 hk
  dsimp only at h g2
  by_cases ho : out = []
  · rw [if_pos ho] at h
    simp only [pure, Except.pure, Except.ok.injEq, Prod.mk.injEq] at h
    obtain ⟨rfl, rfl, rfl⟩ := h
    exact ⟨g1, Frame.refl e, by simp⟩
  · rw [if_neg ho, bind_ok_iff] at h
    obtain ⟨⟨u, e2⟩, hu, h⟩ := h
    simp only [pure, Except.pure, Except.ok.injEq, Prod.mk.injEq] at h
    obtain ⟨rfl, rfl, rfl⟩ := h
    have hf := MsckfUpdater.update_frame hu he
    refine ⟨⟨g1.1, ?_⟩, hf, ?_⟩
    · have := hf.currentTime
      dsimp only at this ⊢
      rw [this, ← g2]
      exact g1.2
    · intro d hd
      rw [List.mem_singleton] at hd
      subst hd
      exact g3

theorem trackAll_holds {N : Num K} {P : Nat → FeaturePoint K → Prop} {intr : Intrinsics K} {m : CameraMsg K} {T : K} :
    ∀ {ts ts' : List (Nat × PointTracker K)} {e e' : Ekf K} {ds : List (Delivery K)},
    (∀ t ∈ ts, t.2.tracker.Holds (P t.1) ∧ ∀ k ∈ (m.points t.1).keys, P t.1 ⟨m.frameId, T, k.x, k.y⟩) → e.Settled m.time →
    e.currentTime = T → Camera.trackAll N intr m ts e = .ok (ts', e', ds) →
    (∀ t ∈ ts', t.2.tracker.Holds (P t.1)) ∧ ts'.map Prod.fst = ts.map Prod.fst ∧ Frame e e' ∧
    ∀ d ∈ ds, ∃ k ∈ ts.map Prod.fst, ∀ o ∈ d.tracks, ∀ p ∈ o.2, P k p
  | [], _, e, _, _, _, _, _, h => by
    simp only [Camera.trackAll, Except.ok.injEq, Prod.mk.injEq] at h
    obtain ⟨rfl, rfl, rfl⟩ := h
    exact ⟨by simp, rfl, Frame.refl e, by simp⟩
  | (k, t) :: ts, _, e, _, _, ht, he, hT, h => by
    simp only [Camera.trackAll, bind_ok_iff, pure_res, Except.ok.injEq] at h
    obtain ⟨⟨t1, e1, d1⟩, h1, ⟨ts2, e2, d2⟩, h2, h⟩ := h
    simp only [Prod.mk.injEq] at h
    obtain ⟨rfl, rfl, rfl⟩ := h
    obtain ⟨r1, r2⟩ := ht (k, t) List.mem_cons_self
    obtain ⟨g1, g2, g3⟩ := PointTracker.track_holds r1 he (by rw [hT]; exact r2) h1
    obtain ⟨k1, k2, k3, k4⟩ := trackAll_holds (fun t' ht' => ht t' (List.mem_cons_of_mem _ ht')) (he.frame g2)
      (g2.currentTime.trans hT) h2
    refine ⟨?_, by simp [k2], g2.trans k3, ?_⟩
    · intro t' ht'
      rcases List.mem_cons.1 ht' with rfl | ht'
      · exact g1
      · exact k1 t' ht'
    · intro d hd
      rcases List.mem_append.1 hd with hd | hd
      · exact ⟨k, List.mem_cons_self, g3 d hd⟩
      · obtain ⟨k', hk', hd'⟩ := k4 d hd
        exact ⟨k', List.mem_cons_of_mem _ hk', hd'⟩

theorem FidTracker.track_frame {N : Num K} {t : FidTracker K} {e : Ekf K} {time : K} {s : BoardSight K}
    {r : FidTracker K × Ekf K} (h : t.track N e time s = .ok r) (he : e.Settled time) : Frame e r.2 := by
  unfold FidTracker.track at h
  dsimp only at h
  have g := frame_getCam e t.cameraId
  by_cases h1 : s.markers = []
  · rw [if_pos h1] at h; cases h; exact g
  rw [if_neg h1] at h
  by_cases h2 : t.cornerIds s = []
  · rw [if_pos h2] at h; cases h; exact g
  rw [if_neg h2, bind_ok_iff] at h
  obtain ⟨⟨u, e1⟩, h3, h⟩ := h
  cases h
  exact g.trans (FidUpdater.update_frame h3 (he.frame g))

theorem boardAll_frame {N : Num K} {m : CameraMsg K} : ∀ {ts : List (Nat × FidTracker K)} {e : Ekf K}
    {r : List (Nat × FidTracker K) × Ekf K}, Camera.boardAll N m ts e = .ok r → e.Settled m.time → Frame e r.2
  | [], e, r, h, _ => by
    simp only [Camera.boardAll, Except.ok.injEq] at h
    subst h
    exact Frame.refl e
  | (k, t) :: ts, e, r, h, he => by
    simp only [Camera.boardAll, bind_ok_iff, pure_res, Except.ok.injEq] at h
    obtain ⟨⟨t1, e1⟩, h1, ⟨ts2, e2⟩, h2, rfl⟩ := h
    have g := FidTracker.track_frame h1 he
    have h3 := boardAll_frame h2 (he.frame g)
    exact g.trans h3

theorem Camera.callback_holds [IsStrictOrderedRing K] {N : Num K} {P : Nat → FeaturePoint K → Prop} {c c' : Camera K} {e e' : Ekf K} {m : CameraMsg K}
    {ds : List (Delivery K)} (ht : ∀ t ∈ c.trackers, t.2.tracker.Holds (P t.1)) (h : c.callback N e m = .ok (c', e', ds))
    (hk : m.empty = false → ∀ t ∈ c.trackers, ∀ k ∈ (m.points t.1).keys, P t.1 ⟨m.frameId, e'.currentTime, k.x, k.y⟩) :
    (∀ t ∈ c'.trackers, t.2.tracker.Holds (P t.1)) ∧ c'.trackers.map Prod.fst = c.trackers.map Prod.fst ∧
    ∀ d ∈ ds, ∃ k ∈ c.trackers.map Prod.fst, ∀ o ∈ d.tracks, ∀ p ∈ o.2, P k p := by
  unfold Camera.callback at h
  by_cases hm : m.empty = true
  · rw [if_pos hm] at h; cases h; exact ⟨ht, rfl, by simp⟩
  rw [if_neg hm] at h
  by_cases hf : c.trackers = [] ∧ c.fiducials = []
  · rw [if_pos hf] at h; cases h; exact ⟨ht, rfl, by simp⟩
  rw [if_neg hf] at h
  simp only [bind_ok_iff, pure_res, Except.ok.injEq] at h
  obtain ⟨e1, h1, e2, h2, ⟨ts, e3, d3⟩, h3, ⟨fs, e4⟩, h4, h⟩ := h
  simp only [Prod.mk.injEq] at h
  obtain ⟨rfl, rfl, rfl⟩ := h
  have s1 : e1.Settled m.time := settled_predict h1
  have s2 := s1.frame (frame2_augmentFrame h2).toFrame
  have hm : m.empty = false := by simpa using hm
  have hclock : e4.currentTime = e2.currentTime := by
    obtain ⟨_, _, k3, _⟩ := trackAll_holds (P := fun _ _ => True) (T := e2.currentTime)
      (fun t _ => ⟨⟨⟨(ht t ‹_›).1.1, fun _ _ _ _ => trivial⟩, fun _ _ => trivial⟩, fun _ _ => trivial⟩) s2 rfl h3
    exact (boardAll_frame h4 (s2.frame k3)).currentTime.trans k3.currentTime
  obtain ⟨k1, k2, k3, k4⟩ := trackAll_holds (P := P) (T := e2.currentTime)
    (fun t h' => ⟨ht t h', by have := hk hm t h'; rw [hclock] at this; exact this⟩) s2 rfl h3
  exact ⟨k1, k2, k4⟩

theorem Camera.run_snoc {N : Num K} : ∀ {pre : List (Camera.Event K)} {c c1 c2 : Camera K} {e e1 e2 : Ekf K}
    {ds d : List (Delivery K)} {m : CameraMsg K}, c.run N e pre = .ok (c1, e1, ds) → c1.callback N e1 m = .ok (c2, e2, d) →
    c.run N e (pre ++ [.image m]) = .ok (c2, e2, ds ++ d)
  | [], c, c1, c2, e, e1, e2, ds, d, m, h, h' => by
    simp only [Camera.run, Except.ok.injEq, Prod.mk.injEq] at h
    obtain ⟨rfl, rfl, rfl⟩ := h
    simp only [List.nil_append, Camera.run, h', ok_bind]
    simp [pure, Except.pure]
  | .image m0 :: pre, c, c1, c2, e, e1, e2, ds, d, m, h, h' => by
    simp only [Camera.run, bind_ok_iff, pure_res, Except.ok.injEq] at h
    obtain ⟨⟨ca, ea, da⟩, ha, ⟨cb, eb, db⟩, hb, h⟩ := h
    simp only [Prod.mk.injEq] at h
    obtain ⟨rfl, rfl, rfl⟩ := h
    simp only [List.cons_append, Camera.run, ha, ok_bind, Camera.run_snoc hb h']
    simp [pure, Except.pure]
  | .other op :: pre, c, c1, c2, e, e1, e2, ds, d, m, h, h' => by
    simp only [Camera.run, bind_ok_iff] at h
    obtain ⟨ea, ha, hb⟩ := h
    simp only [List.cons_append, Camera.run, ha, ok_bind, Camera.run_snoc hb h']

theorem Camera.run_snoc_other {N : Num K} : ∀ {pre : List (Camera.Event K)} {c c1 : Camera K} {e e1 e2 : Ekf K}
    {ds : List (Delivery K)} {op : Op K}, c.run N e pre = .ok (c1, e1, ds) → e1.step N.toPrim op = .ok e2 →
    c.run N e (pre ++ [.other op]) = .ok (c1, e2, ds)
  | [], c, c1, e, e1, e2, ds, op, h, h' => by
    simp only [Camera.run, Except.ok.injEq, Prod.mk.injEq] at h
    obtain ⟨rfl, rfl, rfl⟩ := h
    simp only [List.nil_append, Camera.run, h', ok_bind]
  | .image m0 :: pre, c, c1, e, e1, e2, ds, op, h, h' => by
    simp only [Camera.run, bind_ok_iff, pure_res, Except.ok.injEq] at h
    obtain ⟨⟨ca, ea, da⟩, ha, ⟨cb, eb, db⟩, hb, h⟩ := h
    simp only [Prod.mk.injEq] at h
    obtain ⟨rfl, rfl, rfl⟩ := h
    simp only [List.cons_append, Camera.run, ha, ok_bind, Camera.run_snoc_other hb h']
    simp [pure, Except.pure]
  | .other op0 :: pre, c, c1, e, e1, e2, ds, op, h, h' => by
    simp only [Camera.run, bind_ok_iff] at h
    obtain ⟨ea, ha, hb⟩ := h
    simp only [List.cons_append, Camera.run, ha, ok_bind, Camera.run_snoc_other hb h']

/-- The events of a camera contain an image in which its tracker `k` was given a key point at the pixel of `p`; `p` carries
the id of that image and the time of the filter when it had processed it. -/
def Camera.Saw (N : Num K) (c : Camera K) (e : Ekf K) (evs : List (Camera.Event K)) (k : Nat) (p : FeaturePoint K) : Prop :=
  ∃ pre m c1 e1 ds1, (pre ++ [.image m]) <+: evs ∧ m.empty = false ∧ c.run N e (pre ++ [.image m]) = .ok (c1, e1, ds1) ∧
    p.frameId = m.frameId ∧ p.time = e1.currentTime ∧ ∃ kp ∈ (m.points k).keys, (kp.x, kp.y) = (p.x, p.y)

theorem Camera.run_saw [IsStrictOrderedRing K] {N : Num K} {c0 : Camera K} {e0 : Ekf K} {all : List (Camera.Event K)} :
    ∀ {evs pre : List (Camera.Event K)} {c c' : Camera K} {e e' : Ekf K} {ds0 ds : List (Delivery K)}, all = pre ++ evs →
    c0.run N e0 pre = .ok (c, e, ds0) → c.run N e evs = .ok (c', e', ds) →
    (∀ t ∈ c.trackers, t.2.tracker.Holds (c0.Saw N e0 all t.1)) →
    ∀ d ∈ ds, ∃ k ∈ c.trackers.map Prod.fst, ∀ o ∈ d.tracks, ∀ p ∈ o.2, c0.Saw N e0 all k p
  | [], pre, c, _, e, _, ds0, ds, _, _, h, _ => by
    simp only [Camera.run, Except.ok.injEq, Prod.mk.injEq] at h
    obtain ⟨_, _, rfl⟩ := h
    simp
  | .image m :: evs, pre, c, _, e, _, ds0, ds, hall, hpre, h, ht => by
    simp only [Camera.run, bind_ok_iff, pure_res, Except.ok.injEq] at h
    obtain ⟨⟨c1, e1, d1⟩, h1, ⟨c2, e2, d2⟩, h2, h⟩ := h
    simp only [Prod.mk.injEq] at h
    obtain ⟨rfl, rfl, rfl⟩ := h
    have hrun := Camera.run_snoc hpre h1
    have hall' : all = (pre ++ [.image m]) ++ evs := by rw [hall]; simp
    obtain ⟨k1, k2, k3⟩ := Camera.callback_holds ht h1 (fun hm t _ k hk =>
      ⟨pre, m, c1, e1, _, ⟨evs, hall'.symm⟩, hm, hrun, rfl, rfl, k, hk, rfl⟩)
    have key := Camera.run_saw hall' hrun h2 k1
    intro d hd
    rcases List.mem_append.1 hd with hd | hd
    · exact k3 d hd
    · have := key d hd
      rw [k2] at this
      exact this
  | .other op :: evs, pre, c, _, e, _, ds0, ds, hall, hpre, h, ht => by
    simp only [Camera.run, bind_ok_iff] at h
    obtain ⟨e1, h1, h2⟩ := h
    exact Camera.run_saw (pre := pre ++ [.other op]) (by rw [hall]; simp) (Camera.run_snoc_other hpre h1) h2 ht

/-- **Every observation handed to the filter is a key point of the image it names, at that image's time**, for every
sequence of images, whatever is detected in them and however it is matched, and of other calls on the filter. -/
theorem C68_observed [IsStrictOrderedRing K] (N : Num K) (c c' : Camera K) (e e' : Ekf K) (evs : List (Camera.Event K)) (ds : List (Delivery K))
    (h : c.run N e evs = .ok (c', e', ds)) (hnew : ∀ t ∈ c.trackers, t.2.tracker.Fresh) :
    ∀ d ∈ ds, ∃ k ∈ c.trackers.map Prod.fst, ∀ o ∈ d.tracks, ∀ p ∈ o.2, c.Saw N e evs k p :=
  Camera.run_saw (pre := []) rfl rfl h fun t ht => FeatureTracker.holds_fresh (hnew t ht)

/-- **Without down-sampling the pixel is one of the received image**: if every image shows its detectable points to the
trackers where they are, each observation is at one of those points of the image it names. -/
theorem C68_pixel_partial [IsStrictOrderedRing K] (N : Num K) (c c' : Camera K) (e e' : Ekf K) (evs : List (Camera.Event K)) (ds : List (Delivery K))
    (h : c.run N e evs = .ok (c', e', ds)) (hnew : ∀ t ∈ c.trackers, t.2.tracker.Fresh)
    (w hgt : K) (scene : Nat → List (K × K))
    (hev : ∀ m, .image m ∈ evs → ∀ k ∈ c.trackers.map Prod.fst,
      ∃ fwd bwd mask drawn, m.points k = PointSight.ofImage none w hgt (scene m.frameId) fwd bwd mask drawn) :
    ∀ d ∈ ds, ∀ o ∈ d.tracks, ∀ p ∈ o.2, (p.x, p.y) ∈ scene p.frameId := by
  intro d hd o ho p hp
  obtain ⟨k, hk, hsaw⟩ := C68_observed N c c' e e' evs ds h hnew d hd
  obtain ⟨pre, m, _, _, _, hpre, _, _, hF, _, kp, hkp, hpix⟩ := hsaw o ho p hp
  obtain ⟨_, _, _, _, hm⟩ := hev m (hpre.subset (by simp)) k hk
  rw [hm] at hkp
  simp only [PointSight.ofImage, List.mem_map, shownAt] at hkp
  obtain ⟨q, hq, rfl⟩ := hkp
  rw [hF, ← hpix]
  exact hq

/-! ## The filter's time when an image has been processed -/

theorem predict_clock {N : Prim K} {e e' : Ekf K} {t : K} (h : e.predict N t = .ok e') : e'.currentTime = max e.currentTime t := by
  by_cases hlt : t < e.currentTime
  · unfold Ekf.predict at h
    rw [if_pos hlt] at h
    cases h
    exact (max_eq_left hlt.le).symm
  · rw [max_eq_right (not_lt.1 hlt)]
    exact (frame2_predict hlt h).currentTime

/-- An image that is not older than the filter leaves it at the time of the image. -/
theorem C68_clock [IsStrictOrderedRing K] (N : Num K) (c c' : Camera K) (e e' : Ekf K) (m : CameraMsg K) (ds : List (Delivery K))
    (h : c.callback N e m = .ok (c', e', ds)) (hm : m.empty = false) (hc : c.trackers ≠ []) (ht : e.timeInitialized = true)
    (hs : ∀ t ∈ c.trackers, UMap.Sorted t.2.tracker.map) :
    e'.currentTime = max e.currentTime (m.time - e.referenceTime) := by
  unfold Camera.callback at h
  rw [if_neg (by simp [hm]), if_neg (fun hf => hc hf.1)] at h
  simp only [bind_ok_iff, pure_res, Except.ok.injEq] at h
  obtain ⟨e1, h1, e2, h2, ⟨ts, e3, d3⟩, h3, ⟨fs, e4⟩, h4, h⟩ := h
  simp only [Prod.mk.injEq] at h
  obtain ⟨rfl, rfl, rfl⟩ := h
  have s1 : e1.Settled m.time := settled_predict h1
  have f2 := (frame2_augmentFrame h2).toFrame
  have s2 := s1.frame f2
  obtain ⟨_, _, k3, _⟩ := trackAll_holds (P := fun _ _ => True) (T := e2.currentTime)
    (fun t h' => ⟨⟨⟨hs t h', fun _ _ _ _ => trivial⟩, fun _ _ => trivial⟩, fun _ _ => trivial⟩) s2 rfl h3
  have hclock := (boardAll_frame h4 (s2.frame k3)).currentTime.trans (k3.currentTime.trans f2.currentTime)
  unfold calculateLocalTime at h1
  rw [if_pos ht] at h1
  exact hclock.trans (predict_clock h1)

/-! ## Simulated cameras -/

theorem SimTracker.generate_holds {P : Nat → FeaturePoint K → Prop} {t t' : SimTracker K} {F : Nat} {time : K}
    {keys : List (Nat × K × K)} {out} (h : AllIn P t.map) (hk : ∀ k ∈ keys, P k.1 ⟨F, time, k.2.1, k.2.2⟩)
    (hs : t.generate F time keys = .ok (t', out)) : AllIn P t'.map ∧ ∀ o ∈ out, ∀ p ∈ o.2, P o.1 p := by
  unfold SimTracker.generate at hs
  rw [bind_ok_iff] at hs
  obtain ⟨⟨o, left⟩, hflush, hs⟩ := hs
  simp only [pure, Except.pure, Except.ok.injEq, Prod.mk.injEq] at hs
  obtain ⟨rfl, rfl⟩ := hs
  have key : ∀ (keys : List (Nat × K × K)) (m : TrackMap K), AllIn P m → (∀ k ∈ keys, P k.1 ⟨F, time, k.2.1, k.2.2⟩) →
      AllIn P (keys.foldl (fun (m : TrackMap K) k => m.push k.1 ⟨F, time, k.2.1, k.2.2⟩) m) := by
    intro keys
    induction keys with
    | nil => intro m hm _; exact hm
    | cons k ks ih =>
      intro m hm hk
      exact ih _ (hm.push (hk k List.mem_cons_self)) fun k' h' => hk k' (List.mem_cons_of_mem _ h')
  obtain ⟨k1, k2⟩ := flush_sublist hflush
  have g := key keys t.map h hk
  exact ⟨g.sublist k2, (g.sublist k1).2⟩

theorem SimCamera.trackAll_holds {N : Num K} {P : Nat → Nat → FeaturePoint K → Prop} {intr : Intrinsics K} {m : SimCameraMsg K} :
    ∀ {ts ts' : List (Nat × SimPointTracker K)} {e e' : Ekf K} {ds : List (Delivery K)},
    (∀ t ∈ ts, AllIn (P t.1) t.2.tracker.map ∧ ∀ k ∈ m.points t.1, P t.1 k.1 ⟨m.frameId, m.time, k.2.1, k.2.2⟩) →
    SimCamera.trackAll N intr m ts e = .ok (ts', e', ds) →
    (∀ t ∈ ts', AllIn (P t.1) t.2.tracker.map) ∧ ts'.map Prod.fst = ts.map Prod.fst ∧
    ∀ d ∈ ds, ∃ k ∈ ts.map Prod.fst, ∀ o ∈ d.tracks, ∀ p ∈ o.2, P k o.1 p
  | [], _, e, _, _, _, h => by
    simp only [SimCamera.trackAll, Except.ok.injEq, Prod.mk.injEq] at h
    obtain ⟨rfl, rfl, rfl⟩ := h
    exact ⟨by simp, rfl, by simp⟩
  | (k, t) :: ts, _, e, _, _, ht, h => by
    simp only [SimCamera.trackAll, bind_ok_iff, pure_res, Except.ok.injEq] at h
    obtain ⟨⟨t1, e1, d1⟩, h1, ⟨ts2, e2, d2⟩, h2, h⟩ := h
    simp only [Prod.mk.injEq] at h
    obtain ⟨rfl, rfl, rfl⟩ := h
    obtain ⟨r1, r2⟩ := ht (k, t) List.mem_cons_self
    obtain ⟨k1, k2, k4⟩ := SimCamera.trackAll_holds (fun t' ht' => ht t' (List.mem_cons_of_mem _ ht')) h2
    have g : AllIn (P k) t1.tracker.map ∧ ∀ d ∈ d1, ∀ o ∈ d.tracks, ∀ p ∈ o.2, P k o.1 p := by
      unfold SimCamera.track at h1
      rw [bind_ok_iff] at h1
      obtain ⟨⟨tr, out⟩, h3, h1⟩ := h1
      obtain ⟨g1, g2⟩ := SimTracker.generate_holds r1 r2 h3
      dsimp only at h1
      by_cases ho : out = []
      · rw [if_pos ho] at h1
        simp only [pure, Except.pure, Except.ok.injEq, Prod.mk.injEq] at h1
        obtain ⟨rfl, rfl, rfl⟩ := h1
        exact ⟨g1, by simp⟩
      · rw [if_neg ho, bind_ok_iff] at h1
        obtain ⟨⟨u, e2⟩, hu, h1⟩ := h1
        simp only [pure, Except.pure, Except.ok.injEq, Prod.mk.injEq] at h1
        obtain ⟨rfl, rfl, rfl⟩ := h1
        refine ⟨g1, fun d hd => ?_⟩
        rw [List.mem_singleton] at hd
        subst hd
        exact g2
    refine ⟨?_, by simp [k2], ?_⟩
    · intro t' ht'
      rcases List.mem_cons.1 ht' with rfl | ht'
      · exact g.1
      · exact k1 t' ht'
    · intro d hd
      rcases List.mem_append.1 hd with hd | hd
      · exact ⟨k, List.mem_cons_self, g.2 d hd⟩
      · obtain ⟨k', hk', hd'⟩ := k4 d hd
        exact ⟨k', List.mem_cons_of_mem _ hk', hd'⟩

/-- The messages of a simulated camera contain one that shows feature `id` to tracker `k` at the pixel of `p`; `p` carries the
image id and the time of that message. -/
def SimCamera.Saw (evs : List (SimCamera.Event K)) (k id : Nat) (p : FeaturePoint K) : Prop :=
  ∃ m, .image m ∈ evs ∧ p.frameId = m.frameId ∧ p.time = m.time ∧ (id, p.x, p.y) ∈ m.points k

theorem SimCamera.run_saw {N : Num K} {all : List (SimCamera.Event K)} : ∀ {evs : List (SimCamera.Event K)} {c c' : SimCamera K}
    {e e' : Ekf K} {ds : List (Delivery K)}, (∀ ev ∈ evs, ev ∈ all) → c.run N e evs = .ok (c', e', ds) →
    (∀ t ∈ c.trackers, AllIn (SimCamera.Saw all t.1) t.2.tracker.map) →
    ∀ d ∈ ds, ∃ k ∈ c.trackers.map Prod.fst, ∀ o ∈ d.tracks, ∀ p ∈ o.2, SimCamera.Saw all k o.1 p
  | [], c, _, e, _, ds, _, h, _ => by
    simp only [SimCamera.run, Except.ok.injEq, Prod.mk.injEq] at h
    obtain ⟨_, _, rfl⟩ := h
    simp
  | .image m :: evs, c, _, e, _, ds, hall, h, ht => by
    simp only [SimCamera.run, bind_ok_iff, pure_res, Except.ok.injEq] at h
    obtain ⟨⟨c1, e1, d1⟩, h1, ⟨c2, e2, d2⟩, h2, h⟩ := h
    simp only [Prod.mk.injEq] at h
    obtain ⟨rfl, rfl, rfl⟩ := h
    unfold SimCamera.callback at h1
    simp only [bind_ok_iff, pure_res, Except.ok.injEq] at h1
    obtain ⟨ea, ha, eb, hb, ⟨ts, ec, dc⟩, hc, h1⟩ := h1
    simp only [Prod.mk.injEq] at h1
    obtain ⟨rfl, rfl, rfl⟩ := h1
    obtain ⟨k1, k2, k3⟩ := SimCamera.trackAll_holds (fun t h' => ⟨ht t h', fun k hk =>
      ⟨m, hall _ List.mem_cons_self, rfl, rfl, hk⟩⟩) hc
    have key := SimCamera.run_saw (fun ev h' => hall ev (List.mem_cons_of_mem _ h')) h2 k1
    intro d hd
    rcases List.mem_append.1 hd with hd | hd
    · exact k3 d hd
    · have := key d hd
      dsimp only at this k2
      rw [k2] at this
      exact this
  | .other op :: evs, c, _, e, _, ds, hall, h, ht => by
    simp only [SimCamera.run, bind_ok_iff] at h
    obtain ⟨e1, h1, h2⟩ := h
    exact SimCamera.run_saw (fun ev h' => hall ev (List.mem_cons_of_mem _ h')) h2 ht

/-- **Every observation of a simulated feature is one of its visible key points in the message it names, with the time of the
message.** -/
theorem C68_sim (N : Num K) (c c' : SimCamera K) (e e' : Ekf K) (evs : List (SimCamera.Event K)) (ds : List (Delivery K))
    (h : c.run N e evs = .ok (c', e', ds)) (hnew : ∀ t ∈ c.trackers, t.2.tracker.map = []) :
    ∀ d ∈ ds, ∃ k ∈ c.trackers.map Prod.fst, ∀ o ∈ d.tracks, ∀ p ∈ o.2, SimCamera.Saw evs k o.1 p := by
  refine SimCamera.run_saw (fun _ h' => h') h fun t ht => ⟨?_, ?_⟩
  · rw [hnew t ht]; exact UMap.sorted_nil
  · rw [hnew t ht]; simp

/-! ## What does not hold, and examples -/

namespace SceneSample

/-- Where ten points are in the image with id `id`: after halving the image they are at the places of `TrackSample.keys`. -/
def scene (id : Nat) : List (ℚ × ℚ) := (TrackSample.keys id).map fun k => (2 * k.x + 1 / 2, 2 * k.y + 1 / 2)

def image (down : Option (ℚ × ℚ)) (id : Nat) : Camera.Event ℚ :=
  .image ⟨id + 100, id, false, fun _ => PointSight.ofImage down 640 480 (scene id) TrackSample.knn TrackSample.knn (List.replicate 10 1) 0,
    fun _ => ⟨[], [], none⟩⟩

theorem image_fits (down : Option (ℚ × ℚ)) (id : Nat) : ∀ m, .image m = image down id → ∀ k, ∃ fwd bwd mask drawn,
    m.points k = PointSight.ofImage down 640 480 (scene m.frameId) fwd bwd mask drawn := by
  intro m hm k
  simp only [image, Camera.Event.image.injEq] at hm
  subst hm
  exact ⟨_, _, _, _, rfl⟩

end SceneSample

open WindowSample SceneSample

/-- **Violated with down-sampling**: images of 640 by 480 pixels are halved before the detector sees them; the observations
handed to the filter, which uses the intrinsics of the full image, are at places where the images show nothing. -/
theorem C68_downsample_violated : ∃ (N : Num ℚ) (c c' : Camera ℚ) (e e' : Ekf ℚ) (evs : List (Camera.Event ℚ)) (ds : List (Delivery ℚ)),
    N.toPrim.InvLaw ∧ e.Reachable N.toPrim ∧ c.run N e evs = .ok (c', e', ds) ∧ (∀ t ∈ c.trackers, t.2.tracker.Fresh) ∧
    (∀ m, .image m ∈ evs → ∀ k ∈ c.trackers.map Prod.fst,
      ∃ fwd bwd mask drawn, m.points k = PointSight.ofImage (some (320, 240)) 640 480 (scene m.frameId) fwd bwd mask drawn) ∧
    ∃ d ∈ ds, ∃ o ∈ d.tracks, ∃ p ∈ o.2, (p.x, p.y) ∉ scene p.frameId := by
  have h : ∃ x, (do let e ← filter; let r ← (camera 3).run Samples.diagNum e [image (some (320, 240)) 1, image (some (320, 240)) 2, image (some (320, 240)) 3]; pure (e, r)) = .ok x ∧
      (∃ d ∈ x.2.2.2, ∃ o ∈ d.tracks, ∃ p ∈ o.2, (p.x, p.y) ∉ scene p.frameId) := by
    refine Samples.ok_of_check (P := fun x : Ekf ℚ × Camera ℚ × Ekf ℚ × List (Delivery ℚ) =>
      ∃ d ∈ x.2.2.2, ∃ o ∈ d.tracks, ∃ p ∈ o.2, (p.x, p.y) ∉ scene p.frameId) ?_
    decide +kernel
  obtain ⟨⟨e, r⟩, hx, hd⟩ := h
  simp only [bind_ok_iff, pure_res, Except.ok.injEq, Prod.mk.injEq] at hx
  obtain ⟨e, he, r, hr, rfl, rfl⟩ := hx
  refine ⟨Samples.diagNum, camera 3, r.1, e, r.2.1, _, r.2.2, Samples.diagNum_inv, ⟨_, _, ops_wf, he⟩, hr, ?_, ?_, hd⟩
  · intro t ht
    simp only [camera, List.mem_singleton] at ht
    subst ht
    exact ⟨rfl, rfl⟩
  · intro m hm k _
    simp only [List.mem_cons, List.not_mem_nil, or_false] at hm
    rcases hm with hm | hm | hm <;> exact image_fits _ _ m hm k

/-- The same images without down-sampling: thirty observations, at the times 0, 1 and 2 of the filter. -/
example : ∃ x, (do let e ← filter; let r ← (camera 3).run Samples.diagNum e [image none 1, image none 2, image none 3]; pure (e, r)) = .ok x ∧
    (∃ d ∈ x.2.2.2, d.tracks.length = 10 ∧ (∀ o ∈ d.tracks, o.2.map FeaturePoint.time = [0, 1, 2]) ∧
      ∀ o ∈ d.tracks, ∀ p ∈ o.2, (p.x, p.y) ∈ scene p.frameId) := by
  refine Samples.ok_of_check (P := fun x : Ekf ℚ × Camera ℚ × Ekf ℚ × List (Delivery ℚ) =>
    ∃ d ∈ x.2.2.2, d.tracks.length = 10 ∧ (∀ o ∈ d.tracks, o.2.map FeaturePoint.time = [0, 1, 2]) ∧
      ∀ o ∈ d.tracks, ∀ p ∈ o.2, (p.x, p.y) ∈ scene p.frameId) ?_
  decide +kernel

/-- A simulated camera that loses sight of one feature and then of all. -/
def simCamera : SimCamera ℚ := ⟨1, ⟨1 / 100, 1 / 100, 0, 0, 0, 0, 1920, 1080, 5 / 10 ^ 6⟩,
  [(2, ⟨⟨1, 3, []⟩, { MsckfUpdater.new 1 false (10 ^ 9) with useTruth := false }, 1⟩)]⟩

def simEvents : List (SimCamera.Event ℚ) :=
  [.image ⟨101, 1, fun _ => [(7, 1, 1), (9, 2, 2)], fun _ => 0⟩, .image ⟨102, 2, fun _ => [(9, 3, 2)], fun _ => 0⟩,
    .image ⟨103, 3, fun _ => [], fun _ => 0⟩]

/-- The hypotheses of `C68_sim` are met with three observations. -/
example : ∃ x, (do let e ← filter; simCamera.run Samples.diagNum e simEvents) = .ok x ∧
    x.2.2.map (fun d => d.tracks.map fun o => (o.1, o.2.map fun p => (p.frameId, p.time, p.x, p.y))) =
      [[(7, [(1, 101, 1, 1)])], [(9, [(1, 101, 2, 2), (2, 102, 3, 2)])]] := by
  refine Samples.ok_of_check (P := fun x : SimCamera ℚ × Ekf ℚ × List (Delivery ℚ) =>
    x.2.2.map (fun d => d.tracks.map fun o => (o.1, o.2.map fun p => (p.frameId, p.time, p.x, p.y))) =
      [[(7, [(1, 101, 1, 1)])], [(9, [(1, 101, 2, 2), (2, 102, 3, 2)])]]) ?_
  decide +kernel

/-- **Violated for the time of simulated observations**: the real tracker writes the time of the filter into its
observations, the simulated one the time of the message.  If the filter was not given an initial state before, it counts from
the first message, and an observation does not have the time at which the pose of its image was stored. -/
theorem C68_sim_time_violated : ∃ (N : Num ℚ) (c c' : SimCamera ℚ) (e e' : Ekf ℚ) (evs : List (SimCamera.Event ℚ)) (ds : List (Delivery ℚ)),
    N.toPrim.InvLaw ∧ e.Reachable N.toPrim ∧ c.run N e evs = .ok (c', e', ds) ∧ (∀ t ∈ c.trackers, t.2.tracker.map = []) ∧
    ∃ d ∈ ds, ∃ o ∈ d.tracks, ∃ p ∈ o.2, ∃ a ∈ d.filter.window d.updater.id, a.frameId = p.frameId ∧ a.time ≠ p.time := by
  have h : ∃ x, (do let e ← filter; let r ← simCamera.run Samples.diagNum e simEvents; pure (e, r)) = .ok x ∧
      (∃ d ∈ x.2.2.2, ∃ o ∈ d.tracks, ∃ p ∈ o.2, ∃ a ∈ d.filter.window d.updater.id, a.frameId = p.frameId ∧ a.time ≠ p.time) := by
    refine Samples.ok_of_check (P := fun x : Ekf ℚ × SimCamera ℚ × Ekf ℚ × List (Delivery ℚ) =>
      ∃ d ∈ x.2.2.2, ∃ o ∈ d.tracks, ∃ p ∈ o.2, ∃ a ∈ d.filter.window d.updater.id, a.frameId = p.frameId ∧ a.time ≠ p.time) ?_
    decide +kernel
  obtain ⟨⟨e, r⟩, hx, hd⟩ := h
  simp only [bind_ok_iff, pure_res, Except.ok.injEq, Prod.mk.injEq] at hx
  obtain ⟨e, he, r, hr, rfl, rfl⟩ := hx
  refine ⟨Samples.diagNum, simCamera, r.1, e, r.2.1, _, r.2.2, Samples.diagNum_inv, ⟨_, _, ops_wf, he⟩, hr, ?_, hd⟩
  intro t ht
  simp only [simCamera, List.mem_singleton] at ht
  subst ht
  rfl

end EkfCal
