import Verif.Lemmas.Frames
import Verif.Props.C03
import Verif.Props.C31
import Verif.Spec.LawSamples

/-!
# C67 — every observation handed to the filter still has the pose of its image
-/

set_option linter.unusedSectionVars false

namespace EkfCal
open Ekf
variable {K : Type} [Field K] [LinearOrder K]

theorem MsckfUpdater.update_id {N : Num K} {u : MsckfUpdater K} {e : Ekf K} {time : K} {intr : Intrinsics K}
    {fs : List (FeatureTrack K)} {px : K} {r : MsckfUpdater K × Ekf K} (hu : u.update N e time intr fs px = .ok r) :
    r.1.id = u.id := by
  unfold MsckfUpdater.update at hu
  dsimp only at hu
  rw [bind_ok_iff] at hu
  obtain ⟨e3, _, hu⟩ := hu
  split_ifs at hu
  · cases hu; rfl
  · rw [bind_ok_iff] at hu
    obtain ⟨e4, _, hu⟩ := hu
    cases hu
    show (u.refresh _ _).id = _
    unfold MsckfUpdater.refresh
    split <;> rfl

/-! ## Cameras -/

/-- A tracker of a camera with id `cam`, after images `S`, in a filter with window length `L`. -/
def PointTracker.Ready (cam : Nat) (S : List Nat) (L : Nat) (t : PointTracker K) : Prop :=
  (∃ D, FeatureTracker.FInv D S t.tracker) ∧ 2 ≤ t.tracker.maxLen ∧ t.tracker.maxLen ≤ L ∧ t.updater.id = cam

theorem PointTracker.Ready.track {N : Num K} {cam : Nat} {S : List Nat} {L F : Nat} {t t' : PointTracker K} {e e' : Ekf K}
    {time : K} {intr : Intrinsics K} {s : PointSight K} {ds : List (Delivery K)} (ht : t.Ready cam S L)
    (he : WInv cam (S ++ [F]) L e) (h0 : cam ≠ 0) (hS : ∀ x ∈ S, x < F) (hw : s.WF) (hk : s.keys ≠ [])
    (h : t.track N e time F intr s = .ok (t', e', ds)) :
    t'.Ready cam (S ++ [F]) L ∧ WInv cam (S ++ [F]) L e' ∧ ∀ d ∈ ds, d.Posed N := by
  obtain ⟨⟨D, hD⟩, h2, hL, hid⟩ := ht
  unfold PointTracker.track at h
  rw [bind_ok_iff] at h
  obtain ⟨⟨tr, out⟩, h1, h⟩ := h
  obtain ⟨g1, g2, g3⟩ := hD.track h1 hw hk h2 hS
  dsimp only at h g2
  by_cases ho : out = []
  · rw [if_pos ho] at h
    simp only [pure, Except.pure, Except.ok.injEq, Prod.mk.injEq] at h
    obtain ⟨rfl, rfl, rfl⟩ := h
    exact ⟨⟨⟨_, g1⟩, by rw [g2]; exact h2, by rw [g2]; exact hL, hid⟩, he, by simp⟩
  · rw [if_neg ho, bind_ok_iff] at h
    obtain ⟨⟨u, e2⟩, hu, h⟩ := h
    simp only [pure, Except.pure, Except.ok.injEq, Prod.mk.injEq] at h
    obtain ⟨rfl, rfl, rfl⟩ := h
    have hvia := MsckfUpdater.update_via (Q := fun _ => True) hu (fun _ => trivial)
    have huid : u.id = t.updater.id := MsckfUpdater.update_id hu
    refine ⟨⟨⟨_, g1.retime _⟩, by rw [← g2] at h2; exact h2, by rw [← g2] at hL; exact hL, huid.trans hid⟩,
      he.via h0 hvia, ?_⟩
    intro d hd
    rw [List.mem_singleton] at hd
    subst hd
    intro o ho p hp
    dsimp only
    rw [hid]
    exact he.posed g3 hL o ho p hp

theorem trackAll_ready {N : Num K} {cam : Nat} {S : List Nat} {L : Nat} {intr : Intrinsics K} {m : CameraMsg K} (h0 : cam ≠ 0)
    (hS : ∀ x ∈ S, x < m.frameId) : ∀ {ts ts' : List (Nat × PointTracker K)} {e e' : Ekf K} {ds : List (Delivery K)},
    (∀ t ∈ ts, t.2.Ready cam S L ∧ (m.points t.1).WF ∧ (m.points t.1).keys ≠ []) → WInv cam (S ++ [m.frameId]) L e →
    Camera.trackAll N intr m ts e = .ok (ts', e', ds) →
    (∀ t ∈ ts', t.2.Ready cam (S ++ [m.frameId]) L) ∧ ts'.map Prod.fst = ts.map Prod.fst ∧
    WInv cam (S ++ [m.frameId]) L e' ∧ ∀ d ∈ ds, d.Posed N
  | [], _, e, _, _, _, he, h => by
    simp only [Camera.trackAll, Except.ok.injEq, Prod.mk.injEq] at h
    obtain ⟨rfl, rfl, rfl⟩ := h
    exact ⟨by simp, rfl, he, by simp⟩
  | (k, t) :: ts, _, e, _, _, ht, he, h => by
    simp only [Camera.trackAll, bind_ok_iff, pure_res, Except.ok.injEq] at h
    obtain ⟨⟨t1, e1, d1⟩, h1, ⟨ts2, e2, d2⟩, h2, h⟩ := h
    simp only [Prod.mk.injEq] at h
    obtain ⟨rfl, rfl, rfl⟩ := h
    obtain ⟨r1, r2, r3⟩ := ht (k, t) List.mem_cons_self
    obtain ⟨g1, g2, g3⟩ := r1.track he h0 hS r2 r3 h1
    obtain ⟨k1, k2, k3, k4⟩ := trackAll_ready h0 hS (fun t' ht' => ht t' (List.mem_cons_of_mem _ ht')) g2 h2
    refine ⟨?_, by simp [k2], k3, ?_⟩
    · intro t' ht'
      rcases List.mem_cons.1 ht' with rfl | ht'
      · exact g1
      · exact k1 t' ht'
    · intro d hd
      rcases List.mem_append.1 hd with hd | hd
      · exact g3 d hd
      · exact k4 d hd

theorem FidTracker.track_via {N : Num K} {t : FidTracker K} {e : Ekf K} {time : K} {s : BoardSight K}
    {r : FidTracker K × Ekf K} (h : t.track N e time s = .ok r) : Via N.toPrim (fun _ => True) e r.2 := by
  unfold FidTracker.track at h
  dsimp only at h
  by_cases h1 : s.markers = []
  · rw [if_pos h1] at h; cases h; exact Via.getCam e _
  rw [if_neg h1] at h
  by_cases h2 : t.cornerIds s = []
  · rw [if_pos h2] at h; cases h; exact Via.getCam e _
  rw [if_neg h2, bind_ok_iff] at h
  obtain ⟨⟨u, e1⟩, h3, h⟩ := h
  cases h
  exact (Via.getCam e _).trans (FidUpdater.update_via h3 fun _ _ => trivial)

theorem boardAll_via {N : Num K} {m : CameraMsg K} : ∀ {ts : List (Nat × FidTracker K)} {e : Ekf K}
    {r : List (Nat × FidTracker K) × Ekf K}, Camera.boardAll N m ts e = .ok r → Via N.toPrim (fun _ => True) e r.2
  | [], e, r, h => by
    simp only [Camera.boardAll, Except.ok.injEq] at h
    subst h
    exact Via.refl e
  | (k, t) :: ts, e, r, h => by
    simp only [Camera.boardAll, bind_ok_iff, pure_res, Except.ok.injEq] at h
    obtain ⟨⟨t1, e1⟩, h1, ⟨ts2, e2⟩, h2, rfl⟩ := h
    have h3 := boardAll_via h2
    exact (FidTracker.track_via h1).trans h3

/-- A camera after images `S`. -/
def Camera.Ready (c : Camera K) (S : List Nat) (L : Nat) (e : Ekf K) : Prop :=
  (∀ t ∈ c.trackers, t.2.Ready c.id S L) ∧ c.trackers ≠ [] ∧ WInv c.id S L e

theorem Camera.Ready.callback {N : Num K} {c c' : Camera K} {S : List Nat} {L : Nat} {e e' : Ekf K} {m : CameraMsg K}
    {ds : List (Delivery K)} (hc : c.Ready S L e) (h0 : c.id ≠ 0) (hL : 1 ≤ L) (hm : m.empty = false)
    (hS : ∀ x ∈ S, x < m.frameId) (hw : ∀ t ∈ c.trackers, (m.points t.1).WF ∧ (m.points t.1).keys ≠ [])
    (h : c.callback N e m = .ok (c', e', ds)) :
    c'.Ready (S ++ [m.frameId]) L e' ∧ c'.id = c.id ∧ c'.trackers.map Prod.fst = c.trackers.map Prod.fst ∧
    ∀ d ∈ ds, d.Posed N := by
  obtain ⟨ht, hne, hwin⟩ := hc
  unfold Camera.callback at h
  rw [hm] at h
  simp only [Bool.false_eq_true, if_false, hne, false_and, bind_ok_iff, pure_res, Except.ok.injEq] at h
  obtain ⟨e1, h1, e2, h2, ⟨ts, e3, d3⟩, h3, ⟨fs, e4⟩, h4, h⟩ := h
  simp only [Prod.mk.injEq] at h
  obtain ⟨rfl, rfl, rfl⟩ := h
  have w1 : WInv c.id S L e1 := hwin.via h0 ((Via.localTime (Q := fun _ => True) e m.time).trans (Via.predict h1))
  have w2 := w1.frame h0 hL h2
  obtain ⟨k1, k2, k3, k4⟩ := trackAll_ready h0 hS (fun t h' => ⟨ht t h', hw t h'⟩) w2 h3
  refine ⟨⟨k1, ?_, k3.via h0 (boardAll_via h4)⟩, rfl, k2, k4⟩
  intro h'
  dsimp only at h'
  rw [h'] at k2
  exact hne (List.map_eq_nil_iff.1 k2.symm)

/-- What every image of a camera is assumed to offer its trackers: key points as detection leaves them, and at least one. -/
def CameraMsg.Textured (c : Camera K) (m : CameraMsg K) : Prop :=
  ∀ t ∈ c.trackers, (m.points t.1).WF ∧ (m.points t.1).keys ≠ []

theorem Camera.Ready.run {N : Num K} {L : Nat} (hL : 1 ≤ L) : ∀ {evs : List (Camera.Event K)} {c c' : Camera K} {S : List Nat}
    {e e' : Ekf K} {ds : List (Delivery K)}, c.Ready S L e → c.id ≠ 0 → c.run N e evs = .ok (c', e', ds) →
    (S ++ Camera.frames evs).Pairwise (· < ·) →
    (∀ ev ∈ evs, match ev with
      | .image m => m.empty = false → m.Textured c
      | .other op => op.Elsewhere c.id) →
    ∀ d ∈ ds, d.Posed N
  | [], c, _, S, e, _, ds, _, _, h, _, _ => by
    simp only [Camera.run, Except.ok.injEq, Prod.mk.injEq] at h
    obtain ⟨_, _, rfl⟩ := h
    simp
  | .image m :: evs, c, _, S, e, _, ds, hc, h0, h, hp, hev => by
    simp only [Camera.run, bind_ok_iff, pure_res, Except.ok.injEq] at h
    obtain ⟨⟨c1, e1, d1⟩, h1, ⟨c2, e2, d2⟩, h2, h⟩ := h
    simp only [Prod.mk.injEq] at h
    obtain ⟨rfl, rfl, rfl⟩ := h
    have hrest := fun ev h' => hev ev (List.mem_cons_of_mem _ h')
    by_cases hm : m.empty = true
    · have hr : c1 = c ∧ e1 = e ∧ d1 = [] := by
        unfold Camera.callback at h1
        rw [if_pos hm] at h1
        cases h1
        exact ⟨rfl, rfl, rfl⟩
      obtain ⟨rfl, rfl, rfl⟩ := hr
      have hf : Camera.frames (.image m :: evs) = Camera.frames evs := by simp [Camera.frames, hm]
      rw [hf] at hp
      rw [List.nil_append]
      exact hc.run hL h0 h2 hp hrest
    · have hm : m.empty = false := by simpa using hm
      have hf : Camera.frames (.image m :: evs) = m.frameId :: Camera.frames evs := by simp [Camera.frames, hm]
      rw [hf, List.append_cons] at hp
      have hS : ∀ x ∈ S, x < m.frameId := by
        intro x hx
        rw [List.pairwise_append] at hp
        rw [List.pairwise_append] at hp
        exact hp.1.2.2 x hx _ (by simp)
      obtain ⟨g1, g2, g3, g4⟩ := hc.callback h0 hL hm hS (hev (.image m) List.mem_cons_self hm) h1
      have key : ∀ d ∈ d2, d.Posed N := by
        refine g1.run hL (by rw [g2]; exact h0) h2 hp ?_
        intro ev h'
        have := hrest ev h'
        cases ev with
        | other op => dsimp only at this ⊢; rw [g2]; exact this
        | image m' =>
          intro hm' t ht'
          have : t.1 ∈ c.trackers.map Prod.fst := by rw [← g3]; exact List.mem_map_of_mem ht'
          obtain ⟨t0, ht0, e0⟩ := List.mem_map.1 this
          rw [← e0]
          exact hrest (.image m') h' hm' t0 ht0
      intro d hd
      rcases List.mem_append.1 hd with hd | hd
      · exact g4 d hd
      · exact key d hd
  | .other op :: evs, c, _, S, e, _, ds, hc, h0, h, hp, hev => by
    simp only [Camera.run, bind_ok_iff] at h
    obtain ⟨e1, h1, h2⟩ := h
    have hf : Camera.frames (.other op :: evs) = Camera.frames evs := rfl
    rw [hf] at hp
    exact Camera.Ready.run hL (c := c) (e := e1)
      ⟨hc.1, hc.2.1, hc.2.2.step h0 h1 (hev (.other op) List.mem_cons_self)⟩ h0 h2 hp
      (fun ev h' => hev ev (List.mem_cons_of_mem _ h'))

theorem Camera.run_no_trackers {N : Num K} : ∀ {evs : List (Camera.Event K)} {c c' : Camera K} {e e' : Ekf K}
    {ds : List (Delivery K)}, c.trackers = [] → c.run N e evs = .ok (c', e', ds) → ds = []
  | [], c, _, e, _, ds, _, h => by
    simp only [Camera.run, Except.ok.injEq, Prod.mk.injEq] at h
    exact h.2.2.symm
  | .image m :: evs, c, _, e, _, ds, hc, h => by
    simp only [Camera.run, bind_ok_iff, pure_res, Except.ok.injEq] at h
    obtain ⟨⟨c1, e1, d1⟩, h1, ⟨c2, e2, d2⟩, h2, h⟩ := h
    simp only [Prod.mk.injEq] at h
    obtain ⟨rfl, rfl, rfl⟩ := h
    have hr : c1.trackers = [] ∧ d1 = [] := by
      unfold Camera.callback at h1
      by_cases hm : m.empty = true
      · rw [if_pos hm] at h1; cases h1; exact ⟨hc, rfl⟩
      rw [if_neg hm] at h1
      by_cases hf : c.trackers = [] ∧ c.fiducials = []
      · rw [if_pos hf] at h1; cases h1; exact ⟨hc, rfl⟩
      rw [if_neg hf] at h1
      simp only [bind_ok_iff, pure_res, Except.ok.injEq, hc, Camera.trackAll] at h1
      obtain ⟨e1, _, e2, _, _, rfl, ⟨fs, e4⟩, _, h1⟩ := h1
      cases h1
      exact ⟨rfl, rfl⟩
    rw [hr.2, Camera.run_no_trackers hr.1 h2]
    rfl
  | .other op :: evs, c, _, e, _, ds, hc, h => by
    simp only [Camera.run, bind_ok_iff] at h
    obtain ⟨e1, _, h2⟩ := h
    exact Camera.run_no_trackers hc h2

/-- **Every observation handed to the camera updater still has the pose of its image**, for any sequence of images of the
camera and of other calls on the filter, if every image has key points, the filter keeps at least as many poses as a track
may have observations, and the images come with increasing ids.  Missing from the whole statement: images without key points
(`C67_featureless_violated`), and tracks longer than the window (`C67_length_violated`). -/
theorem C67_textured_partial (N : Num K) (c c' : Camera K) (e e' : Ekf K) (evs : List (Camera.Event K)) (ds : List (Delivery K))
    (h : c.run N e evs = .ok (c', e', ds))
    (h0 : c.id ≠ 0) (hcl : e.ClonesFrame c.id) (hnew : e.window c.id = [])
    (htr : ∀ t ∈ c.trackers, t.2.tracker.Fresh ∧ 2 ≤ t.2.tracker.maxLen ∧ t.2.tracker.maxLen ≤ e.maxTrackLength ∧
      t.2.updater.id = c.id)
    (hids : (Camera.frames evs).Pairwise (· < ·))
    (hev : ∀ ev ∈ evs, match ev with
      | .image m => m.empty = false → m.Textured c
      | .other op => op.Elsewhere c.id) :
    ∀ d ∈ ds, d.Posed N := by
  by_cases hne : c.trackers = []
  · rw [Camera.run_no_trackers hne h]; simp
  · obtain ⟨t, ht⟩ := List.exists_mem_of_ne_nil _ hne
    have hL : 1 ≤ e.maxTrackLength := by have := htr t ht; omega
    have hst : e.stamps c.id = [] := by unfold stamps; rw [hnew]; rfl
    refine Camera.Ready.run hL (S := []) ⟨?_, hne, hcl, rfl, ?_, Or.inl ?_⟩ h0 h (by simpa using hids) hev
    · intro t ht
      obtain ⟨h1, h2, h3, h4⟩ := htr t ht
      exact ⟨⟨_, FeatureTracker.finv_fresh h1⟩, h2, h3, h4⟩
    · rw [hst]; exact List.nil_suffix
    · rw [hst]; rfl

/-! ## Simulated cameras -/

def SimPointTracker.Ready (cam : Nat) (S : List Nat) (L : Nat) (t : SimPointTracker K) : Prop :=
  SimTracker.FInv S t.tracker ∧ 1 ≤ t.tracker.maxLen ∧ t.tracker.maxLen ≤ L ∧ t.updater.id = cam

theorem SimPointTracker.Ready.track {N : Num K} {cam : Nat} {S : List Nat} {L F : Nat} {t t' : SimPointTracker K}
    {e e' : Ekf K} {time : K} {intr : Intrinsics K} {keys : List (Nat × K × K)} {truth : Nat → V3 K} {ds : List (Delivery K)}
    (ht : t.Ready cam S L) (he : WInv cam (S ++ [F]) L e) (h0 : cam ≠ 0) (hS : ∀ x ∈ S, x < F)
    (hk : (keys.map Prod.fst).Nodup) (h : SimCamera.track N t e time F intr keys truth = .ok (t', e', ds)) :
    t'.Ready cam (S ++ [F]) L ∧ WInv cam (S ++ [F]) L e' ∧ ∀ d ∈ ds, d.Posed N := by
  obtain ⟨hD, h2, hL, hid⟩ := ht
  unfold SimCamera.track at h
  rw [bind_ok_iff] at h
  obtain ⟨⟨tr, out⟩, h1, h⟩ := h
  obtain ⟨g1, g2, g3⟩ := hD.generate h1 h2 hk hS
  dsimp only at h g2
  by_cases ho : out = []
  · rw [if_pos ho] at h
    simp only [pure, Except.pure, Except.ok.injEq, Prod.mk.injEq] at h
    obtain ⟨rfl, rfl, rfl⟩ := h
    exact ⟨⟨g1, by rw [g2]; exact h2, by rw [g2]; exact hL, hid⟩, he, by simp⟩
  · rw [if_neg ho, bind_ok_iff] at h
    obtain ⟨⟨u, e2⟩, hu, h⟩ := h
    simp only [pure, Except.pure, Except.ok.injEq, Prod.mk.injEq] at h
    obtain ⟨rfl, rfl, rfl⟩ := h
    have hvia := MsckfUpdater.update_via (Q := fun _ => True) hu (fun _ => trivial)
    have huid : u.id = t.updater.id := MsckfUpdater.update_id hu
    refine ⟨⟨g1, by rw [← g2] at h2; exact h2, by rw [← g2] at hL; exact hL, huid.trans hid⟩, he.via h0 hvia, ?_⟩
    intro d hd
    rw [List.mem_singleton] at hd
    subst hd
    intro o ho p hp
    dsimp only
    rw [hid]
    exact he.posed g3 hL o ho p hp

theorem simTrackAll_ready {N : Num K} {cam : Nat} {S : List Nat} {L : Nat} {intr : Intrinsics K} {m : SimCameraMsg K}
    (h0 : cam ≠ 0) (hS : ∀ x ∈ S, x < m.frameId) (hk : ∀ k, ((m.points k).map Prod.fst).Nodup) :
    ∀ {ts ts' : List (Nat × SimPointTracker K)} {e e' : Ekf K} {ds : List (Delivery K)},
    (∀ t ∈ ts, t.2.Ready cam S L) → WInv cam (S ++ [m.frameId]) L e →
    SimCamera.trackAll N intr m ts e = .ok (ts', e', ds) →
    (∀ t ∈ ts', t.2.Ready cam (S ++ [m.frameId]) L) ∧ WInv cam (S ++ [m.frameId]) L e' ∧ ∀ d ∈ ds, d.Posed N
  | [], _, e, _, _, _, he, h => by
    simp only [SimCamera.trackAll, Except.ok.injEq, Prod.mk.injEq] at h
    obtain ⟨rfl, rfl, rfl⟩ := h
    exact ⟨by simp, he, by simp⟩
  | (k, t) :: ts, _, e, _, _, ht, he, h => by
    simp only [SimCamera.trackAll, bind_ok_iff, pure_res, Except.ok.injEq] at h
    obtain ⟨⟨t1, e1, d1⟩, h1, ⟨ts2, e2, d2⟩, h2, h⟩ := h
    simp only [Prod.mk.injEq] at h
    obtain ⟨rfl, rfl, rfl⟩ := h
    obtain ⟨g1, g2, g3⟩ := (ht (k, t) List.mem_cons_self).track he h0 hS (hk k) h1
    obtain ⟨k1, k3, k4⟩ := simTrackAll_ready h0 hS hk (fun t' ht' => ht t' (List.mem_cons_of_mem _ ht')) g2 h2
    refine ⟨?_, k3, ?_⟩
    · intro t' ht'
      rcases List.mem_cons.1 ht' with rfl | ht'
      · exact g1
      · exact k1 t' ht'
    · intro d hd
      rcases List.mem_append.1 hd with hd | hd
      · exact g3 d hd
      · exact k4 d hd

/-- A simulated camera after images `S`. -/
def SimCamera.Ready (c : SimCamera K) (S : List Nat) (L : Nat) (e : Ekf K) : Prop :=
  (∀ t ∈ c.trackers, t.2.Ready c.id S L) ∧ WInv c.id S L e

theorem SimCamera.Ready.run {N : Num K} {L : Nat} (hL : 1 ≤ L) : ∀ {evs : List (SimCamera.Event K)} {c c' : SimCamera K}
    {S : List Nat} {e e' : Ekf K} {ds : List (Delivery K)}, c.Ready S L e → c.id ≠ 0 → c.run N e evs = .ok (c', e', ds) →
    (S ++ SimCamera.frames evs).Pairwise (· < ·) →
    (∀ ev ∈ evs, match ev with
      | .image m => ∀ k, ((m.points k).map Prod.fst).Nodup
      | .other op => op.Elsewhere c.id) →
    ∀ d ∈ ds, d.Posed N
  | [], c, _, S, e, _, ds, _, _, h, _, _ => by
    simp only [SimCamera.run, Except.ok.injEq, Prod.mk.injEq] at h
    obtain ⟨_, _, rfl⟩ := h
    simp
  | .image m :: evs, c, _, S, e, _, ds, hc, h0, h, hp, hev => by
    simp only [SimCamera.run, bind_ok_iff, pure_res, Except.ok.injEq] at h
    obtain ⟨⟨c1, e1, d1⟩, h1, ⟨c2, e2, d2⟩, h2, h⟩ := h
    simp only [Prod.mk.injEq] at h
    obtain ⟨rfl, rfl, rfl⟩ := h
    have hf : SimCamera.frames (.image m :: evs) = m.frameId :: SimCamera.frames evs := by simp [SimCamera.frames]
    rw [hf, List.append_cons] at hp
    have hS : ∀ x ∈ S, x < m.frameId := by
      intro x hx
      rw [List.pairwise_append] at hp
      rw [List.pairwise_append] at hp
      exact hp.1.2.2 x hx _ (by simp)
    unfold SimCamera.callback at h1
    simp only [bind_ok_iff, pure_res, Except.ok.injEq] at h1
    obtain ⟨e3, h3, e4, h4, ⟨ts, e5, d5⟩, h5, h1⟩ := h1
    simp only [Prod.mk.injEq] at h1
    obtain ⟨rfl, rfl, rfl⟩ := h1
    have w1 : WInv c.id S L e3 := hc.2.via h0 ((Via.localTime (Q := fun _ => True) e m.time).trans (Via.predict h3))
    obtain ⟨k1, k3, k4⟩ := simTrackAll_ready h0 hS (hev (.image m) List.mem_cons_self) hc.1 (w1.frame h0 hL h4) h5
    have key : ∀ d ∈ d2, d.Posed N :=
      SimCamera.Ready.run hL (c := { c with trackers := ts }) ⟨k1, k3⟩ h0 h2 hp fun ev h' =>
        hev ev (List.mem_cons_of_mem _ h')
    intro d hd
    rcases List.mem_append.1 hd with hd | hd
    · exact k4 d hd
    · exact key d hd
  | .other op :: evs, c, _, S, e, _, ds, hc, h0, h, hp, hev => by
    simp only [SimCamera.run, bind_ok_iff] at h
    obtain ⟨e1, h1, h2⟩ := h
    have hf : SimCamera.frames (.other op :: evs) = SimCamera.frames evs := rfl
    rw [hf] at hp
    exact SimCamera.Ready.run hL (c := c) (e := e1) ⟨hc.1, hc.2.step h0 h1 (hev (.other op) List.mem_cons_self)⟩ h0 h2 hp
      (fun ev h' => hev ev (List.mem_cons_of_mem _ h'))

/-- **In the simulator every observation still has the pose of its image**, whatever is visible in the images, if the filter
keeps at least as many poses as a track may have observations. -/
theorem C67_sim (N : Num K) (c c' : SimCamera K) (e e' : Ekf K) (evs : List (SimCamera.Event K)) (ds : List (Delivery K))
    (h : c.run N e evs = .ok (c', e', ds))
    (h0 : c.id ≠ 0) (hcl : e.ClonesFrame c.id) (hnew : e.window c.id = [])
    (htr : ∀ t ∈ c.trackers, t.2.tracker.map = [] ∧ 1 ≤ t.2.tracker.maxLen ∧ t.2.tracker.maxLen ≤ e.maxTrackLength ∧
      t.2.updater.id = c.id)
    (hL : 1 ≤ e.maxTrackLength)
    (hids : (SimCamera.frames evs).Pairwise (· < ·))
    (hev : ∀ ev ∈ evs, match ev with
      | .image m => ∀ k, ((m.points k).map Prod.fst).Nodup
      | .other op => op.Elsewhere c.id) :
    ∀ d ∈ ds, d.Posed N := by
  have hst : e.stamps c.id = [] := by unfold stamps; rw [hnew]; rfl
  refine SimCamera.Ready.run hL (S := []) ⟨?_, hcl, rfl, ?_, Or.inl ?_⟩ h0 h (by simpa using hids) hev
  · intro t ht
    obtain ⟨h1, h2, h3, h4⟩ := htr t ht
    exact ⟨⟨by rw [h1]; exact UMap.sorted_nil, by rw [h1]; simp⟩, h2, h3, h4⟩
  · rw [hst]; exact List.nil_suffix
  · rw [hst]; rfl

/-! ## Where it fails -/

namespace WindowSample

/-- A filter that keeps three poses for each camera, with one camera. -/
def ops : List (Ekf.Op ℚ) := [.setMaxTrackLength 3, .registerCamera 1 CamState.default (Mat.zero 6 6)]

theorem ops_wf : ∀ op ∈ ops, op.WF := by
  intro op ho
  simp only [ops, List.mem_cons, List.not_mem_nil, or_false] at ho
  rcases ho with rfl | rfl <;> first | rfl | trivial

def filter : Res (Ekf ℚ) := Ekf.run Samples.diagNum.toPrim (Ekf.init Samples.diagNum.toPrim (Samples.params .all false)) ops

/-- Features are triangulated, and are all too near. -/
def camera (maxLen : Nat) : Camera ℚ :=
  ⟨1, ⟨1 / 100, 1 / 100, 0, 0, 0, 0, 1920, 1080, 5 / 10 ^ 6⟩,
    [(2, ⟨TrackSample.tracker 2 maxLen, { MsckfUpdater.new 1 false (10 ^ 9) with useTruth := false }, 1⟩)], []⟩

/-- The image with id `id`, ten key points in it or none. -/
def image (id : Nat) (textured : Bool) : Camera.Event ℚ :=
  .image ⟨id, id, false,
    fun _ => if textured then ⟨TrackSample.keys id, TrackSample.knn, TrackSample.knn, List.replicate 10 1, 0⟩ else ⟨[], [], [], [], 0⟩,
    fun _ => ⟨[], [], none⟩⟩

theorem image_wf (n id : Nat) (b : Bool) : match image id b with
    | .image m => m.empty = false → ∀ t ∈ (camera n).trackers, (m.points t.1).WF
    | .other _ => False := by
  intro _ t _
  cases b
  · exact TrackSample.empty_wf 0
  · exact TrackSample.frame_wf 0 id

end WindowSample

open WindowSample

/-- An observation whose image has no pose any more. -/
def Delivery.Lost (d : Delivery K) : Prop :=
  ∃ o ∈ d.tracks, ∃ p ∈ o.2, ∀ a ∈ d.filter.window d.updater.id, a.frameId ≠ p.frameId

theorem Delivery.Lost.not_posed {N : Num K} {d : Delivery K} (h : d.Lost) : ¬ d.Posed N := by
  obtain ⟨o, ho, p, hp, h⟩ := h
  intro h'
  obtain ⟨a, _, _, ha, hf⟩ := h' o ho p hp
  exact h a ha hf

/-- **Violated after an image without key points**: images 1 and 2 start ten tracks; image 3 shows nothing, so the tracks
are neither continued nor finished, while poses go on being stored; in image 5 the tracks are handed over with poses 3, 4 and
5 in the window. -/
theorem C67_featureless_violated : ∃ (N : Num ℚ) (c c' : Camera ℚ) (e e' : Ekf ℚ) (evs : List (Camera.Event ℚ)) (ds : List (Delivery ℚ)),
    N.toPrim.InvLaw ∧ e.Reachable N.toPrim ∧ c.run N e evs = .ok (c', e', ds) ∧ c.id ≠ 0 ∧ e.ClonesFrame c.id ∧ e.window c.id = [] ∧
    (∀ t ∈ c.trackers, t.2.tracker.Fresh ∧ 2 ≤ t.2.tracker.maxLen ∧ t.2.tracker.maxLen ≤ e.maxTrackLength ∧
      t.2.updater.id = c.id) ∧
    (Camera.frames evs).Pairwise (· < ·) ∧
    (∀ ev ∈ evs, match ev with
      | .image m => m.empty = false → ∀ t ∈ c.trackers, (m.points t.1).WF
      | .other _ => False) ∧
    ∃ d ∈ ds, d.Lost ∧ ¬ d.Posed N := by
  have h : ∃ x, (do let e ← filter; let r ← (camera 3).run Samples.diagNum e [image 1 true, image 2 true, image 3 false, image 4 true, image 5 true]; pure (e, r)) = .ok x ∧
      ((x.1.window 1).length = 0 ∧ x.1.augType = .all ∧ x.1.maxTrackLength = 3 ∧ ∃ d ∈ x.2.2.2, d.Lost) := by
    unfold Delivery.Lost
    refine Samples.ok_of_check (P := fun x : Ekf ℚ × Camera ℚ × Ekf ℚ × List (Delivery ℚ) =>
      (x.1.window 1).length = 0 ∧ x.1.augType = .all ∧ x.1.maxTrackLength = 3 ∧ ∃ d ∈ x.2.2.2,
        ∃ o ∈ d.tracks, ∃ p ∈ o.2, ∀ a ∈ d.filter.window d.updater.id, a.frameId ≠ p.frameId) ?_
    decide +kernel
  obtain ⟨⟨e, r⟩, hx, h1, h2, h3, d, hd, hl⟩ := h
  simp only [bind_ok_iff, pure_res, Except.ok.injEq, Prod.mk.injEq] at hx
  obtain ⟨e, he, r, hr, rfl, rfl⟩ := hx
  refine ⟨Samples.diagNum, camera 3, r.1, e, r.2.1, _, r.2.2, Samples.diagNum_inv, ⟨_, _, ops_wf, he⟩, hr, by decide, Or.inl h2,
    List.length_eq_zero_iff.1 h1, ?_, ?_, ?_, d, hd, hl, hl.not_posed⟩
  · intro t ht
    simp only [camera, List.mem_singleton] at ht
    subst ht
    exact ⟨⟨rfl, rfl⟩, by decide, by rw [h3]; decide, rfl⟩
  · decide
  · intro ev hev
    simp only [List.mem_cons, List.not_mem_nil, or_false] at hev
    rcases hev with rfl | rfl | rfl | rfl | rfl <;> exact image_wf _ _ _

/-- **Violated when tracks may be longer than the window**, as for the ROS node, which never tells the filter the trackers'
maximum: with four observations allowed and three poses kept, the fourth image delivers tracks whose first pose is gone. -/
theorem C67_length_violated : ∃ (N : Num ℚ) (c c' : Camera ℚ) (e e' : Ekf ℚ) (evs : List (Camera.Event ℚ)) (ds : List (Delivery ℚ)),
    N.toPrim.InvLaw ∧ e.Reachable N.toPrim ∧ c.run N e evs = .ok (c', e', ds) ∧ c.id ≠ 0 ∧ e.ClonesFrame c.id ∧ e.window c.id = [] ∧
    (∀ t ∈ c.trackers, t.2.tracker.Fresh ∧ 2 ≤ t.2.tracker.maxLen ∧ t.2.updater.id = c.id) ∧
    (Camera.frames evs).Pairwise (· < ·) ∧
    (∀ ev ∈ evs, match ev with
      | .image m => m.empty = false → m.Textured c
      | .other _ => False) ∧
    ∃ d ∈ ds, d.Lost ∧ ¬ d.Posed N := by
  have h : ∃ x, (do let e ← filter; let r ← (camera 4).run Samples.diagNum e [image 1 true, image 2 true, image 3 true, image 4 true]; pure (e, r)) = .ok x ∧
      ((x.1.window 1).length = 0 ∧ x.1.augType = .all ∧ ∃ d ∈ x.2.2.2, d.Lost) := by
    unfold Delivery.Lost
    refine Samples.ok_of_check (P := fun x : Ekf ℚ × Camera ℚ × Ekf ℚ × List (Delivery ℚ) =>
      (x.1.window 1).length = 0 ∧ x.1.augType = .all ∧ ∃ d ∈ x.2.2.2,
        ∃ o ∈ d.tracks, ∃ p ∈ o.2, ∀ a ∈ d.filter.window d.updater.id, a.frameId ≠ p.frameId) ?_
    decide +kernel
  obtain ⟨⟨e, r⟩, hx, h1, h2, d, hd, hl⟩ := h
  simp only [bind_ok_iff, pure_res, Except.ok.injEq, Prod.mk.injEq] at hx
  obtain ⟨e, he, r, hr, rfl, rfl⟩ := hx
  refine ⟨Samples.diagNum, camera 4, r.1, e, r.2.1, _, r.2.2, Samples.diagNum_inv, ⟨_, _, ops_wf, he⟩, hr, by decide, Or.inl h2,
    List.length_eq_zero_iff.1 h1, ?_, ?_, ?_, d, hd, hl, hl.not_posed⟩
  · intro t ht
    simp only [camera, List.mem_singleton] at ht
    subst ht
    exact ⟨⟨rfl, rfl⟩, by decide, rfl⟩
  · decide
  · intro ev hev
    simp only [List.mem_cons, List.not_mem_nil, or_false] at hev
    rcases hev with rfl | rfl | rfl | rfl <;>
      exact fun hm t ht => ⟨image_wf _ _ true hm t ht, by simp [TrackSample.keys]⟩

/-- The hypotheses of `C67_textured_partial` are met by four images with key points; ten tracks are handed over in the third. -/
example : ∃ x, (do let e ← filter; let r ← (camera 3).run Samples.diagNum e [image 1 true, image 2 true, .other (.predict 3), image 3 true, image 4 true]; pure (e, r)) = .ok x ∧
    ((x.1.window 1).length = 0 ∧ x.1.augType = .all ∧ x.1.maxTrackLength = 3 ∧
      x.2.2.2.map (fun d => d.tracks.map fun o => o.2.map FeaturePoint.frameId) = [List.replicate 10 [1, 2, 3]]) := by
  refine Samples.ok_of_check (P := fun x : Ekf ℚ × Camera ℚ × Ekf ℚ × List (Delivery ℚ) =>
    (x.1.window 1).length = 0 ∧ x.1.augType = .all ∧ x.1.maxTrackLength = 3 ∧
      x.2.2.2.map (fun d => d.tracks.map fun o => o.2.map FeaturePoint.frameId) = [List.replicate 10 [1, 2, 3]]) ?_
  decide +kernel

/-- The hypotheses of `C67_sim` are met by a simulated camera that loses sight of one feature and then of all. -/
example : ∃ x, (do
      let e ← filter
      let r ← (⟨1, ⟨1 / 100, 1 / 100, 0, 0, 0, 0, 1920, 1080, 5 / 10 ^ 6⟩, [(2, ⟨⟨1, 3, []⟩, { MsckfUpdater.new 1 false (10 ^ 9) with useTruth := false }, 1⟩)]⟩ : SimCamera ℚ).run
        Samples.diagNum e [.image ⟨1, 1, fun _ => [(7, 1, 1), (9, 2, 2)], fun _ => 0⟩, .image ⟨2, 2, fun _ => [(9, 3, 2)], fun _ => 0⟩,
          .image ⟨3, 3, fun _ => [], fun _ => 0⟩]
      pure (e, r)) = .ok x ∧
    ((x.1.window 1).length = 0 ∧ x.1.augType = .all ∧ x.1.maxTrackLength = 3 ∧
      x.2.2.2.map (fun d => d.tracks.map fun o => (o.1, o.2.map FeaturePoint.frameId)) = [[(7, [1])], [(9, [1, 2])]]) := by
  refine Samples.ok_of_check (P := fun x : Ekf ℚ × SimCamera ℚ × Ekf ℚ × List (Delivery ℚ) =>
    (x.1.window 1).length = 0 ∧ x.1.augType = .all ∧ x.1.maxTrackLength = 3 ∧
      x.2.2.2.map (fun d => d.tracks.map fun o => (o.1, o.2.map FeaturePoint.frameId)) = [[(7, [1])], [(9, [1, 2])]]) ?_
  decide +kernel

end EkfCal
