import Verif.Lemmas.SimTracks
import Verif.Lemmas.RealPrim
import Verif.Spec.Samples

/-!
# C31: each feature track is delivered once and within length limits
-/

namespace EkfCal

variable {K : Type} [Field K] [LinearOrder K]

/-- **No observation is delivered twice**: over any sequence of images the observations in all delivered tracks together
with those still in the map are pairwise distinct.  So no observation is in two delivered tracks, nor twice in one. -/
theorem C31_once (N : Prim K) (t t' : FeatureTracker K) (fs : List (TrackFrame K)) (out)
    (hs : t.runTrack N fs = .ok (t', out)) (ht : t.Fresh) (hmax : 2 ≤ t.maxLen) (hw : ∀ f ∈ fs, f.WF)
    (hid : (fs.map TrackFrame.frameId).Pairwise (· < ·)) :
    (observations out ++ observations t'.map).Nodup := by
  have := (FeatureTracker.tinv_fresh ht).run hs hw hmax hid (Or.inr ⟨ht, rfl⟩)
  simpa using this.1.nodup

/-- **Delivered tracks respect the limits and their frame ids increase.** -/
theorem C31_delivered (N : Prim K) (t t' : FeatureTracker K) (fs : List (TrackFrame K)) (out)
    (hs : t.runTrack N fs = .ok (t', out)) (ht : t.Fresh) (hmax : 2 ≤ t.maxLen) (hw : ∀ f ∈ fs, f.WF)
    (hid : (fs.map TrackFrame.frameId).Pairwise (· < ·)) :
    ∀ e ∈ out, t.minLen ≤ e.2.length ∧ e.2.length ≤ t.maxLen ∧ Increasing e.2 :=
  ((FeatureTracker.tinv_fresh ht).run hs hw hmax hid (Or.inr ⟨ht, rfl⟩)).2.2.2

/-- **After an image with key points, following one with key points, the map holds only unfinished tracks seen in it.** -/
theorem C31_map_partial (N : Prim K) (t t₁ t' : FeatureTracker K) (fs : List (TrackFrame K)) (f : TrackFrame K) (o₁ o₂)
    (h₁ : t.runTrack N fs = .ok (t₁, o₁)) (h₂ : t₁.track N f = .ok (t', o₂)) (ht : t.Fresh) (hmax : 2 ≤ t.maxLen)
    (hw : ∀ g ∈ fs ++ [f], g.WF) (hid : ((fs ++ [f]).map TrackFrame.frameId).Pairwise (· < ·))
    (hprev : t₁.prevKeys ≠ []) (hcurr : f.keys ≠ []) :
    ∀ e ∈ t'.map, (∃ l, e.2.getLast? = some l ∧ l.frameId = f.frameId) ∧ e.2.length < t.maxLen := by
  rw [List.map_append, List.pairwise_append] at hid
  have g := (FeatureTracker.tinv_fresh ht).run h₁ (fun g hg => hw g (by simp [hg])) hmax hid.1 (Or.inr ⟨ht, rfl⟩)
  obtain ⟨g1, e1, e2, _⟩ := g
  have hF : t₁.prevFrameId < f.frameId := by
    rcases List.eq_nil_or_concat fs with rfl | ⟨fs', a, rfl⟩
    · cases h₁; exact absurd ht.1 hprev
    · have hlast : t₁.prevFrameId = a.frameId := by
        rw [List.concat_eq_append] at h₁
        obtain ⟨t2, o3, o4, _, hb, _⟩ := FeatureTracker.runTrack_snoc h₁
        unfold FeatureTracker.track at hb
        dsimp only at hb
        split_ifs at hb
        · rw [bind_ok_iff] at hb
          obtain ⟨_, _, hb⟩ := hb
          rw [bind_ok_iff] at hb
          obtain ⟨_, _, hb⟩ := hb
          rw [bind_ok_iff] at hb
          obtain ⟨_, _, hb⟩ := hb
          cases hb; rfl
        · cases hb; rfl
      rw [hlast]
      exact hid.2.2 _ (by simp) _ (by simp)
  have := (g1.track h₂ (hw f (by simp)) (by rw [e2]; exact hmax) (Or.inl hF)).2.2.2.2.2 hprev hcurr
  rw [e2] at this
  exact this

/-! ## An image without key points leaves stale tracks behind -/

namespace TrackSample

/-- Ten key points in a row, moved `d` pixels to the right. -/
def keys (d : ℚ) : List (KeyPoint ℚ) := (List.range 10).map fun (i : Nat) => ⟨20 * (i : ℚ) + d, 5, none⟩

/-- Nearest neighbours that match each key point with itself. -/
def knn : List (List (DMatch ℚ)) := (List.range 10).map fun i => [⟨i, i, 1⟩, ⟨i, (i + 1) % 10, 10⟩]

def frame (id : Nat) (d : ℚ) : TrackFrame ℚ := ⟨id, id, keys d, knn, knn, List.replicate 10 1, 0⟩
def empty (id : Nat) : TrackFrame ℚ := ⟨id, id, [], [], [], [], 0⟩

def tracker (minLen maxLen : Nat) : FeatureTracker ℚ := ⟨minLen, maxLen, 7/10, 0, 0, [], [], 0⟩

theorem frame_wf (id : Nat) (d : ℚ) : (frame id d).WF := by
  have hk : KnnLists knn := by
    intro i m hm
    have hi : i < 10 := by
      have := (List.getElem?_eq_some_iff.1 hm).1
      simpa [knn] using this
    simp only [knn, List.getElem?_map, List.getElem?_range hi, Option.map_some, Option.some.injEq] at hm
    subst hm
    simp
  refine ⟨hk, hk, by simp [frame, keys], ?_⟩
  simp only [frame, keys, List.pairwise_map]
  refine List.Pairwise.imp ?_ (List.nodup_range (n := 10))
  intro a b hab e
  simp only [Prod.mk.injEq, and_true, add_left_inj, mul_eq_mul_left_iff, Nat.cast_inj] at e
  rcases e with e | e
  · exact hab e
  · norm_num at e

theorem empty_wf (id : Nat) : (empty id).WF :=
  ⟨by intro i m h; simp [empty] at h, by intro i m h; simp [empty] at h, by simp [empty], List.Pairwise.nil⟩

end TrackSample

open TrackSample

/-- **An image without key points does not end tracks**: two images establish ten tracks; the third has no key points, yet
all ten stay in the map. -/
theorem C31_map_violated : ¬ ∀ (N : Prim ℚ) (t t' : FeatureTracker ℚ) (fs : List (TrackFrame ℚ)) (f : TrackFrame ℚ) (out),
    t.runTrack N (fs ++ [f]) = .ok (t', out) → t.Fresh → 2 ≤ t.minLen → 2 ≤ t.maxLen → (∀ g ∈ fs ++ [f], g.WF) →
    ((fs ++ [f]).map TrackFrame.frameId).Pairwise (· < ·) →
    ∀ e ∈ t'.map, ∃ l, e.2.getLast? = some l ∧ l.frameId = f.frameId := by
  intro h
  have hrun : ∃ r, (tracker 2 20).runTrack Samples.prim ([frame 1 0, frame 2 1] ++ [empty 3]) = .ok r ∧
      (∃ e ∈ r.1.map, e.2.getLast?.map FeaturePoint.frameId = some 2) := by
    refine Samples.ok_of_check (P := fun r : FeatureTracker ℚ × List (Nat × List (FeaturePoint ℚ)) => ∃ e ∈ r.1.map, e.2.getLast?.map FeaturePoint.frameId = some 2) ?_
    decide +kernel
  obtain ⟨⟨t', out⟩, h1, e, he, h2⟩ := hrun
  obtain ⟨l, h3, h4⟩ := h Samples.prim _ t' _ (empty 3) out h1 ⟨rfl, rfl⟩ (by decide) (by decide) (by
    intro g hg
    simp only [List.cons_append, List.nil_append, List.mem_cons, List.not_mem_nil, or_false] at hg
    rcases hg with rfl | rfl | rfl
    · exact frame_wf _ _
    · exact frame_wf _ _
    · exact empty_wf _) (by decide) e he
  rw [h3] at h2
  simp only [Option.map_some, Option.some.injEq] at h2
  rw [h2] at h4
  exact absurd h4 (by decide)

/-- **A maximum below two is exceeded**: a track starts with two observations, so with a maximum of one the delivered
tracks have two. -/
theorem C31_max_violated : ¬ ∀ (N : Prim ℚ) (t t' : FeatureTracker ℚ) (fs : List (TrackFrame ℚ)) (out),
    t.runTrack N fs = .ok (t', out) → t.Fresh → 1 ≤ t.maxLen → (∀ g ∈ fs, g.WF) →
    (fs.map TrackFrame.frameId).Pairwise (· < ·) → ∀ e ∈ out, e.2.length ≤ t.maxLen := by
  intro h
  have hrun : ∃ r, (tracker 1 1).runTrack Samples.prim [frame 1 0, frame 2 1] = .ok r ∧ (∃ e ∈ r.2, e.2.length = 2) := by
    refine Samples.ok_of_check (P := fun r : FeatureTracker ℚ × List (Nat × List (FeaturePoint ℚ)) => ∃ e ∈ r.2, e.2.length = 2) ?_
    decide +kernel
  obtain ⟨⟨t', out⟩, h1, e, he, h2⟩ := hrun
  have := h Samples.prim _ t' _ out h1 ⟨rfl, rfl⟩ (by decide) (by
    intro g hg
    simp only [List.mem_cons, List.not_mem_nil, or_false] at hg
    rcases hg with rfl | rfl <;> exact frame_wf _ _) (by decide) e he
  rw [h2] at this
  exact absurd this (by decide)

/-- A sequence of images that meets all hypotheses and delivers tracks at the maximum length of three, after which the
features go on in new tracks. -/
example : ∃ r, (tracker 2 3).runTrack Samples.prim [frame 1 0, frame 2 1, frame 3 2, frame 4 3] = .ok r ∧
    (r.2.length = 10 ∧ (∀ e ∈ r.2, e.2.length = 3) ∧ r.1.map.length = 10 ∧ ∀ e ∈ r.1.map, e.2.length = 1) := by
  refine Samples.ok_of_check (P := fun r : FeatureTracker ℚ × List (Nat × List (FeaturePoint ℚ)) => r.2.length = 10 ∧ (∀ e ∈ r.2, e.2.length = 3) ∧ r.1.map.length = 10 ∧
    ∀ e ∈ r.1.map, e.2.length = 1) ?_
  decide +kernel

/-! ## The simulated tracker -/

/-- **The simulated tracker delivers every observation at most once, within the limits, and its map holds only features
seen in the latest image**, for any sequence of images with increasing ids in which each feature is seen at most once. -/
theorem C31_sim (t t' : SimTracker K) (fs : List (Nat × K × List (Nat × K × K))) (out) (hs : t.run fs = .ok (t', out))
    (ht : t.map = []) (hmax : 1 ≤ t.maxLen) (hk : ∀ f ∈ fs, (f.2.2.map Prod.fst).Nodup)
    (hid : (fs.map Prod.fst).Pairwise (· < ·)) :
    (labelled out ++ labelled t'.map).Nodup ∧
    (∀ e ∈ out, t.minLen ≤ e.2.length ∧ e.2.length ≤ t.maxLen ∧ Increasing e.2) ∧
    ∀ f, fs.getLast? = some f → ∀ e ∈ t'.map, (∃ l, e.2.getLast? = some l ∧ l.frameId = f.1) ∧
      e.2.length < t.maxLen ∧ e.1 ∈ f.2.2.map Prod.fst := by
  have h0 : SimTracker.SInv [] 0 t := by
    refine ⟨?_, ?_, ?_, ?_⟩
    · rw [ht]; exact UMap.sorted_nil
    · rw [ht]; simp
    · rw [ht]; simp [labelled]
    · rw [ht]; simp [labelled]
  obtain ⟨B, g, _, _, g4, g5⟩ := h0.run hs hmax hk hid (Or.inr ⟨ht, rfl⟩)
  exact ⟨by simpa using g.nodup, g4, g5⟩

/-- Two features, one of which disappears: its track is delivered in the third image. -/
example : ∃ r, (⟨2, 20, []⟩ : SimTracker ℚ).run [(1, 1, [(7, 1, 1), (9, 2, 2)]), (2, 2, [(7, 1, 2), (9, 3, 2)]), (3, 3, [(9, 3, 3)])]
    = .ok r ∧ (r.2.map Prod.fst = [7] ∧ r.1.map.map Prod.fst = [9]) := by
  refine Samples.ok_of_check (P := fun r : SimTracker ℚ × List (Nat × List (FeaturePoint ℚ)) => r.2.map Prod.fst = [7] ∧ r.1.map.map Prod.fst = [9]) ?_
  decide +kernel

end EkfCal
