import Verif.Lemmas.TrackLoop

/-!
# Invariant of the feature tracker over a sequence of images
-/

namespace EkfCal.FeatureTracker

variable {K : Type} [Field K] [LinearOrder K]

/-- What holds between two images, `D` being the observations delivered so far. -/
structure TInv (D : List (FeaturePoint K)) (t : FeatureTracker K) : Prop where
  sorted : UMap.Sorted t.map
  keysLt : ∀ e ∈ t.map, e.1 < t.nextId
  prev : KeysInv t.prevKeys t.nextId
  prevNew : ∀ (i : Nat) (a : KeyPoint K), t.prevKeys[i]? = some a → a.classId = none →
    ∀ τ : K, ⟨t.prevFrameId, τ, a.x, a.y⟩ ∉ D ++ observations t.map
  tracks : ∀ e ∈ t.map, e.2 ≠ [] ∧ Increasing e.2 ∧ (∀ p ∈ e.2, p.frameId ≤ t.prevFrameId) ∧ e.2.length < t.maxLen
  nodup : (D ++ observations t.map).Nodup
  bound : ∀ p ∈ D ++ observations t.map, p.frameId ≤ t.prevFrameId

theorem keysInv_fresh {keys : List (KeyPoint K)} (n : Nat) (h : ∀ k ∈ keys, k.classId = none)
    (hp : keys.Pairwise fun a b => (a.x, a.y) ≠ (b.x, b.y)) : KeysInv keys n := by
  have hnone : ∀ (i : Nat) (k : KeyPoint K), keys[i]? = some k → k.classId = none :=
    fun i k hk => h k (List.mem_of_getElem? hk)
  constructor
  · intro i k id h1 h2; rw [hnone i k h1] at h2; cases h2
  · intro i j a b id h1 h2 h3; rw [hnone i a h1] at h3; cases h3
  · intro i j a b h1 h2 h3 h4
    rw [List.pairwise_iff_getElem] at hp
    rw [List.getElem?_eq_some_iff] at h1 h2
    obtain ⟨hi, rfl⟩ := h1
    obtain ⟨hj, rfl⟩ := h2
    rcases lt_trichotomy i j with hij | hij | hij
    · exact absurd (Prod.ext h3 h4) (hp i j hi hj hij)
    · exact hij
    · exact absurd (Prod.ext h3.symm h4.symm) (hp j i hj hi hij)

theorem tinv_fresh {t : FeatureTracker K} (h : t.Fresh) : TInv [] t := by
  obtain ⟨h1, h2⟩ := h
  constructor
  · rw [h2]; exact UMap.sorted_nil
  · rw [h2]; simp
  · rw [h1]; exact keysInv_fresh _ (by simp) List.Pairwise.nil
  · rw [h1]; simp
  · rw [h2]; simp
  · rw [h2]; simp [observations]
  · rw [h2]; simp [observations]

/-- The state the loop over the matches starts from. -/
theorem TInv.start {D : List (FeaturePoint K)} {t : FeatureTracker K} (h : TInv D t) {f : TrackFrame K} (hw : f.WF)
    (hF : t.prevFrameId < f.frameId) :
    LoopInv D t.prevFrameId t.prevTime f.frameId f.now t.maxLen
      ⟨t.prevKeys, f.keys, t.map, t.nextId + f.drawn⟩ [] [] := by
  obtain ⟨_, _, hn, hp⟩ := hw
  have hnone : ∀ (i : Nat) (k : KeyPoint K), f.keys[i]? = some k → k.classId = none :=
    fun i k hk => hn k (List.mem_of_getElem? hk)
  constructor
  · exact h.sorted
  · intro e he; exact lt_of_lt_of_le (h.keysLt e he) (Nat.le_add_right _ _)
  · exact h.prev.mono (Nat.le_add_right _ _)
  · exact keysInv_fresh _ hn hp
  · exact h.prevNew
  · intro j a ha _; exact hnone j a ha
  · rintro i a id _ _ _ ⟨j, b, h1, h2⟩
    rw [hnone j b h1] at h2; cases h2
  · intro e he
    obtain ⟨t1, t2, t3, t4⟩ := h.tracks e he
    exact ⟨t1, t2, fun p hp => (t3 p hp).trans hF.le, t4.le, fun _ => ⟨t4, fun p hp => lt_of_le_of_lt (t3 p hp) hF⟩⟩
  · exact h.nodup
  · intro p hp
    have := h.bound p hp
    exact ⟨this.trans hF.le, fun e => absurd e (by omega)⟩

/-- Good tracks: the length limits and increasing frame ids. -/
def Good (minLen maxLen : Nat) (pts : List (FeaturePoint K)) : Prop :=
  minLen ≤ pts.length ∧ pts.length ≤ maxLen ∧ Increasing pts

/-- One image. -/
theorem TInv.track {N : Prim K} {D : List (FeaturePoint K)} {t t' : FeatureTracker K} {f : TrackFrame K} {out}
    (hs : t.track N f = .ok (t', out)) (h : TInv D t) (hw : f.WF) (hmax : 2 ≤ t.maxLen)
    (hF : t.prevFrameId < f.frameId ∨ t.Fresh ∧ D = []) :
    TInv (D ++ observations out) t' ∧ t'.minLen = t.minLen ∧ t'.maxLen = t.maxLen ∧ t'.prevFrameId = f.frameId ∧
    (∀ e ∈ out, Good t.minLen t.maxLen e.2) ∧
    (t.prevKeys ≠ [] → f.keys ≠ [] → ∀ e ∈ t'.map, (∃ l, e.2.getLast? = some l ∧ l.frameId = f.frameId) ∧
      e.2.length < t.maxLen) := by
  unfold FeatureTracker.track at hs
  dsimp only at hs
  split_ifs at hs with hc
  · have hF : t.prevFrameId < f.frameId := by
      rcases hF with hF | ⟨⟨h1, _⟩, _⟩
      · exact hF
      · rw [h1] at hc; simp at hc
    rw [bind_ok_iff] at hs
    obtain ⟨ms, hms, hs⟩ := hs
    rw [bind_ok_iff] at hs
    obtain ⟨s, hloop, hs⟩ := hs
    rw [bind_ok_iff] at hs
    obtain ⟨⟨o, left⟩, hflush, hs⟩ := hs
    simp only [pure, Except.pure, Except.ok.injEq, Prod.mk.injEq] at hs
    obtain ⟨rfl, rfl⟩ := hs
    obtain ⟨hq, ht⟩ := filterMatches_nodup hms hw.1 hw.2.1
    obtain ⟨Q, T, g, _⟩ := (h.start hw hF).loop hloop hF hmax hq ht (by simp) (by simp)
    have hne : ∀ e ∈ s.map, e.2 ≠ [] := fun e he => (g.tracks e he).1
    have hobs := flush_observations hne hflush
    rw [flush_eq _ _ _ _ hne] at hflush
    simp only [Except.ok.injEq, Prod.mk.injEq] at hflush
    obtain ⟨ho, hl⟩ := hflush
    have hleft : ∀ e ∈ left, e ∈ s.map ∧ finished t.maxLen f.frameId e = false := by
      intro e he; rw [← hl] at he; simpa using he
    have hout : ∀ e ∈ o, e ∈ s.map ∧ t.minLen ≤ e.2.length := by
      intro e he; rw [← ho] at he
      simp only [List.mem_filter, Bool.and_eq_true, decide_eq_true_eq] at he
      exact ⟨he.1, he.2.2⟩
    have hsub : ∀ p, p ∈ (D ++ observations o) ++ observations left → p ∈ D ++ observations s.map := by
      intro p hp
      rw [List.append_assoc, List.mem_append] at hp
      rw [List.mem_append]
      rcases hp with hp | hp
      · exact Or.inl hp
      · obtain ⟨l, h1, h2⟩ := hobs
        exact Or.inr (h2.mem_iff.1 (h1.subset hp))
    have hlast : ∀ e ∈ left, (∃ l, e.2.getLast? = some l ∧ l.frameId = f.frameId) ∧ e.2.length < t.maxLen := by
      intro e he
      obtain ⟨h1, h2⟩ := hleft e he
      have htr := g.tracks e h1
      cases hg : e.2.getLast? with
      | none => exact absurd (List.getLast?_eq_none_iff.1 hg) htr.1
      | some l =>
        simp only [finished, hg, Bool.or_eq_false_iff, decide_eq_false_iff_not, not_lt, ge_iff_le, not_le] at h2
        refine ⟨⟨l, rfl, ?_⟩, h2.2⟩
        have := htr.2.2.1 l (List.mem_of_getLast? hg)
        omega
    refine ⟨⟨?_, ?_, ?_, ?_, ?_, ?_, ?_⟩, rfl, rfl, rfl, ?_, fun _ _ => hlast⟩
    · rw [← hl]; exact g.sorted.filter _
    · intro e he; exact g.keysLt e (hleft e he).1
    · exact g.curr
    · intro i a h1 h2 τ hm
      obtain ⟨j, b, id, h3, h4, h5⟩ := (g.fresh _ (hsub _ hm)).2 rfl
      simp only [FeaturePoint.mk.injEq, true_and] at h5
      have := g.curr.pos _ _ _ _ h1 h3 h5.2.1 h5.2.2
      subst this
      rw [h1] at h3; cases h3; rw [h2] at h4; cases h4
    · intro e he
      obtain ⟨t1, t2, t3, _, _⟩ := g.tracks e (hleft e he).1
      exact ⟨t1, t2, t3, (hlast e he).2⟩
    · obtain ⟨l, h1, h2⟩ := hobs
      rw [List.append_assoc]
      exact ((h2.append_left D).nodup_iff.2 g.nodup).sublist (h1.append_left D)
    · intro p hp; exact (g.fresh p (hsub p hp)).1
    · intro e he
      obtain ⟨h1, h2⟩ := hout e he
      obtain ⟨_, t2, _, t4, _⟩ := g.tracks e h1
      exact ⟨h2, t4, t2⟩
  · simp only [pure, Except.pure, Except.ok.injEq, Prod.mk.injEq] at hs
    obtain ⟨rfl, rfl⟩ := hs
    have hb : ∀ p ∈ D ++ observations t.map, p.frameId < f.frameId := by
      intro p hp
      rcases hF with hF | ⟨⟨_, h2⟩, hD⟩
      · exact lt_of_le_of_lt (h.bound p hp) hF
      · rw [hD, h2] at hp; simp [observations] at hp
    have he : D ++ observations ([] : List (Nat × List (FeaturePoint K))) = D := by simp [observations]
    rw [he]
    refine ⟨⟨h.sorted, ?_, keysInv_fresh _ hw.2.2.1 hw.2.2.2, ?_, ?_, h.nodup, ?_⟩, rfl, rfl, rfl, by simp, ?_⟩
    · intro e he; exact lt_of_lt_of_le (h.keysLt e he) (Nat.le_add_right _ _)
    · intro i a _ _ τ hm
      exact absurd (hb _ hm) (lt_irrefl _)
    · intro e he
      obtain ⟨t1, t2, t3, t4⟩ := h.tracks e he
      exact ⟨t1, t2, fun p hp => (hb p (List.mem_append_right _ (mem_observations.2 ⟨e, he, hp⟩))).le, t4⟩
    · intro p hp; exact (hb p hp).le
    · intro h1 h2
      exact absurd ⟨List.length_pos_of_ne_nil h1, List.length_pos_of_ne_nil h2⟩ hc

/-- The time noted for the previous image plays no part. -/
theorem TInv.retime {D : List (FeaturePoint K)} {t : FeatureTracker K} (h : TInv D t) (τ : K) :
    TInv D { t with prevTime := τ } :=
  ⟨h.sorted, h.keysLt, h.prev, h.prevNew, h.tracks, h.nodup, h.bound⟩

/-- A sequence of images. -/
theorem TInv.run {N : Prim K} {D : List (FeaturePoint K)} {t t' : FeatureTracker K} {fs : List (TrackFrame K)} {out}
    (hs : t.runTrack N fs = .ok (t', out)) (h : TInv D t) (hw : ∀ f ∈ fs, f.WF) (hmax : 2 ≤ t.maxLen)
    (hfs : (fs.map TrackFrame.frameId).Pairwise (· < ·))
    (hF : (∀ f ∈ fs, t.prevFrameId < f.frameId) ∨ t.Fresh ∧ D = []) :
    TInv (D ++ observations out) t' ∧ t'.minLen = t.minLen ∧ t'.maxLen = t.maxLen ∧
    (∀ e ∈ out, Good t.minLen t.maxLen e.2) := by
  induction fs generalizing t D out with
  | nil =>
    cases hs
    exact ⟨by simpa [observations] using h, rfl, rfl, by simp⟩
  | cons f fs ih =>
    simp only [runTrack] at hs
    rw [bind_ok_iff] at hs
    obtain ⟨⟨t1, o1⟩, h1, hs⟩ := hs
    rw [bind_ok_iff] at hs
    obtain ⟨⟨t2, o2⟩, h2, hs⟩ := hs
    simp only [pure, Except.pure, Except.ok.injEq, Prod.mk.injEq] at hs
    obtain ⟨rfl, rfl⟩ := hs
    rw [List.map_cons, List.pairwise_cons] at hfs
    obtain ⟨g, e1, e2, e3, g4, _⟩ := h.track h1 (hw f List.mem_cons_self) hmax
      (hF.imp (fun hF => hF f List.mem_cons_self) id)
    obtain ⟨g', e1', e2', g4'⟩ := ih h2 g (fun f' hf' => hw f' (List.mem_cons_of_mem _ hf')) (by rw [e2]; exact hmax)
      hfs.2 (Or.inl fun f' hf' => by rw [e3]; exact hfs.1 _ (List.mem_map_of_mem hf'))
    refine ⟨by rw [observations_append, ← List.append_assoc]; exact g', e1'.trans e1, e2'.trans e2, ?_⟩
    intro e he
    rcases List.mem_append.1 he with he | he
    · exact g4 e he
    · have := g4' e he
      rw [e1, e2] at this
      exact this

theorem runTrack_snoc {N : Prim K} {t t' : FeatureTracker K} {fs : List (TrackFrame K)} {f : TrackFrame K} {out}
    (h : t.runTrack N (fs ++ [f]) = .ok (t', out)) :
    ∃ t1 o1 o2, t.runTrack N fs = .ok (t1, o1) ∧ t1.track N f = .ok (t', o2) ∧ out = o1 ++ o2 := by
  induction fs generalizing t out with
  | nil =>
    simp only [List.nil_append, runTrack] at h
    rw [bind_ok_iff] at h
    obtain ⟨⟨t1, o1⟩, h1, h⟩ := h
    cases h
    exact ⟨t, [], o1, rfl, h1, by simp⟩
  | cons g fs ih =>
    simp only [List.cons_append, runTrack] at h
    rw [bind_ok_iff] at h
    obtain ⟨⟨t1, o1⟩, h1, h⟩ := h
    rw [bind_ok_iff] at h
    obtain ⟨⟨t2, o2⟩, h2, h⟩ := h
    cases h
    obtain ⟨t3, o3, o4, a, b, rfl⟩ := ih h2
    refine ⟨t3, o1 ++ o3, o4, ?_, b, by simp⟩
    simp only [runTrack, h1, a, bind, Except.bind, pure, Except.pure]

end EkfCal.FeatureTracker
