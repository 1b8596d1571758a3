import Verif.Lemmas.SimTracks
import Verif.Lemmas.UpdaterOps
import Verif.Spec.CameraFrame
import Verif.Props.C14
import Verif.Props.C16
import Verif.Props.C33

/-!
# Which images the clones and the tracks of a camera belong to
-/

set_option linter.unusedSectionVars false

namespace EkfCal
open Ekf
variable {K : Type} [Field K] [LinearOrder K]

/-- The frame ids of a track. -/
def frameIds (pts : List (FeaturePoint K)) : List Nat := pts.map FeaturePoint.frameId

theorem suffix_snoc {α : Type} {l S : List α} (h : l <:+ S) (a : α) : l ++ [a] <:+ S ++ [a] := by
  obtain ⟨b, rfl⟩ := h
  exact ⟨b, by simp⟩

/-- The tracks handed over in the image `F` after the images `S` reach back at most `L` images. -/
def Recent (S : List Nat) (F L : Nat) (out : List (Nat × List (FeaturePoint K))) : Prop :=
  ∀ o ∈ out, ∃ l, l <:+ S ++ [F] ∧ l.length ≤ L ∧ ∀ p ∈ o.2, p.frameId ∈ l

theorem last_mem {pts : List (FeaturePoint K)} {S : List Nat} {l : FeaturePoint K} (h : frameIds pts <:+ S)
    (hl : pts.getLast? = some l) : l.frameId ∈ S :=
  h.subset (List.mem_map_of_mem (List.mem_of_getLast? hl))

/-- A track is either one that ended with the previous image, or one that reaches up to this one. -/
def Track2 (S : List Nat) (F L : Nat) (e : Nat × List (FeaturePoint K)) : Prop :=
  (frameIds e.2 <:+ S ∧ e.2.length < L) ∨ (frameIds e.2 <:+ S ++ [F] ∧ e.2.length ≤ L)

theorem Track2.recent {S : List Nat} {F L : Nat} {e : Nat × List (FeaturePoint K)} (h : Track2 S F L e) :
    ∃ l, l <:+ S ++ [F] ∧ l.length ≤ L ∧ ∀ p ∈ e.2, p.frameId ∈ l := by
  rcases h with ⟨h1, h2⟩ | ⟨h1, h2⟩
  · exact ⟨frameIds e.2 ++ [F], suffix_snoc h1 F, by simp [frameIds]; omega,
      fun p hp => List.mem_append_left _ (List.mem_map_of_mem hp)⟩
  · exact ⟨frameIds e.2, h1, by simpa [frameIds] using h2, fun p hp => List.mem_map_of_mem hp⟩

/-- What the flush leaves and hands over. -/
theorem flush_frames {minLen L F : Nat} {m : TrackMap K} {S : List Nat} {out left} (hne : ∀ e ∈ m, e.2 ≠ [])
    (hm : ∀ e ∈ m, Track2 S F L e) (hS : ∀ s ∈ S, s < F) (hf : flushTracks minLen L F m = .ok (out, left)) :
    Recent S F L out ∧ ∀ e ∈ left, frameIds e.2 <:+ S ++ [F] ∧ e.2.length < L := by
  rw [flush_eq _ _ _ _ hne] at hf
  simp only [Except.ok.injEq, Prod.mk.injEq] at hf
  obtain ⟨rfl, rfl⟩ := hf
  constructor
  · intro o ho
    exact (hm o (List.mem_of_mem_filter ho)).recent
  · intro e he
    rw [List.mem_filter] at he
    obtain ⟨he, hfin⟩ := he
    cases hg : e.2.getLast? with
    | none => exact absurd (List.getLast?_eq_none_iff.1 hg) (hne e he)
    | some l =>
      simp only [finished, hg, Bool.not_eq_true', Bool.or_eq_false_iff, decide_eq_false_iff_not, not_lt, ge_iff_le,
        not_le] at hfin
      rcases hm e he with ⟨h1, _⟩ | ⟨h1, _⟩
      · have := hS _ (last_mem h1 hg)
        omega
      · exact ⟨h1, hfin.2⟩

/-! ## The feature tracker -/

namespace FeatureTracker

theorem push_track2 {S : List Nat} {F L : Nat} {m : TrackMap K} (hs : UMap.Sorted m) (hm : ∀ e ∈ m, Track2 S F L e)
    {id : Nat} {p : FeaturePoint K} (hp : Track2 S F L (id, UMap.getD m id [] ++ [p])) :
    ∀ e ∈ m.push id p, Track2 S F L e := by
  intro e he
  rcases (TrackMap.mem_push hs).1 he with ⟨_, he⟩ | rfl
  · exact hm e he
  · exact hp

/-- One pass of the loop over the matches. -/
theorem track2_step {D : List (FeaturePoint K)} {pf : Nat} {pt : K} {F : Nat} {now : K} {L : Nat} {s s' : Matching K}
    {Q T : List Nat} {m : DMatch K} {S : List Nat} (hs : matchStep pf pt F now s m = .ok s')
    (h : LoopInv D pf pt F now L s Q T) (hF : pf < F) (hmax : 2 ≤ L) (hq : m.query ∉ Q) (hS : [pf] <:+ S)
    (hc : ∀ e ∈ s.map, Track2 S F L e) : ∀ e ∈ s'.map, Track2 S F L e := by
  -- observing the feature `id` in the current image
  have obs : ∀ {s : Matching K} (h : LoopInv D pf pt F now L s Q T) (hc : ∀ e ∈ s.map, Track2 S F L e) {id : Nat}
      {p : KeyPoint K} (_ : s.prev[m.query]? = some p) (_ : p.classId = some id) (x y : K),
      ∀ e ∈ s.map.push id ⟨F, now, x, y⟩, Track2 S F L e := by
    intro s h hc id p hp hid x y
    refine push_track2 h.sorted hc (Or.inr ?_)
    have hun := h.link _ p id hp hid hq
    rcases getD_mem h.sorted id with h0 | h0
    · rw [h0]
      exact ⟨⟨S, rfl⟩, by simp; omega⟩
    · obtain ⟨t1, _, _, _, t5⟩ := h.tracks _ h0
      obtain ⟨t6, t7⟩ := t5 hun
      have hsuf : frameIds (UMap.getD s.map id []) <:+ S := by
        rcases hc _ h0 with ⟨h1, _⟩ | ⟨h1, _⟩
        · exact h1
        · dsimp only at h1 t1 t7
          cases hg : (UMap.getD s.map id []).getLast? with
          | none => exact absurd (List.getLast?_eq_none_iff.1 hg) t1
          | some l =>
            have e1 : (frameIds (UMap.getD s.map id [])).getLast? = some l.frameId := by
              unfold frameIds; rw [List.getLast?_map, hg]; rfl
            obtain ⟨b, hb⟩ := h1
            have e2 := congrArg List.getLast? hb
            rw [List.getLast?_append, e1, List.getLast?_append] at e2
            simp only [List.getLast?_singleton, Option.some_or, Option.some.injEq] at e2
            have := t7 l (List.mem_of_getLast? hg)
            omega
      refine ⟨?_, ?_⟩
      · show frameIds (_ ++ [_]) <:+ _
        unfold frameIds
        rw [List.map_append]
        exact suffix_snoc hsuf F
      · simp only [List.length_append, List.length_cons, List.length_nil]
        exact t6
  unfold matchStep at hs
  rw [bind_ok_iff] at hs
  obtain ⟨p, hp, hs⟩ := hs
  rw [keyAt_ok_iff] at hp
  cases hcl : p.classId with
  | some id =>
    simp only [hcl] at hs
    rw [bind_ok_iff] at hs
    obtain ⟨c, _, hs⟩ := hs
    cases hs
    exact obs h hc hp hcl c.x c.y
  | none =>
    simp only [hcl] at hs
    rw [bind_ok_iff] at hs
    obtain ⟨c, _, hs⟩ := hs
    cases hs
    have hset : (s.prev.set m.query { p with classId := some s.nextId })[m.query]? =
        some { p with classId := some s.nextId } := by
      rw [List.getElem?_set]
      have : m.query < s.prev.length := by
        rw [List.getElem?_eq_some_iff] at hp; exact hp.1
      simp [this]
    have hget : UMap.getD s.map s.nextId [] = [] := by
      rcases getD_mem h.sorted s.nextId with h1 | h1
      · exact h1
      · exact absurd (h.keysLt _ h1) (lt_irrefl _)
    refine obs (h.assign hF hmax hp hcl) ?_ hset rfl c.x c.y
    refine push_track2 h.sorted hc (Or.inl ?_)
    rw [hget]
    exact ⟨hS, by simp; omega⟩

theorem track2_loop {D : List (FeaturePoint K)} {pf : Nat} {pt : K} {F : Nat} {now : K} {L : Nat} {s s' : Matching K}
    {Q T : List Nat} {ms : List (DMatch K)} {S : List Nat} (hs : ms.foldlM (matchStep pf pt F now) s = .ok s')
    (h : LoopInv D pf pt F now L s Q T) (hF : pf < F) (hmax : 2 ≤ L)
    (hq : (ms.map DMatch.query).Nodup) (ht : (ms.map DMatch.train).Nodup)
    (hq' : ∀ m ∈ ms, m.query ∉ Q) (ht' : ∀ m ∈ ms, m.train ∉ T) (hS : [pf] <:+ S)
    (hc : ∀ e ∈ s.map, Track2 S F L e) : ∀ e ∈ s'.map, Track2 S F L e := by
  induction ms generalizing s Q T with
  | nil => cases hs; exact hc
  | cons m ms ih =>
    rw [List.foldlM_cons, bind_ok_iff] at hs
    obtain ⟨s1, h1, hs⟩ := hs
    rw [List.map_cons, List.nodup_cons] at hq ht
    have g := (h.step h1 hF hmax (hq' m List.mem_cons_self) (ht' m List.mem_cons_self)).1
    refine ih hs g hq.2 ht.2 ?_ ?_ (track2_step h1 h hF hmax (hq' m List.mem_cons_self) hS hc)
    · intro m' hm'
      rw [List.mem_cons, not_or]
      exact ⟨fun e => hq.1 (e ▸ List.mem_map_of_mem hm'), hq' m' (List.mem_cons_of_mem _ hm')⟩
    · intro m' hm'
      rw [List.mem_cons, not_or]
      exact ⟨fun e => ht.1 (e ▸ List.mem_map_of_mem hm'), ht' m' (List.mem_cons_of_mem _ hm')⟩

/-- What holds between two images when every image so far had key points; `S` are their frame ids. -/
structure FInv (D : List (FeaturePoint K)) (S : List Nat) (t : FeatureTracker K) : Prop where
  inv : TInv D t
  tracks : ∀ e ∈ t.map, frameIds e.2 <:+ S
  prev : (S = [] ∧ t.Fresh ∧ D = []) ∨ ([t.prevFrameId] <:+ S ∧ t.prevKeys ≠ [])

theorem finv_fresh {t : FeatureTracker K} (h : t.Fresh) : FInv [] [] t :=
  ⟨tinv_fresh h, by rw [h.2]; simp, Or.inl ⟨rfl, h, rfl⟩⟩

theorem FInv.retime {D : List (FeaturePoint K)} {S : List Nat} {t : FeatureTracker K} (h : FInv D S t) (τ : K) :
    FInv D S { t with prevTime := τ } :=
  ⟨h.inv.retime τ, h.tracks, h.prev⟩

/-- Matching keeps the number of key points. -/
theorem matchStep_curr {pf : Nat} {pt : K} {F : Nat} {now : K} {s s' : Matching K} {m : DMatch K}
    (hs : matchStep pf pt F now s m = .ok s') : s'.curr.length = s.curr.length := by
  unfold matchStep at hs
  rw [bind_ok_iff] at hs
  obtain ⟨p, _, hs⟩ := hs
  cases hcl : p.classId with
  | some id =>
    simp only [hcl] at hs
    rw [bind_ok_iff] at hs
    obtain ⟨c, _, hs⟩ := hs
    cases hs
    simp
  | none =>
    simp only [hcl] at hs
    rw [bind_ok_iff] at hs
    obtain ⟨c, _, hs⟩ := hs
    cases hs
    simp

theorem matchLoop_curr {pf : Nat} {pt : K} {F : Nat} {now : K} {ms : List (DMatch K)} {s s' : Matching K}
    (hs : ms.foldlM (matchStep pf pt F now) s = .ok s') : s'.curr.length = s.curr.length := by
  induction ms generalizing s with
  | nil => cases hs; rfl
  | cons m ms ih =>
    rw [List.foldlM_cons, bind_ok_iff] at hs
    obtain ⟨s1, h1, hs⟩ := hs
    rw [ih hs, matchStep_curr h1]

/-- One image with key points. -/
theorem FInv.track {N : Prim K} {D : List (FeaturePoint K)} {S : List Nat} {t t' : FeatureTracker K} {f : TrackFrame K} {out}
    (hs : t.track N f = .ok (t', out)) (h : FInv D S t) (hw : f.WF) (hk : f.keys ≠ []) (hmax : 2 ≤ t.maxLen)
    (hS : ∀ s ∈ S, s < f.frameId) :
    FInv (D ++ observations out) (S ++ [f.frameId]) t' ∧ t'.maxLen = t.maxLen ∧ Recent S f.frameId t.maxLen out := by
  have hF : t.prevFrameId < f.frameId ∨ t.Fresh ∧ D = [] := by
    rcases h.prev with ⟨_, h1, h2⟩ | ⟨h1, _⟩
    · exact Or.inr ⟨h1, h2⟩
    · exact Or.inl (hS _ (h1.subset (by simp)))
  obtain ⟨g1, _, g3, g4, _, _⟩ := h.inv.track hs hw hmax hF
  have hpre : [t'.prevFrameId] <:+ S ++ [f.frameId] := by rw [g4]; exact ⟨S, rfl⟩
  unfold FeatureTracker.track at hs
  dsimp only at hs
  split_ifs at hs with hc
  · obtain ⟨hpf, hne⟩ : [t.prevFrameId] <:+ S ∧ t.prevKeys ≠ [] := by
      rcases h.prev with ⟨_, h1, _⟩ | h1
      · rw [h1.1] at hc; simp at hc
      · exact h1
    have hF : t.prevFrameId < f.frameId := hS _ (hpf.subset (by simp))
    rw [bind_ok_iff] at hs
    obtain ⟨ms, hms, hs⟩ := hs
    rw [bind_ok_iff] at hs
    obtain ⟨s, hloop, hs⟩ := hs
    rw [bind_ok_iff] at hs
    obtain ⟨⟨o, left⟩, hflush, hs⟩ := hs
    simp only [pure, Except.pure, Except.ok.injEq, Prod.mk.injEq] at hs
    obtain ⟨rfl, rfl⟩ := hs
    obtain ⟨hq, ht⟩ := filterMatches_nodup hms hw.1 hw.2.1
    have hstart := h.inv.start hw hF
    have h2 := track2_loop (S := S) hloop hstart hF hmax hq ht (by simp) (by simp) hpf
      (fun e he => Or.inl ⟨h.tracks e he, (h.inv.tracks e he).2.2.2⟩)
    obtain ⟨Q, T, g, _⟩ := hstart.loop hloop hF hmax hq ht (by simp) (by simp)
    obtain ⟨k1, k2⟩ := flush_frames (fun e he => (g.tracks e he).1) h2 hS hflush
    refine ⟨⟨g1, fun e he => (k2 e he).1, Or.inr ⟨hpre, ?_⟩⟩, rfl, k1⟩
    have := matchLoop_curr hloop
    intro h0
    dsimp only at h0 this
    rw [h0] at this
    exact hk (List.length_eq_zero_iff.1 this.symm)
  · simp only [pure, Except.pure, Except.ok.injEq, Prod.mk.injEq] at hs
    obtain ⟨rfl, rfl⟩ := hs
    refine ⟨⟨g1, ?_, Or.inr ⟨hpre, hk⟩⟩, rfl, by intro o ho; cases ho⟩
    have hp : t.prevKeys = [] := by
      by_contra h0
      exact hc ⟨List.length_pos_of_ne_nil h0, List.length_pos_of_ne_nil hk⟩
    rcases h.prev with ⟨_, h1, _⟩ | ⟨_, h1⟩
    · show ∀ e ∈ t.map, _
      rw [h1.2]; simp
    · exact absurd hp h1

end FeatureTracker

/-! ## The simulated tracker -/

namespace SimTracker

/-- What holds between two key points of one image; `I` are the features seen in it so far. -/
def Loop2 (S : List Nat) (F L : Nat) (m : TrackMap K) (I : List Nat) : Prop :=
  UMap.Sorted m ∧ ∀ e ∈ m, e.2 ≠ [] ∧ (e.1 ∉ I → frameIds e.2 <:+ S ∧ e.2.length < L) ∧
    (e.1 ∈ I → frameIds e.2 <:+ S ++ [F] ∧ e.2.length ≤ L)

theorem Loop2.push {S : List Nat} {F L : Nat} {m : TrackMap K} {I : List Nat} (h : Loop2 S F L m I) (hL : 1 ≤ L) (id : Nat)
    (time x y : K) (hid : id ∉ I) : Loop2 S F L (m.push id ⟨F, time, x, y⟩) (id :: I) := by
  refine ⟨TrackMap.push_sorted h.1 _ _, ?_⟩
  intro e he
  rcases (TrackMap.mem_push h.1).1 he with ⟨hne, he⟩ | rfl
  · obtain ⟨t1, t2, t3⟩ := h.2 e he
    refine ⟨t1, fun hn => t2 fun h' => hn (List.mem_cons_of_mem _ h'), fun hm => ?_⟩
    rcases List.mem_cons.1 hm with h' | h'
    · exact absurd h' hne
    · exact t3 h'
  · refine ⟨by simp, fun hn => absurd List.mem_cons_self hn, fun _ => ?_⟩
    rcases FeatureTracker.getD_mem h.1 id with h0 | h0
    · rw [h0]
      exact ⟨⟨S, rfl⟩, by simpa using hL⟩
    · obtain ⟨t1, t2⟩ := (h.2 _ h0).2.1 hid
      refine ⟨?_, by simp; exact t2⟩
      show frameIds (_ ++ [_]) <:+ _
      unfold frameIds
      rw [List.map_append]
      exact suffix_snoc t1 F

theorem Loop2.loop {S : List Nat} {F L : Nat} {m : TrackMap K} {I : List Nat} (h : Loop2 S F L m I) (hL : 1 ≤ L) (time : K)
    (keys : List (Nat × K × K)) (hk : (keys.map Prod.fst).Nodup) (hI : ∀ k ∈ keys, k.1 ∉ I) :
    ∃ I', Loop2 S F L (keys.foldl (fun (m : TrackMap K) k => m.push k.1 ⟨F, time, k.2.1, k.2.2⟩) m) I' := by
  induction keys generalizing m I with
  | nil => exact ⟨I, h⟩
  | cons k keys ih =>
    rw [List.map_cons, List.nodup_cons] at hk
    refine ih (h.push hL k.1 time k.2.1 k.2.2 (hI k List.mem_cons_self)) hk.2 ?_
    intro k' hk'
    rw [List.mem_cons, not_or]
    exact ⟨fun e => hk.1 (e ▸ List.mem_map_of_mem hk'), hI k' (List.mem_cons_of_mem _ hk')⟩

/-- What holds between two images, whose frame ids so far are `S`. -/
structure FInv (S : List Nat) (t : SimTracker K) : Prop where
  sorted : UMap.Sorted t.map
  tracks : ∀ e ∈ t.map, e.2 ≠ [] ∧ frameIds e.2 <:+ S ∧ e.2.length < t.maxLen

theorem FInv.generate {S : List Nat} {t t' : SimTracker K} {F : Nat} {time : K} {keys : List (Nat × K × K)} {out}
    (hs : t.generate F time keys = .ok (t', out)) (h : FInv S t) (hmax : 1 ≤ t.maxLen) (hk : (keys.map Prod.fst).Nodup)
    (hS : ∀ s ∈ S, s < F) : FInv (S ++ [F]) t' ∧ t'.maxLen = t.maxLen ∧ Recent S F t.maxLen out := by
  unfold SimTracker.generate at hs
  dsimp only at hs
  rw [bind_ok_iff] at hs
  obtain ⟨⟨o, left⟩, hflush, hs⟩ := hs
  simp only [pure, Except.pure, Except.ok.injEq, Prod.mk.injEq] at hs
  obtain ⟨rfl, rfl⟩ := hs
  have h0 : Loop2 S F t.maxLen t.map [] :=
    ⟨h.sorted, fun e he => ⟨(h.tracks e he).1, fun _ => (h.tracks e he).2, fun hm => absurd hm (by simp)⟩⟩
  obtain ⟨I, g⟩ := h0.loop hmax time keys hk (by simp)
  obtain ⟨k1, k2⟩ := flush_frames (fun e he => (g.2 e he).1) (fun e he => by
    by_cases hi : e.1 ∈ I
    · exact Or.inr ((g.2 e he).2.2 hi)
    · exact Or.inl ((g.2 e he).2.1 hi)) hS hflush
  rw [flush_eq _ _ _ _ (fun e he => (g.2 e he).1)] at hflush
  simp only [Except.ok.injEq, Prod.mk.injEq] at hflush
  obtain ⟨_, hl⟩ := hflush
  refine ⟨⟨?_, fun e he => ⟨?_, (k2 e he).1, (k2 e he).2⟩⟩, rfl, k1⟩
  · rw [← hl]; exact g.1.filter _
  · rw [← hl] at he
    exact (g.2 e (List.mem_of_mem_filter he)).1

end SimTracker

/-! ## The window -/

/-- The window of a camera holds the clones of its last images: all of them, or as many as the configured length. -/
structure WInv (cam : Nat) (T : List Nat) (L : Nat) (e : Ekf K) : Prop where
  clones : e.ClonesFrame cam
  length : e.maxTrackLength = L
  suffix : (e.stamps cam).map Prod.fst <:+ T
  full : (e.stamps cam).map Prod.fst = T ∨ L ≤ (e.stamps cam).length

theorem clonesFrame_step {N : Prim K} {e e' : Ekf K} {op : Op K} {cam : Nat} (h : Ekf.step N e op = .ok e')
    (hc : e.ClonesFrame cam) (h0 : cam ≠ 0) : e'.ClonesFrame cam := by
  have hty : e'.augType = e.augType := (step_config h).augType
  obtain ⟨_, _, hp, _⟩ := camera_step h
  rcases hc with hc | ⟨hc, hk⟩
  · exact Or.inl (hty.trans hc)
  · refine Or.inr ⟨hty.trans hc, ?_⟩
    rw [hp, hk]
    have hz : e.primaryCameraId ≠ 0 := by rw [← hk]; exact h0
    have gen : ∀ l : List (Nat × K), l.foldl (fun p c => if p = 0 then c.1 else p) e.primaryCameraId = e.primaryCameraId := by
      intro l
      induction l with
      | nil => rfl
      | cons y l ih => rw [List.foldl_cons, if_neg hz]; exact ih
    exact (gen _).symm

theorem not_timed {e : Ekf K} {cam : Nat} (hc : e.ClonesFrame cam) : ¬ AugType.Timed e.augType := by
  rcases hc with hc | ⟨hc, _⟩ <;> rw [hc] <;> rintro (h | h) <;> cases h

theorem WInv.step {N : Prim K} {cam : Nat} {T : List Nat} {L : Nat} {e e' : Ekf K} {op : Op K} (hw : WInv cam T L e)
    (h0 : cam ≠ 0) (h : Ekf.step N e op = .ok e') (ho : op.Elsewhere cam) : WInv cam T L e' := by
  have hnt := not_timed hw.clones
  have hst : e'.stamps cam = e.stamps cam := by
    by_cases hp : ∃ t, op = .predict t
    · obtain ⟨t, rfl⟩ := hp
      rcases stamps_predict h with rfl | ⟨_, h1, h2⟩
      · rfl
      · rcases h2 with h2 | ⟨h2, _⟩
        · exact h1 cam h0
        · exact absurd h2 hnt
    · by_cases hf : ∃ c g, op = .frame c g
      · obtain ⟨c, g, rfl⟩ := hf
        have hcc : cam ≠ c := fun hcc => ho.1 g (by rw [hcc])
        rcases records_frame h cam with ⟨_, h1⟩ | ⟨_, h1⟩
        · exact stamps_of_records h1
        · rw [if_neg hcc] at h1
          exact stamps_of_records h1
      · exact stamps_step h (fun t ht => hp ⟨t, ht⟩) (fun c g hcg => hf ⟨c, g, hcg⟩) cam
  exact ⟨clonesFrame_step h hw.clones h0, ((window_length_step hnt h cam).2.1 ho.2).trans hw.length,
    by rw [hst]; exact hw.suffix, by rw [hst]; exact hw.full⟩

theorem WInv.run {N : Prim K} {cam : Nat} {T : List Nat} {L : Nat} {ops : List (Op K)} : ∀ {e e' : Ekf K}, WInv cam T L e →
    cam ≠ 0 → Ekf.run N e ops = .ok e' → (∀ op ∈ ops, op.Elsewhere cam) → WInv cam T L e' := by
  induction ops with
  | nil => intro e e' hw _ h _; cases h; exact hw
  | cons op ops ih =>
    intro e e' hw h0 h ho
    simp only [Ekf.run, bind_ok_iff] at h
    obtain ⟨e1, h1, h2⟩ := h
    exact ih (hw.step h0 h1 (ho op List.mem_cons_self)) h0 h2 (fun op' h' => ho op' (List.mem_cons_of_mem _ h'))

theorem WInv.via {N : Prim K} {Q : Mat K → Prop} {cam : Nat} {T : List Nat} {L : Nat} {e e' : Ekf K} (hw : WInv cam T L e)
    (h0 : cam ≠ 0) (h : Via N Q e e') : WInv cam T L e' := by
  obtain ⟨ops, h1, h2, _⟩ := h
  refine hw.run h0 h1 fun op ho => ?_
  have := h2 op ho
  constructor
  · rintro f rfl; exact this
  · rintro n rfl; exact this

/-- One of its images. -/
theorem WInv.frame {N : Prim K} {cam : Nat} {T : List Nat} {L F : Nat} {e e' : Ekf K} (hw : WInv cam T L e) (h0 : cam ≠ 0)
    (hL : 1 ≤ L) (h : e.augmentFrame N cam F = .ok e') : WInv cam (T ++ [F]) L e' := by
  have hs : Ekf.step N e (.frame cam F) = .ok e' := h
  obtain ⟨_, h1⟩ := C14_frame N e e' cam F hw.clones h
  have hst : (e'.stamps cam).map Prod.fst =
      (if (e.window cam).length < e.maxTrackLength then (e.stamps cam).map Prod.fst
       else ((e.stamps cam).map Prod.fst).drop 1) ++ [F] := by
    have e1 : e'.stamps cam = ((e'.window cam).map AugState.record).map AugState.stamp := stamps_eq e' cam
    have e2 : e.stamps cam = ((e.window cam).map AugState.record).map AugState.stamp := stamps_eq e cam
    rw [e1, h1, List.map_append, List.map_append]
    congr 1
    split_ifs
    · rw [← e2]
    · rw [List.map_drop, List.map_drop, ← e2]
  refine ⟨clonesFrame_step hs hw.clones h0, ((frame2_augmentFrame h).maxTrackLength).trans hw.length, ?_, ?_⟩
  · rw [hst]
    apply suffix_snoc
    split_ifs
    · exact hw.suffix
    · exact (List.drop_suffix _ _).trans hw.suffix
  · have hlen : ((e'.stamps cam).map Prod.fst).length = (e'.stamps cam).length := by simp
    rw [← hlen, hst]
    have hwl : (e.window cam).length = (e.stamps cam).length := (length_stamps e cam).symm
    have hml : ((e.stamps cam).map Prod.fst).length = (e.stamps cam).length := by simp
    rw [hwl, hw.length]
    by_cases hlt : (e.stamps cam).length < L
    · rw [if_pos hlt]
      rcases hw.full with h2 | h2
      · exact Or.inl (by rw [h2])
      · omega
    · rw [if_neg hlt]
      refine Or.inr ?_
      rw [List.length_append, List.length_drop, hml]
      simp only [List.length_singleton]
      omega

/-- A recent observation finds the clone of its image. -/
theorem WInv.posed {N : Prim K} {cam : Nat} {T : List Nat} {L F : Nat} {e : Ekf K} {M : Nat}
    {out : List (Nat × List (FeaturePoint K))} (hw : WInv cam (T ++ [F]) L e) (hr : Recent T F M out) (hM : M ≤ L) :
    ∀ o ∈ out, ∀ p ∈ o.2, ∃ a e', e.getAugState N cam p.frameId p.time = .ok (a, e') ∧ a ∈ e.window cam ∧
      a.frameId = p.frameId := by
  intro o ho p hp
  obtain ⟨l, h1, h2, h3⟩ := hr o ho
  have hmem : p.frameId ∈ (e.stamps cam).map Prod.fst := by
    rcases hw.full with h4 | h4
    · rw [h4]; exact h1.subset (h3 p hp)
    · have : l <:+ (e.stamps cam).map Prod.fst :=
        List.suffix_of_suffix_length_le h1 hw.suffix (by simp; omega)
      exact this.subset (h3 p hp)
  have hw' : ∃ a ∈ e.window cam, a.frameId = p.frameId := by
    unfold stamps at hmem
    rw [List.map_map] at hmem
    obtain ⟨a, ha, hb⟩ := List.mem_map.1 hmem
    exact ⟨a, ha, hb⟩
  -- the last clone of that image
  have last : ∀ w : List (AugState K), (∃ a ∈ w, a.frameId = p.frameId) →
      ∃ l1 l2 a, w = l1 ++ a :: l2 ∧ a.frameId = p.frameId ∧ ∀ b ∈ l2, b.frameId ≠ p.frameId := by
    intro w
    induction w with
    | nil => rintro ⟨a, ha, _⟩; cases ha
    | cons b w ih =>
      rintro ⟨a, ha, hf⟩
      by_cases hx : ∃ a ∈ w, a.frameId = p.frameId
      · obtain ⟨l1, l2, a, e1, e2, e3⟩ := ih hx
        exact ⟨b :: l1, l2, a, by rw [e1]; rfl, e2, e3⟩
      · rcases List.mem_cons.1 ha with rfl | ha
        · exact ⟨[], w, a, rfl, hf, fun b hb hbf => hx ⟨b, hb, hbf⟩⟩
        · exact absurd ⟨a, ha, hf⟩ hx
  obtain ⟨l1, l2, a, e1, e2, e3⟩ := last _ hw'
  obtain ⟨e', g, _⟩ := C16_found N e cam p.frameId p.time hw.clones l1 l2 a e1 e2 e3
  exact ⟨a, e', g, by rw [e1]; simp, e2⟩

end EkfCal
