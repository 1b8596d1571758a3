import Verif.Spec.Choices
import Mathlib.Tactic.IntervalCases
import Mathlib.Algebra.Field.Rat

/-!
# C94: a tracker uses the image methods its configuration names
-/

namespace EkfCal
open Choices
variable {K : Type}

theorem castEnum_small {i : Int} (h0 : 0 ≤ i) (h : i < 2 ^ 31) : castEnum i = i := by
  unfold castEnum
  have : i % 2 ^ 32 = i := Int.emod_eq_of_lt h0 (by omega)
  rw [this, if_pos h]

theorem run_complete {d : Detector} {x : Extractor} {m : Matcher} : ∀ (ns : List Nat) (k : Nat),
    ∃ ws p', (⟨some d, some x, some m, k⟩ : Pipeline).run ns = .ok (ws, p') ∧ ∀ w ∈ ws, w.Of d.name x.name m.name
  | [], k => ⟨[], _, rfl, by simp⟩
  | n :: ns, k => by
    obtain ⟨ws, p', h, hw⟩ := run_complete (d := d) (x := x) (m := m) ns n
    by_cases hk : 0 < k ∧ 0 < n
    · refine ⟨[.detect d, .describe x, .match m, .match m] ++ ws, p', ?_, ?_⟩
      · simp only [Pipeline.run, Pipeline.track, deref, bind, Except.bind, pure, Except.pure, if_pos hk, h]
      · intro w hmem
        rcases List.mem_append.1 hmem with h1 | h1
        · simp only [List.mem_cons, List.not_mem_nil, or_false] at h1
          rcases h1 with rfl | rfl | rfl | rfl <;> rfl
        · exact hw w h1
    · refine ⟨[.detect d, .describe x] ++ ws, p', ?_, ?_⟩
      · simp only [Pipeline.run, Pipeline.track, deref, bind, Except.bind, pure, Except.pure, if_neg hk, h]
      · intro w hmem
        rcases List.mem_append.1 hmem with h1 | h1
        · simp only [List.mem_cons, List.not_mem_nil, or_false] at h1
          rcases h1 with rfl | rfl <;> rfl
        · exact hw w h1

theorem detector_listed (d : Nat) (s : String) (h : detectors[d]? = some s) (t : Int) :
    ∃ a, initDetector d t = some a ∧ a.name = s ∧ ∀ u, a.threshold = some u → u = t := by
  have hd : d < 6 := (List.getElem?_eq_some_iff.1 h).1
  interval_cases d <;> cases h
  · exact ⟨.brisk t 3 1, rfl, rfl, fun u hu => (Option.some.inj hu).symm⟩
  · exact ⟨.fast t true, rfl, rfl, fun u hu => (Option.some.inj hu).symm⟩
  · exact ⟨.gftt, rfl, rfl, fun u hu => nomatch hu⟩
  · exact ⟨.mser, rfl, rfl, fun u hu => nomatch hu⟩
  · exact ⟨.orb 1000 t, rfl, rfl, fun u hu => (Option.some.inj hu).symm⟩
  · exact ⟨.sift, rfl, rfl, fun u hu => nomatch hu⟩

theorem extractor_listed (d : Nat) (s : String) (h : extractors[d]? = some s) (t : Int) :
    ∃ a, initExtractor d t = some a ∧ a.name = s := by
  have hd : d < 2 := (List.getElem?_eq_some_iff.1 h).1
  interval_cases d <;> cases h
  · exact ⟨.orb 500 t, rfl, rfl⟩
  · exact ⟨.sift, rfl, rfl⟩

theorem matcher_listed (d : Nat) (s : String) (h : matchers[d]? = some s) : ∃ a, initMatcher d = some a ∧ a.name = s := by
  have hd : d < 2 := (List.getElem?_eq_some_iff.1 h).1
  interval_cases d <;> cases h
  · exact ⟨.bruteForce, rfl, rfl⟩
  · exact ⟨.flann, rfl, rfl⟩

theorem pipeline_read {s : Server K} {name : String} {d x m t : Int} (h : Declares s name d x m t) :
    nodePipeline s name = .ok (Pipeline.new (castEnum d) (castEnum x) (castEnum m) (castEnum t)) := by
  obtain ⟨h1, h2, h3, h4⟩ := h
  unfold nodePipeline fetch
  simp only [h1, h2, h3, h4]
  rfl

/-- **Documented numbers select documented methods**: whatever the combination, the detector has the configured sensitivity, and every
sequence of images is worked on with exactly these methods. -/
theorem C94_listed_partial (s : Server K) (name : String) (d x m : Nat) (t : Int) (dn xn mn : String)
    (h : Declares s name d x m t) (hd : detectors[d]? = some dn) (hx : extractors[x]? = some xn) (hm : matchers[m]? = some mn)
    (ht : 0 ≤ t ∧ t < 2 ^ 31) :
    ∃ p, nodePipeline s name = .ok p ∧ (∃ a, p.detector = some a ∧ a.name = dn ∧ ∀ u, a.threshold = some u → u = t) ∧
      ∀ images, ∃ ws p', p.run images = .ok (ws, p') ∧ ∀ w ∈ ws, w.Of dn xn mn := by
  have h6 : d < 6 := (List.getElem?_eq_some_iff.1 hd).1
  have h2 : x < 2 := (List.getElem?_eq_some_iff.1 hx).1
  have h2' : m < 2 := (List.getElem?_eq_some_iff.1 hm).1
  refine ⟨_, pipeline_read h, ?_⟩
  rw [castEnum_small (by omega) (by omega), castEnum_small (by omega) (by omega), castEnum_small (by omega) (by omega),
    castEnum_small ht.1 ht.2]
  obtain ⟨a, ha, hna, hta⟩ := detector_listed d dn hd t
  obtain ⟨b, hb, hnb⟩ := extractor_listed x xn hx t
  obtain ⟨c, hc, hnc⟩ := matcher_listed m mn hm
  refine ⟨⟨a, ha, hna, hta⟩, fun images => ?_⟩
  obtain ⟨ws, p', hr, hw⟩ := run_complete (d := a) (x := b) (m := c) images 0
  refine ⟨ws, p', ?_, ?_⟩
  · unfold Pipeline.new
    rw [ha, hb, hc]
    exact hr
  · rw [← hna, ← hnb, ← hnc]
    exact hw

/-- **A number for the detector that is not documented is accepted**, and the first image is detected through a null pointer. -/
theorem C94_detector (s : Server K) (name : String) (d x m t : Int) (h : Declares s name d x m t) (hd : ∀ k : Nat, k < 6 → castEnum d ≠ k)
    (n : Nat) (images : List Nat) :
    ∃ p, nodePipeline s name = .ok p ∧ p.run (n :: images) = .error .nullPointer := by
  refine ⟨_, pipeline_read h, ?_⟩
  have h0 : initDetector (castEnum d) (castEnum t) = none := by
    unfold initDetector
    have e0 := hd 0 (by decide); have e1 := hd 1 (by decide); have e2 := hd 2 (by decide); have e3 := hd 3 (by decide)
    have e4 := hd 4 (by decide); have e5 := hd 5 (by decide)
    rw [if_neg (by simpa using e0), if_neg (by simpa using e1), if_neg (by simpa using e2), if_neg (by simpa using e3),
      if_neg (by simpa using e4), if_neg (by simpa using e5)]
  simp only [Pipeline.run, Pipeline.track, Pipeline.new, h0, deref]
  rfl

theorem run_null {d : Detector} {x : Extractor} : ∀ (ns : List Nat) (k : Nat),
    ((⟨some d, some x, none, k⟩ : Pipeline).run ns = .error .nullPointer ↔ TwoInARow (k :: ns)) ∧
    (TwoInARow (k :: ns) ∨ ∃ r, (⟨some d, some x, none, k⟩ : Pipeline).run ns = .ok r)
  | [], k => ⟨⟨(fun h => nomatch h), (fun h => h.elim)⟩, .inr ⟨_, rfl⟩⟩
  | n :: ns, k => by
    obtain ⟨ih, ih'⟩ := run_null (d := d) (x := x) ns n
    by_cases hk : 0 < k ∧ 0 < n
    · refine ⟨⟨fun _ => .inl hk, fun _ => ?_⟩, .inl (.inl hk)⟩
      simp only [Pipeline.run, Pipeline.track, deref, bind, Except.bind, if_pos hk]
    · have hr : (⟨some d, some x, none, k⟩ : Pipeline).run (n :: ns) =
          (do let (ws, p) ← (⟨some d, some x, none, n⟩ : Pipeline).run ns; pure ([.detect d, .describe x] ++ ws, p)) := by
        simp only [Pipeline.run, Pipeline.track, deref, bind, Except.bind, pure, Except.pure, if_neg hk]
      rw [hr]
      have ht : TwoInARow (k :: n :: ns) ↔ TwoInARow (n :: ns) := ⟨fun h => h.elim (fun h => absurd h hk) id, .inr⟩
      rw [ht]
      rcases ih' with h | ⟨r, h⟩
      · refine ⟨⟨fun _ => h, fun _ => ?_⟩, .inl h⟩
        rw [ih.2 h]
        rfl
      · refine ⟨⟨fun h' => ?_, fun h' => ?_⟩, .inr ⟨_, by rw [h]; rfl⟩⟩
        · rw [h] at h'
          cases h'
        · rw [ih.2 h'] at h
          cases h

/-- **A number for the matcher that is not documented is accepted**, and goes well until features are described in two images in a row. -/
theorem C94_matcher (s : Server K) (name : String) (d x : Nat) (m t : Int) (h : Declares s name d x m t) (hd : d < 6) (hx : x < 2)
    (hm : castEnum m ≠ 0 ∧ castEnum m ≠ 1) (images : List Nat) :
    ∃ p, nodePipeline s name = .ok p ∧ (p.run images = .error .nullPointer ↔ TwoInARow images) := by
  refine ⟨_, pipeline_read h, ?_⟩
  have h0 : initMatcher (castEnum m) = none := by
    unfold initMatcher
    rw [if_neg hm.1, if_neg hm.2]
  obtain ⟨dn, hdn⟩ : ∃ s, detectors[d]? = some s := ⟨_, List.getElem?_eq_getElem (l := detectors) (by exact hd)⟩
  obtain ⟨xn, hxn⟩ : ∃ s, extractors[x]? = some s := ⟨_, List.getElem?_eq_getElem (l := extractors) (by exact hx)⟩
  obtain ⟨a, ha, _, _⟩ := detector_listed d dn hdn (castEnum t)
  obtain ⟨b, hb, _⟩ := extractor_listed x xn hxn (castEnum t)
  rw [castEnum_small (i := d) (by omega) (by omega), castEnum_small (i := x) (by omega) (by omega)]
  unfold Pipeline.new
  rw [ha, hb, h0]
  refine (run_null images 0).1.trans ?_
  cases images with
  | nil => exact ⟨fun h => h.elim, fun h => h.elim⟩
  | cons n ns => exact ⟨fun h => h.elim (fun h => absurd h.1 (Nat.lt_irrefl 0)) id, .inr⟩

/-! ## Cases that meet the hypotheses -/

/-- Parameters of a tracker as a node declares them. -/
def C94_server (d x m t : Int) : Server ℚ :=
  [(.of .tracker "orb" .featureDetector, .int d), (.of .tracker "orb" .descriptorExtractor, .int x),
   (.of .tracker "orb" .descriptorMatcher, .int m), (.of .tracker "orb" .detectorThreshold, .int t)]

theorem sample_C94 (d x m t : Int) : Declares (C94_server d x m t) "orb" d x m t := ⟨rfl, rfl, rfl, rfl⟩

/-- The documented example: GFTT, SIFT, brute force. -/
example : Declares (C94_server 2 1 0 10) "orb" (2 : Nat) (1 : Nat) (0 : Nat) 10 ∧ detectors[2]? = some "GFTT" ∧
    extractors[1]? = some "SIFT" ∧ matchers[0]? = some "BRUTE_FORCE" ∧ (0 : Int) ≤ 10 ∧ (10 : Int) < 2 ^ 31 :=
  ⟨sample_C94 2 1 0 10, rfl, rfl, rfl, by decide, by decide⟩

/-- A detector number and a matcher number one too large, as one counts from one. -/
example : Declares (C94_server 6 1 0 10) "orb" 6 1 0 10 ∧ (∀ k : Nat, k < 6 → castEnum 6 ≠ k) ∧
    Declares (C94_server 5 1 2 10) "orb" (5 : Nat) (1 : Nat) 2 10 ∧ castEnum 2 ≠ 0 ∧ castEnum 2 ≠ 1 ∧ TwoInARow [0, 3, 0, 2, 4] ∧
    ¬ TwoInARow [0, 3, 0, 2, 0] :=
  ⟨sample_C94 6 1 0 10, by decide, sample_C94 5 1 2 10, by decide, by decide, by simp [TwoInARow], by simp [TwoInARow]⟩

/-- **Not every configuration that is accepted makes a tracker that works.** -/
theorem C94_violated : ¬ ∀ (s : Server ℚ) (name : String) (p : Pipeline) (images : List Nat), nodePipeline s name = .ok p →
    ∃ r, p.run images = .ok r := by
  intro h
  obtain ⟨p, hp, hn⟩ := C94_matcher (C94_server 5 1 2 10) "orb" 5 1 2 10 (sample_C94 5 1 2 10) (by decide) (by decide) (by decide) [3, 4]
  obtain ⟨r, hr⟩ := h _ _ p [3, 4] hp
  rw [hn.2 (.inl ⟨by decide, by decide⟩)] at hr
  cases hr

end EkfCal
