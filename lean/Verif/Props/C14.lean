import Verif.Lemmas.Progress
import Verif.Spec.Samples

/-!
# C14 — the clone window stays within the configured track length
-/

set_option linter.unusedSectionVars false

namespace EkfCal
open Ekf
variable {K : Type} [Field K] [LinearOrder K]

/-- What a frame does to the windows of a filter that clones on it: a window with room is extended by the current pose, a
full one loses exactly its oldest clone and gains the current pose; no other window changes. -/
theorem C14_frame (N : Prim K) (e e' : Ekf K) (cam frame : Nat) (hc : e.ClonesFrame cam)
    (h : e.augmentFrame N cam frame = .ok e') :
    (∀ k, k ≠ cam → (e'.window k).map AugState.record = (e.window k).map AugState.record) ∧
    (e'.window cam).map AugState.record =
      (if (e.window cam).length < e.maxTrackLength then (e.window cam).map AugState.record
       else ((e.window cam).map AugState.record).drop 1) ++ [e.poseClone frame] := by
  constructor
  · intro k hk
    rcases records_frame h k with ⟨hn, _⟩ | ⟨_, h1⟩
    · exact absurd hc hn
    · rw [if_neg hk] at h1; exact h1
  · rcases records_frame h cam with ⟨hn, _⟩ | ⟨_, h1⟩
    · exact absurd hc hn
    · rw [if_pos rfl] at h1
      by_cases hl : (e.window cam).length < e.maxTrackLength
      · rw [if_pos hl]
        rw [if_pos (by omega)] at h1
        exact h1
      · rw [if_neg hl]
        rw [if_neg (by omega)] at h1
        have hne : e.records cam ≠ [] := by
          intro h0
          have h00 : e.window cam = [] := List.map_eq_nil_iff.1 h0
          have : e.maxTrackLength = 0 := by rw [h00] at hl; simpa using hl
          obtain ⟨u, hu⟩ := augmentFrame_zero N e cam frame hc this h00
          rw [h] at hu; cases hu
        rw [List.drop_append_of_le_length (by
          rw [Nat.one_le_iff_ne_zero]; exact fun h => hne (List.length_eq_zero_iff.1 h))] at h1
        exact h1

/-- Length bookkeeping of one call. -/
theorem window_length_step {N : Prim K} {e e' : Ekf K} {op : Op K} (ht : ¬ AugType.Timed e.augType)
    (h : step N e op = .ok e') (k : Nat) :
    e'.augType = e.augType ∧ ((∀ n, op ≠ .setMaxTrackLength n) → e'.maxTrackLength = e.maxTrackLength) ∧
    (e.window k).length ≤ (e'.window k).length ∧
    ((e'.window k).length ≤ (e.window k).length ∨ (e'.window k).length ≤ e.maxTrackLength) ∧
    ((∀ c f, op ≠ .frame c f) → (e'.window k).length = (e.window k).length) := by
  have h3 := step_frame h
  have fr : Frame e e' → (∀ t, op ≠ .predict t) → (∀ c f, op ≠ .frame c f) →
      e'.augType = e.augType ∧ ((∀ n, op ≠ .setMaxTrackLength n) → e'.maxTrackLength = e.maxTrackLength) ∧
      (e.window k).length ≤ (e'.window k).length ∧
      ((e'.window k).length ≤ (e.window k).length ∨ (e'.window k).length ≤ e.maxTrackLength) ∧
      ((∀ c f, op ≠ .frame c f) → (e'.window k).length = (e.window k).length) := by
    intro f h1 h2
    have hl := congrArg List.length (stamps_step h h1 h2 k)
    rw [length_stamps, length_stamps] at hl
    exact ⟨f.augType, fun _ => f.maxTrackLength, by omega, by omega, fun _ => hl⟩
  have sm : e'.augType = e.augType → ((∀ n, op ≠ .setMaxTrackLength n) → e'.maxTrackLength = e.maxTrackLength) →
      (∀ t, op ≠ .predict t) → (∀ c f, op ≠ .frame c f) →
      e'.augType = e.augType ∧ ((∀ n, op ≠ .setMaxTrackLength n) → e'.maxTrackLength = e.maxTrackLength) ∧
      (e.window k).length ≤ (e'.window k).length ∧
      ((e'.window k).length ≤ (e.window k).length ∨ (e'.window k).length ≤ e.maxTrackLength) ∧
      ((∀ c f, op ≠ .frame c f) → (e'.window k).length = (e.window k).length) := by
    intro f g h1 h2
    have hl := congrArg List.length (stamps_step h h1 h2 k)
    rw [length_stamps, length_stamps] at hl
    exact ⟨f, g, by omega, by omega, fun _ => hl⟩
  cases op with
  | predict t =>
    simp only [StepFrame] at h3
    split at h3
    · subst h3; exact ⟨rfl, fun _ => rfl, le_rfl, .inl le_rfl, fun _ => rfl⟩
    · rcases records_predict h with ⟨_, rfl⟩ | ⟨_, b, out, hr, h⟩
      · exact ⟨rfl, fun _ => rfl, le_rfl, .inl le_rfl, fun _ => rfl⟩
      · rcases records_timed h with ⟨_, rfl⟩ | ⟨hty, _⟩
        · exact ⟨rfl, fun _ => rfl, le_rfl, .inl le_rfl, fun _ => rfl⟩
        · exact absurd hty ht
  | frame c f =>
    refine ⟨(frame2_augmentFrame h).augType, fun _ => (frame2_augmentFrame h).maxTrackLength, ?_⟩
    rcases records_frame h k with ⟨_, h1⟩ | ⟨_, h1⟩
    · have hl := congrArg List.length h1
      rw [length_records, length_records] at hl
      exact ⟨by omega, by omega, fun hc => absurd rfl (hc c f)⟩
    · have hl := congrArg List.length h1
      rw [length_records] at hl
      by_cases hk : k = c
      · subst hk
        rw [if_pos rfl] at hl
        split at hl
        · rw [List.length_append, length_records] at hl
          simp only [List.length_singleton] at hl
          exact ⟨by omega, by omega, fun hc => absurd rfl (hc k f)⟩
        · rw [List.length_drop, List.length_append, length_records] at hl
          simp only [List.length_singleton] at hl
          exact ⟨by omega, by omega, fun hc => absurd rfl (hc k f)⟩
      · rw [if_neg hk, length_records] at hl
        exact ⟨by omega, by omega, fun hc => absurd rfl (hc c f)⟩
  | initializeAt t b => cases h3; exact sm rfl (fun _ => rfl) (by simp) (by simp)
  | setMaxTrackLength n => cases h3; exact sm rfl (fun hm => absurd rfl (hm n)) (by simp) (by simp)
  | setGpsReference p a => cases h3; exact sm rfl (fun _ => rfl) (by simp) (by simp)
  | setZeroAcceleration b => cases h3; exact sm rfl (fun _ => rfl) (by simp) (by simp)
  | initializeGravity => cases h3; exact sm rfl (fun _ => rfl) (by simp) (by simp)
  | localTime t =>
    have e1 : e'.augType = e.augType ∧ e'.maxTrackLength = e.maxTrackLength := by
      cases h3; unfold calculateLocalTime; split <;> exact ⟨rfl, rfl⟩
    exact sm e1.1 (fun _ => e1.2) (by simp) (by simp)
  | setBodyProcessNoise v => cases h3; exact sm rfl (fun _ => rfl) (by simp) (by simp)
  | attemptGpsInit t x f =>
    have e1 : e'.augType = e.augType ∧ e'.maxTrackLength = e.maxTrackLength := by
      obtain ⟨_, _, _, _, rfl⟩ := attemptGpsInit_form h3; exact ⟨rfl, rfl⟩
    exact sm e1.1 (fun _ => e1.2) (by simp) (by simp)
  | registerIMU _ _ _ => exact fr h3 (by simp) (by simp)
  | registerGPS _ _ _ => exact fr h3 (by simp) (by simp)
  | registerCamera _ _ _ => exact fr h3 (by simp) (by simp)
  | registerFiducial _ _ => exact fr h3 (by simp) (by simp)
  | kalman _ _ _ => exact fr h3 (by simp) (by simp)
  | getImu _ => exact fr h3 (by simp) (by simp)
  | getGps _ => exact fr h3 (by simp) (by simp)
  | getCam _ => exact fr h3 (by simp) (by simp)
  | getAug _ _ _ => exact fr h3 (by simp) (by simp)
  | setBodyMotion _ _ _ => exact fr h3 (by simp) (by simp)

/-- No camera ever holds more clones than the largest track length configured up to then: from a filter whose windows and
limit are within `L`, every history that never configures more than `L` keeps all windows within `L`. -/
theorem C14_largest (N : Prim K) (L : Nat) (ops : List (Op K)) (e e' : Ekf K) (ht : ¬ AugType.Timed e.augType)
    (hL : e.maxTrackLength ≤ L) (hw : ∀ k, (e.window k).length ≤ L)
    (hs : ∀ n, Op.setMaxTrackLength n ∈ ops → n ≤ L) (h : run N e ops = .ok e') :
    e'.maxTrackLength ≤ L ∧ ∀ k, (e'.window k).length ≤ L := by
  induction ops generalizing e with
  | nil => cases h; exact ⟨hL, hw⟩
  | cons op ops ih =>
    simp only [run, bind_ok_iff] at h
    obtain ⟨e1, h1, h2⟩ := h
    have hall := window_length_step ht h1
    refine ih e1 ?_ ?_ ?_ (fun n hn => hs n (by simp [hn])) h2
    · rw [(hall 0).1]; exact ht
    · by_cases hop : ∃ n, op = .setMaxTrackLength n
      · obtain ⟨n, rfl⟩ := hop
        cases h1
        exact hs n (by simp)
      · rw [(hall 0).2.1 (fun n hh => hop ⟨n, hh⟩)]
        exact hL
    · intro k
      have := hall k
      have := hw k
      omega

/-- With the track length configured before the first frame (as both applications do), no camera ever holds more clones
than the configured maximum. -/
theorem C14_bounded_partial (N : Prim K) (p : EkfParams K) (setup rest : List (Op K)) (e : Ekf K)
    (ht : ¬ AugType.Timed p.augType) (hs : ∀ c f, Op.frame c f ∉ setup) (hr : ∀ n, Op.setMaxTrackLength n ∉ rest)
    (h : run N (init N p) (setup ++ rest) = .ok e) : ∀ k, (e.window k).length ≤ e.maxTrackLength := by
  rw [run_append, bind_ok_iff] at h
  obtain ⟨e1, h1, h2⟩ := h
  have w1 : ∀ (ops : List (Op K)) (e0 e1 : Ekf K), (∀ c f, Op.frame c f ∉ ops) → ¬ AugType.Timed e0.augType →
      run N e0 ops = .ok e1 → ¬ AugType.Timed e1.augType ∧ ∀ k, (e1.window k).length = (e0.window k).length := by
    intro ops
    induction ops with
    | nil => intro e0 e1 _ h0 h; cases h; exact ⟨h0, fun _ => rfl⟩
    | cons op ops ih =>
      intro e0 e1 hf h0 h
      simp only [run, bind_ok_iff] at h
      obtain ⟨e2, h2, h3⟩ := h
      have hall := window_length_step h0 h2
      obtain ⟨g1, g2⟩ := ih e2 e1 (fun c f hc => hf c f (by simp [hc])) (by rw [(hall 0).1]; exact h0) h3
      refine ⟨g1, fun k => ?_⟩
      rw [g2 k]
      exact (hall k).2.2.2.2 (fun c f hc => hf c f (by simp [hc]))
  obtain ⟨t1, l1⟩ := w1 setup _ _ hs ht h1
  have w2 : ∀ (ops : List (Op K)) (e0 e1 : Ekf K), (∀ n, Op.setMaxTrackLength n ∉ ops) → ¬ AugType.Timed e0.augType →
      run N e0 ops = .ok e1 → e1.maxTrackLength = e0.maxTrackLength := by
    intro ops
    induction ops with
    | nil => intro e0 e1 _ _ h; cases h; rfl
    | cons op ops ih =>
      intro e0 e1 hf h0 h
      simp only [run, bind_ok_iff] at h
      obtain ⟨e2, h2, h3⟩ := h
      have hall := window_length_step h0 h2 0
      rw [ih e2 e1 (fun n hc => hf n (by simp [hc])) (by rw [hall.1]; exact h0) h3]
      exact hall.2.1 (fun n hc => hf n (by simp [hc]))
  rw [w2 rest e1 e hr t1 h2]
  exact (C14_largest N e1.maxTrackLength rest e1 e t1 le_rfl
    (fun k => by rw [l1 k]; exact Nat.zero_le _) (fun n hn => absurd hn (hr n)) h2).2

/-- Violated in general, and this is why the theorem above is partial: a window never shrinks.  Whatever limit is
configured later, no further history makes a window shorter than it is. -/
theorem C14_never_shrinks (N : Prim K) (ops : List (Op K)) (e e' : Ekf K) (ht : ¬ AugType.Timed e.augType)
    (h : run N e ops = .ok e') : ∀ k, (e.window k).length ≤ (e'.window k).length := by
  induction ops generalizing e with
  | nil => cases h; exact fun _ => le_rfl
  | cons op ops ih =>
    simp only [run, bind_ok_iff] at h
    obtain ⟨e1, h1, h2⟩ := h
    have hall := window_length_step ht h1
    intro k
    exact (hall k).2.2.1.trans (ih e1 (by rw [(hall 0).1]; exact ht) h2 k)

/-- Witness: three frames, then the limit is lowered to one; even after a further frame there are three clones. -/
theorem C14_bounded_violated : ∃ e : Ekf ℚ, run Samples.prim (init Samples.prim (Samples.params .all false))
    [.frame 1 1, .predict 1, .frame 1 2, .predict 2, .frame 1 3, .setMaxTrackLength 1, .predict 3, .frame 1 4] = .ok e ∧
    e.maxTrackLength = 1 ∧ (e.window 1).length = 3 := by
  exact ⟨_, rfl, rfl, rfl⟩

/-- The memory clause, exactly: in every reachable filter a frame is handled without undefined behaviour if and only if
the limit is positive or the window already holds a clone (or the camera is not cloned at all). -/
theorem C14_memory_iff (N : Prim K) (p : EkfParams K) (hp : p.processNoise.size = 18) (ops : List (Op K))
    (hs : SafeHistory N (init N p) ops) (e : Ekf K) (h : run N (init N p) ops = .ok e) (cam frame : Nat) :
    (∃ e', e.augmentFrame N cam frame = .ok e') ↔
      (¬ e.ClonesFrame cam ∨ 0 < e.maxTrackLength ∨ e.window cam ≠ []) := by
  obtain ⟨e1, h1, hr⟩ := run_defined (ready_init N p hp) hs
  rw [h] at h1
  cases h1
  constructor
  · rintro ⟨e', he'⟩
    by_contra hc
    push Not at hc
    obtain ⟨c1, c2, c3⟩ := hc
    obtain ⟨u, hu⟩ := augmentFrame_zero N e cam frame c1 (by omega) c3
    rw [he'] at hu; cases hu
  · intro hc
    refine augmentFrame_defined N e cam frame hr.inv hr.noise fun c1 c2 => ?_
    rcases hc with hc | hc | hc
    · exact absurd c1 hc
    · omega
    · exact hc

/-- Hence the memory clause is violated with a maximum track length of zero: the very first frame is undefined behaviour
(the filter removes the body's own rows and then reads `back()` of an empty vector). -/
theorem C14_memory_violated : ∃ u, run Samples.prim (init Samples.prim (Samples.params .all false))
    [.setMaxTrackLength 0, .frame 1 1] = .error u := ⟨_, rfl⟩

/-- A full window drops the oldest clone. -/
example : ∃ e : Ekf ℚ, run Samples.prim (init Samples.prim (Samples.params .primary false))
    ([.registerCamera 7 Samples.cam (Samples.cov 6), .setMaxTrackLength 2] ++
     [.frame 7 1, .predict 1, .frame 7 2, .frame 8 5, .predict 2, .frame 7 3]) = .ok e ∧
    (e.window 7).map AugState.frameId = [2, 3] ∧ e.window 8 = [] ∧ e.maxTrackLength = 2 := by
  exact Samples.ok_of_check (by decide +kernel)

end EkfCal
