import Verif.Lemmas.Window
import Verif.Spec.Samples

/-!
# C15 — stored clones are ordered by time and pruning removes only stale ones
-/

set_option linter.unusedSectionVars false

namespace EkfCal
open Ekf
variable {K : Type} [Field K] [LinearOrder K]

/-- The clock does not run backwards anywhere along the history.  By C12 only `Initialize` and the first stamp given to
`CalculateLocalTime` can set it back. -/
def ClockForward (N : Prim K) (e : Ekf K) : List (Op K) → Prop
  | [] => True
  | op :: ops => ∀ e', step N e op = .ok e' → e.currentTime ≤ e'.currentTime ∧ ClockForward N e' ops

/-- Clone times of every window are non-decreasing and not later than the filter time. -/
def ClonesOrdered (e : Ekf K) : Prop :=
  ∀ k, (times (e.window k)).Pairwise (· ≤ ·) ∧ ∀ t ∈ times (e.window k), t ≤ e.currentTime

/-- Pruning never looks at anything but neighbouring clones: it yields a subsequence. -/
theorem prune_sublist (now d : K) (l : List (AugState K)) : (prune now d l).Sublist l := by
  induction l with
  | nil => exact List.Sublist.refl _
  | cons a l ih =>
    unfold prune
    split
    · rename_i h
      exact List.Sublist.cons_cons _ (List.nil_sublist _)
    · rename_i b r h
      rw [h] at ih
      split
      · exact ih.cons _
      · exact ih.cons_cons _

theorem times_stamps (e : Ekf K) (k : Nat) : times (e.window k) = (e.stamps k).map Prod.snd := by
  unfold times stamps; rw [List.map_map]; rfl

theorem times_records (e : Ekf K) (k : Nat) : times (e.window k) = times (e.records k) := by
  unfold times records; rw [List.map_map]; rfl

theorem ordered_append {l : List K} {now : K} (h : l.Pairwise (· ≤ ·) ∧ ∀ t ∈ l, t ≤ now) :
    (l ++ [now]).Pairwise (· ≤ ·) ∧ ∀ t ∈ l ++ [now], t ≤ now := by
  refine ⟨List.pairwise_append.2 ⟨h.1, List.pairwise_singleton _ _, ?_⟩, ?_⟩
  · intro a ha b hb; simp only [List.mem_singleton] at hb; subst hb; exact h.2 a ha
  · intro t ht
    rcases List.mem_append.1 ht with ht | ht
    · exact h.2 t ht
    · simp only [List.mem_singleton] at ht; exact ht.le

theorem ordered_mono {l : List K} {now now' : K} (h : l.Pairwise (· ≤ ·) ∧ ∀ t ∈ l, t ≤ now) (hn : now ≤ now') :
    l.Pairwise (· ≤ ·) ∧ ∀ t ∈ l, t ≤ now' := ⟨h.1, fun t ht => (h.2 t ht).trans hn⟩

theorem ordered_sublist {l l' : List K} {now : K} (h : l.Pairwise (· ≤ ·) ∧ ∀ t ∈ l, t ≤ now) (hl : l'.Sublist l) :
    l'.Pairwise (· ≤ ·) ∧ ∀ t ∈ l', t ≤ now := ⟨h.1.sublist hl, fun t ht => h.2 t (hl.subset ht)⟩

theorem ordered_step {N : Prim K} {e e' : Ekf K} {op : Op K} (ho : ClonesOrdered e) (h : step N e op = .ok e')
    (hc : e.currentTime ≤ e'.currentTime) : ClonesOrdered e' := by
  by_cases hp : ∃ t, op = .predict t
  · obtain ⟨t, rfl⟩ := hp
    rcases stamps_predict h with rfl | ⟨ht, hk, h0⟩
    · exact ho
    · have h3 := step_frame h
      simp only [StepFrame, not_lt.2 ht, if_false] at h3
      have hct : e'.currentTime = t := h3.currentTime
      intro k
      rw [hct]
      by_cases hk0 : k = 0
      · subst hk0
        have hs : (times (prune t e.maxTrackDuration (e.records 0))).Sublist (times (e.window 0)) := by
          rw [times_records]; exact (prune_sublist _ _ _).map _
        rw [times_records]
        rcases h0 with h0 | ⟨_, h0 | ⟨b, hb, h0⟩⟩
        · rw [h0, ← times_records]; exact ordered_mono (ho 0) ht
        · rw [h0]
          exact ordered_mono (ordered_sublist (ho 0) hs) ht
        · rw [h0]
          have : times (prune t e.maxTrackDuration (e.records 0) ++ [b]) =
              times (prune t e.maxTrackDuration (e.records 0)) ++ [t] := by simp [times, hb]
          rw [this]
          exact ordered_append (ordered_mono (ordered_sublist (ho 0) hs) ht)
      · rw [times_stamps, hk k hk0, ← times_stamps]
        exact ordered_mono (ho k) ht
  · by_cases hf : ∃ c f, op = .frame c f
    · obtain ⟨c, f, rfl⟩ := hf
      have hct : e'.currentTime = e.currentTime := (frame2_augmentFrame h).currentTime
      intro k
      rw [hct, times_records]
      rcases records_frame h k with ⟨_, h1⟩ | ⟨_, h1⟩
      · rw [h1, ← times_records]; exact ho k
      · by_cases hk : k = c
        · subst hk
          have ha : times (e.records k ++ [e.poseClone f]) = times (e.window k) ++ [e.currentTime] := by
            rw [times_records]; simp [times, poseClone]
          rw [if_pos rfl] at h1
          split at h1
          · rw [h1, ha]; exact ordered_append (ho k)
          · rw [h1]
            have := ordered_append (ho k)
            rw [← ha] at this
            exact ordered_sublist this ((List.drop_sublist _ _).map _)
        · rw [if_neg hk] at h1
          rw [h1, ← times_records]; exact ho k
    · intro k
      rw [times_stamps, stamps_step h (fun t ht => hp ⟨t, ht⟩) (fun c f hcf => hf ⟨c, f, hcf⟩) k, ← times_stamps]
      exact ordered_mono (ho k) hc

/-- In every reachable state the clone times of every window are non-decreasing and not later than the filter time, as
long as the clock is not set back. -/
theorem C15_ordered (N : Prim K) (p : EkfParams K) (ops : List (Op K)) (e : Ekf K)
    (hc : ClockForward N (init N p) ops) (h : run N (init N p) ops = .ok e) : ClonesOrdered e := by
  have key : ∀ (ops : List (Op K)) (e e' : Ekf K), ClonesOrdered e → ClockForward N e ops → run N e ops = .ok e' →
      ClonesOrdered e' := by
    intro ops
    induction ops with
    | nil => intro e e' ho _ h; cases h; exact ho
    | cons op ops ih =>
      intro e e' ho hc h
      simp only [run, bind_ok_iff] at h
      obtain ⟨e1, h1, h2⟩ := h
      obtain ⟨c1, c2⟩ := hc e1 h1
      exact ih e1 e' (ordered_step ho h1 c1) c2 h2
  exact key ops _ _ (fun k => ⟨List.Pairwise.nil, fun t ht => by cases ht⟩) hc h

/-- Calls that cannot set the clock back. -/
def Op.keepsClock : Op K → Prop
  | .initializeAt _ _ => False
  | .localTime _ => False
  | _ => True

theorem clockForward_of (N : Prim K) (ops : List (Op K)) (e : Ekf K) (h : ∀ op ∈ ops, Op.keepsClock op) :
    ClockForward N e ops := by
  induction ops generalizing e with
  | nil => trivial
  | cons op ops ih =>
    intro e' h1
    refine ⟨?_, ih e' fun o ho => h o (by simp [ho])⟩
    have hk := h op (by simp)
    have h3 := step_frame h1
    cases op with
    | predict t =>
      simp only [StepFrame] at h3
      split at h3
      · rw [h3]
      · rename_i ht
        rw [h3.currentTime]; exact not_lt.1 ht
    | initializeAt t b => exact hk.elim
    | localTime t => exact hk.elim
    | setMaxTrackLength n => cases h3; exact le_rfl
    | setGpsReference p a => cases h3; exact le_rfl
    | setZeroAcceleration b => cases h3; exact le_rfl
    | initializeGravity => cases h3; exact le_rfl
    | setBodyProcessNoise v => cases h3; exact le_rfl
    | attemptGpsInit t x f => obtain ⟨_, _, _, _, rfl⟩ := attemptGpsInit_form h3; exact le_rfl
    | registerIMU _ _ _ => exact h3.currentTime.ge
    | registerGPS _ _ _ => exact h3.currentTime.ge
    | registerCamera _ _ _ => exact h3.currentTime.ge
    | registerFiducial _ _ => exact h3.currentTime.ge
    | frame _ _ => exact h3.currentTime.ge
    | kalman _ _ _ => exact h3.currentTime.ge
    | getImu _ => exact h3.currentTime.ge
    | getGps _ => exact h3.currentTime.ge
    | getCam _ => exact h3.currentTime.ge
    | getAug _ _ _ => exact h3.currentTime.ge
    | setBodyMotion _ _ _ => exact h3.currentTime.ge

/-- The same for histories described by their calls: registrations, settings, predictions (at any times), frames, updates,
queries, but no clock setting. -/
theorem C15_ordered_calls (N : Prim K) (p : EkfParams K) (ops : List (Op K)) (e : Ekf K)
    (hc : ∀ op ∈ ops, Op.keepsClock op) (h : run N (init N p) ops = .ok e) : ClonesOrdered e :=
  C15_ordered N p ops e (clockForward_of N ops _ hc) h

/-- Clone number `i` of a window is superseded: the next younger clone is already older than the maximum duration. -/
def Superseded (now d : K) (l : List (AugState K)) (i : Nat) : Prop :=
  ∃ b, l[i + 1]? = some b ∧ now - b.time > d

variable [IsStrictOrderedRing K]

theorem prune_drop (now d : K) (l : List (AugState K)) (hl : (times l).Pairwise (· ≤ ·)) :
    ∃ j, prune now d l = l.drop j ∧ (∀ i, i < j ↔ Superseded now d l i) ∧ (l ≠ [] → j < l.length) := by
  induction l with
  | nil => exact ⟨0, rfl, fun i => ⟨fun h => absurd h (Nat.not_lt_zero _), by rintro ⟨b, hb, _⟩; cases hb⟩, fun h => absurd rfl h⟩
  | cons a l ih =>
    obtain ⟨j, h1, h2, h3⟩ := ih (List.pairwise_cons.1 hl).2
    cases l with
    | nil =>
      refine ⟨0, rfl, fun i => ⟨fun h => absurd h (Nat.not_lt_zero _), ?_⟩, fun _ => by simp⟩
      rintro ⟨b, hb, _⟩; simp at hb
    | cons c m =>
      have hj := h3 (by simp)
      have hd : ∃ b r, (c :: m).drop j = b :: r := by
        cases hx : (c :: m).drop j with
        | nil => rw [List.drop_eq_nil_iff] at hx; omega
        | cons b r => exact ⟨b, r, rfl⟩
      obtain ⟨b, r, hbr⟩ := hd
      have hb : (c :: m)[j]? = some b := by
        have := congrArg List.head? hbr
        rw [List.head?_drop] at this
        exact this
      have hsucc : ∀ i, Superseded now d (a :: c :: m) (i + 1) ↔ Superseded now d (c :: m) i := by
        intro i; unfold Superseded; simp only [List.getElem?_cons_succ]
      have h0 : Superseded now d (a :: c :: m) 0 ↔ now - c.time > d := by
        unfold Superseded; simp
      have hp : prune now d (a :: c :: m) = if now - b.time > d then b :: r else a :: b :: r := by
        rw [prune, h1, hbr]
      have hcb : c.time ≤ b.time := by
        have hs := (List.pairwise_cons.1 hl).2
        cases j with
        | zero => simp at hb; rw [hb]
        | succ j =>
          simp only [List.getElem?_cons_succ] at hb
          have := (List.pairwise_cons.1 hs).1 b.time (List.mem_map.2 ⟨b, List.mem_of_getElem? hb, rfl⟩)
          exact this
      by_cases hb' : now - b.time > d
      · refine ⟨j + 1, by rw [hp, if_pos hb', List.drop_succ_cons, hbr], fun i => ?_, fun _ => by simp at hj ⊢; omega⟩
        cases i with
        | zero =>
          refine ⟨fun _ => h0.2 ?_, fun _ => Nat.succ_pos _⟩
          have : now - b.time ≤ now - c.time := sub_le_sub_left hcb now
          exact lt_of_lt_of_le hb' this
        | succ i => rw [hsucc, ← h2]; omega
      · have hj0 : j = 0 := by
          by_contra hj0
          obtain ⟨b', hb1, hb2⟩ := (h2 (j - 1)).1 (by omega)
          rw [show j - 1 + 1 = j by omega, hb] at hb1
          cases hb1
          exact hb' hb2
        subst hj0
        simp only [List.drop_zero, List.cons.injEq] at hbr
        obtain ⟨rfl, rfl⟩ := hbr
        refine ⟨0, by rw [hp, if_neg hb', List.drop_zero], fun i => ⟨fun h => absurd h (Nat.not_lt_zero _), fun h => ?_⟩, fun _ => by simp⟩
        cases i with
        | zero => exact absurd (h0.1 h) hb'
        | succ i => exact absurd ((h2 i).2 ((hsucc i).1 h)) (Nat.not_lt_zero _)

/-- Pruning in a prediction that is accepted under time- or error-driven cloning: exactly the superseded clones go (they
are the `j` oldest), the newest clone stays, the others keep everything recorded in them, and at most one new clone is
appended, the current pose at the new filter time. -/
theorem C15_pruning (N : Prim K) (e e' : Ekf K) (t : K) (ho : ClonesOrdered e) (hty : e.augType = .time ∨ e.augType = .error)
    (ht : e.currentTime ≤ t) (h : e.predict N t = .ok e') :
    ∃ (j : Nat) (new : List (AugState K)),
      (e'.window 0).map AugState.record = ((e.window 0).drop j ++ new).map AugState.record ∧
      (∀ i, i < j ↔ Superseded t e.maxTrackDuration (e.window 0) i) ∧
      (e.window 0 ≠ [] → j < (e.window 0).length) ∧
      (new = [] ∨ ∃ a, new = [a] ∧ a.time = t ∧ a.pos = e'.state.body.pos ∧ a.ang = e'.state.body.ang) ∧
      ∀ k, k ≠ 0 → (e'.window k).map AugState.record = (e.window k).map AugState.record := by
  obtain ⟨j, h1, h2, h3⟩ := prune_drop t e.maxTrackDuration (e.window 0) (ho 0).1
  rcases records_predict h with ⟨hlt, _⟩ | ⟨_, b, out, hr, h⟩
  · exact absurd ht (not_le.2 hlt)
  · have hb : e'.state.body.pos = b.pos ∧ e'.state.body.ang = b.ang := by
      have := augmentTimed_body h
      rw [this]; exact ⟨rfl, rfl⟩
    rcases records_timed h with ⟨hn, _⟩ | ⟨_, hk, due, _, h⟩
    · exact absurd hty hn
    · have hrec : prune t e.maxTrackDuration (e.records 0) = ((e.window 0).drop j).map AugState.record := by
        unfold records; rw [prune_record, h1]
      rcases h with ⟨_, _, _, h⟩ | ⟨_, _, _, h⟩
      · refine ⟨j, [], ?_, h2, h3, .inl rfl, fun k hk0 => ?_⟩
        · rw [hr 0] at h
          rw [List.append_nil, ← hrec]; exact h
        · have := hk k hk0; rw [hr k] at this; exact this
      · refine ⟨j, [⟨0, t, b.pos, b.ang, 0, 0⟩], ?_, h2, h3, .inr ⟨_, rfl, rfl, hb.1.symm, hb.2.symm⟩, fun k hk0 => ?_⟩
        · rw [hr 0] at h
          rw [List.map_append, ← hrec]; exact h
        · have := hk k hk0; rw [hr k] at this; exact this

/-- An ordered, non-empty window from which one clone is pruned. -/
example : ∃ e : Ekf ℚ, run Samples.prim (init Samples.prim (Samples.params .time false))
    [.registerCamera 7 Samples.cam (Samples.cov 6), .setMaxTrackLength 2, .predict 1, .frame 7 1, .predict 2, .frame 7 2,
     .predict 3, .frame 7 3, .predict 40] = .ok e ∧
    (e.window 0).map AugState.time = [3, 40] := by
  exact Samples.ok_of_check (by decide +kernel)

end EkfCal
