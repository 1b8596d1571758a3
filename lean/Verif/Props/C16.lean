import Verif.Props.C15
import Verif.Lemmas.Progress

/-!
# C16 — a feature's frame finds its own clone
-/

set_option linter.unusedSectionVars false

namespace EkfCal
open Ekf
variable {K : Type} [Field K] [LinearOrder K]

theorem findFrame_foldl (f : Nat) (w : List (AugState K)) (acc : AugState K) :
    w.foldl (fun acc a => if a.frameId = f then a else acc) acc = acc ∧ (∀ a ∈ w, a.frameId ≠ f) ∨
    ∃ l1 a l2, w = l1 ++ a :: l2 ∧ a.frameId = f ∧ (∀ b ∈ l2, b.frameId ≠ f) ∧
      w.foldl (fun acc a => if a.frameId = f then a else acc) acc = a := by
  induction w generalizing acc with
  | nil => exact .inl ⟨rfl, fun a h => by cases h⟩
  | cons x xs ih =>
    rw [List.foldl_cons]
    rcases ih (if x.frameId = f then x else acc) with ⟨h1, h2⟩ | ⟨l1, a, l2, rfl, h2, h3, h4⟩
    · by_cases hx : x.frameId = f
      · exact .inr ⟨[], x, xs, rfl, hx, h2, by rw [h1, if_pos hx]⟩
      · refine .inl ⟨by rw [h1, if_neg hx], ?_⟩
        intro a ha
        rcases List.mem_cons.1 ha with rfl | ha
        · exact hx
        · exact h2 a ha
    · exact .inr ⟨x :: l1, a, l2, rfl, h2, h3, h4⟩

/-- The answer to a frame query, completely: the youngest clone of that camera with that frame id, with everything
recorded in it including its row index; the filter's clones, covariance and body stay as they are. -/
theorem C16_found (N : Prim K) (e : Ekf K) (cam frame : Nat) (t : K) (hc : e.ClonesFrame cam)
    (l1 l2 : List (AugState K)) (a : AugState K) (hw : e.window cam = l1 ++ a :: l2) (hf : a.frameId = frame)
    (hl : ∀ b ∈ l2, b.frameId ≠ frame) :
    ∃ e', e.getAugState N cam frame t = .ok (a, e') ∧ e'.cov = e.cov ∧ e'.state.body = e.state.body ∧
      ∀ k, e'.window k = e.window k := by
  refine ⟨{ e with state := { e.state with augs := e.state.augs.touch cam [] } }, ?_, rfl, rfl, fun k => ?_⟩
  · unfold getAugState
    rw [if_pos (by exact hc)]
    have : findFrame (e.state.augs.getD cam []) frame = a := by
      show findFrame (e.window cam) frame = a
      rw [hw]
      unfold findFrame
      rw [List.foldl_append, List.foldl_cons, if_pos hf]
      rcases findFrame_foldl frame l2 a with ⟨h, _⟩ | ⟨m1, b, m2, rfl, hb, _⟩
      · exact h
      · exact absurd hb (hl b (by simp))
    rw [this]; rfl
  · unfold window; exact UMap.getD_touch _ _ _ _

/-- What the clones of a camera say about a frame: all clones of that frame carry the given time, and, if `P` is given,
the given pose. -/
def SaysOf (w : List (AugState K)) (frame : Nat) (t : K) : Prop := ∀ a ∈ w, a.frameId = frame → a.time = t

/-- The clones of the frame still carry the pose recorded with it. -/
def PoseOf (w : List (AugState K)) (frame : Nat) (p : V3 K) (q : Quat K) : Prop :=
  ∀ a ∈ w, a.frameId = frame → a.pos = p ∧ a.ang = q

/-- The call corrects the state (measurement update). -/
def Op.corrects : Op K → Prop
  | .kalman _ _ _ => True
  | _ => False

theorem saysOf_stamps (w : List (AugState K)) (f : Nat) (t : K) :
    SaysOf w f t ↔ ∀ x ∈ w.map AugState.stamp, x.1 = f → x.2 = t := by
  unfold SaysOf AugState.stamp
  constructor
  · intro h x hx; obtain ⟨a, ha, rfl⟩ := List.mem_map.1 hx; exact h a ha
  · intro h a ha; exact h _ (List.mem_map.2 ⟨a, ha, rfl⟩)

theorem poseOf_records (w : List (AugState K)) (f : Nat) (p : V3 K) (q : Quat K) :
    PoseOf w f p q ↔ ∀ a ∈ w.map AugState.record, a.frameId = f → a.pos = p ∧ a.ang = q := by
  unfold PoseOf
  constructor
  · intro h x hx; obtain ⟨a, ha, rfl⟩ := List.mem_map.1 hx; exact h a ha
  · intro h a ha; exact h a.record (List.mem_map.2 ⟨a, ha, rfl⟩)

theorem saysOf_step {N : Prim K} {e e' : Ekf K} {op : Op K} {cam f : Nat} {t : K} (ht : ¬ AugType.Timed e.augType)
    (hs : SaysOf (e.window cam) f t) (hop : op ≠ .frame cam f) (h : step N e op = .ok e') : SaysOf (e'.window cam) f t := by
  rw [saysOf_stamps] at hs ⊢
  by_cases hp : ∃ t, op = .predict t
  · obtain ⟨t', rfl⟩ := hp
    have : e'.stamps cam = e.stamps cam := by
      rcases stamps_predict h with rfl | ⟨_, hk, h0⟩
      · rfl
      · by_cases hc : cam = 0
        · subst hc
          rcases h0 with h0 | ⟨hty, _⟩
          · exact stamps_of_records h0
          · exact absurd hty ht
        · exact hk cam hc
    unfold stamps at this
    rw [this]; exact hs
  · by_cases hf : ∃ c g, op = .frame c g
    · obtain ⟨c, g, rfl⟩ := hf
      rcases records_frame h cam with ⟨_, h1⟩ | ⟨_, h1⟩
      · have := stamps_of_records h1
        unfold stamps at this
        rw [this]; exact hs
      · by_cases hk : cam = c
        · subst hk
          have hg : g ≠ f := fun hg => hop (by rw [hg])
          have hsub : ∀ x ∈ e'.stamps cam, x ∈ e.stamps cam ∨ x = (g, e.currentTime) := by
            intro x hx
            rw [stamps_eq, h1, if_pos rfl] at hx
            have hx2 : x ∈ (e.records cam ++ [e.poseClone g]).map AugState.stamp := by
              split at hx
              · exact hx
              · exact (List.drop_sublist _ _).map _ |>.subset hx
            rw [List.map_append, ← stamps_eq] at hx2
            rcases List.mem_append.1 hx2 with hx2 | hx2
            · exact .inl hx2
            · right; simpa [AugState.stamp, poseClone] using hx2
          intro x hx hxf
          rcases hsub x hx with hx | rfl
          · exact hs x hx hxf
          · exact absurd hxf hg
        · rw [if_neg hk] at h1
          have := stamps_of_records h1
          unfold stamps at this
          rw [this]; exact hs
    · have := stamps_step h (fun t ht => hp ⟨t, ht⟩) (fun c g hcg => hf ⟨c, g, hcg⟩) cam
      unfold stamps at this
      rw [this]; exact hs

theorem poseOf_step {N : Prim K} {e e' : Ekf K} {op : Op K} {cam f : Nat} {p : V3 K} {q : Quat K}
    (ht : ¬ AugType.Timed e.augType)
    (hs : PoseOf (e.window cam) f p q) (hop : op ≠ .frame cam f) (hk : ¬ Op.corrects op) (h : step N e op = .ok e') :
    PoseOf (e'.window cam) f p q := by
  have same : e'.records cam = e.records cam → PoseOf (e'.window cam) f p q := by
    intro h; rw [poseOf_records] at hs ⊢; unfold records at h; rw [h]; exact hs
  cases op with
  | registerIMU id s c => exact same (records_registerIMU h cam)
  | registerGPS id s c => exact same (records_registerGPS h cam)
  | registerCamera id s c => exact same (records_registerCamera h cam)
  | registerFiducial s c => exact same (records_registerFiducial h cam)
  | predict t =>
    rcases records_predict h with ⟨_, rfl⟩ | ⟨_, b, out, hr, h⟩
    · exact hs
    · rcases records_timed h with ⟨_, rfl⟩ | ⟨hty, _⟩
      · exact same (hr cam)
      · exact absurd hty ht
  | frame c g =>
    rcases records_frame h cam with ⟨_, h1⟩ | ⟨_, h1⟩
    · exact same h1
    · by_cases hkc : cam = c
      · subst hkc
        have hg : g ≠ f := fun hg => hop (by rw [hg])
        rw [poseOf_records] at hs ⊢
        intro x hx hxf
        have hx' : x ∈ e'.records cam := hx
        rw [h1, if_pos rfl] at hx'
        have hx2 : x ∈ e.records cam ++ [e.poseClone g] := by
          split at hx'
          · exact hx'
          · exact (List.drop_sublist _ _).subset hx'
        rcases List.mem_append.1 hx2 with hx2 | hx2
        · exact hs x hx2 hxf
        · simp only [List.mem_singleton] at hx2
          subst hx2
          exact absurd hxf hg
      · rw [if_neg hkc] at h1
        exact same h1
  | kalman j r n => exact absurd trivial hk
  | getAug c f' t =>
    simp only [step, bind_ok_iff, pure_res, Except.ok.injEq] at h
    obtain ⟨r, h1, rfl⟩ := h
    exact same (records_getAug h1 cam)
  | getImu id => cases h; exact hs
  | getGps id => cases h; exact hs
  | getCam id => cases h; exact hs
  | initializeAt t b => cases h; exact hs
  | setMaxTrackLength n => cases h; exact hs
  | setGpsReference p a => cases h; exact hs
  | setZeroAcceleration b => cases h; exact hs
  | initializeGravity => cases h; exact hs
  | localTime t =>
    have : e'.state = e.state := by
      simp only [step, Except.ok.injEq] at h; subst h; unfold calculateLocalTime; split <;> rfl
    exact same (by unfold records window; rw [this])
  | setBodyProcessNoise v => cases h; exact hs
  | attemptGpsInit t x fit =>
    have : e'.state = e.state := by obtain ⟨_, _, _, _, rfl⟩ := attemptGpsInit_form h; rfl
    exact same (by unfold records window; rw [this])
  | setBodyMotion a w α => cases h; exact hs

/-- A frame of a camera, taken when the filter had time `e0.currentTime` and a certain pose, with an id not used before for
that camera; then any further history without that frame id, during which the cameras' frames may come and go.  As long
as a clone of that frame is in the window, asking for it returns such a clone, with the frame's own time and row index,
and with the very pose recorded at the frame unless a measurement update has corrected the clones since. -/
theorem C16_history (N : Prim K) (e0 e1 e : Ekf K) (cam frame : Nat) (ops : List (Op K)) (t : K)
    (hc : e0.augType = .all ∨ e0.augType = .primary) (hfresh : ∀ a ∈ e0.window cam, a.frameId ≠ frame)
    (h0 : e0.augmentFrame N cam frame = .ok e1) (hops : Op.frame cam frame ∉ ops) (h : run N e1 ops = .ok e)
    (hcl : e.ClonesFrame cam) (hin : ∃ a ∈ e.window cam, a.frameId = frame) :
    ∃ a e', e.getAugState N cam frame t = .ok (a, e') ∧ a ∈ e.window cam ∧ a.frameId = frame ∧ a.time = e0.currentTime ∧
      ((∀ op ∈ ops, ¬ Op.corrects op) → a.pos = e0.state.body.pos ∧ a.ang = e0.state.body.ang) := by
  have ht0 : ¬ AugType.Timed e0.augType := by
    unfold AugType.Timed; rcases hc with hc | hc <;> rw [hc] <;> simp
  have ht1 : ¬ AugType.Timed e1.augType := by rw [(frame2_augmentFrame h0).augType]; exact ht0
  have s1 : SaysOf (e1.window cam) frame e0.currentTime ∧ PoseOf (e1.window cam) frame e0.state.body.pos e0.state.body.ang := by
    have : ∀ x ∈ e1.records cam, x ∈ e0.records cam ∨ x = e0.poseClone frame := by
      intro x hx
      rcases records_frame h0 cam with ⟨_, h1⟩ | ⟨_, h1⟩
      · rw [h1] at hx; exact .inl hx
      · rw [h1, if_pos rfl] at hx
        have hx2 : x ∈ e0.records cam ++ [e0.poseClone frame] := by
          split at hx
          · exact hx
          · exact (List.drop_sublist _ _).subset hx
        rcases List.mem_append.1 hx2 with hx2 | hx2
        · exact .inl hx2
        · right; simpa using hx2
    have fr : ∀ x ∈ e0.records cam, x.frameId ≠ frame := by
      intro x hx; obtain ⟨a, ha, rfl⟩ := List.mem_map.1 hx; exact hfresh a ha
    constructor
    · intro a ha hf
      rcases this a.record (List.mem_map.2 ⟨a, ha, rfl⟩) with hx | hx
      · exact absurd hf (fr a.record hx)
      · exact congrArg AugState.time hx
    · intro a ha hf
      rcases this a.record (List.mem_map.2 ⟨a, ha, rfl⟩) with hx | hx
      · exact absurd hf (fr a.record hx)
      · exact ⟨congrArg AugState.pos hx, congrArg AugState.ang hx⟩
  have key : ∀ (ops : List (Op K)) (x : Ekf K), ¬ AugType.Timed x.augType → Op.frame cam frame ∉ ops → run N x ops = .ok e →
      SaysOf (x.window cam) frame e0.currentTime →
      SaysOf (e.window cam) frame e0.currentTime ∧
      (PoseOf (x.window cam) frame e0.state.body.pos e0.state.body.ang → (∀ op ∈ ops, ¬ Op.corrects op) →
        PoseOf (e.window cam) frame e0.state.body.pos e0.state.body.ang) := by
    intro ops
    induction ops with
    | nil => intro x _ _ h hs; cases h; exact ⟨hs, fun h _ => h⟩
    | cons op ops ih =>
      intro x hx hn h hs
      simp only [run, bind_ok_iff] at h
      obtain ⟨y, h1, h2⟩ := h
      have hne : op ≠ .frame cam frame := fun hh => hn (by simp [hh])
      have hy : ¬ AugType.Timed y.augType := by rw [(step_config h1).augType]; exact hx
      obtain ⟨g1, g2⟩ := ih y hy (fun hh => hn (by simp [hh])) h2 (saysOf_step hx hs hne h1)
      exact ⟨g1, fun hp hk => g2 (poseOf_step hx hp hne (hk op (by simp)) h1) fun o ho => hk o (by simp [ho])⟩
  obtain ⟨k1, k2⟩ := key ops e1 ht1 hops h s1.1
  obtain ⟨b, hb, hbf⟩ := hin
  rcases findFrame_foldl frame (e.window cam) AugState.default with ⟨_, h2⟩ | ⟨l1, a, l2, hw, hf, hl, _⟩
  · exact absurd hbf (h2 b hb)
  · obtain ⟨e', he', _⟩ := C16_found N e cam frame t hcl l1 l2 a hw hf hl
    have ha : a ∈ e.window cam := by rw [hw]; simp
    exact ⟨a, e', he', ha, hf, k1 a ha hf, fun hk => k2 s1.2 hk a ha hf⟩

/-- Right after the frame the clone is there. -/
theorem C16_immediately (N : Prim K) (e e1 : Ekf K) (cam frame : Nat) (hc : e.ClonesFrame cam)
    (h : e.augmentFrame N cam frame = .ok e1) : ∃ a ∈ e1.window cam, a.frameId = frame := by
  have hr : e.poseClone frame ∈ e1.records cam := by
    rcases records_frame h cam with ⟨hn, _⟩ | ⟨_, h1⟩
    · exact absurd hc hn
    · rw [h1, if_pos rfl]
      split
      · simp
      · have hne : e.records cam ≠ [] := by
          intro h0
          have h00 : e.window cam = [] := List.map_eq_nil_iff.1 h0
          rename_i hl
          have : e.maxTrackLength = 0 := by rw [h00] at hl; simp at hl; exact hl
          obtain ⟨u, hu⟩ := augmentFrame_zero N e cam frame hc this h00
          rw [h] at hu; cases hu
        rw [List.drop_append_of_le_length (by
          rw [Nat.one_le_iff_ne_zero]; exact fun h => hne (List.length_eq_zero_iff.1 h))]
        simp
  obtain ⟨a, ha, hx⟩ := List.mem_map.1 hr
  exact ⟨a, ha, congrArg AugState.frameId hx⟩

/-- Violated: an unknown frame is not reported.  In every filter, asking for a frame that is not in the window succeeds
and returns a clone that nobody recorded, pointing at row 0, the body position. -/
theorem C16_unknown_violated (N : Prim K) (e : Ekf K) (cam frame : Nat) (t : K) (hc : e.ClonesFrame cam)
    (hn : ∀ a ∈ e.window cam, a.frameId ≠ frame) :
    ∃ a e', e.getAugState N cam frame t = .ok (a, e') ∧ a.index = 0 ∧ a = AugState.default := by
  refine ⟨AugState.default, { e with state := { e.state with augs := e.state.augs.touch cam [] } }, ?_, rfl, rfl⟩
  unfold getAugState
  rw [if_pos (by exact hc)]
  have : findFrame (e.state.augs.getD cam []) frame = AugState.default := by
    rcases findFrame_foldl frame (e.window cam) AugState.default with ⟨h, _⟩ | ⟨l1, a, l2, hw, hf, _⟩
    · exact h
    · exact absurd hf (hn a (by rw [hw]; simp))
  rw [this]; rfl

/-- A frame found again after predictions, further frames (one of which pushes out the oldest clone) and a registration. -/
example : ∃ e : Ekf ℚ, run Samples.prim (init Samples.prim (Samples.params .all false))
    [.setMaxTrackLength 2, .frame 7 1, .predict 1, .frame 7 2, .registerIMU 3 (Samples.imu true true) (Samples.cov 12),
     .predict 2, .frame 7 3] = .ok e ∧
    (match e.getAugState Samples.prim 7 2 0 with
      | .ok (a, _) => (a.frameId, a.time, a.index)
      | .error _ => (0, 0, 0)) = (2, 1, 30) ∧ e.ClonesFrame 7 := by
  refine ⟨_, rfl, ?_, .inl rfl⟩
  decide +kernel

end EkfCal
