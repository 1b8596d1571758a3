import Verif.Spec.Window
import Verif.Lemmas.Forms
import Verif.Lemmas.CovHist

/-! # How calls change the clone windows -/

set_option linter.unusedSectionVars false
set_option linter.unusedSimpArgs false

namespace EkfCal
variable {K : Type}

theorem find?_accumIdx {α : Type} (g : α → Nat → α) (dim : α → Nat) (m : UMap α) (i k : Nat) :
    ∃ j, UMap.find? (accumIdx g dim m i) k = (UMap.find? m k).map (fun a => g a j) := by
  induction m generalizing i with
  | nil => exact ⟨0, rfl⟩
  | cons x xs ih =>
    obtain ⟨k', a⟩ := x
    by_cases h : k' = k
    · exact ⟨i, by simp [accumIdx, UMap.find?, h]⟩
    · obtain ⟨j, hj⟩ := ih (i + dim a)
      exact ⟨j, by simp [accumIdx, UMap.find?, h, hj]⟩

theorem reindexWindow_record (w : List (AugState K)) (i : Nat) :
    (reindexWindow w i).map AugState.record = w.map AugState.record := by
  induction w generalizing i with
  | nil => rfl
  | cons a w ih => simp only [reindexWindow, List.map_cons, ih]; rfl

namespace Ekf

/-- The recorded content of a window. -/
def records (e : Ekf K) (k : Nat) : List (AugState K) := (e.window k).map AugState.record

theorem records_reindex (s : State K) (k : Nat) :
    (UMap.getD s.reindex.augs k []).map AugState.record = (UMap.getD s.augs k []).map AugState.record := by
  unfold UMap.getD State.reindex
  obtain ⟨j, hj⟩ := find?_accumIdx reindexWindow (fun w : List (AugState K) => 6 * w.length) s.augs
    (18 + mapDim ImuState.dim s.imus + mapDim GpsState.dim s.gpss + mapDim CamState.dim s.cams +
      mapDim FidState.dim s.fids) k
  rw [hj]
  cases UMap.find? s.augs k with
  | none => rfl
  | some w => exact reindexWindow_record w j

variable [Field K] [LinearOrder K]

theorem records_refresh {N : Prim K} {e e' : Ekf K} (h : refreshIndices N e = .ok e') (k : Nat) :
    e'.records k = (UMap.getD e.state.augs k []).map AugState.record := by
  unfold records window
  rw [refreshIndices_state h, records_reindex]

theorem records_registerIMU {N : Prim K} {e e' : Ekf K} {id : Nat} {s : ImuState K} {c : Mat K}
    (h : registerIMU N e id s c = .ok e') (k : Nat) : e'.records k = e.records k := by
  rcases registerIMU_form h with ⟨_, rfl⟩ | ⟨_, out, _, h⟩
  · rfl
  · exact records_refresh h k

theorem records_registerGPS {N : Prim K} {e e' : Ekf K} {id : Nat} {s : GpsState K} {c : Mat K}
    (h : registerGPS N e id s c = .ok e') (k : Nat) : e'.records k = e.records k := by
  rcases registerGPS_form h with ⟨_, rfl⟩ | ⟨_, out, _, h⟩
  · rfl
  · exact records_refresh h k

theorem records_registerCamera {N : Prim K} {e e' : Ekf K} {id : Nat} {s : CamState K} {c : Mat K}
    (h : registerCamera N e id s c = .ok e') (k : Nat) : e'.records k = e.records k := by
  rcases registerCamera_form h with ⟨_, rfl⟩ | ⟨_, _, out, _, h⟩
  · rfl
  · exact records_refresh h k

theorem records_registerFiducial {N : Prim K} {e e' : Ekf K} {s : FidState K} {c : Mat K}
    (h : registerFiducial N e s c = .ok e') (k : Nat) : e'.records k = e.records k := by
  rcases registerFiducial_form h with ⟨_, rfl⟩ | ⟨_, out, _, h⟩
  · rfl
  · exact records_refresh h k

theorem augmentAtBack_augs {e e' : Ekf K} {k : Nat} (h : augmentAtBack e k = .ok e') : e'.state = e.state := by
  obtain ⟨_, _, _, _, rfl⟩ := augmentAtBack_form h; rfl

/-- Effect of a frame on the windows. -/
theorem records_frame {N : Prim K} {e e' : Ekf K} {cam frame : Nat} (h : augmentFrame N e cam frame = .ok e') (k : Nat) :
    (¬ e.ClonesFrame cam ∧ e'.records k = e.records k) ∨
    (e.ClonesFrame cam ∧ e'.records k =
      if k = cam then
        (if (e.window cam).length + 1 ≤ e.maxTrackLength then e.records cam ++ [e.poseClone frame]
         else (e.records cam ++ [e.poseClone frame]).drop 1)
      else e.records k) := by
  rcases augmentFrame_form h with ⟨hc, rfl⟩ | ⟨hc, e1, h1, h2⟩
  · exact .inl ⟨hc, rfl⟩
  · refine .inr ⟨hc, ?_⟩
    have e2 : e'.records k = e1.records k := by unfold records window; rw [augmentAtBack_augs h2]
    rw [e2]
    rcases h1 with ⟨hl, h1⟩ | ⟨hl, first, rest, out, hw, _, h1⟩
    · rw [records_refresh h1]
      dsimp only
      by_cases hk : k = cam
      · subst hk
        rw [if_pos rfl, if_pos (by exact hl), UMap.getD_insert_self, List.map_append]
        rfl
      · rw [if_neg hk, UMap.getD_insert_ne _ _ _ hk]
        rfl
    · rw [records_refresh h1]
      dsimp only
      by_cases hk : k = cam
      · subst hk
        rw [if_pos rfl, if_neg (by unfold window; omega), UMap.getD_insert_self]
        have : (UMap.getD e.state.augs k [] ++ [e.newClone frame]).map AugState.record =
            (first :: rest).map AugState.record := by rw [hw]
        rw [List.map_append] at this
        have h3 : e.records k ++ [e.poseClone frame] = (first :: rest).map AugState.record := this
        rw [h3]
        rfl
      · rw [if_neg hk, UMap.getD_insert_ne _ _ _ hk]
        rfl

/-- The pruning rule, youngest first: a clone goes if the next younger surviving clone is older than `d` at time `now`. -/
def prune (now d : K) : List (AugState K) → List (AugState K)
  | [] => []
  | a :: l => match prune now d l with
    | [] => [a]
    | b :: r => if now - b.time > d then b :: r else a :: b :: r

theorem prune_ne_nil {now d : K} {l : List (AugState K)} (h : l ≠ []) : prune now d l ≠ [] := by
  cases l with
  | nil => exact absurd rfl h
  | cons a l =>
    unfold prune
    split
    · simp
    · split <;> simp

theorem prune_record (now d : K) (l : List (AugState K)) :
    prune now d (l.map AugState.record) = (prune now d l).map AugState.record := by
  induction l with
  | nil => rfl
  | cons a l ih =>
    simp only [List.map_cons, prune, ih]
    cases prune now d l with
    | nil => rfl
    | cons b r =>
      simp only [List.map_cons]
      show (if now - b.time > d then _ else _) = _
      split <;> simp

theorem length_records (e : Ekf K) (k : Nat) : (e.records k).length = (e.window k).length := by simp [records]

theorem records_getElem? (e : Ekf K) (k i : Nat) : (e.records k)[i]? = ((e.window k)[i]?).map AugState.record := by
  simp [records]

theorem records_pruneAt {N : Prim K} {e e' : Ekf K} {i : Nat} (h : pruneAt N e i = .ok e') (k : Nat) :
    Frame2 e e' ∧ e'.augPrevTime = e.augPrevTime ∧ e'.frameReceived = e.frameReceived ∧ e'.state.body = { e.state.body with index := e'.state.body.index } ∧
    (k ≠ 0 → e'.records k = e.records k) ∧
    ∃ next, (e.records 0)[i + 1]? = some next ∧
      e'.records 0 = if e.currentTime - next.time > e.maxTrackDuration then (e.records 0).eraseIdx i else e.records 0 := by
  obtain ⟨next, hn, h⟩ := pruneAt_form h
  rcases h with ⟨hc, rfl⟩ | ⟨hc, a, out, ha, _, h⟩
  · refine ⟨Frame2.refl _, rfl, rfl, rfl, fun _ => rfl, next.record, ?_, ?_⟩
    · rw [records_getElem?]; unfold window; rw [hn]; rfl
    · rw [if_neg (by exact hc)]
  · have hf := refreshIndices_frame h
    refine ⟨(frame2_of _ _ _ _ _ _ _ _ _ _).trans (frame2_refresh h), by rw [hf.1], by rw [hf.1], by rw [hf.2], fun hk => ?_, next.record, ?_, ?_⟩
    · rw [records_refresh h]; dsimp only; rw [UMap.getD_insert_ne _ _ _ hk]; rfl
    · rw [records_getElem?]; unfold window; rw [hn]; rfl
    · rw [if_pos (by exact hc), records_refresh h]
      dsimp only
      rw [UMap.getD_insert_self, ← List.eraseIdx_map]
      rfl

theorem records_pruneLoop {N : Prim K} : ∀ {n : Nat} {e e' : Ekf K}, pruneLoop N n e = .ok e' →
    ∀ (l r : List (AugState K)), l.length = n → r ≠ [] →
      e.records 0 = l ++ prune e.currentTime e.maxTrackDuration r →
    Frame2 e e' ∧ e'.augPrevTime = e.augPrevTime ∧ e'.frameReceived = e.frameReceived ∧
    e'.state.body = { e.state.body with index := e'.state.body.index } ∧
    (∀ k, k ≠ 0 → e'.records k = e.records k) ∧
      e'.records 0 = prune e.currentTime e.maxTrackDuration (l ++ r)
  | 0, e, e', h, l, r, hl, hr, hw => by
    cases h
    rw [List.length_eq_zero_iff] at hl
    subst hl
    exact ⟨Frame2.refl _, rfl, rfl, rfl, fun _ _ => rfl, hw⟩
  | n + 1, e, e', h, l, r, hl, hr, hw => by
    simp only [pruneLoop, bind_ok_iff] at h
    obtain ⟨e1, h1, h2⟩ := h
    obtain ⟨f1, p1, q1, b1, k1, next, hn, w1⟩ := records_pruneAt h1 0
    obtain ⟨l', a, rfl⟩ : ∃ l' a, l = l' ++ [a] := by
      have hne : l ≠ [] := by rintro rfl; simp at hl
      exact ⟨l.dropLast, l.getLast hne, (List.dropLast_append_getLast hne).symm⟩
    have hl' : l'.length = n := by simpa using hl
    obtain ⟨b, rr, hp⟩ : ∃ b rr, prune e.currentTime e.maxTrackDuration r = b :: rr := by
      cases hx : prune e.currentTime e.maxTrackDuration r with
      | nil => exact absurd hx (prune_ne_nil hr)
      | cons b rr => exact ⟨b, rr, rfl⟩
    rw [hw, hp] at hn w1
    have hnb : next = b := by
      have : (l' ++ [a] ++ b :: rr)[n + 1]? = some b := by
        rw [List.getElem?_append_right (by simp [hl'])]
        simp [hl']
      rw [this] at hn
      exact (Option.some.inj hn).symm
    subst hnb
    have key : e1.records 0 = l' ++ prune e.currentTime e.maxTrackDuration (a :: r) := by
      rw [w1]
      simp only [prune, hp]
      split
      · rw [List.append_assoc, List.eraseIdx_append_of_length_le (by omega), hl', Nat.sub_self]
        rfl
      · simp
    have hct := f1.currentTime
    have hmd := f1.trackDuration
    rw [← hct, ← hmd] at key
    obtain ⟨f2, p2, q2, b2, k2, w2⟩ := records_pruneLoop h2 l' (a :: r) hl' (by simp) key
    refine ⟨f1.trans f2, p2.trans p1, q2.trans q1, by rw [b2, b1], fun k hk => ?_, ?_⟩
    · rw [k2 k hk]
      exact (records_pruneAt h1 k).2.2.2.2.1 hk
    · rw [w2, hct, hmd]; simp

theorem prune_singleton (now d : K) (a : AugState K) : prune now d [a] = [a] := rfl

/-- Effect of the whole pruning loop. -/
theorem records_pruneAll {N : Prim K} {e e' : Ekf K} (h : pruneLoop N ((e.window 0).length - 1) e = .ok e') :
    Frame2 e e' ∧ e'.augPrevTime = e.augPrevTime ∧ e'.frameReceived = e.frameReceived ∧
    e'.state.body = { e.state.body with index := e'.state.body.index } ∧
    (∀ k, k ≠ 0 → e'.records k = e.records k) ∧
    e'.records 0 = prune e.currentTime e.maxTrackDuration (e.records 0) := by
  by_cases hne : e.records 0 = []
  · have : (e.window 0).length = 0 := by rw [← length_records, hne]; rfl
    rw [this] at h
    cases h
    exact ⟨Frame2.refl _, rfl, rfl, rfl, fun _ _ => rfl, by rw [hne]; rfl⟩
  · have hs : (e.records 0).dropLast ++ [(e.records 0).getLast hne] = e.records 0 := List.dropLast_append_getLast hne
    have := records_pruneLoop h (e.records 0).dropLast [(e.records 0).getLast hne]
      (by rw [List.length_dropLast, length_records]) (by simp) (by rw [prune_singleton, hs])
    rwa [hs] at this

/-- Effect of time- or error-driven cloning on the windows. -/
theorem records_timed {N : Prim K} {e e' : Ekf K} (h : augmentTimed N e = .ok e') :
    (¬ AugType.Timed e.augType ∧ e' = e) ∨
    (AugType.Timed e.augType ∧ (∀ k, k ≠ 0 → e'.records k = e.records k) ∧ ∃ due,
      cloneDue N e (e.window 0) = .ok due ∧
      ((¬ (due = true ∧ e.frameReceived = true) ∧ e'.augPrevTime = e.augPrevTime ∧ e'.frameReceived = e.frameReceived ∧
        e'.records 0 = prune e.currentTime e.maxTrackDuration (e.records 0)) ∨
       ((due = true ∧ e.frameReceived = true) ∧ e'.augPrevTime = some e.currentTime ∧ e'.frameReceived = false ∧
        e'.records 0 = prune e.currentTime e.maxTrackDuration (e.records 0) ++ [e.poseClone 0]))) := by
  rcases augmentTimed_form h with ⟨ht, rfl⟩ | ⟨ht, due, e1, hd, hp, h⟩
  · exact .inl ⟨ht, rfl⟩
  · have htr : ∀ k, records { e with state := { e.state with augs := e.state.augs.touch 0 [] } } k = e.records k := by
      intro k; unfold records window; dsimp only; rw [UMap.getD_touch]
    have hp' := records_pruneAll (e := { e with state := { e.state with augs := e.state.augs.touch 0 [] } }) (e' := e1)
      (by unfold window; dsimp only; rw [UMap.getD_touch]; exact hp)
    obtain ⟨f1, p1, q1, b1, k1, w1⟩ := hp'
    simp only [htr] at k1 w1
    refine .inr ⟨ht, ?_⟩
    rcases h with ⟨hc, rfl⟩ | ⟨hc, e2, e3, h2, h3, rfl⟩
    · exact ⟨k1, due, hd, .inl ⟨by rw [q1] at hc; exact hc, p1, q1, w1⟩⟩
    · have hs3 := augmentAtBack_augs h3
      have r3 : ∀ k, records { e3 with frameReceived := false } k = e2.records k := by
        intro k; unfold records window; dsimp only; rw [hs3]
      have hf2 := refreshIndices_frame h2
      have hp3 : e3.augPrevTime = e2.augPrevTime := by
        obtain ⟨_, _, _, _, rfl⟩ := augmentAtBack_form h3; rfl
      refine ⟨fun k hk => ?_, due, hd, .inr ⟨by rw [q1] at hc; exact hc, ?_, rfl, ?_⟩⟩
      · rw [r3, records_refresh h2]
        dsimp only
        rw [UMap.getD_insert_ne _ _ _ hk]
        exact k1 k hk
      · show e3.augPrevTime = _
        rw [hp3, hf2.1]
        exact congrArg some f1.currentTime
      · rw [r3, records_refresh h2]
        dsimp only
        rw [UMap.getD_insert_self, List.map_append]
        have : (UMap.getD e1.state.augs 0 []).map AugState.record = _ := w1
        rw [this]
        congr 1
        show [e1.poseClone 0] = [e.poseClone 0]
        unfold poseClone
        rw [f1.currentTime, b1]

/-- Cloning and pruning do not touch the body (its index is rewritten with 0). -/
theorem augmentTimed_body {N : Prim K} {e e' : Ekf K} (h : augmentTimed N e = .ok e') :
    e'.state.body = { e.state.body with index := e'.state.body.index } := by
  rcases augmentTimed_form h with ⟨ht, rfl⟩ | ⟨ht, due, e1, hd, hp, h⟩
  · rfl
  · have hp' := records_pruneAll (e := { e with state := { e.state with augs := e.state.augs.touch 0 [] } }) (e' := e1)
      (by unfold window; dsimp only; rw [UMap.getD_touch]; exact hp)
    obtain ⟨f1, p1, q1, b1, k1, w1⟩ := hp'
    rcases h with ⟨hc, rfl⟩ | ⟨hc, e2, e3, h2, h3, rfl⟩
    · exact b1
    · have hs3 := augmentAtBack_augs h3
      have b2 := refreshIndices_frame h2
      show e3.state.body = { e.state.body with index := e3.state.body.index }
      rw [hs3, b2.2, b1]

/-- Frame and time of every clone of a window. -/
def stamps (e : Ekf K) (k : Nat) : List (Nat × K) := (e.window k).map AugState.stamp

theorem stamps_of_records {e e' : Ekf K} {k : Nat} (h : e'.records k = e.records k) : e'.stamps k = e.stamps k := by
  have hs : ∀ x : Ekf K, x.stamps k = (x.records k).map AugState.stamp := by
    intro x; unfold stamps records; rw [List.map_map]; rfl
  rw [hs, hs, h]

theorem stamps_eq (e : Ekf K) (k : Nat) : e.stamps k = (e.records k).map AugState.stamp := by
  unfold stamps records; rw [List.map_map]; rfl

theorem addVecAt_stamp {N : Prim K} {a a' : AugState K} {v : Vec K} {i j : Nat} (h : a.addVecAt N v i = .ok (a', j)) :
    a.stamp = a'.stamp := by
  unfold AugState.addVecAt at h
  simp only [pure_res, bind_ok_iff, Except.ok.injEq, Prod.mk.injEq] at h
  obtain ⟨_, _, _, _, rfl, _⟩ := h; rfl

theorem forall₂_find {α : Type} {R : α → α → Prop} {m m' : UMap α}
    (h : List.Forall₂ (fun x y : Nat × α => x.1 = y.1 ∧ R x.2 y.2) m m') (k : Nat) :
    (UMap.find? m k = none ∧ UMap.find? m' k = none) ∨
      ∃ a b, UMap.find? m k = some a ∧ UMap.find? m' k = some b ∧ R a b := by
  induction h with
  | nil => exact .inl ⟨rfl, rfl⟩
  | @cons x y xs ys hxy _ ih =>
    obtain ⟨k1, a⟩ := x
    obtain ⟨k2, b⟩ := y
    obtain ⟨h1, h2⟩ := hxy
    dsimp only at h1 h2
    subst h1
    by_cases hk : k1 = k
    · exact .inr ⟨a, b, by simp [UMap.find?, hk], by simp [UMap.find?, hk], h2⟩
    · simpa [UMap.find?, hk] using ih

theorem addVec_stamps {N : Prim K} {s s' : State K} {v : Vec K} (h : s.addVec N v = .ok s') (k : Nat) :
    (UMap.getD s'.augs k []).map AugState.stamp = (UMap.getD s.augs k []).map AugState.stamp := by
  unfold State.addVec at h
  simp only [bind_ok_iff, pure_res, Except.ok.injEq] at h
  obtain ⟨bp, hbp, body, hbody, ⟨imus, i1⟩, h1, ⟨gpss, i2⟩, h2, ⟨cams, i3⟩, h3, ⟨fids, i4⟩, h4, ⟨augs, i5⟩, h5, rfl⟩ := h
  have := forall₂_find (R := fun w w' : List (AugState K) => w.map AugState.stamp = w'.map AugState.stamp) (loopMap_rel (R := fun w w' : List (AugState K) => w.map AugState.stamp = w'.map AugState.stamp)
    (fun w i w' j h => by
      have hr := loopIdx_rel (R := fun a b : AugState K => a.stamp = b.stamp) (fun a i b j h => addVecAt_stamp h) h
      clear h
      induction hr with
      | nil => rfl
      | cons h _ ih => simp only [List.map_cons, h, ih]) h5) k
  show (UMap.getD augs k []).map AugState.stamp = _
  unfold UMap.getD
  rcases this with ⟨a1, a2⟩ | ⟨a, b, a1, a2, hr⟩
  · rw [a1, a2]
  · rw [a1, a2]; exact hr.symm

theorem stamps_kalman {N : Prim K} {e e' : Ekf K} {j : Mat K} {r : Vec K} {n : Mat K}
    (h : kalmanUpdate N e j r n = .ok e') (k : Nat) : e'.stamps k = e.stamps k := by
  obtain ⟨s, c, v, rfl, hs, _⟩ := kalmanUpdate_form h
  exact addVec_stamps hs k

theorem records_predict {N : Prim K} {e e' : Ekf K} {t : K} (h : predict N e t = .ok e') :
    (t < e.currentTime ∧ e' = e) ∨ (e.currentTime ≤ t ∧ ∃ b out,
      (∀ k, records { e with state := { e.state with body := b }, cov := out, currentTime := t } k = e.records k) ∧
      augmentTimed N { e with state := { e.state with body := b }, cov := out, currentTime := t } = .ok e') := by
  rcases predict_form h with h | ⟨ht, b, out, _, h⟩
  · exact .inl h
  · exact .inr ⟨ht, b, out, fun _ => rfl, h⟩

/-- Calls that neither clone nor prune leave frames and times of every window alone. -/
theorem stamps_step {N : Prim K} {e e' : Ekf K} {op : Op K} (h : step N e op = .ok e')
    (hp : ∀ t, op ≠ .predict t) (hf : ∀ c f, op ≠ .frame c f) (k : Nat) : e'.stamps k = e.stamps k := by
  cases op with
  | registerIMU id s c => exact stamps_of_records (records_registerIMU h k)
  | registerGPS id s c => exact stamps_of_records (records_registerGPS h k)
  | registerCamera id s c => exact stamps_of_records (records_registerCamera h k)
  | registerFiducial s c => exact stamps_of_records (records_registerFiducial h k)
  | predict t => exact absurd rfl (hp t)
  | frame c f => exact absurd rfl (hf c f)
  | kalman j r n => exact stamps_kalman h k
  | getImu id => cases h; rfl
  | getGps id => cases h; rfl
  | getCam id => cases h; rfl
  | getAug c f t =>
    simp only [step, bind_ok_iff, pure_res, Except.ok.injEq] at h
    obtain ⟨r, h1, rfl⟩ := h
    obtain ⟨key, hk⟩ := getAugState_form h1
    rw [hk]
    unfold stamps window
    dsimp only
    rw [UMap.getD_touch]
  | initializeAt t b => cases h; rfl
  | setMaxTrackLength n => cases h; rfl
  | setGpsReference p a => cases h; rfl
  | setZeroAcceleration b => cases h; rfl
  | initializeGravity => cases h; rfl
  | localTime t =>
    simp only [step, Except.ok.injEq] at h
    subst h
    unfold calculateLocalTime
    split <;> rfl
  | setBodyProcessNoise v => cases h; rfl
  | attemptGpsInit t x f =>
    obtain ⟨_, _, _, _, rfl⟩ := attemptGpsInit_form h
    rfl
  | setBodyMotion a w α => cases h; rfl

/-- Effect of a prediction on the stamps. -/
theorem stamps_predict {N : Prim K} {e e' : Ekf K} {t : K} (h : predict N e t = .ok e') :
    (e' = e) ∨ (e.currentTime ≤ t ∧ (∀ k, k ≠ 0 → e'.stamps k = e.stamps k) ∧
      (e'.records 0 = e.records 0 ∨
       AugType.Timed e.augType ∧ (e'.records 0 = prune t e.maxTrackDuration (e.records 0) ∨
       ∃ b, b.time = t ∧ e'.records 0 = prune t e.maxTrackDuration (e.records 0) ++ [b]))) := by
  rcases records_predict h with ⟨_, rfl⟩ | ⟨ht, b, out, hr, h⟩
  · exact .inl rfl
  · refine .inr ⟨ht, ?_⟩
    rcases records_timed h with ⟨_, rfl⟩ | ⟨hty, hk, due, _, h⟩
    · exact ⟨fun k _ => stamps_of_records (hr k), .inl (hr 0)⟩
    · refine ⟨fun k hk0 => ?_, ?_⟩
      · rw [stamps_eq, hk k hk0, hr k, ← stamps_eq]
      · rcases h with ⟨_, _, _, h⟩ | ⟨_, _, _, h⟩
        · right; exact ⟨hty, .inl (by rw [h, hr 0])⟩
        · right; exact ⟨hty, .inr ⟨_, rfl, by rw [h, hr 0]⟩⟩

theorem records_getAug {N : Prim K} {e : Ekf K} {cam frame : Nat} {t : K} {r : AugState K × Ekf K}
    (h : getAugState N e cam frame t = .ok r) (k : Nat) : r.2.records k = e.records k := by
  obtain ⟨key, hk⟩ := getAugState_form h
  rw [hk]
  unfold records window; dsimp only; rw [UMap.getD_touch]

theorem length_stamps (e : Ekf K) (k : Nat) : (e.stamps k).length = (e.window k).length := by simp [stamps]

end Ekf
end EkfCal
