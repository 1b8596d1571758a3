import Verif.Lemmas.Keys

/-! # One canonical shape for every structural call

Each lemma turns "the call returned `e'`" into the sequence of primitive changes that produced `e'`. -/

set_option linter.unusedSectionVars false
set_option linter.unusedSimpArgs false

namespace EkfCal
namespace Ekf
variable {K : Type} [Field K] [LinearOrder K]

/-- The covariance after inserting the caller's block of size `n` at position `p` (only if `b`). -/
def Inserted (b : Bool) (c cov : Mat K) (n p : Nat) (out : Mat K) : Prop :=
  if b then ∃ blk, c.block 0 0 n n = .ok blk ∧ insertInMatrix blk cov p p = .ok out else out = cov

theorem registerIMU_form {N : Prim K} {e e' : Ekf K} {id : Nat} {s : ImuState K} {c : Mat K}
    (h : registerIMU N e id s c = .ok e') :
    ((e.state.imus.find? id).isSome = true ∧ e' = e) ∨
    (e.state.imus.find? id = none ∧ ∃ out,
      Inserted (s.isExtrinsic || s.isIntrinsic) c e.cov s.size (18 + e.imuStateSize) out ∧
      refreshIndices N { e with
        state := { e.state with imus := e.state.imus.insert id s }
        cov := out
        stateSize := e.stateSize + s.dim
        imuStateSize := e.imuStateSize + s.dim } = .ok e') := by
  unfold registerIMU at h
  split at h
  · rename_i hf
    cases h; exact .inl ⟨hf, rfl⟩
  · rename_i hf
    refine .inr ⟨by simpa using hf, ?_⟩
    cases he : s.isExtrinsic <;> cases hi : s.isIntrinsic <;>
      simp only [he, hi, Bool.or_false, Bool.or_true, Bool.false_eq_true, if_false, if_true, bind_ok_iff, pure_res, ok_bind] at h
    · exact ⟨e.cov, rfl, by simpa [ImuState.dim, he, hi] using h⟩
    all_goals
      obtain ⟨blk, h1, out, h2, h⟩ := h
      refine ⟨out, ⟨blk, h1, h2⟩, ?_⟩
      simpa [ImuState.dim, he, hi, imuExtSize, imuIntSize, Nat.add_assoc] using h

theorem registerGPS_form {N : Prim K} {e e' : Ekf K} {id : Nat} {s : GpsState K} {c : Mat K}
    (h : registerGPS N e id s c = .ok e') :
    ((e.state.gpss.find? id).isSome = true ∧ e' = e) ∨
    (e.state.gpss.find? id = none ∧ ∃ out,
      Inserted s.isExtrinsic c e.cov s.size (18 + e.imuStateSize + e.gpsStateSize) out ∧
      refreshIndices N { e with
        state := { e.state with gpss := e.state.gpss.insert id s }
        cov := out
        stateSize := e.stateSize + s.dim
        gpsStateSize := e.gpsStateSize + s.dim } = .ok e') := by
  unfold registerGPS at h
  split at h
  · rename_i hf
    cases h; exact .inl ⟨hf, rfl⟩
  · rename_i hf
    refine .inr ⟨by simpa using hf, ?_⟩
    cases he : s.isExtrinsic <;>
      simp only [he, Bool.false_eq_true, if_false, if_true, bind_ok_iff, pure_res, ok_bind] at h
    · exact ⟨e.cov, rfl, by simpa [GpsState.dim, he] using h⟩
    · obtain ⟨blk, h1, out, h2, h⟩ := h
      refine ⟨out, ⟨blk, h1, h2⟩, ?_⟩
      simpa [GpsState.dim, he, gpsExtSize] using h

/-- The camera limits and primary camera that a new camera with the given rate leads to. -/
def withCamera (e : Ekf K) (id : Nat) (rate : K) : Ekf K :=
  { e with
    maxFramePeriod := max e.maxFramePeriod (1 / rate)
    maxTrackDuration := max e.maxFramePeriod (1 / rate) * ((e.maxTrackLength : K) + 1)
    minAugPeriod := min e.minAugPeriod (1 / rate)
    primaryCameraId := if e.primaryCameraId = 0 then id else e.primaryCameraId }

theorem registerCamera_form {N : Prim K} {e e' : Ekf K} {id : Nat} {s : CamState K} {c : Mat K}
    (h : registerCamera N e id s c = .ok e') :
    ((e.state.cams.find? id).isSome = true ∧ e' = e) ∨
    (e.state.cams.find? id = none ∧ s.rate ≠ 0 ∧ ∃ out,
      Inserted s.isExtrinsic c e.cov s.size (18 + e.imuStateSize + e.gpsStateSize + e.camStateSize) out ∧
      refreshIndices N { withCamera e id s.rate with
        state := { e.state with cams := e.state.cams.insert id s }
        cov := out
        stateSize := e.stateSize + s.dim
        camStateSize := e.camStateSize + s.dim } = .ok e') := by
  unfold registerCamera at h
  split at h
  · rename_i hf
    cases h; exact .inl ⟨hf, rfl⟩
  · rename_i hf
    simp only [bind_ok_iff, guardUB_ok_iff] at h
    obtain ⟨_, hr, h⟩ := h
    refine .inr ⟨by simpa using hf, hr, ?_⟩
    cases he : s.isExtrinsic <;>
      simp only [he, Bool.false_eq_true, if_false, if_true, bind_ok_iff, pure_res, ok_bind] at h
    · refine ⟨e.cov, rfl, ?_⟩
      unfold withCamera
      by_cases hp : e.primaryCameraId = 0 <;> simp only [hp, if_true, if_false] at h ⊢ <;>
        simpa [CamState.dim, he] using h
    · by_cases hp : e.primaryCameraId = 0 <;> simp only [hp, if_true, if_false] at h ⊢ <;>
      · first
          | obtain ⟨_, ⟨blk, h1, out, h2, rfl⟩, h⟩ := h
          | obtain ⟨blk, h1, out, h2, h⟩ := h
        refine ⟨out, ⟨blk, h1, h2⟩, ?_⟩
        unfold withCamera
        simpa [CamState.dim, he, camExtSize, hp] using h

theorem registerFiducial_form {N : Prim K} {e e' : Ekf K} {s : FidState K} {c : Mat K}
    (h : registerFiducial N e s c = .ok e') :
    ((e.state.fids.find? s.id).isSome = true ∧ e' = e) ∨
    (e.state.fids.find? s.id = none ∧ ∃ out,
      Inserted s.isExtrinsic c e.cov s.size e.stateSize out ∧
      refreshIndices N { e with
        state := { e.state with fids := e.state.fids.insert s.id s }
        cov := out
        stateSize := e.stateSize + s.dim
        fidStateSize := e.fidStateSize + s.dim } = .ok e') := by
  unfold registerFiducial at h
  split at h
  · rename_i hf
    cases h; exact .inl ⟨hf, rfl⟩
  · rename_i hf
    refine .inr ⟨by simpa using hf, ?_⟩
    cases he : s.isExtrinsic <;>
      simp only [he, Bool.false_eq_true, if_false, if_true, bind_ok_iff, pure_res, ok_bind] at h
    · exact ⟨e.cov, rfl, by simpa [FidState.dim, he] using h⟩
    · obtain ⟨blk, h1, out, h2, h⟩ := h
      refine ⟨out, ⟨blk, h1, h2⟩, ?_⟩
      simpa [FidState.dim, he, fidExtSize] using h

theorem augmentAtBack_form {e e' : Ekf K} {k : Nat} (h : augmentAtBack e k = .ok e') :
    ∃ a out, (e.state.augs.getD k []).getLast? = some a ∧ augmentCovariance e.useRoot e.cov a.index = .ok out ∧
      e' = { e with cov := out } := by
  unfold augmentAtBack at h
  split at h
  · cases h
  · rename_i a ha
    simp only [bind_ok_iff, pure_res, Except.ok.injEq] at h
    obtain ⟨out, h1, rfl⟩ := h
    exact ⟨a, out, ha, h1, rfl⟩

theorem augmentFrame_form {N : Prim K} {e e' : Ekf K} {cam frame : Nat} (h : augmentFrame N e cam frame = .ok e') :
    (¬ (e.augType = .all ∨ (e.augType = .primary ∧ cam = e.primaryCameraId)) ∧ e' = { e with frameReceived := true }) ∨
    ((e.augType = .all ∨ (e.augType = .primary ∧ cam = e.primaryCameraId)) ∧ ∃ e1,
      (((e.state.augs.getD cam []).length + 1 ≤ e.maxTrackLength ∧
        refreshIndices N { e with
          frameReceived := true
          state := { e.state with augs := e.state.augs.insert cam (e.state.augs.getD cam [] ++ [e.newClone frame]) }
          stateSize := e.stateSize + 6
          augStateSize := e.augStateSize + 6 } = .ok e1) ∨
       (e.maxTrackLength < (e.state.augs.getD cam []).length + 1 ∧ ∃ first rest out,
        e.state.augs.getD cam [] ++ [e.newClone frame] = first :: rest ∧
        removeFromMatrix e.cov first.index first.index 6 = .ok out ∧
        refreshIndices N { e with
          frameReceived := true
          state := { e.state with augs := e.state.augs.insert cam rest }
          cov := out } = .ok e1)) ∧
      augmentAtBack e1 cam = .ok e') := by
  unfold augmentFrame at h
  dsimp only at h
  split at h
  · rename_i ha
    refine .inr ⟨ha, ?_⟩
    split at h
    · rename_i hl
      simp only [bind_ok_iff, pure_res, ok_bind] at h
      obtain ⟨e1, h1, h2⟩ := h
      exact ⟨e1, .inl ⟨by simpa using hl, h1⟩, h2⟩
    · rename_i hl
      split at h
      · cases h
      · rename_i first rest hw
        simp only [bind_ok_iff, pure_res, ok_bind] at h
        obtain ⟨out, h0, e1, h1, h2⟩ := h
        exact ⟨e1, .inr ⟨by simpa using hl, first, rest, out, hw, h0, h1⟩, h2⟩
  · rename_i ha
    cases h; exact .inl ⟨ha, rfl⟩

theorem pruneAt_form {N : Prim K} {e e' : Ekf K} {i : Nat} (h : pruneAt N e i = .ok e') :
    ∃ next, (e.state.augs.getD 0 [])[i + 1]? = some next ∧
    ((¬ (e.currentTime - next.time > e.maxTrackDuration) ∧ e' = e) ∨
     (e.currentTime - next.time > e.maxTrackDuration ∧ ∃ a out, (e.state.augs.getD 0 [])[i]? = some a ∧
      removeFromMatrix e.cov a.index a.index 6 = .ok out ∧
      refreshIndices N { e with
        stateSize := e.stateSize - 6
        augStateSize := e.augStateSize - 6
        state := { e.state with augs := e.state.augs.insert 0 ((e.state.augs.getD 0 []).eraseIdx i) }
        cov := out } = .ok e')) := by
  unfold pruneAt at h
  dsimp only at h
  split at h
  · cases h
  · rename_i next hn
    refine ⟨next, hn, ?_⟩
    have hlt : i < (e.state.augs.getD 0 []).length := by
      have := (List.getElem?_eq_some_iff.1 hn).1; omega
    split at h
    · rename_i hc
      split at h
      · cases h
      · rename_i a ha
        simp only [bind_ok_iff] at h
        obtain ⟨out, h1, h2⟩ := h
        exact .inr ⟨hc.1, a, out, ha, h1, h2⟩
    · rename_i hc
      cases h
      exact .inl ⟨fun hx => hc ⟨hx, hlt⟩, rfl⟩

/-- Cloning policies that follow the clock. -/
def AugType.Timed (t : AugType) : Prop := t = .time ∨ t = .error

theorem augmentTimed_form {N : Prim K} {e e' : Ekf K} (h : augmentTimed N e = .ok e') :
    (¬ AugType.Timed e.augType ∧ e' = e) ∨
    (AugType.Timed e.augType ∧ ∃ due e1, cloneDue N e (e.state.augs.getD 0 []) = .ok due ∧
      pruneLoop N ((e.state.augs.getD 0 []).length - 1)
        { e with state := { e.state with augs := e.state.augs.touch 0 [] } } = .ok e1 ∧
      ((¬ (due = true ∧ e1.frameReceived = true) ∧ e' = e1) ∨
       ((due = true ∧ e1.frameReceived = true) ∧ ∃ e2 e3,
        refreshIndices N { e1 with
          augPrevTime := some e1.currentTime
          state := { e1.state with augs := e1.state.augs.insert 0 (e1.state.augs.getD 0 [] ++ [e1.newClone 0]) }
          stateSize := e1.stateSize + 6
          augStateSize := e1.augStateSize + 6 } = .ok e2 ∧
        augmentAtBack e2 0 = .ok e3 ∧ e' = { e3 with frameReceived := false }))) := by
  unfold augmentTimed at h
  split at h
  · rename_i ht
    cases h
    refine .inl ⟨?_, rfl⟩
    unfold AugType.Timed
    rcases ht with ht | ht | ht <;> rw [ht] <;> simp
  · rename_i ht
    refine .inr ⟨?_, ?_⟩
    · unfold AugType.Timed
      cases hx : e.augType <;> simp_all
    · simp only [bind_ok_iff] at h
      obtain ⟨due, h0, e1, h1, h⟩ := h
      rw [UMap.getD_touch] at h1
      refine ⟨due, e1, h0, h1, ?_⟩
      split at h
      · rename_i hd
        simp only [bind_ok_iff, pure_res, Except.ok.injEq] at h
        obtain ⟨e2, h2, e3, h3, rfl⟩ := h
        exact .inr ⟨hd, e2, e3, h2, h3, rfl⟩
      · rename_i hd
        cases h
        exact .inl ⟨hd, rfl⟩

theorem predict_form {N : Prim K} {e e' : Ekf K} {t : K} (h : predict N e t = .ok e') :
    (t < e.currentTime ∧ e' = e) ∨
    (e.currentTime ≤ t ∧ ∃ b out,
      ((e.isGravityInitialized = false ∧ b = e.state.body ∧ out = e.cov) ∨
       (e.isGravityInitialized = true ∧ b = predictBody N e.isZeroAcceleration e.state.body (t - e.currentTime) ∧
        predictCov N e.useRoot e.stateSize e.cov e.processNoise (t - e.currentTime) = .ok out)) ∧
      augmentTimed N { e with state := { e.state with body := b }, cov := out, currentTime := t } = .ok e') := by
  unfold predict at h
  split at h
  · rename_i ht
    cases h; exact .inl ⟨ht, rfl⟩
  · rename_i ht
    refine .inr ⟨not_lt.1 ht, ?_⟩
    split at h <;> simp only [bind_ok_iff, pure_res, ok_bind] at h
    · rename_i hg
      obtain ⟨out, h1, h2⟩ := h
      exact ⟨_, out, .inr ⟨hg, rfl, h1⟩, h2⟩
    · rename_i hg
      exact ⟨_, _, .inl ⟨by simpa using hg, rfl, rfl⟩, h⟩

theorem getAugState_form {N : Prim K} {e : Ekf K} {cam frame : Nat} {t : K} {r : AugState K × Ekf K}
    (h : getAugState N e cam frame t = .ok r) :
    ∃ key, r.2 = { e with state := { e.state with augs := e.state.augs.touch key [] } } := by
  unfold getAugState at h
  split at h
  · cases h; exact ⟨_, rfl⟩
  · simp only [bind_ok_iff, pure_res, Except.ok.injEq] at h
    obtain ⟨a, _, rfl⟩ := h
    exact ⟨_, rfl⟩

end Ekf
end EkfCal
