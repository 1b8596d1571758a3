import Verif.Lemmas.Keys
import Verif.Lemmas.Forms
import Verif.Lemmas.Window

/-! # Registered sensors keep their calibration flags -/

set_option linter.unusedSectionVars false
set_option linter.unusedSimpArgs false

namespace EkfCal

/-- Every entry of `m` is an entry of `m'` with the same flags. -/
def UMap.FlagLE {V F : Type} (flag : V → F) (m m' : UMap V) : Prop :=
  ∀ k v, UMap.find? m k = some v → ∃ v', UMap.find? m' k = some v' ∧ flag v' = flag v

namespace UMap.FlagLE
variable {V F : Type} {flag : V → F}

theorem refl (m : UMap V) : FlagLE flag m m := fun _ v h => ⟨v, h, rfl⟩

theorem trans {a b c : UMap V} (h : FlagLE flag a b) (g : FlagLE flag b c) : FlagLE flag a c := fun k v hv => by
  obtain ⟨v1, h1, f1⟩ := h k v hv
  obtain ⟨v2, h2, f2⟩ := g k v1 h1
  exact ⟨v2, h2, f2.trans f1⟩

theorem of_insert {m : UMap V} {id : Nat} {s : V} (h : UMap.find? m id = none) : FlagLE flag m (UMap.insert m id s) := by
  intro k v hv
  have hk : k ≠ id := by rintro rfl; rw [h] at hv; cases hv
  exact ⟨v, by rw [UMap.find?_insert_ne _ _ hk]; exact hv, rfl⟩

theorem of_touch (m : UMap V) (id : Nat) (s : V) : FlagLE flag m (UMap.touch m id s) := by
  unfold UMap.touch
  split
  · exact refl m
  · rename_i h; exact of_insert h

theorem of_accum {g : V → Nat → V} {dim : V → Nat} (hg : ∀ a i, flag (g a i) = flag a) (m : UMap V) (i : Nat) :
    FlagLE flag m (accumIdx g dim m i) := by
  intro k v hv
  obtain ⟨j, hj⟩ := EkfCal.find?_accumIdx g dim m i k
  exact ⟨g v j, by rw [hj, hv]; rfl, hg v j⟩

theorem of_forall₂ {m m' : UMap V} (h : List.Forall₂ (fun x y : Nat × V => x.1 = y.1 ∧ flag y.2 = flag x.2) m m') :
    FlagLE flag m m' := by
  induction h with
  | nil => exact refl _
  | @cons a b l1 l2 h1 _ ih =>
    obtain ⟨k1, v1⟩ := a
    obtain ⟨k2, v2⟩ := b
    obtain ⟨rfl, h2⟩ := h1
    intro k v hv
    simp only [UMap.find?] at hv ⊢
    split at hv
    · cases hv; rename_i hk; rw [if_pos hk]; exact ⟨v2, rfl, h2⟩
    · rename_i hk; rw [if_neg hk]; exact ih k v hv

end UMap.FlagLE

namespace Ekf
variable {K : Type}

/-- Every sensor known in `s` is known in `s'` with the same calibration flags. -/
structure FlagsLE (s s' : State K) : Prop where
  imus : UMap.FlagLE (fun i : ImuState K => (i.isExtrinsic, i.isIntrinsic)) s.imus s'.imus
  gpss : UMap.FlagLE (fun i : GpsState K => i.isExtrinsic) s.gpss s'.gpss
  cams : UMap.FlagLE (fun i : CamState K => i.isExtrinsic) s.cams s'.cams
  fids : UMap.FlagLE (fun i : FidState K => i.isExtrinsic) s.fids s'.fids

theorem FlagsLE.refl (s : State K) : FlagsLE s s := ⟨.refl _, .refl _, .refl _, .refl _⟩

theorem FlagsLE.trans {a b c : State K} (h : FlagsLE a b) (g : FlagsLE b c) : FlagsLE a c :=
  ⟨h.1.trans g.1, h.2.trans g.2, h.3.trans g.3, h.4.trans g.4⟩

theorem flagsLE_reindex (s : State K) : FlagsLE s s.reindex :=
  ⟨.of_accum (g := ImuState.reindex) (fun _ _ => rfl) _ _, .of_accum (g := GpsState.reindex) (fun _ _ => rfl) _ _,
    .of_accum (g := CamState.reindex) (fun _ _ => rfl) _ _, .of_accum (g := FidState.reindex) (fun _ _ => rfl) _ _⟩

variable [Field K] [LinearOrder K]

theorem SameSensors.flagsLE {s s' : State K} (h : SameSensors s s') : FlagsLE s s' := by
  obtain ⟨h1, h2, h3, h4⟩ := h
  exact ⟨h1 ▸ .refl _, h2 ▸ .refl _, h3 ▸ .refl _, h4 ▸ .refl _⟩

theorem FlagsLE.pre {s b c : State K} (h : FlagsLE b c) (g : SameSensors s b) : FlagsLE s c := g.flagsLE.trans h

theorem flagsLE_refresh {N : Prim K} {e e' : Ekf K} (h : refreshIndices N e = .ok e') : FlagsLE e.state e'.state := by
  rw [refreshIndices_state h]; exact flagsLE_reindex _

theorem flagsLE_augmentFrame {N : Prim K} {e e' : Ekf K} {c f : Nat} (h : augmentFrame N e c f = .ok e') :
    FlagsLE e.state e'.state := by
  unfold augmentFrame at h
  dsimp only at h
  split at h
  · split at h
    · simp only [ok_bind, pure_res, bind_ok_iff] at h
      obtain ⟨e2, h2, h3⟩ := h
      rw [augmentAtBack_state h3]
      exact (flagsLE_refresh h2).pre ⟨rfl, rfl, rfl, rfl⟩
    · split at h
      · simp at h
      · simp only [ok_bind, pure_res, bind_ok_iff] at h
        obtain ⟨_, _, e2, h2, h3⟩ := h
        rw [augmentAtBack_state h3]
        exact (flagsLE_refresh h2).pre ⟨rfl, rfl, rfl, rfl⟩
  · cases h; exact FlagsLE.refl _

theorem flagsLE_pruneAt {N : Prim K} {e e' : Ekf K} {i : Nat} (h : pruneAt N e i = .ok e') :
    FlagsLE e.state e'.state := by
  unfold pruneAt at h
  dsimp only at h
  split at h
  · simp at h
  · split at h
    · split at h
      · simp at h
      · simp only [bind_ok_iff] at h
        obtain ⟨c, _, h⟩ := h
        exact (flagsLE_refresh h).pre ⟨rfl, rfl, rfl, rfl⟩
    · cases h; exact FlagsLE.refl _

theorem flagsLE_pruneLoop {N : Prim K} {n : Nat} {e e' : Ekf K} (h : pruneLoop N n e = .ok e') :
    FlagsLE e.state e'.state := by
  induction n generalizing e with
  | zero => cases h; exact FlagsLE.refl _
  | succ n ih =>
    simp only [pruneLoop, bind_ok_iff] at h
    obtain ⟨e1, h1, h2⟩ := h
    exact (flagsLE_pruneAt h1).trans (ih h2)

theorem flagsLE_augmentTimed {N : Prim K} {e e' : Ekf K} (h : augmentTimed N e = .ok e') :
    FlagsLE e.state e'.state := by
  unfold augmentTimed at h
  split at h
  · cases h; exact FlagsLE.refl _
  · simp only [bind_ok_iff] at h
    obtain ⟨due, _, e1, h1, h⟩ := h
    have f1 : FlagsLE e.state e1.state := (flagsLE_pruneLoop h1).pre ⟨rfl, rfl, rfl, rfl⟩
    split at h
    · simp only [bind_ok_iff, pure_res, Except.ok.injEq] at h
      obtain ⟨e2, h2, e3, h3, rfl⟩ := h
      dsimp only
      rw [augmentAtBack_state h3]
      exact f1.trans ((flagsLE_refresh h2).pre ⟨rfl, rfl, rfl, rfl⟩)
    · cases h; exact f1

theorem flagsLE_predict {N : Prim K} {e e' : Ekf K} {t : K} (h : predict N e t = .ok e') : FlagsLE e.state e'.state := by
  unfold predict at h
  split at h
  · cases h; exact FlagsLE.refl _
  · split at h
    · simp only [bind_ok_iff, pure_res, ok_bind] at h
      obtain ⟨c, _, h⟩ := h
      exact (flagsLE_augmentTimed h).pre ⟨rfl, rfl, rfl, rfl⟩
    · simp only [pure_res, ok_bind] at h
      exact (flagsLE_augmentTimed h).pre ⟨rfl, rfl, rfl, rfl⟩

theorem addVecAt_imu_flags {N : Prim K} {v : Vec K} {s s' : ImuState K} {i j : Nat} (h : s.addVecAt N v i = .ok (s', j)) :
    (s'.isExtrinsic, s'.isIntrinsic) = (s.isExtrinsic, s.isIntrinsic) := by
  unfold ImuState.addVecAt at h
  cases he : s.isExtrinsic <;> cases hi : s.isIntrinsic <;>
    simp only [he, hi, if_true, Bool.false_eq_true, if_false, ok_bind, pure_res, bind_ok_iff, Except.ok.injEq,
      Prod.mk.injEq] at h
  · obtain ⟨rfl, _⟩ := h; rw [he, hi]
  · obtain ⟨_, _, _, _, rfl, _⟩ := h; simp only [he, hi]
  · obtain ⟨_, _, _, _, rfl, _⟩ := h; simp only [he, hi]
  · obtain ⟨_, _, _, _, _, _, _, _, rfl, _⟩ := h; simp only [he, hi]

theorem addVecAt_gps_flags {v : Vec K} {s s' : GpsState K} {i j : Nat} (h : s.addVecAt v i = .ok (s', j)) :
    s'.isExtrinsic = s.isExtrinsic := by
  unfold GpsState.addVecAt at h
  split at h
  · simp only [bind_ok_iff, pure_res, Except.ok.injEq, Prod.mk.injEq] at h
    obtain ⟨_, _, rfl, _⟩ := h; rfl
  · cases h; rfl

theorem addVecAt_cam_flags {N : Prim K} {v : Vec K} {s s' : CamState K} {i j : Nat} (h : s.addVecAt N v i = .ok (s', j)) :
    s'.isExtrinsic = s.isExtrinsic := by
  unfold CamState.addVecAt at h
  split at h
  · simp only [bind_ok_iff, pure_res, Except.ok.injEq, Prod.mk.injEq] at h
    obtain ⟨_, _, _, _, rfl, _⟩ := h; rfl
  · cases h; rfl

theorem addVecAt_fid_flags {N : Prim K} {v : Vec K} {s s' : FidState K} {i j : Nat} (h : s.addVecAt N v i = .ok (s', j)) :
    s'.isExtrinsic = s.isExtrinsic := by
  unfold FidState.addVecAt at h
  split at h
  · simp only [bind_ok_iff, pure_res, Except.ok.injEq, Prod.mk.injEq] at h
    obtain ⟨_, _, _, _, rfl, _⟩ := h; rfl
  · cases h; rfl

theorem flagsLE_addVec {N : Prim K} {s s' : State K} {v : Vec K} (h : s.addVec N v = .ok s') : FlagsLE s s' := by
  unfold State.addVec at h
  simp only [bind_ok_iff, pure_res, Except.ok.injEq] at h
  obtain ⟨bp, hbp, body, hbody, ⟨imus, i1⟩, h1, ⟨gpss, i2⟩, h2, ⟨cams, i3⟩, h3, ⟨fids, i4⟩, h4, ⟨augs, i5⟩, h5, rfl⟩ := h
  exact ⟨.of_forall₂ (loopMap_rel (R := fun a b => (b.isExtrinsic, b.isIntrinsic) = (a.isExtrinsic, a.isIntrinsic))
      (fun _ _ _ _ h => addVecAt_imu_flags h) h1),
    .of_forall₂ (loopMap_rel (R := fun a b => b.isExtrinsic = a.isExtrinsic) (fun _ _ _ _ h => addVecAt_gps_flags h) h2),
    .of_forall₂ (loopMap_rel (R := fun a b => b.isExtrinsic = a.isExtrinsic) (fun _ _ _ _ h => addVecAt_cam_flags h) h3),
    .of_forall₂ (loopMap_rel (R := fun a b => b.isExtrinsic = a.isExtrinsic) (fun _ _ _ _ h => addVecAt_fid_flags h) h4)⟩

theorem flagsLE_step {N : Prim K} {e e' : Ekf K} {op : Op K} (h : step N e op = .ok e') :
    FlagsLE e.state e'.state := by
  cases op with
  | registerIMU id s c =>
    rcases registerIMU_form h with ⟨_, rfl⟩ | ⟨hn, _, _, h⟩
    · exact .refl _
    · have h3 := flagsLE_refresh h
      refine FlagsLE.trans ?_ h3
      exact ⟨.of_insert hn, .refl _, .refl _, .refl _⟩
  | registerGPS id s c =>
    rcases registerGPS_form h with ⟨_, rfl⟩ | ⟨hn, _, _, h⟩
    · exact .refl _
    · have h3 := flagsLE_refresh h
      refine FlagsLE.trans ?_ h3
      exact ⟨.refl _, .of_insert hn, .refl _, .refl _⟩
  | registerCamera id s c =>
    rcases registerCamera_form h with ⟨_, rfl⟩ | ⟨hn, _, _, _, h⟩
    · exact .refl _
    · have h3 := flagsLE_refresh h
      refine FlagsLE.trans ?_ h3
      exact ⟨.refl _, .refl _, .of_insert hn, .refl _⟩
  | registerFiducial s c =>
    rcases registerFiducial_form h with ⟨_, rfl⟩ | ⟨hn, _, _, h⟩
    · exact .refl _
    · have h3 := flagsLE_refresh h
      refine FlagsLE.trans ?_ h3
      exact ⟨.refl _, .refl _, .refl _, .of_insert hn⟩
  | predict t => exact flagsLE_predict h
  | frame c f => exact flagsLE_augmentFrame h
  | kalman j r n =>
    obtain ⟨s, c, v, rfl, hs, _⟩ := kalmanUpdate_form h
    exact flagsLE_addVec hs
  | getImu id => cases h; exact ⟨.of_touch _ _ _, .refl _, .refl _, .refl _⟩
  | getGps id => cases h; exact ⟨.refl _, .of_touch _ _ _, .refl _, .refl _⟩
  | getCam id => cases h; exact ⟨.refl _, .refl _, .of_touch _ _ _, .refl _⟩
  | getAug c f t =>
    simp only [step, bind_ok_iff, pure_res, Except.ok.injEq] at h
    obtain ⟨r, h1, rfl⟩ := h
    unfold getAugState at h1
    split at h1
    · cases h1; exact SameSensors.flagsLE ⟨rfl, rfl, rfl, rfl⟩
    · simp only [bind_ok_iff, pure_res, Except.ok.injEq] at h1
      obtain ⟨a, _, rfl⟩ := h1
      exact SameSensors.flagsLE ⟨rfl, rfl, rfl, rfl⟩
  | initializeAt t b => cases h; exact SameSensors.flagsLE ⟨rfl, rfl, rfl, rfl⟩
  | setMaxTrackLength n => cases h; exact FlagsLE.refl _
  | setGpsReference p a => cases h; exact FlagsLE.refl _
  | setZeroAcceleration b => cases h; exact FlagsLE.refl _
  | initializeGravity => cases h; exact FlagsLE.refl _
  | localTime t =>
    simp only [step, Except.ok.injEq, calculateLocalTime] at h
    split at h <;> cases h <;> exact FlagsLE.refl _
  | setBodyProcessNoise v => cases h; exact FlagsLE.refl _
  | attemptGpsInit t x f =>
    obtain ⟨p, a, l, _, rfl⟩ := attemptGpsInit_form h
    exact FlagsLE.refl _
  | setBodyMotion a w α => cases h; exact SameSensors.flagsLE ⟨rfl, rfl, rfl, rfl⟩

theorem flagsLE_run {N : Prim K} {ops : List (Op K)} {e e' : Ekf K} (h : run N e ops = .ok e') :
    FlagsLE e.state e'.state :=
  run_induct (P := fun _ => True) (R := fun a b => FlagsLE a.state b.state) (fun e => FlagsLE.refl e.state)
    (fun _ _ _ h g => h.trans g) (fun _ _ _ _ h => flagsLE_step h) (fun _ _ => trivial) h

end Ekf
end EkfCal
