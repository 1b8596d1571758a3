import Verif.Lemmas.Frame

/-! # Registered ids never disappear -/

set_option linter.unusedSectionVars false
set_option linter.unusedSimpArgs false

namespace EkfCal
namespace UMap
variable {V : Type}

theorem mem_keys_insert {m : UMap V} {k k' : Nat} {v : V} : k' ∈ keys (insert m k v) ↔ k' = k ∨ k' ∈ keys m := by
  by_cases h : k' = k
  · subst h
    simp only [true_or, iff_true]
    by_contra hc
    rw [← find?_eq_none_iff] at hc
    simp at hc
  · have h1 := find?_insert_ne m v h
    simp only [h, false_or]
    rw [← not_iff_not, ← find?_eq_none_iff, ← find?_eq_none_iff, h1]

theorem mem_keys_touch {m : UMap V} {k k' : Nat} {d : V} : k' ∈ keys (touch m k d) ↔ k' = k ∨ k' ∈ keys m := by
  unfold touch
  cases hf : find? m k with
  | none => exact mem_keys_insert
  | some v =>
    constructor
    · exact Or.inr
    · rintro (rfl | h)
      · by_contra hc
        rw [← find?_eq_none_iff, hf] at hc
        cases hc
      · exact h

end UMap

namespace Ekf
variable {K : Type}

/-- Every id known in `s` is known in `s'`. -/
structure KeysLE (s s' : State K) : Prop where
  imus : ∀ k ∈ UMap.keys s.imus, k ∈ UMap.keys s'.imus
  gpss : ∀ k ∈ UMap.keys s.gpss, k ∈ UMap.keys s'.gpss
  cams : ∀ k ∈ UMap.keys s.cams, k ∈ UMap.keys s'.cams
  fids : ∀ k ∈ UMap.keys s.fids, k ∈ UMap.keys s'.fids

theorem KeysLE.refl (s : State K) : KeysLE s s := ⟨fun _ h => h, fun _ h => h, fun _ h => h, fun _ h => h⟩

theorem KeysLE.trans {a b c : State K} (h : KeysLE a b) (g : KeysLE b c) : KeysLE a c :=
  ⟨fun k hk => g.1 k (h.1 k hk), fun k hk => g.2 k (h.2 k hk), fun k hk => g.3 k (h.3 k hk),
    fun k hk => g.4 k (h.4 k hk)⟩

theorem keysLE_reindex (s : State K) : KeysLE s s.reindex := by
  constructor <;> intro k hk <;> simpa [State.reindex, UMap.keys, accumIdx_keys] using hk

variable [Field K] [LinearOrder K]

theorem refreshLoop_ok {α : Type} {f : α → Refresh K → Res (α × Refresh K)} {g : α → Nat → α}
    {dim : α → Nat} (hf : ∀ a r a' r', f a r = .ok (a', r') → a' = g a r.1 ∧ r'.1 = r.1 + dim a) :
    ∀ {m : UMap α} {r : Refresh K} {m' : UMap α} {r' : Refresh K}, refreshLoop f m r = .ok (m', r') →
      m' = accumIdx g dim m r.1 ∧ r'.1 = r.1 + mapDim dim m
  | [], r, m', r', h => by cases h; exact ⟨rfl, rfl⟩
  | (k, a) :: rest, r, m', r', h => by
    simp only [refreshLoop, bind_ok_iff, pure_res, Except.ok.injEq, Prod.mk.injEq] at h
    obtain ⟨⟨a1, r1⟩, h1, ⟨m2, r2⟩, h2, rfl, rfl⟩ := h
    obtain ⟨rfl, e1⟩ := hf _ _ _ _ h1
    obtain ⟨rfl, e2⟩ := refreshLoop_ok hf h2
    simp only at e1 e2
    simp only [accumIdx, mapDim_cons, e1, e2, true_and]
    omega

theorem refreshImu_ok {n : Nat} {s s' : ImuState K} {r r' : Refresh K} (h : refreshImu n s r = .ok (s', r')) :
    s' = s.reindex r.1 ∧ r'.1 = r.1 + s.dim := by
  unfold refreshImu at h
  cases he : s.isExtrinsic <;> cases hi : s.isIntrinsic <;>
    simp only [he, hi, if_true, Bool.false_eq_true, if_false, ok_bind, pure_res, bind_ok_iff, Except.ok.injEq,
      Prod.mk.injEq] at h
  · obtain ⟨rfl, rfl⟩ := h; simp [ImuState.reindex, ImuState.dim, he, hi]
  · obtain ⟨_, _, _, _, rfl, rfl⟩ := h; simp [ImuState.reindex, ImuState.dim, he, hi, imuIntSize]
  · obtain ⟨_, _, _, _, rfl, rfl⟩ := h; simp [ImuState.reindex, ImuState.dim, he, hi, imuExtSize]
  · obtain ⟨_, _, _, _, _, _, _, _, rfl, rfl⟩ := h
    simp [ImuState.reindex, ImuState.dim, he, hi, imuExtSize, imuIntSize]

theorem refreshGps_ok {n : Nat} {s s' : GpsState K} {r r' : Refresh K} (h : refreshGps n s r = .ok (s', r')) :
    s' = s.reindex r.1 ∧ r'.1 = r.1 + s.dim := by
  unfold refreshGps at h
  cases he : s.isExtrinsic <;>
    simp only [he, if_true, Bool.false_eq_true, if_false, ok_bind, pure_res, bind_ok_iff, Except.ok.injEq,
      Prod.mk.injEq] at h
  · obtain ⟨rfl, rfl⟩ := h; simp [GpsState.reindex, GpsState.dim, he]
  · obtain ⟨_, _, rfl, rfl⟩ := h; simp [GpsState.reindex, GpsState.dim, he, gpsExtSize]

theorem refreshCam_ok {n : Nat} {s s' : CamState K} {r r' : Refresh K} (h : refreshCam n s r = .ok (s', r')) :
    s' = s.reindex r.1 ∧ r'.1 = r.1 + s.dim := by
  unfold refreshCam at h
  cases he : s.isExtrinsic <;>
    simp only [he, if_true, Bool.false_eq_true, if_false, ok_bind, pure_res, bind_ok_iff, Except.ok.injEq,
      Prod.mk.injEq] at h
  · obtain ⟨rfl, rfl⟩ := h; simp [CamState.reindex, CamState.dim, he]
  · obtain ⟨_, _, _, _, rfl, rfl⟩ := h; simp [CamState.reindex, CamState.dim, he, camExtSize]

theorem refreshFid_ok {n : Nat} {s s' : FidState K} {r r' : Refresh K} (h : refreshFid n s r = .ok (s', r')) :
    s' = s.reindex r.1 ∧ r'.1 = r.1 + s.dim := by
  unfold refreshFid at h
  cases he : s.isExtrinsic <;>
    simp only [he, if_true, Bool.false_eq_true, if_false, ok_bind, pure_res, bind_ok_iff, Except.ok.injEq,
      Prod.mk.injEq] at h
  · obtain ⟨rfl, rfl⟩ := h; simp [FidState.reindex, FidState.dim, he]
  · obtain ⟨_, _, _, _, rfl, rfl⟩ := h; simp [FidState.reindex, FidState.dim, he, fidExtSize]

/-- A defined `refreshIndices` reindexes the state. -/
theorem refreshIndices_state {N : Prim K} {e e' : Ekf K} (h : refreshIndices N e = .ok e') :
    e'.state = e.state.reindex := by
  unfold refreshIndices at h
  simp only [bind_ok_iff, pure_res, Except.ok.injEq] at h
  obtain ⟨_, _, _, _, ⟨_, _⟩, h1, ⟨_, _⟩, h2, ⟨_, _⟩, h3, ⟨_, _⟩, h4, rfl⟩ := h
  obtain ⟨rfl, e1⟩ := refreshLoop_ok (fun _ _ _ _ h => refreshImu_ok h) h1
  obtain ⟨rfl, e2⟩ := refreshLoop_ok (fun _ _ _ _ h => refreshGps_ok h) h2
  obtain ⟨rfl, e3⟩ := refreshLoop_ok (fun _ _ _ _ h => refreshCam_ok h) h3
  obtain ⟨rfl, e4⟩ := refreshLoop_ok (fun _ _ _ _ h => refreshFid_ok h) h4
  simp only at e1 e2 e3 e4
  simp only [State.reindex, refreshAugs_eq, e1, e2, e3, e4]
  rfl

theorem keysLE_refresh {N : Prim K} {e e' : Ekf K} (h : refreshIndices N e = .ok e') : KeysLE e.state e'.state := by
  rw [refreshIndices_state h]; exact keysLE_reindex _

theorem keysLE_registerIMU {N : Prim K} {e e' : Ekf K} {id : Nat} {s : ImuState K} {c : Mat K}
    (h : registerIMU N e id s c = .ok e') : KeysLE e.state e'.state ∧ id ∈ UMap.keys e'.state.imus := by
  have key : ∀ b : Ekf K, b.state = { e.state with imus := e.state.imus.insert id s } → refreshIndices N b = .ok e' →
      KeysLE e.state e'.state ∧ id ∈ UMap.keys e'.state.imus := by
    intro b hb h
    have h1 := keysLE_refresh h
    refine ⟨KeysLE.trans ?_ h1, h1.imus _ ?_⟩ <;> rw [hb]
    · exact ⟨fun k hk => UMap.mem_keys_insert.2 (.inr hk), fun _ h => h, fun _ h => h, fun _ h => h⟩
    · exact UMap.mem_keys_insert.2 (.inl rfl)
  unfold registerIMU at h
  cases hf : e.state.imus.find? id with
  | some v =>
    simp [hf] at h
    subst h
    refine ⟨KeysLE.refl _, ?_⟩
    by_contra hc
    rw [← UMap.find?_eq_none_iff, hf] at hc
    cases hc
  | none =>
    cases he : s.isExtrinsic <;> cases hn : s.isIntrinsic <;>
      simp only [he, hn, hf, Option.isSome_none, Bool.or_self, Bool.or_true, Bool.true_or, Bool.or_false,
        Bool.false_eq_true, if_false, if_true, ok_bind, pure_res, bind_ok_iff] at h
    · exact key _ rfl h
    all_goals
      obtain ⟨_, _, _, _, h⟩ := h
      exact key _ rfl h

theorem keysLE_registerGPS {N : Prim K} {e e' : Ekf K} {id : Nat} {s : GpsState K} {c : Mat K}
    (h : registerGPS N e id s c = .ok e') : KeysLE e.state e'.state ∧ id ∈ UMap.keys e'.state.gpss := by
  have key : ∀ b : Ekf K, b.state = { e.state with gpss := e.state.gpss.insert id s } → refreshIndices N b = .ok e' →
      KeysLE e.state e'.state ∧ id ∈ UMap.keys e'.state.gpss := by
    intro b hb h
    have h1 := keysLE_refresh h
    refine ⟨KeysLE.trans ?_ h1, h1.gpss _ ?_⟩ <;> rw [hb]
    · exact ⟨fun _ h => h, fun k hk => UMap.mem_keys_insert.2 (.inr hk), fun _ h => h, fun _ h => h⟩
    · exact UMap.mem_keys_insert.2 (.inl rfl)
  unfold registerGPS at h
  cases hf : e.state.gpss.find? id with
  | some v =>
    simp [hf] at h
    subst h
    refine ⟨KeysLE.refl _, ?_⟩
    by_contra hc
    rw [← UMap.find?_eq_none_iff, hf] at hc
    cases hc
  | none =>
    cases he : s.isExtrinsic <;>
      simp only [he, hf, Option.isSome_none, Bool.false_eq_true, if_false, if_true, ok_bind, pure_res, bind_ok_iff] at h
    · exact key _ rfl h
    · obtain ⟨_, _, _, _, h⟩ := h
      exact key _ rfl h

theorem keysLE_registerCamera {N : Prim K} {e e' : Ekf K} {id : Nat} {s : CamState K} {c : Mat K}
    (h : registerCamera N e id s c = .ok e') : KeysLE e.state e'.state ∧ id ∈ UMap.keys e'.state.cams := by
  have key : ∀ b : Ekf K, b.state = { e.state with cams := e.state.cams.insert id s } → refreshIndices N b = .ok e' →
      KeysLE e.state e'.state ∧ id ∈ UMap.keys e'.state.cams := by
    intro b hb h
    have h1 := keysLE_refresh h
    refine ⟨KeysLE.trans ?_ h1, h1.cams _ ?_⟩ <;> rw [hb]
    · exact ⟨fun _ h => h, fun _ h => h, fun k hk => UMap.mem_keys_insert.2 (.inr hk), fun _ h => h⟩
    · exact UMap.mem_keys_insert.2 (.inl rfl)
  unfold registerCamera at h
  cases hf : e.state.cams.find? id with
  | some v =>
    simp [hf] at h
    subst h
    refine ⟨KeysLE.refl _, ?_⟩
    by_contra hc
    rw [← UMap.find?_eq_none_iff, hf] at hc
    cases hc
  | none =>
    by_cases hp : e.primaryCameraId = 0 <;> cases he : s.isExtrinsic <;>
      simp only [he, hf, hp, Option.isSome_none, Bool.false_eq_true, if_false, if_true, ok_bind, pure_res, bind_ok_iff]
        at h
    case pos.false | neg.false =>
      obtain ⟨_, _, h⟩ := h
      exact key _ rfl h
    all_goals
      obtain ⟨_, _, _, _, _, _, h⟩ := h
      exact key _ rfl h

theorem keysLE_registerFiducial {N : Prim K} {e e' : Ekf K} {s : FidState K} {c : Mat K}
    (h : registerFiducial N e s c = .ok e') : KeysLE e.state e'.state ∧ s.id ∈ UMap.keys e'.state.fids := by
  have key : ∀ b : Ekf K, b.state = { e.state with fids := e.state.fids.insert s.id s } → refreshIndices N b = .ok e' →
      KeysLE e.state e'.state ∧ s.id ∈ UMap.keys e'.state.fids := by
    intro b hb h
    have h1 := keysLE_refresh h
    refine ⟨KeysLE.trans ?_ h1, h1.fids _ ?_⟩ <;> rw [hb]
    · exact ⟨fun _ h => h, fun _ h => h, fun _ h => h, fun k hk => UMap.mem_keys_insert.2 (.inr hk)⟩
    · exact UMap.mem_keys_insert.2 (.inl rfl)
  unfold registerFiducial at h
  cases hf : e.state.fids.find? s.id with
  | some v =>
    simp [hf] at h
    subst h
    refine ⟨KeysLE.refl _, ?_⟩
    by_contra hc
    rw [← UMap.find?_eq_none_iff, hf] at hc
    cases hc
  | none =>
    cases he : s.isExtrinsic <;>
      simp only [he, hf, Option.isSome_none, Bool.false_eq_true, if_false, if_true, ok_bind, pure_res, bind_ok_iff] at h
    · exact key _ rfl h
    · obtain ⟨_, _, _, _, h⟩ := h
      exact key _ rfl h

/-- Only clone windows differ. -/
def SameSensors (s s' : State K) : Prop := s'.imus = s.imus ∧ s'.gpss = s.gpss ∧ s'.cams = s.cams ∧ s'.fids = s.fids

theorem SameSensors.keysLE {s s' : State K} (h : SameSensors s s') : KeysLE s s' := by
  obtain ⟨h1, h2, h3, h4⟩ := h
  exact ⟨h1 ▸ fun _ h => h, h2 ▸ fun _ h => h, h3 ▸ fun _ h => h, h4 ▸ fun _ h => h⟩

theorem KeysLE.pre {s b c : State K} (h : KeysLE b c) (g : SameSensors s b) : KeysLE s c := g.keysLE.trans h

theorem augmentAtBack_state {e e' : Ekf K} {k : Nat} (h : augmentAtBack e k = .ok e') : e'.state = e.state := by
  unfold augmentAtBack at h
  split at h
  · simp at h
  · simp only [bind_ok_iff, pure_res, Except.ok.injEq] at h
    obtain ⟨c, _, rfl⟩ := h
    rfl

theorem keysLE_augmentFrame {N : Prim K} {e e' : Ekf K} {c f : Nat} (h : augmentFrame N e c f = .ok e') :
    KeysLE e.state e'.state := by
  unfold augmentFrame at h
  dsimp only at h
  split at h
  · split at h
    · simp only [ok_bind, pure_res, bind_ok_iff] at h
      obtain ⟨e2, h2, h3⟩ := h
      rw [augmentAtBack_state h3]
      exact (keysLE_refresh h2).pre ⟨rfl, rfl, rfl, rfl⟩
    · split at h
      · simp at h
      · simp only [ok_bind, pure_res, bind_ok_iff] at h
        obtain ⟨_, _, e2, h2, h3⟩ := h
        rw [augmentAtBack_state h3]
        exact (keysLE_refresh h2).pre ⟨rfl, rfl, rfl, rfl⟩
  · cases h; exact KeysLE.refl _

theorem keysLE_pruneAt {N : Prim K} {e e' : Ekf K} {i : Nat} (h : pruneAt N e i = .ok e') :
    KeysLE e.state e'.state := by
  unfold pruneAt at h
  dsimp only at h
  split at h
  · simp at h
  · split at h
    · split at h
      · simp at h
      · simp only [bind_ok_iff] at h
        obtain ⟨c, _, h⟩ := h
        exact (keysLE_refresh h).pre ⟨rfl, rfl, rfl, rfl⟩
    · cases h; exact KeysLE.refl _

theorem keysLE_pruneLoop {N : Prim K} {n : Nat} {e e' : Ekf K} (h : pruneLoop N n e = .ok e') :
    KeysLE e.state e'.state := by
  induction n generalizing e with
  | zero => cases h; exact KeysLE.refl _
  | succ n ih =>
    simp only [pruneLoop, bind_ok_iff] at h
    obtain ⟨e1, h1, h2⟩ := h
    exact (keysLE_pruneAt h1).trans (ih h2)

theorem keysLE_augmentTimed {N : Prim K} {e e' : Ekf K} (h : augmentTimed N e = .ok e') :
    KeysLE e.state e'.state := by
  unfold augmentTimed at h
  split at h
  · cases h; exact KeysLE.refl _
  · simp only [bind_ok_iff] at h
    obtain ⟨due, _, e1, h1, h⟩ := h
    have f1 : KeysLE e.state e1.state :=
      (keysLE_pruneLoop h1).pre ⟨rfl, rfl, rfl, rfl⟩
    split at h
    · simp only [bind_ok_iff, pure_res, Except.ok.injEq] at h
      obtain ⟨e2, h2, e3, h3, rfl⟩ := h
      dsimp only
      rw [augmentAtBack_state h3]
      exact f1.trans ((keysLE_refresh h2).pre ⟨rfl, rfl, rfl, rfl⟩)
    · cases h; exact f1

theorem keysLE_predict {N : Prim K} {e e' : Ekf K} {t : K} (h : predict N e t = .ok e') : KeysLE e.state e'.state := by
  unfold predict at h
  split at h
  · cases h; exact KeysLE.refl _
  · split at h
    · simp only [bind_ok_iff, pure_res, ok_bind] at h
      obtain ⟨c, _, h⟩ := h
      exact (keysLE_augmentTimed h).pre ⟨rfl, rfl, rfl, rfl⟩
    · simp only [pure_res, ok_bind] at h
      exact (keysLE_augmentTimed h).pre ⟨rfl, rfl, rfl, rfl⟩

theorem keysLE_addVec {N : Prim K} {s s' : State K} {v : Vec K} (h : s.addVec N v = .ok s') : KeysLE s s' := by
  unfold State.addVec at h
  simp only [bind_ok_iff, pure_res, Except.ok.injEq] at h
  obtain ⟨bp, hbp, body, hbody, ⟨imus, i1⟩, h1, ⟨gpss, i2⟩, h2, ⟨cams, i3⟩, h3, ⟨fids, i4⟩, h4, ⟨augs, i5⟩, h5, rfl⟩ := h
  have k1 := forall₂_keys ((loopMap_rel (R := fun _ _ => True) (fun _ _ _ _ _ => trivial) h1).imp fun _ _ h => h.1)
  have k2 := forall₂_keys ((loopMap_rel (R := fun _ _ => True) (fun _ _ _ _ _ => trivial) h2).imp fun _ _ h => h.1)
  have k3 := forall₂_keys ((loopMap_rel (R := fun _ _ => True) (fun _ _ _ _ _ => trivial) h3).imp fun _ _ h => h.1)
  have k4 := forall₂_keys ((loopMap_rel (R := fun _ _ => True) (fun _ _ _ _ _ => trivial) h4).imp fun _ _ h => h.1)
  exact ⟨fun _ h => by simpa [UMap.keys, k1] using h, fun _ h => by simpa [UMap.keys, k2] using h,
    fun _ h => by simpa [UMap.keys, k3] using h, fun _ h => by simpa [UMap.keys, k4] using h⟩

theorem keysLE_step {N : Prim K} {e e' : Ekf K} {op : Op K} (h : step N e op = .ok e') :
    KeysLE e.state e'.state := by
  cases op with
  | registerIMU id s c => exact (keysLE_registerIMU h).1
  | registerGPS id s c => exact (keysLE_registerGPS h).1
  | registerCamera id s c => exact (keysLE_registerCamera h).1
  | registerFiducial s c => exact (keysLE_registerFiducial h).1
  | predict t => exact keysLE_predict h
  | frame c f => exact keysLE_augmentFrame h
  | kalman j r n =>
    obtain ⟨s, c, v, rfl, hs, _⟩ := kalmanUpdate_form h
    exact keysLE_addVec hs
  | getImu id =>
    cases h
    exact ⟨fun _ h => UMap.mem_keys_touch.2 (.inr h), fun _ h => h, fun _ h => h, fun _ h => h⟩
  | getGps id =>
    cases h
    exact ⟨fun _ h => h, fun _ h => UMap.mem_keys_touch.2 (.inr h), fun _ h => h, fun _ h => h⟩
  | getCam id =>
    cases h
    exact ⟨fun _ h => h, fun _ h => h, fun _ h => UMap.mem_keys_touch.2 (.inr h), fun _ h => h⟩
  | getAug c f t =>
    simp only [step, bind_ok_iff, pure_res, Except.ok.injEq] at h
    obtain ⟨r, h1, rfl⟩ := h
    unfold getAugState at h1
    split at h1
    · cases h1; exact SameSensors.keysLE ⟨rfl, rfl, rfl, rfl⟩
    · simp only [bind_ok_iff, pure_res, Except.ok.injEq] at h1
      obtain ⟨a, _, rfl⟩ := h1
      exact SameSensors.keysLE ⟨rfl, rfl, rfl, rfl⟩
  | initializeAt t b => cases h; exact SameSensors.keysLE ⟨rfl, rfl, rfl, rfl⟩
  | setMaxTrackLength n => cases h; exact KeysLE.refl _
  | setGpsReference p a => cases h; exact KeysLE.refl _
  | setZeroAcceleration b => cases h; exact KeysLE.refl _
  | initializeGravity => cases h; exact KeysLE.refl _
  | localTime t =>
    simp only [step, Except.ok.injEq, calculateLocalTime] at h
    split at h <;> cases h <;> exact KeysLE.refl _
  | setBodyProcessNoise v => cases h; exact KeysLE.refl _
  | attemptGpsInit t x f =>
    obtain ⟨p, a, l, _, rfl⟩ := attemptGpsInit_form h
    exact KeysLE.refl _
  | setBodyMotion a w α => cases h; exact SameSensors.keysLE ⟨rfl, rfl, rfl, rfl⟩

theorem keysLE_run {N : Prim K} {ops : List (Op K)} {e e' : Ekf K} (h : run N e ops = .ok e') :
    KeysLE e.state e'.state :=
  run_induct (P := fun _ => True) (R := fun a b => KeysLE a.state b.state) (fun e => KeysLE.refl e.state)
    (fun _ _ _ h g => h.trans g) (fun _ _ _ _ h => keysLE_step h) (fun _ _ => trivial) h

end Ekf
end EkfCal
