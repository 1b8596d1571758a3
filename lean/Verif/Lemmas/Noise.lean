import Verif.Lemmas.Forms
import Verif.Spec.Noise

/-! # Process noise written by `RefreshIndices` -/

set_option linter.unusedSectionVars false
set_option linter.unusedSimpArgs false

namespace EkfCal
namespace Ekf
variable {K : Type} [Field K] [LinearOrder K]

/-- From `r` to `r'` the groups in `l` were written, inside the range that was passed, and nothing else. -/
structure Wrote (r r' : Refresh K) (l : List (Nat × K)) : Prop where
  le : r.1 ≤ r'.1
  out : ∀ k, k < r.1 ∨ r'.1 ≤ k → r'.2 k = r.2 k
  grp : ∀ x ∈ l, (r.1 ≤ x.1 ∧ x.1 + 3 ≤ r'.1) ∧ ∀ k, k < 3 → r'.2 (x.1 + k) = x.2
  src : ∀ k, r'.2 k = r.2 k ∨ ∃ x ∈ l, r'.2 k = x.2

theorem Wrote.refl (r : Refresh K) : Wrote r r [] :=
  ⟨Nat.le_refl _, fun _ _ => rfl, by simp, fun _ => .inl rfl⟩

theorem Wrote.trans {a b c : Refresh K} {l m : List (Nat × K)} (h : Wrote a b l) (g : Wrote b c m) : Wrote a c (l ++ m) := by
  refine ⟨h.le.trans g.le, fun k hk => ?_, fun x hx => ?_, fun k => ?_⟩
  · have h1 := h.le; have h2 := g.le
    rw [g.out k (by omega), h.out k (by omega)]
  · have h1 := h.le; have h2 := g.le
    rcases List.mem_append.1 hx with hx | hx
    · obtain ⟨h3, h4⟩ := h.grp x hx
      refine ⟨by omega, fun k hk => ?_⟩
      rw [g.out _ (by omega), h4 k hk]
    · obtain ⟨h3, h4⟩ := g.grp x hx
      exact ⟨by omega, h4⟩
  · rcases g.src k with h1 | ⟨x, hx, h1⟩
    · rcases h.src k with h2 | ⟨x, hx, h2⟩
      · exact .inl (h1.trans h2)
      · exact .inr ⟨x, List.mem_append.2 (.inl hx), h1.trans h2⟩
    · exact .inr ⟨x, List.mem_append.2 (.inr hx), h1⟩

theorem put3_wrote {n i : Nat} {d d' : Nat → K} {v : K} (h : put3 n d i v = .ok d') :
    Wrote (i, d) (i + 3, d') [(i, v)] := by
  unfold put3 at h
  split at h
  · cases h
    refine ⟨by simp, fun k hk => ?_, ?_, fun k => ?_⟩
    · simp only at hk ⊢; rw [if_neg (by omega)]
    · simp only [List.mem_singleton, forall_eq]
      refine ⟨by omega, fun k hk => ?_⟩
      rw [if_pos (by omega)]
    · simp only [List.mem_singleton, exists_eq_left]
      split
      · exact .inr rfl
      · exact .inl rfl
  · cases h

theorem refreshImu_wrote {n : Nat} {s s' : ImuState K} {r r' : Refresh K} (h : refreshImu n s r = .ok (s', r')) :
    Wrote r r' s'.noise := by
  unfold refreshImu at h
  cases he : s.isExtrinsic <;> cases hi : s.isIntrinsic <;>
    simp only [he, hi, if_true, Bool.false_eq_true, if_false, ok_bind, pure_res, bind_ok_iff, Except.ok.injEq,
      Prod.mk.injEq] at h
  · obtain ⟨rfl, rfl⟩ := h
    simpa [ImuState.noise, he, hi] using Wrote.refl r
  · obtain ⟨_, h1, _, h2, rfl, rfl⟩ := h
    simpa [ImuState.noise, he, hi, imuIntSize, Nat.add_assoc] using (put3_wrote h1).trans (put3_wrote h2)
  · obtain ⟨_, h1, _, h2, rfl, rfl⟩ := h
    simpa [ImuState.noise, he, hi, imuExtSize, Nat.add_assoc] using (put3_wrote h1).trans (put3_wrote h2)
  · obtain ⟨_, h1, _, h2, _, h3, _, h4, rfl, rfl⟩ := h
    simpa [ImuState.noise, he, hi, imuExtSize, imuIntSize, Nat.add_assoc] using
      (((put3_wrote h1).trans (put3_wrote h2)).trans (put3_wrote h3)).trans (put3_wrote h4)

theorem refreshGps_wrote {n : Nat} {s s' : GpsState K} {r r' : Refresh K} (h : refreshGps n s r = .ok (s', r')) :
    Wrote r r' s'.noise := by
  unfold refreshGps at h
  cases he : s.isExtrinsic <;>
    simp only [he, if_true, Bool.false_eq_true, if_false, ok_bind, pure_res, bind_ok_iff, Except.ok.injEq,
      Prod.mk.injEq] at h
  · obtain ⟨rfl, rfl⟩ := h
    simpa [GpsState.noise, he] using Wrote.refl r
  · obtain ⟨_, h1, rfl, rfl⟩ := h
    simpa [GpsState.noise, he, gpsExtSize] using put3_wrote h1

theorem refreshCam_wrote {n : Nat} {s s' : CamState K} {r r' : Refresh K} (h : refreshCam n s r = .ok (s', r')) :
    Wrote r r' s'.noise := by
  unfold refreshCam at h
  cases he : s.isExtrinsic <;>
    simp only [he, if_true, Bool.false_eq_true, if_false, ok_bind, pure_res, bind_ok_iff, Except.ok.injEq,
      Prod.mk.injEq] at h
  · obtain ⟨rfl, rfl⟩ := h
    simpa [CamState.noise, he] using Wrote.refl r
  · obtain ⟨_, h1, _, h2, rfl, rfl⟩ := h
    simpa [CamState.noise, he, camExtSize, Nat.add_assoc] using (put3_wrote h1).trans (put3_wrote h2)

theorem refreshFid_wrote {n : Nat} {s s' : FidState K} {r r' : Refresh K} (h : refreshFid n s r = .ok (s', r')) :
    Wrote r r' s'.noise := by
  unfold refreshFid at h
  cases he : s.isExtrinsic <;>
    simp only [he, if_true, Bool.false_eq_true, if_false, ok_bind, pure_res, bind_ok_iff, Except.ok.injEq,
      Prod.mk.injEq] at h
  · obtain ⟨rfl, rfl⟩ := h
    simpa [FidState.noise, he] using Wrote.refl r
  · obtain ⟨_, h1, _, h2, rfl, rfl⟩ := h
    simpa [FidState.noise, he, fidExtSize, Nat.add_assoc] using (put3_wrote h1).trans (put3_wrote h2)

theorem refreshLoop_wrote {α : Type} {f : α → Refresh K → Res (α × Refresh K)} {noise : α → List (Nat × K)}
    (hf : ∀ a r a' r', f a r = .ok (a', r') → Wrote r r' (noise a')) :
    ∀ {m : UMap α} {r : Refresh K} {m' : UMap α} {r' : Refresh K}, refreshLoop f m r = .ok (m', r') →
      Wrote r r' (mapNoise noise m')
  | [], r, m', r', h => by cases h; exact Wrote.refl _
  | (k, a) :: rest, r, m', r', h => by
    simp only [refreshLoop, bind_ok_iff, pure_res, Except.ok.injEq, Prod.mk.injEq] at h
    obtain ⟨⟨a1, r1⟩, h1, ⟨m2, r2⟩, h2, rfl, rfl⟩ := h
    simpa [mapNoise] using (hf _ _ _ _ h1).trans (refreshLoop_wrote hf h2)

theorem refreshAugList_index {w : List (AugState K)} {i : Nat} : ∀ a ∈ (refreshAugList w i).1, i ≤ a.index := by
  induction w generalizing i with
  | nil => simp [refreshAugList]
  | cons b rest ih =>
    intro a ha
    simp only [refreshAugList, List.mem_cons] at ha
    rcases ha with rfl | ha
    · simp
    · have := ih a ha; simp only [augSize] at this; omega

theorem refreshAugList_le {w : List (AugState K)} {i : Nat} : i ≤ (refreshAugList w i).2 := by
  induction w generalizing i with
  | nil => simp [refreshAugList]
  | cons b rest ih => have := @ih (i + augSize); simp only [refreshAugList]; omega

theorem refreshAugs_index {m : UMap (List (AugState K))} {i : Nat} :
    ∀ a ∈ ((refreshAugs m i).1.flatMap fun kv => kv.2), i ≤ a.index := by
  induction m generalizing i with
  | nil => simp [refreshAugs]
  | cons kv rest ih =>
    obtain ⟨k, w⟩ := kv
    intro a ha
    simp only [refreshAugs, List.flatMap_cons, List.mem_append] at ha
    rcases ha with ha | ha
    · exact refreshAugList_index a ha
    · exact Nat.le_trans (refreshAugList_le (w := w)) (ih a ha)

/-- The diagonal behind the process noise of a filter whose indices were just refreshed. -/
structure Diag (d : Nat → K) (s : State K) (body : Nat → K) : Prop where
  bodyRows : ∀ k, k < 18 → d k = body k
  sensors : ∀ x ∈ s.noise, ∀ k, k < 3 → d (x.1 + k) = x.2
  clones : ∀ a ∈ s.clones, ∀ k, d (a.index + k) = 0
  src : ∀ k, 18 ≤ k → d k = 0 ∨ ∃ x ∈ s.noise, d k = x.2

/-- The process noise after a defined `refreshIndices`. -/
theorem refreshIndices_noise {N : Prim K} {e e' : Ekf K} (h : refreshIndices N e = .ok e') :
    ∃ d, Diag d e'.state e.bodyProcessNoise.get ∧
      e'.processNoise = if e.useRoot then (diagMat e.stateSize d).map N.sqrt else diagMat e.stateSize d := by
  unfold refreshIndices at h
  simp only [bind_ok_iff, pure_res, Except.ok.injEq] at h
  obtain ⟨_, _, _, _, ⟨_, r1⟩, h1, ⟨_, r2⟩, h2, ⟨_, r3⟩, h3, ⟨_, r4⟩, h4, rfl⟩ := h
  have w1 := refreshLoop_wrote (fun _ _ _ _ h => refreshImu_wrote h) h1
  have w2 := refreshLoop_wrote (fun _ _ _ _ h => refreshGps_wrote h) h2
  have w3 := refreshLoop_wrote (fun _ _ _ _ h => refreshCam_wrote h) h3
  have w4 := refreshLoop_wrote (fun _ _ _ _ h => refreshFid_wrote h) h4
  have w := ((w1.trans w2).trans w3).trans w4
  have hle : 18 ≤ r4.1 := w.le
  refine ⟨r4.2, ⟨fun k hk => ?_, fun x hx k hk => (w.grp x hx).2 k hk, fun a ha k => ?_, fun k hk => ?_⟩, rfl⟩
  · rw [w.out k (.inl hk)]; exact if_pos hk
  · have : r4.1 ≤ a.index := refreshAugs_index a ha
    rw [w.out _ (.inr (by omega))]
    exact if_neg (by simp only [bodySize]; omega)
  · rcases w.src k with h | h
    · exact .inl (h.trans (if_neg (by simp only [bodySize]; omega)))
    · exact .inr h

/-! ## The process noise along a history -/

/-- The process noise belongs to the published layout; the body part is zero (nothing refreshed yet) or one of the
vectors in `H`; the first is possible only if `Z`. -/
structure NoiseInv (N : Prim K) (H : Vec K → Prop) (Z : Prop) (e : Ekf K) : Prop where
  cfg : H e.bodyProcessNoise
  placed : ∃ d body, Diag d e.state body ∧
    (∀ i j, e.processNoise.get i j = if e.useRoot then N.sqrt (if i = j then d i else 0) else if i = j then d i else 0) ∧
    ((Z ∧ (∀ k, k < 18 → body k = 0) ∧ e.stateSize = 18) ∨ ∃ v, H v ∧ ∀ k, k < 18 → body k = v.get k)

theorem noise_refresh {N : Prim K} {H : Vec K → Prop} {Z : Prop} {e e' : Ekf K} (hH : H e.bodyProcessNoise)
    (h : refreshIndices N e = .ok e') : NoiseInv N H Z e' := by
  obtain ⟨d, hd, hp⟩ := refreshIndices_noise h
  have hf := frame2_refresh h
  refine ⟨by rw [hf.bodyNoise]; exact hH, d, _, hd, fun i j => ?_, .inr ⟨_, hH, fun _ _ => rfl⟩⟩
  rw [hp, hf.useRoot]
  split <;> rfl

theorem Diag.of_same {d body : Nat → K} {s s' : State K} (h : Diag d s body) (hn : s'.noise = s.noise)
    (hc : s'.clones.map AugState.index = s.clones.map AugState.index) : Diag d s' body := by
  refine ⟨h.bodyRows, by rw [hn]; exact h.sensors, fun a ha k => ?_, by rw [hn]; exact h.src⟩
  have : a.index ∈ s.clones.map AugState.index := by rw [← hc]; exact List.mem_map_of_mem ha
  obtain ⟨b, hb, he⟩ := List.mem_map.1 this
  rw [← he]
  exact h.clones b hb k

theorem NoiseInv.congr {N : Prim K} {H : Vec K → Prop} {Z : Prop} {e e' : Ekf K} (h : NoiseInv N H Z e)
    (h1 : e'.state.noise = e.state.noise)
    (h2 : e'.state.clones.map AugState.index = e.state.clones.map AugState.index)
    (h3 : e'.processNoise = e.processNoise) (h4 : e'.useRoot = e.useRoot) (h5 : e'.stateSize = e.stateSize)
    (h6 : e'.bodyProcessNoise = e.bodyProcessNoise) : NoiseInv N H Z e' := by
  obtain ⟨hH, d, body, hd, hp, hb⟩ := h
  refine ⟨by rw [h6]; exact hH, d, body, hd.of_same h1 h2, ?_, ?_⟩
  · rw [h3, h4]; exact hp
  · rw [h5]; exact hb

theorem flatMap_touch {α β : Type} {m : UMap α} (g : α → List β) (k : Nat) (d : α) (hd : g d = []) :
    (UMap.touch m k d).flatMap (fun kv => g kv.2) = m.flatMap fun kv => g kv.2 := by
  unfold UMap.touch
  split
  · rfl
  · rename_i hf
    induction m with
    | nil => simp [UMap.insert, hd]
    | cons x xs ih =>
      obtain ⟨k', v⟩ := x
      unfold UMap.find? at hf
      split at hf
      · cases hf
      · unfold UMap.insert
        split
        · simp [hd]
        · rw [if_neg (by omega)]
          simp [ih hf]

theorem noise_touchAug {N : Prim K} {H : Vec K → Prop} {Z : Prop} {e : Ekf K} (h : NoiseInv N H Z e) (k : Nat) :
    NoiseInv N H Z { e with state := { e.state with augs := e.state.augs.touch k [] } } := by
  refine h.congr rfl ?_ rfl rfl rfl rfl
  show ((UMap.touch e.state.augs k []).flatMap fun kv => kv.2).map AugState.index = _
  rw [flatMap_touch (fun w => w) k [] rfl]; rfl

theorem noise_registerIMU {N : Prim K} {H : Vec K → Prop} {Z : Prop} {e e' : Ekf K} {id : Nat} {s : ImuState K} {c : Mat K}
    (hn : NoiseInv N H Z e) (h : registerIMU N e id s c = .ok e') : NoiseInv N H Z e' := by
  obtain ⟨_, rfl⟩ | ⟨_, _, _, h⟩ := registerIMU_form h
  · exact hn
  · exact noise_refresh (by exact hn.cfg) h

theorem noise_registerGPS {N : Prim K} {H : Vec K → Prop} {Z : Prop} {e e' : Ekf K} {id : Nat} {s : GpsState K} {c : Mat K}
    (hn : NoiseInv N H Z e) (h : registerGPS N e id s c = .ok e') : NoiseInv N H Z e' := by
  obtain ⟨_, rfl⟩ | ⟨_, _, _, h⟩ := registerGPS_form h
  · exact hn
  · exact noise_refresh (by exact hn.cfg) h

theorem noise_registerCamera {N : Prim K} {H : Vec K → Prop} {Z : Prop} {e e' : Ekf K} {id : Nat} {s : CamState K} {c : Mat K}
    (hn : NoiseInv N H Z e) (h : registerCamera N e id s c = .ok e') : NoiseInv N H Z e' := by
  obtain ⟨_, rfl⟩ | ⟨_, _, _, _, h⟩ := registerCamera_form h
  · exact hn
  · exact noise_refresh (by exact hn.cfg) h

theorem noise_registerFiducial {N : Prim K} {H : Vec K → Prop} {Z : Prop} {e e' : Ekf K} {s : FidState K} {c : Mat K}
    (hn : NoiseInv N H Z e) (h : registerFiducial N e s c = .ok e') : NoiseInv N H Z e' := by
  obtain ⟨_, rfl⟩ | ⟨_, _, _, h⟩ := registerFiducial_form h
  · exact hn
  · exact noise_refresh (by exact hn.cfg) h

theorem noise_augmentAtBack {N : Prim K} {H : Vec K → Prop} {Z : Prop} {e e' : Ekf K} {k : Nat} (hn : NoiseInv N H Z e)
    (h : augmentAtBack e k = .ok e') : NoiseInv N H Z e' := by
  obtain ⟨_, _, _, _, rfl⟩ := augmentAtBack_form h
  exact hn.congr rfl rfl rfl rfl rfl rfl

theorem noise_augmentFrame {N : Prim K} {H : Vec K → Prop} {Z : Prop} {e e' : Ekf K} {c f : Nat} (hn : NoiseInv N H Z e)
    (h : augmentFrame N e c f = .ok e') : NoiseInv N H Z e' := by
  obtain ⟨_, rfl⟩ | ⟨_, e1, ⟨_, h1⟩ | ⟨_, _, _, _, _, _, h1⟩, h2⟩ := augmentFrame_form h
  · exact hn.congr rfl rfl rfl rfl rfl rfl
  · exact noise_augmentAtBack (noise_refresh (by exact hn.cfg) h1) h2
  · exact noise_augmentAtBack (noise_refresh (by exact hn.cfg) h1) h2

theorem noise_pruneAt {N : Prim K} {H : Vec K → Prop} {Z : Prop} {e e' : Ekf K} {i : Nat} (hn : NoiseInv N H Z e)
    (h : pruneAt N e i = .ok e') : NoiseInv N H Z e' := by
  obtain ⟨_, _, ⟨_, rfl⟩ | ⟨_, _, _, _, _, h⟩⟩ := pruneAt_form h
  · exact hn
  · exact noise_refresh (by exact hn.cfg) h

theorem noise_pruneLoop {N : Prim K} {H : Vec K → Prop} {Z : Prop} {n : Nat} {e e' : Ekf K} (hn : NoiseInv N H Z e)
    (h : pruneLoop N n e = .ok e') : NoiseInv N H Z e' := by
  induction n generalizing e with
  | zero => cases h; exact hn
  | succ n ih =>
    simp only [pruneLoop, bind_ok_iff] at h
    obtain ⟨e1, h1, h2⟩ := h
    exact ih (noise_pruneAt hn h1) h2

theorem noise_augmentTimed {N : Prim K} {H : Vec K → Prop} {Z : Prop} {e e' : Ekf K} (hn : NoiseInv N H Z e)
    (h : augmentTimed N e = .ok e') : NoiseInv N H Z e' := by
  obtain ⟨_, rfl⟩ | ⟨_, _, e1, _, h1, ⟨_, rfl⟩ | ⟨_, e2, e3, h2, h3, rfl⟩⟩ := augmentTimed_form h
  · exact hn
  · exact noise_pruneLoop (noise_touchAug hn 0) h1
  · have hn1 := noise_pruneLoop (noise_touchAug hn 0) h1
    have := noise_augmentAtBack (noise_refresh (H := H) (Z := Z) (by exact hn1.cfg) h2) h3
    exact this.congr rfl rfl rfl rfl rfl rfl

theorem noise_predict {N : Prim K} {H : Vec K → Prop} {Z : Prop} {e e' : Ekf K} {t : K} (hn : NoiseInv N H Z e)
    (h : predict N e t = .ok e') : NoiseInv N H Z e' := by
  obtain ⟨_, rfl⟩ | ⟨_, b, out, _, h⟩ := predict_form h
  · exact hn
  · refine noise_augmentTimed ?_ h
    exact hn.congr rfl rfl rfl rfl rfl rfl

theorem forall₂_flatMap {α β : Type} {g : α → List β} {m m' : UMap α}
    (h : List.Forall₂ (fun x y : Nat × α => g x.2 = g y.2) m m') :
    m.flatMap (fun kv => g kv.2) = m'.flatMap fun kv => g kv.2 := by
  induction h with
  | nil => rfl
  | cons h _ ih => simp only [List.flatMap_cons, h, ih]

theorem addVec_noise {N : Prim K} {s s' : State K} {v : Vec K} (h : s.addVec N v = .ok s') :
    s'.noise = s.noise ∧ s'.clones.map AugState.index = s.clones.map AugState.index := by
  unfold State.addVec at h
  simp only [bind_ok_iff, pure_res, Except.ok.injEq] at h
  obtain ⟨bp, hbp, body, hbody, ⟨imus, i1⟩, h1, ⟨gpss, i2⟩, h2, ⟨cams, i3⟩, h3, ⟨fids, i4⟩, h4, ⟨augs, i5⟩, h5, rfl⟩ := h
  have r1 := loopMap_rel (R := fun a b => a.noise = b.noise) (fun a i b j h => by
    unfold ImuState.addVecAt at h
    cases he : a.isExtrinsic <;> cases hn : a.isIntrinsic <;>
      simp only [he, hn, Bool.false_eq_true, if_false, if_true, ok_bind, pure_res, bind_ok_iff, Except.ok.injEq,
        Prod.mk.injEq] at h
    · obtain ⟨rfl, _⟩ := h; rfl
    · obtain ⟨_, _, _, _, rfl, _⟩ := h; simp [ImuState.noise, he, hn]
    · obtain ⟨_, _, _, _, rfl, _⟩ := h; simp [ImuState.noise, he, hn]
    · obtain ⟨_, _, _, _, _, _, _, _, rfl, _⟩ := h; simp [ImuState.noise, he, hn]) h1
  have r2 := loopMap_rel (R := fun a b => a.noise = b.noise) (fun a i b j h => by
    unfold GpsState.addVecAt at h
    split at h <;> simp only [pure_res, bind_ok_iff, Except.ok.injEq, Prod.mk.injEq] at h
    · obtain ⟨_, _, rfl, _⟩ := h; rfl
    · obtain ⟨rfl, _⟩ := h; rfl) h2
  have r3 := loopMap_rel (R := fun a b => a.noise = b.noise) (fun a i b j h => by
    unfold CamState.addVecAt at h
    split at h <;> simp only [pure_res, bind_ok_iff, Except.ok.injEq, Prod.mk.injEq] at h
    · obtain ⟨_, _, _, _, rfl, _⟩ := h; rfl
    · obtain ⟨rfl, _⟩ := h; rfl) h3
  have r4 := loopMap_rel (R := fun a b => a.noise = b.noise) (fun a i b j h => by
    unfold FidState.addVecAt at h
    split at h <;> simp only [pure_res, bind_ok_iff, Except.ok.injEq, Prod.mk.injEq] at h
    · obtain ⟨_, _, _, _, rfl, _⟩ := h; rfl
    · obtain ⟨rfl, _⟩ := h; rfl) h4
  have r5 := loopMap_rel (R := fun a b => a.map AugState.index = b.map AugState.index) (fun a i b j h => by
    have := loopIdx_rel (R := fun a b : AugState K => a.index = b.index) (fun a i b j h => AugState.addVecAt_same h) h
    clear h
    induction this with
    | nil => rfl
    | cons h _ ih => simp only [List.map_cons, h, ih]) h5
  refine ⟨?_, ?_⟩
  · simp only [State.noise, mapNoise]
    rw [forall₂_flatMap (r1.imp fun _ _ h => h.2), forall₂_flatMap (r2.imp fun _ _ h => h.2),
      forall₂_flatMap (r3.imp fun _ _ h => h.2), forall₂_flatMap (r4.imp fun _ _ h => h.2)]
  · simp only [State.clones, List.map_flatMap]
    rw [forall₂_flatMap (g := fun w : List (AugState K) => w.map AugState.index) (r5.imp fun _ _ h => h.2)]

/-- Calls that only configure noise vectors satisfying `H`. -/
def Op.NoiseOK (H : Vec K → Prop) : Op K → Prop
  | .setBodyProcessNoise v => H v
  | _ => True

theorem noise_step {N : Prim K} {H : Vec K → Prop} {Z : Prop} {e e' : Ekf K} {op : Op K} (hn : NoiseInv N H Z e)
    (ho : op.NoiseOK H) (h : step N e op = .ok e') : NoiseInv N H Z e' := by
  cases op with
  | registerIMU id s c => exact noise_registerIMU hn h
  | registerGPS id s c => exact noise_registerGPS hn h
  | registerCamera id s c => exact noise_registerCamera hn h
  | registerFiducial s c => exact noise_registerFiducial hn h
  | predict t => exact noise_predict hn h
  | frame c f => exact noise_augmentFrame hn h
  | kalman j r n =>
    obtain ⟨s, c, v, rfl, hs, _, _⟩ := kalmanUpdate_form h
    exact hn.congr (addVec_noise hs).1 (addVec_noise hs).2 rfl rfl rfl rfl
  | getImu id =>
    cases h
    refine hn.congr ?_ rfl rfl rfl rfl rfl
    simp only [getImuState, State.noise, mapNoise]
    rw [flatMap_touch ImuState.noise id _ rfl]
  | getGps id =>
    cases h
    refine hn.congr ?_ rfl rfl rfl rfl rfl
    simp only [getGpsState, State.noise, mapNoise]
    rw [flatMap_touch GpsState.noise id _ rfl]
  | getCam id =>
    cases h
    refine hn.congr ?_ rfl rfl rfl rfl rfl
    simp only [getCamState, State.noise, mapNoise]
    rw [flatMap_touch CamState.noise id _ rfl]
  | getAug c f t =>
    simp only [step, bind_ok_iff, pure_res, Except.ok.injEq] at h
    obtain ⟨r, h, rfl⟩ := h
    unfold getAugState at h
    split at h
    · cases h; exact noise_touchAug hn c
    · simp only [bind_ok_iff, pure_res, Except.ok.injEq] at h
      obtain ⟨a, _, rfl⟩ := h
      exact noise_touchAug hn _
  | initializeAt t b => cases h; exact hn.congr rfl rfl rfl rfl rfl rfl
  | setMaxTrackLength n => cases h; exact hn.congr rfl rfl rfl rfl rfl rfl
  | setGpsReference p a => cases h; exact hn.congr rfl rfl rfl rfl rfl rfl
  | setZeroAcceleration b => cases h; exact hn.congr rfl rfl rfl rfl rfl rfl
  | initializeGravity => cases h; exact hn.congr rfl rfl rfl rfl rfl rfl
  | localTime t =>
    simp only [step, Except.ok.injEq] at h
    subst h
    unfold calculateLocalTime
    split
    · exact hn
    · exact hn.congr rfl rfl rfl rfl rfl rfl
  | setBodyProcessNoise v =>
    cases h
    exact ⟨ho, hn.placed⟩
  | attemptGpsInit t x f =>
    obtain ⟨_, _, _, _, rfl⟩ := attemptGpsInit_form h
    exact hn.congr rfl rfl rfl rfl rfl rfl
  | setBodyMotion a w α => cases h; exact hn.congr rfl rfl rfl rfl rfl rfl

theorem noise_init {N : Prim K} {H : Vec K → Prop} {Z : Prop} (hZ : Z) (hz : N.sqrt 0 = 0) (p : EkfParams K) (hp : H p.processNoise) :
    NoiseInv N H Z (init N p) := by
  refine ⟨hp, fun _ => 0, fun _ => 0, ⟨fun _ _ => rfl, ?_, ?_, fun _ _ => .inl rfl⟩, fun i j => ?_, .inl ⟨hZ, fun _ _ => rfl, rfl⟩⟩
  · intro x hx; cases hx
  · intro a ha; cases ha
  · show (0 : K) = _
    split <;> simp [hz]

theorem noise_init_std {N : Prim K} {H : Vec K → Prop} {Z : Prop} (hZ : Z) (p : EkfParams K) (hu : p.useRoot = false)
    (hp : H p.processNoise) : NoiseInv N H Z (init N p) := by
  refine ⟨hp, fun _ => 0, fun _ => 0, ⟨fun _ _ => rfl, ?_, ?_, fun _ _ => .inl rfl⟩, fun i j => ?_,
    .inl ⟨hZ, fun _ _ => rfl, rfl⟩⟩
  · intro x hx; cases hx
  · intro a ha; cases ha
  · have : (init N p).useRoot = false := hu
    rw [this]
    show (0 : K) = _
    simp

theorem noise_run {N : Prim K} {H : Vec K → Prop} {Z : Prop} {ops : List (Op K)} {e e' : Ekf K} (hn : NoiseInv N H Z e)
    (ho : ∀ op ∈ ops, op.NoiseOK H) (h : run N e ops = .ok e') : NoiseInv N H Z e' := by
  induction ops generalizing e with
  | nil => cases h; exact hn
  | cons op ops ih =>
    simp only [run, bind_ok_iff] at h
    obtain ⟨e1, h1, h2⟩ := h
    exact ih (noise_step hn (ho op (by simp)) h1) (fun o h => ho o (by simp [h])) h2

end Ekf
end EkfCal
