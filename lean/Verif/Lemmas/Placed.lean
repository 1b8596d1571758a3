import Verif.Lemmas.Comp

/-!
# The index members of IMUs
-/

namespace EkfCal
variable {K : Type} [Field K] [LinearOrder K]

/-- `index` is where the entries of the IMU start, and `size` is their number. -/
structure ImuState.Placed (s : ImuState K) : Prop where
  size : s.size = s.dim
  ext : s.isExtrinsic = true → s.indexExtrinsic = s.index
  int : s.isIntrinsic = true → s.indexIntrinsic = s.index + (if s.isExtrinsic then 6 else 0)

omit [Field K] [LinearOrder K] in
theorem ImuState.placed_reindex {s : ImuState K} (h : s.size = s.dim) (i : Nat) : (s.reindex i).Placed := by
  refine ⟨h, fun he => ?_, fun hi => ?_⟩
  · show (if s.isExtrinsic then i else _) = i
    rw [if_pos (by exact he)]
  · show (if s.isIntrinsic then (if s.isExtrinsic then i + 6 else i) else _) = i + (if s.isExtrinsic then 6 else 0)
    rw [if_pos (by exact hi)]
    split_ifs <;> rfl

theorem ImuState.placed_default : (ImuState.default : ImuState K).Placed :=
  ⟨rfl, fun h => absurd h Bool.false_ne_true, fun h => absurd h Bool.false_ne_true⟩

theorem ImuState.placed_addVecAt {N : Prim K} {s : ImuState K} {v : Vec K} {i : Nat} {r : ImuState K × Nat}
    (h : s.addVecAt N v i = .ok r) (hs : s.Placed) : r.1.Placed := by
  unfold ImuState.addVecAt at h
  cases he : s.isExtrinsic <;> cases hn : s.isIntrinsic <;>
    simp only [he, hn, Bool.false_eq_true, if_false, if_true, ok_bind, pure_res, bind_ok_iff, Except.ok.injEq] at h
  · obtain rfl := h; exact hs
  · obtain ⟨_, _, _, _, rfl⟩ := h
    refine ⟨?_, ?_, ?_⟩
    · have := hs.size
      simpa [ImuState.dim, he, hn] using this
    · have := hs.ext
      simpa [he] using this
    · have := hs.int
      simpa [he, hn] using this
  · obtain ⟨_, _, _, _, rfl⟩ := h
    refine ⟨?_, ?_, ?_⟩
    · have := hs.size
      simpa [ImuState.dim, he, hn] using this
    · have := hs.ext
      simpa [he] using this
    · have := hs.int
      simpa [he, hn] using this
  · obtain ⟨_, _, _, _, _, _, _, _, rfl⟩ := h
    refine ⟨?_, ?_, ?_⟩
    · have := hs.size
      simpa [ImuState.dim, he, hn] using this
    · have := hs.ext
      simpa [he] using this
    · have := hs.int
      simpa [he, hn] using this

/-- Every IMU is placed. -/
structure State.Placed (s : State K) : Prop where
  imus : ∀ x ∈ s.imus, x.2.Placed

/-- Every IMU has the size of its calibration. -/
structure State.Sized (s : State K) : Prop where
  imus : ∀ x ∈ s.imus, x.2.size = x.2.dim

omit [Field K] [LinearOrder K] in
theorem State.Placed.sized {s : State K} (h : s.Placed) : s.Sized := ⟨fun x hx => (h.imus x hx).size⟩

namespace Ekf

theorem placed_refresh {N : Prim K} {e e' : Ekf K} (h : refreshIndices N e = .ok e') (hs : e.state.Sized) :
    e'.state.Placed := by
  rw [refreshIndices_state h]
  refine ⟨fun x hx => ?_⟩
  obtain ⟨y, hy, _, j, h⟩ := mem_accumIdx hx
  rw [h]
  exact ImuState.placed_reindex (hs.imus y hy) j

theorem placed_pruneLoop {N : Prim K} {n : Nat} {e e' : Ekf K} (hs : e.state.Placed)
    (h : pruneLoop N n e = .ok e') : e'.state.Placed := by
  induction n generalizing e with
  | zero => cases h; exact hs
  | succ n ih =>
    simp only [pruneLoop, bind_ok_iff] at h
    obtain ⟨e1, h1, h2⟩ := h
    refine ih ?_ h2
    obtain ⟨_, _, ⟨_, rfl⟩ | ⟨_, _, _, _, _, h⟩⟩ := pruneAt_form h1
    · exact hs
    · exact placed_refresh h ⟨fun x hx => (hs.imus x hx).size⟩

theorem placed_augmentTimed {N : Prim K} {e e' : Ekf K} (hs : e.state.Placed) (h : augmentTimed N e = .ok e') : e'.state.Placed := by
  obtain ⟨_, rfl⟩ | ⟨_, _, e1, _, h1, h⟩ := augmentTimed_form h
  · exact hs
  · have hs1 : e1.state.Placed := placed_pruneLoop (by exact ⟨hs.imus⟩) h1
    obtain ⟨_, rfl⟩ | ⟨_, e2, e3, h2, h3, rfl⟩ := h
    · exact hs1
    · have := placed_refresh h2 ⟨hs1.sized.imus⟩
      obtain ⟨_, _, _, _, rfl⟩ := augmentAtBack_form h3
      exact this

theorem placed_step {N : Prim K} {e e' : Ekf K} {op : Op K} (hs : e.state.Placed) (ho : op.WF)
    (h : step N e op = .ok e') : e'.state.Placed := by
  have hz : e.state.Sized := hs.sized
  cases op with
  | registerIMU id s c =>
    obtain ⟨_, rfl⟩ | ⟨_, _, _, h⟩ := registerIMU_form h
    · exact hs
    · exact placed_refresh h ⟨forall_insert (P := fun s : ImuState K => s.size = s.dim) hz.imus ho⟩
  | registerGPS id s c =>
    obtain ⟨_, rfl⟩ | ⟨_, _, _, h⟩ := registerGPS_form h
    · exact hs
    · exact placed_refresh h ⟨hz.imus⟩
  | registerCamera id s c =>
    obtain ⟨_, rfl⟩ | ⟨_, _, _, _, h⟩ := registerCamera_form h
    · exact hs
    · exact placed_refresh h ⟨hz.imus⟩
  | registerFiducial s c =>
    obtain ⟨_, rfl⟩ | ⟨_, _, _, h⟩ := registerFiducial_form h
    · exact hs
    · exact placed_refresh h ⟨hz.imus⟩
  | predict t =>
    obtain ⟨_, rfl⟩ | ⟨_, b, out, hb, h⟩ := predict_form h
    · exact hs
    · refine placed_augmentTimed ?_ h
      exact ⟨hs.imus⟩
  | frame c f =>
    obtain ⟨_, rfl⟩ | ⟨_, e1, h1, h2⟩ := augmentFrame_form h
    · exact hs
    · obtain ⟨_, _, _, _, rfl⟩ := augmentAtBack_form h2
      show e1.state.Placed
      obtain ⟨_, h1⟩ | ⟨_, first, rest, out, hw, _, h1⟩ := h1
      · exact placed_refresh h1 ⟨hz.imus⟩
      · exact placed_refresh h1 ⟨hz.imus⟩
  | kalman j r n =>
    obtain ⟨s, c, v, rfl, h, _, _⟩ := kalmanUpdate_form h
    simp only [State.addVec, bind_ok_iff, pure_res, Except.ok.injEq] at h
    obtain ⟨bp, _, body, hb, ⟨imus, i1⟩, h1, ⟨gpss, i2⟩, h2, ⟨cams, i3⟩, h3, ⟨fids, i4⟩, h4, ⟨augs, i5⟩, h5, rfl⟩ := h
    exact ⟨loopMap_forall (P := ImuState.Placed) (fun a i r h hp => ImuState.placed_addVecAt h hp) h1 hs.imus⟩
  | getImu id =>
    cases h
    exact ⟨forall_touch hs.imus ImuState.placed_default⟩
  | getGps id => cases h; exact ⟨hs.imus⟩
  | getCam id => cases h; exact ⟨hs.imus⟩
  | getAug c f t =>
    simp only [step, bind_ok_iff, pure_res, Except.ok.injEq] at h
    obtain ⟨r, h, rfl⟩ := h
    obtain ⟨key, hk⟩ := getAugState_form h
    rw [hk]; exact ⟨hs.imus⟩
  | initializeAt t b => cases h; exact ⟨hs.imus⟩
  | setMaxTrackLength n => cases h; exact hs
  | setGpsReference p a => cases h; exact hs
  | setZeroAcceleration b => cases h; exact hs
  | initializeGravity => cases h; exact hs
  | localTime t =>
    simp only [step, Except.ok.injEq] at h
    subst h
    unfold calculateLocalTime
    split <;> exact hs
  | setBodyProcessNoise v => cases h; exact hs
  | attemptGpsInit t x f => obtain ⟨_, _, _, _, rfl⟩ := attemptGpsInit_form h; exact hs
  | setBodyMotion a w α => cases h; exact ⟨hs.imus⟩

theorem placed_run {N : Prim K} {ops : List (Op K)} {e e' : Ekf K} (hs : e.state.Placed)
    (ho : ∀ op ∈ ops, op.WF) (h : run N e ops = .ok e') : e'.state.Placed := by
  induction ops generalizing e with
  | nil => cases h; exact hs
  | cons op ops ih =>
    simp only [run, bind_ok_iff] at h
    obtain ⟨e1, h1, h2⟩ := h
    exact ih (placed_step hs (ho op (by simp)) h1) (fun o h => ho o (by simp [h])) h2

end Ekf
end EkfCal
