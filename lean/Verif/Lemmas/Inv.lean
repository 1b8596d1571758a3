import Verif.Lemmas.UMap
import Verif.Spec.Machine

/-! # The bookkeeping invariant of the filter -/

set_option linter.unusedSectionVars false
set_option linter.unusedSimpArgs false

namespace EkfCal
variable {K : Type}

/-! ## Shapes of defined results -/

theorem Mat.setBlock_shape {m s out : Mat K} {i j p q : Nat} (h : m.setBlock i j p q s = .ok out) :
    out.rows = m.rows ∧ out.cols = m.cols := by
  rw [Mat.setBlock_ok_iff] at h; rw [h.2.2]; exact ⟨rfl, rfl⟩

theorem Mat.block_shape {m out : Mat K} {i j p q : Nat} (h : m.block i j p q = .ok out) :
    out.rows = p ∧ out.cols = q := by
  rw [Mat.block_ok_iff] at h; rw [h.2]; exact ⟨rfl, rfl⟩

theorem insertInMatrix_shape [Zero K] {sub m out : Mat K} {r c : Nat} (h : insertInMatrix sub m r c = .ok out) :
    out.rows = m.rows + sub.rows ∧ out.cols = m.cols + sub.cols := by
  obtain ⟨hr, hc⟩ := (insertInMatrix_ok_iff sub m r c).1 ⟨out, h⟩
  obtain ⟨o, h', h1, h2, _⟩ := insertInMatrix_spec sub m r c hr hc
  rw [h] at h'; cases h'; exact ⟨h1, h2⟩

theorem removeFromMatrix_shape [Zero K] {m out : Mat K} {r c n : Nat} (h : removeFromMatrix m r c n = .ok out) :
    (r + n ≤ m.rows ∧ c + n ≤ m.cols) ∧ out.rows = m.rows - n ∧ out.cols = m.cols - n := by
  have hh := (removeFromMatrix_ok_iff m r c n).1 ⟨out, h⟩
  obtain ⟨o, h', h1, h2, _⟩ := removeFromMatrix_spec m r c n hh.1 hh.2
  rw [h] at h'; cases h'; exact ⟨hh, h1, h2⟩

theorem Mat.mul_shape [Add K] [Zero K] [Mul K] {a b out : Mat K} (h : a.mul b = .ok out) :
    a.cols = b.rows ∧ out.rows = a.rows ∧ out.cols = b.cols := by
  unfold Mat.mul at h; split at h <;> simp at h
  rw [← h]; exact ⟨by assumption, rfl, rfl⟩

theorem Mat.add_shape [Add K] {a b out : Mat K} (h : a.add b = .ok out) :
    (a.rows = b.rows ∧ a.cols = b.cols) ∧ out.rows = a.rows ∧ out.cols = a.cols := by
  unfold Mat.add at h; split at h <;> simp at h
  rw [← h]; exact ⟨by assumption, rfl, rfl⟩

theorem Mat.sub_shape [Sub K] {a b out : Mat K} (h : a.sub b = .ok out) :
    (a.rows = b.rows ∧ a.cols = b.cols) ∧ out.rows = a.rows ∧ out.cols = a.cols := by
  unfold Mat.sub at h; split at h <;> simp at h
  rw [← h]; exact ⟨by assumption, rfl, rfl⟩

theorem qrStack_shape [Zero K] {N : Prim K} {a b out : Mat K} (h : qrStack N a b = .ok out) :
    out.rows = a.cols ∧ out.cols = a.cols := by
  unfold qrStack at h; split at h <;> (try split at h) <;> simp at h
  rw [← h]; exact ⟨rfl, rfl⟩

namespace Ekf

theorem augmentCovariance_shape [Field K] [LinearOrder K] {u : Bool} {m out : Mat K} {i : Nat}
    (h : augmentCovariance u m i = .ok out) : out.rows = m.rows + 6 ∧ out.cols = m.cols + 6 := by
  unfold augmentCovariance at h
  cases u
  · simp only [Bool.false_eq_true, if_false, bind_ok_iff] at h
    obtain ⟨_, _, o1, h1, _, _, o2, h2, _, _, o3, h3, _, _, o4, h4, _, _, o5, h5, _, _, o6, h6, _, _, o7, h7,
      _, _, o8, h8, _, _, _, _, o9, h9, _, _, h10⟩ := h
    have h1 := Mat.setBlock_shape h1; have h2 := Mat.setBlock_shape h2; have h3 := Mat.setBlock_shape h3
    have h4 := Mat.setBlock_shape h4; have h5 := Mat.setBlock_shape h5; have h6 := Mat.setBlock_shape h6
    have h7 := Mat.setBlock_shape h7; have h8 := Mat.setBlock_shape h8; have h9 := Mat.setBlock_shape h9
    have h10 := Mat.setBlock_shape h10
    simp only [Mat.zero, augSize] at *
    omega
  · simp only [if_true, bind_ok_iff] at h
    obtain ⟨_, _, o1, h1, _, _, o2, h2, _, _, o3, h3, _, _, h4⟩ := h
    have h1 := Mat.setBlock_shape h1; have h2 := Mat.setBlock_shape h2; have h3 := Mat.setBlock_shape h3
    have h4 := Mat.setBlock_shape h4
    simp only [Mat.zero, augSize] at *
    omega

/-! ## The invariant -/

/-- Everything the filter's bookkeeping maintains. -/
structure Inv (e : Ekf K) : Prop where
  sorted : e.state.MapsSorted
  size : e.stateSize = e.state.dim
  imu : e.imuStateSize = mapDim ImuState.dim e.state.imus
  gps : e.gpsStateSize = mapDim GpsState.dim e.state.gpss
  cam : e.camStateSize = mapDim CamState.dim e.state.cams
  fid : e.fidStateSize = mapDim FidState.dim e.state.fids
  aug : e.augStateSize = mapDim (fun w => 6 * w.length) e.state.augs
  covRows : e.cov.rows = e.stateSize
  covCols : e.cov.cols = e.stateSize
  noiseRows : e.processNoise.rows = e.stateSize
  noiseCols : e.processNoise.cols = e.stateSize
  tiles : Tiles e.state.blocks 0 e.stateSize

/-- The invariant without the parts that `refreshIndices` re-establishes and without the covariance. -/
structure PreInv (e : Ekf K) : Prop where
  sorted : e.state.MapsSorted
  size : e.stateSize = e.state.dim
  imu : e.imuStateSize = mapDim ImuState.dim e.state.imus
  gps : e.gpsStateSize = mapDim GpsState.dim e.state.gpss
  cam : e.camStateSize = mapDim CamState.dim e.state.cams
  fid : e.fidStateSize = mapDim FidState.dim e.state.fids
  aug : e.augStateSize = mapDim (fun w => 6 * w.length) e.state.augs

theorem Inv.pre {e : Ekf K} (h : Inv e) : PreInv e := ⟨h.sorted, h.size, h.imu, h.gps, h.cam, h.fid, h.aug⟩

variable [Field K] [LinearOrder K]

/-- A defined `refreshIndices` only reindexes the state, sets the process noise and the range starts. -/
theorem refreshIndices_ok {N : Prim K} {e e' : Ekf K} (hs : e.state.dim ≤ e.stateSize)
    (h : refreshIndices N e = .ok e') :
    e.bodyProcessNoise.size = 18 ∧ e'.state = e.state.reindex ∧
    (e'.processNoise.rows = e.stateSize ∧ e'.processNoise.cols = e.stateSize) ∧
    e' = { e with
      state := e'.state, processNoise := e'.processNoise, imuStateStart := e'.imuStateStart
      gpsStateStart := e'.gpsStateStart, camStateStart := e'.camStateStart
      fidStateStart := e'.fidStateStart, augStateStart := e'.augStateStart } := by
  have hn : e.bodyProcessNoise.size = 18 := by
    unfold refreshIndices at h
    simp only [bind_ok_iff, guardUB_ok_iff] at h
    obtain ⟨_, _, _, hn, _⟩ := h
    exact hn
  obtain ⟨noise, hd, hr⟩ := refreshIndices_spec N e hs hn
  rw [h] at hr
  cases hr
  exact ⟨hn, rfl, hd, rfl⟩

theorem PreInv.refresh {N : Prim K} {e e' : Ekf K} (hp : PreInv e) (h : refreshIndices N e = .ok e')
    (hr : e.cov.rows = e.stateSize) (hc : e.cov.cols = e.stateSize) : Inv e' := by
  obtain ⟨_, h1, h2, h3⟩ := refreshIndices_ok hp.size.ge h
  rw [h3]
  refine ⟨?_, ?_, ?_, ?_, ?_, ?_, ?_, hr, hc, h2.1, h2.2, ?_⟩ <;> simp only [h1]
  · exact State.reindex_sorted hp.sorted
  · rw [State.reindex_dim]; exact hp.size
  · rw [hp.imu]; exact (accumIdx_dim _ _ (by intros; rfl) _ _).symm
  · rw [hp.gps]; exact (accumIdx_dim _ _ (by intros; rfl) _ _).symm
  · rw [hp.cam]; exact (accumIdx_dim _ _ (by intros; rfl) _ _).symm
  · rw [hp.fid]; exact (accumIdx_dim _ _ (by intros; rfl) _ _).symm
  · rw [hp.aug]; exact (accumIdx_dim _ _ (by intros; simp) _ _).symm
  · rw [hp.size]; exact State.reindex_tiles _

/-- Filter construction. -/
theorem inv_init (N : Prim K) (p : EkfParams K) : Inv (init N p) where
  sorted := ⟨UMap.sorted_nil, UMap.sorted_nil, UMap.sorted_nil, UMap.sorted_nil, UMap.sorted_nil⟩
  size := rfl
  imu := rfl
  gps := rfl
  cam := rfl
  fid := rfl
  aug := rfl
  covRows := by simp only [init]; split <;> rfl
  covCols := by simp only [init]; split <;> rfl
  noiseRows := rfl
  noiseCols := rfl
  tiles := ⟨rfl, rfl⟩

/-! ## Registration -/

theorem inv_registerIMU {N : Prim K} {e e' : Ekf K} {id : Nat} {s : ImuState K} {c : Mat K} (hi : Inv e)
    (hw : s.WF) (h : registerIMU N e id s c = .ok e') : Inv e' := by
  unfold registerIMU at h
  cases hf : e.state.imus.find? id with
  | some v => simp [hf] at h; exact h ▸ hi
  | none =>
    have hd := UMap.mapDim_insert (m := e.state.imus) ImuState.dim id s ImuState.default rfl hi.sorted.imus
    simp only [UMap.getD, hf, Option.getD_none] at hd
    have hd0 : (ImuState.default : ImuState K).dim = 0 := rfl
    rw [hd0] at hd
    have hsort := UMap.insert_sorted id s hi.sorted.imus
    simp only [hf, Option.isSome_none, Bool.false_eq_true, if_false] at h
    have hsz := hi.size
    have himu := hi.imu
    unfold State.dim at hsz
    unfold ImuState.WF at hw
    have hcr := hi.covRows
    have hcc := hi.covCols
    have hdim : s.dim = (if s.isExtrinsic then 6 else 0) + (if s.isIntrinsic then 6 else 0) := rfl
    cases he : s.isExtrinsic <;> cases hn : s.isIntrinsic <;>
      simp only [he, hn, Bool.or_self, Bool.or_true, Bool.true_or, Bool.or_false, Bool.false_eq_true, if_false,
        if_true, ok_bind, pure_res, bind_ok_iff, Except.ok.injEq] at h hdim
    · refine PreInv.refresh ?_ h ?_ ?_
      · refine ⟨⟨hsort, hi.sorted.gpss, hi.sorted.cams, hi.sorted.fids, hi.sorted.augs⟩, ?_, ?_, hi.gps, hi.cam, hi.fid, hi.aug⟩ <;>
          simp [State.dim] at * <;> omega
      all_goals (simp [State.dim] at *; omega)
    all_goals
      obtain ⟨b, hb, c1, hins, h⟩ := h
      have hb := Mat.block_shape hb
      have hins := insertInMatrix_shape hins
      refine PreInv.refresh ?_ h ?_ ?_
      · refine ⟨⟨hsort, hi.sorted.gpss, hi.sorted.cams, hi.sorted.fids, hi.sorted.augs⟩, ?_, ?_, hi.gps, hi.cam, hi.fid, hi.aug⟩ <;>
          simp [State.dim, imuExtSize, imuIntSize] at * <;> omega
      all_goals (simp [State.dim, imuExtSize, imuIntSize] at *; omega)

theorem inv_registerGPS {N : Prim K} {e e' : Ekf K} {id : Nat} {s : GpsState K} {c : Mat K} (hi : Inv e)
    (hw : s.WF) (h : registerGPS N e id s c = .ok e') : Inv e' := by
  unfold registerGPS at h
  cases hf : e.state.gpss.find? id with
  | some v => simp [hf] at h; exact h ▸ hi
  | none =>
    have hd := UMap.mapDim_insert (m := e.state.gpss) GpsState.dim id s GpsState.default rfl hi.sorted.gpss
    simp only [UMap.getD, hf, Option.getD_none] at hd
    have hd0 : (GpsState.default : GpsState K).dim = 0 := rfl
    rw [hd0] at hd
    have hsort := UMap.insert_sorted id s hi.sorted.gpss
    simp only [hf, Option.isSome_none, Bool.false_eq_true, if_false] at h
    have hsz := hi.size
    have hk := hi.gps
    unfold State.dim at hsz
    unfold GpsState.WF at hw
    have hcr := hi.covRows
    have hcc := hi.covCols
    have hdim : s.dim = (if s.isExtrinsic then 3 else 0) := rfl
    cases he : s.isExtrinsic <;>
      simp only [he, Bool.false_eq_true, if_false, if_true, ok_bind, pure_res, bind_ok_iff, Except.ok.injEq] at h hdim
    · refine PreInv.refresh ?_ h ?_ ?_
      · refine ⟨⟨hi.sorted.imus, hsort, hi.sorted.cams, hi.sorted.fids, hi.sorted.augs⟩, ?_, hi.imu, ?_, hi.cam, hi.fid, hi.aug⟩ <;>
          simp [State.dim] at * <;> omega
      all_goals (simp [State.dim] at *; omega)
    · obtain ⟨b, hb, c1, hins, h⟩ := h
      have hb := Mat.block_shape hb
      have hins := insertInMatrix_shape hins
      refine PreInv.refresh ?_ h ?_ ?_
      · refine ⟨⟨hi.sorted.imus, hsort, hi.sorted.cams, hi.sorted.fids, hi.sorted.augs⟩, ?_, hi.imu, ?_, hi.cam, hi.fid, hi.aug⟩ <;>
          simp [State.dim, gpsExtSize] at * <;> omega
      all_goals (simp [State.dim, gpsExtSize] at *; omega)

theorem inv_registerCamera {N : Prim K} {e e' : Ekf K} {id : Nat} {s : CamState K} {c : Mat K} (hi : Inv e)
    (hw : s.WF) (h : registerCamera N e id s c = .ok e') : Inv e' := by
  unfold registerCamera at h
  cases hf : e.state.cams.find? id with
  | some v => simp [hf] at h; exact h ▸ hi
  | none =>
    have hd := UMap.mapDim_insert (m := e.state.cams) CamState.dim id s CamState.default rfl hi.sorted.cams
    simp only [UMap.getD, hf, Option.getD_none] at hd
    have hd0 : (CamState.default : CamState K).dim = 0 := rfl
    rw [hd0] at hd
    have hsort := UMap.insert_sorted id s hi.sorted.cams
    simp only [hf, Option.isSome_none, Bool.false_eq_true, if_false] at h
    have hsz := hi.size
    have hk := hi.cam
    unfold State.dim at hsz
    unfold CamState.WF at hw
    have hcr := hi.covRows
    have hcc := hi.covCols
    have hdim : s.dim = (if s.isExtrinsic then 6 else 0) := rfl
    by_cases hp : e.primaryCameraId = 0 <;> cases he : s.isExtrinsic <;>
      simp only [he, hp, Bool.false_eq_true, if_false, if_true, ok_bind, pure_res, bind_ok_iff, Except.ok.injEq]
        at h hdim <;>
      obtain ⟨_, _, h⟩ := h
    case pos.false | neg.false =>
      refine PreInv.refresh ?_ h ?_ ?_
      · refine ⟨⟨hi.sorted.imus, hi.sorted.gpss, hsort, hi.sorted.fids, hi.sorted.augs⟩, ?_, hi.imu, hi.gps, ?_, hi.fid, hi.aug⟩ <;>
          simp [State.dim] at * <;> omega
      all_goals (simp [State.dim] at *; omega)
    all_goals
      obtain ⟨b, hb, c1, hins, h⟩ := h
      have hb := Mat.block_shape hb
      have hins := insertInMatrix_shape hins
      refine PreInv.refresh ?_ h ?_ ?_
      · refine ⟨⟨hi.sorted.imus, hi.sorted.gpss, hsort, hi.sorted.fids, hi.sorted.augs⟩, ?_, hi.imu, hi.gps, ?_, hi.fid, hi.aug⟩ <;>
          simp [State.dim, camExtSize] at * <;> omega
      all_goals (simp [State.dim, camExtSize] at *; omega)

theorem inv_registerFiducial {N : Prim K} {e e' : Ekf K} {s : FidState K} {c : Mat K} (hi : Inv e)
    (hw : s.WF) (h : registerFiducial N e s c = .ok e') : Inv e' := by
  unfold registerFiducial at h
  cases hf : e.state.fids.find? s.id with
  | some v => simp [hf] at h; exact h ▸ hi
  | none =>
    have hd := UMap.mapDim_insert (m := e.state.fids) FidState.dim s.id s { s with isExtrinsic := false }
      rfl hi.sorted.fids
    simp only [UMap.getD, hf, Option.getD_none] at hd
    have hd0 : ({ s with isExtrinsic := false } : FidState K).dim = 0 := rfl
    rw [hd0] at hd
    have hsort := UMap.insert_sorted s.id s hi.sorted.fids
    simp only [hf, Option.isSome_none, Bool.false_eq_true, if_false] at h
    have hsz := hi.size
    have hk := hi.fid
    unfold State.dim at hsz
    unfold FidState.WF at hw
    have hcr := hi.covRows
    have hcc := hi.covCols
    have hdim : s.dim = (if s.isExtrinsic then 6 else 0) := rfl
    cases he : s.isExtrinsic <;>
      simp only [he, Bool.false_eq_true, if_false, if_true, ok_bind, pure_res, bind_ok_iff, Except.ok.injEq] at h hdim
    · refine PreInv.refresh ?_ h ?_ ?_
      · refine ⟨⟨hi.sorted.imus, hi.sorted.gpss, hi.sorted.cams, hsort, hi.sorted.augs⟩, ?_, hi.imu, hi.gps, hi.cam, ?_, hi.aug⟩ <;>
          simp [State.dim] at * <;> omega
      all_goals (simp [State.dim] at *; omega)
    · obtain ⟨b, hb, c1, hins, h⟩ := h
      have hb := Mat.block_shape hb
      have hins := insertInMatrix_shape hins
      refine PreInv.refresh ?_ h ?_ ?_
      · refine ⟨⟨hi.sorted.imus, hi.sorted.gpss, hi.sorted.cams, hsort, hi.sorted.augs⟩, ?_, hi.imu, hi.gps, hi.cam, ?_, hi.aug⟩ <;>
          simp [State.dim, fidExtSize] at * <;> omega
      all_goals (simp [State.dim, fidExtSize] at *; omega)

/-! ## Cloning -/

/-- `Inv` except that the covariance still lacks the rows of one clone. -/
structure InvButClone (e : Ekf K) : Prop where
  pre : PreInv e
  covRows : e.cov.rows + 6 = e.stateSize
  covCols : e.cov.cols + 6 = e.stateSize
  noiseRows : e.processNoise.rows = e.stateSize
  noiseCols : e.processNoise.cols = e.stateSize
  tiles : Tiles e.state.blocks 0 e.stateSize

theorem PreInv.refresh' {N : Prim K} {e e' : Ekf K} (hp : PreInv e) (h : refreshIndices N e = .ok e')
    (hr : e.cov.rows + 6 = e.stateSize) (hc : e.cov.cols + 6 = e.stateSize) : InvButClone e' := by
  obtain ⟨_, h1, h2, h3⟩ := refreshIndices_ok hp.size.ge h
  rw [h3]
  refine ⟨⟨?_, ?_, ?_, ?_, ?_, ?_, ?_⟩, hr, hc, h2.1, h2.2, ?_⟩ <;> simp only [h1]
  · exact State.reindex_sorted hp.sorted
  · rw [State.reindex_dim]; exact hp.size
  · rw [hp.imu]; exact (accumIdx_dim _ _ (by intros; rfl) _ _).symm
  · rw [hp.gps]; exact (accumIdx_dim _ _ (by intros; rfl) _ _).symm
  · rw [hp.cam]; exact (accumIdx_dim _ _ (by intros; rfl) _ _).symm
  · rw [hp.fid]; exact (accumIdx_dim _ _ (by intros; rfl) _ _).symm
  · rw [hp.aug]; exact (accumIdx_dim _ _ (by intros; simp) _ _).symm
  · rw [hp.size]; exact State.reindex_tiles _

theorem inv_augmentAtBack {e e' : Ekf K} {key : Nat} (hi : InvButClone e) (h : augmentAtBack e key = .ok e') :
    Inv e' := by
  unfold augmentAtBack at h
  split at h
  · simp at h
  · simp only [bind_ok_iff, pure_res, Except.ok.injEq] at h
    obtain ⟨c, hc, rfl⟩ := h
    have hc := augmentCovariance_shape hc
    have h1 := hi.covRows
    have h2 := hi.covCols
    exact ⟨hi.pre.sorted, hi.pre.size, hi.pre.imu, hi.pre.gps, hi.pre.cam, hi.pre.fid, hi.pre.aug,
      by dsimp; omega, by dsimp; omega, hi.noiseRows, hi.noiseCols, hi.tiles⟩

theorem inv_augmentFrame {N : Prim K} {e e' : Ekf K} {cam frame : Nat} (hi : Inv e)
    (h : augmentFrame N e cam frame = .ok e') : Inv e' := by
  unfold augmentFrame at h
  dsimp only at h
  split at h
  · have hsz := hi.size
    have hk := hi.aug
    have hcr := hi.covRows
    have hcc := hi.covCols
    unfold State.dim at hsz
    have hd : ∀ w, _ := fun w =>
      UMap.mapDim_insert (m := e.state.augs) (fun w => 6 * w.length) cam w [] rfl hi.sorted.augs
    have hsort : ∀ w, _ := fun w => UMap.insert_sorted (m := e.state.augs) cam w hi.sorted.augs
    split at h
    · simp only [ok_bind, pure_res, bind_ok_iff] at h
      obtain ⟨e2, h2, h3⟩ := h
      refine inv_augmentAtBack ?_ h3
      have hd := hd (e.state.augs.getD cam [] ++ [newClone { e with frameReceived := true } frame])
      refine PreInv.refresh' ?_ h2 ?_ ?_
      · refine ⟨⟨hi.sorted.imus, hi.sorted.gpss, hi.sorted.cams, hi.sorted.fids, hsort _⟩, ?_, hi.imu, hi.gps, hi.cam, hi.fid, ?_⟩ <;>
          simp [State.dim, augSize] at * <;> omega
      all_goals (simp [State.dim, augSize] at *; omega)
    · split at h
      · simp at h
      · rename_i first rest hw
        simp only [bind_ok_iff, pure_res, ok_bind] at h
        obtain ⟨c, hc, e2, h2, h3⟩ := h
        refine inv_augmentAtBack ?_ h3
        have hc := removeFromMatrix_shape hc
        have hd := hd rest
        have hl : rest.length = (e.state.augs.getD cam []).length := by
          have := congrArg List.length hw
          simp at this; omega
        refine PreInv.refresh' ?_ h2 ?_ ?_
        · refine ⟨⟨hi.sorted.imus, hi.sorted.gpss, hi.sorted.cams, hi.sorted.fids, hsort _⟩, ?_, hi.imu, hi.gps, hi.cam, hi.fid, ?_⟩ <;>
            simp [State.dim, augSize] at * <;> omega
        all_goals (simp [State.dim, augSize] at *; omega)
  · simp only [pure_res, Except.ok.injEq] at h
    subst h
    exact ⟨hi.sorted, hi.size, hi.imu, hi.gps, hi.cam, hi.fid, hi.aug, hi.covRows, hi.covCols, hi.noiseRows,
      hi.noiseCols, hi.tiles⟩

theorem inv_pruneAt {N : Prim K} {e e' : Ekf K} {i : Nat} (hi : Inv e) (h : pruneAt N e i = .ok e') : Inv e' := by
  unfold pruneAt at h
  dsimp only at h
  split at h
  · simp at h
  · split at h
    · split at h
      · simp at h
      · rename_i _ next hnext hcond _ a ha
        simp only [bind_ok_iff] at h
        obtain ⟨c, hc, h⟩ := h
        have hsz := hi.size
        have hk := hi.aug
        have hcr := hi.covRows
        have hcc := hi.covCols
        unfold State.dim at hsz
        have hc := removeFromMatrix_shape hc
        have hlen : i < (e.state.augs.getD 0 []).length := hcond.2
        have hd := UMap.mapDim_insert (m := e.state.augs) (fun w => 6 * w.length) 0
          ((e.state.augs.getD 0 []).eraseIdx i) [] rfl hi.sorted.augs
        have hsort := UMap.insert_sorted (m := e.state.augs) 0 ((e.state.augs.getD 0 []).eraseIdx i)
          hi.sorted.augs
        rw [List.length_eraseIdx_of_lt hlen] at hd
        refine PreInv.refresh ?_ h ?_ ?_
        · refine ⟨⟨hi.sorted.imus, hi.sorted.gpss, hi.sorted.cams, hi.sorted.fids, hsort⟩, ?_, hi.imu, hi.gps, hi.cam, hi.fid, ?_⟩ <;>
            simp [State.dim, augSize] at * <;> omega
        all_goals (simp [State.dim, augSize] at *; omega)
    · simp only [pure_res, Except.ok.injEq] at h
      exact h ▸ hi

theorem inv_pruneLoop {N : Prim K} {n : Nat} {e e' : Ekf K} (hi : Inv e) (h : pruneLoop N n e = .ok e') : Inv e' := by
  induction n generalizing e with
  | zero => simp [pruneLoop] at h; exact h ▸ hi
  | succ n ih =>
    simp only [pruneLoop, bind_ok_iff] at h
    obtain ⟨e1, h1, h2⟩ := h
    exact ih (inv_pruneAt hi h1) h2

theorem inv_touchAug {e : Ekf K} (hi : Inv e) (k : Nat) :
    Inv { e with state := { e.state with augs := e.state.augs.touch k [] } } := by
  have h1 := UMap.mapDim_touch (m := e.state.augs) (fun w => 6 * w.length) k [] rfl hi.sorted.augs
  have h2 := UMap.mapBlocks_touch (m := e.state.augs) augBlocks k [] rfl
  have hs := hi.size
  have ht := hi.tiles
  unfold State.dim at hs
  unfold State.blocks at ht
  refine ⟨⟨hi.sorted.imus, hi.sorted.gpss, hi.sorted.cams, hi.sorted.fids, UMap.touch_sorted _ _ hi.sorted.augs⟩, ?_,
    hi.imu, hi.gps, hi.cam, hi.fid, ?_, hi.covRows, hi.covCols, hi.noiseRows, hi.noiseCols, ?_⟩
  · simp only [State.dim, h1]; exact hs
  · simp only [h1]; exact hi.aug
  · simp only [State.blocks, h2]; exact ht

theorem inv_augmentTimed {N : Prim K} {e e' : Ekf K} (hi : Inv e) (h : augmentTimed N e = .ok e') : Inv e' := by
  unfold augmentTimed at h
  split at h
  · simp only [pure_res, Except.ok.injEq] at h; exact h ▸ hi
  · simp only [bind_ok_iff] at h
    obtain ⟨due, _, e1, h1, h⟩ := h
    have hi1 := inv_pruneLoop (inv_touchAug hi 0) h1
    split at h
    · simp only [bind_ok_iff, pure_res, Except.ok.injEq] at h
      obtain ⟨e2, h2, e3, h3, rfl⟩ := h
      have hsz := hi1.size
      have hk := hi1.aug
      have hcr := hi1.covRows
      have hcc := hi1.covCols
      unfold State.dim at hsz
      have hd := UMap.mapDim_insert (m := e1.state.augs) (fun w => 6 * w.length) 0
        (e1.state.augs.getD 0 [] ++ [newClone e1 0]) [] rfl hi1.sorted.augs
      have hsort := UMap.insert_sorted (m := e1.state.augs) 0 (e1.state.augs.getD 0 [] ++ [newClone e1 0])
        hi1.sorted.augs
      have := inv_augmentAtBack (PreInv.refresh' (by
        refine ⟨⟨hi1.sorted.imus, hi1.sorted.gpss, hi1.sorted.cams, hi1.sorted.fids, hsort⟩, ?_, hi1.imu, hi1.gps,
          hi1.cam, hi1.fid, ?_⟩ <;> simp [State.dim, augSize] at * <;> omega) h2
        (by simp [augSize] at *; omega) (by simp [augSize] at *; omega)) h3
      exact ⟨this.sorted, this.size, this.imu, this.gps, this.cam, this.fid, this.aug, this.covRows, this.covCols,
        this.noiseRows, this.noiseCols, this.tiles⟩
    · simp only [pure_res, Except.ok.injEq] at h; exact h ▸ hi1

/-! ## Prediction and update -/

theorem predictCov_shape {N : Prim K} {u : Bool} {n : Nat} {cov noise out : Mat K} {dt : K} (hr : cov.rows = cov.cols)
    (h : predictCov N u n cov noise dt = .ok out) : out.rows = cov.rows ∧ out.cols = cov.cols := by
  unfold predictCov at h
  cases u
  · simp only [Bool.false_eq_true, if_false, bind_ok_iff] at h
    obtain ⟨_, _, _, _, _, _, _, _, _, _, o1, h1, _, _, _, _, o2, h2, _, _, _, _, h3⟩ := h
    have h1 := Mat.setBlock_shape h1; have h2 := Mat.setBlock_shape h2; have h3 := Mat.setBlock_shape h3
    dsimp at h1
    omega
  · simp only [if_true, bind_ok_iff] at h
    obtain ⟨_, _, _, _, _, _, o1, h1, _, _, _, _, o2, h2, h3⟩ := h
    have h1 := Mat.setBlock_shape h1; have h2 := Mat.setBlock_shape h2; have h3 := qrStack_shape h3
    omega

theorem inv_predict {N : Prim K} {e e' : Ekf K} {t : K} (hi : Inv e) (h : predict N e t = .ok e') : Inv e' := by
  unfold predict at h
  split at h
  · simp only [pure_res, Except.ok.injEq] at h; exact h ▸ hi
  · split at h
    · simp only [bind_ok_iff, pure_res, ok_bind] at h
      obtain ⟨c, hc, h⟩ := h
      have hc := predictCov_shape (by rw [hi.covRows, hi.covCols]) hc
      refine inv_augmentTimed ?_ h
      exact ⟨⟨hi.sorted.imus, hi.sorted.gpss, hi.sorted.cams, hi.sorted.fids, hi.sorted.augs⟩, hi.size, hi.imu, hi.gps,
        hi.cam, hi.fid, hi.aug, hc.1.trans hi.covRows, hc.2.trans hi.covCols,
        hi.noiseRows, hi.noiseCols, hi.tiles⟩
    · simp only [pure_res, ok_bind] at h
      refine inv_augmentTimed ?_ h
      exact ⟨hi.sorted, hi.size, hi.imu, hi.gps, hi.cam, hi.fid, hi.aug, hi.covRows, hi.covCols, hi.noiseRows,
        hi.noiseCols, hi.tiles⟩

theorem _root_.EkfCal.ImuState.addVecAt_same {N : Prim K} {s s' : ImuState K} {v : Vec K} {i j : Nat}
    (h : s.addVecAt N v i = .ok (s', j)) : s.dim = s'.dim ∧ s.blocks = s'.blocks := by
  unfold ImuState.addVecAt at h
  cases he : s.isExtrinsic <;> cases hn : s.isIntrinsic <;>
    simp only [he, hn, Bool.false_eq_true, if_false, if_true, ok_bind, pure_res, bind_ok_iff, Except.ok.injEq,
      Prod.mk.injEq] at h
  · obtain ⟨rfl, _⟩ := h; exact ⟨rfl, rfl⟩
  · obtain ⟨_, _, _, _, rfl, _⟩ := h
    simp [ImuState.dim, ImuState.blocks, he, hn]
  · obtain ⟨_, _, _, _, rfl, _⟩ := h
    simp [ImuState.dim, ImuState.blocks, he, hn]
  · obtain ⟨_, _, _, _, _, _, _, _, rfl, _⟩ := h
    simp [ImuState.dim, ImuState.blocks, he, hn]

theorem _root_.EkfCal.GpsState.addVecAt_same {s s' : GpsState K} {v : Vec K} {i j : Nat}
    (h : s.addVecAt v i = .ok (s', j)) : s.dim = s'.dim ∧ s.blocks = s'.blocks := by
  unfold GpsState.addVecAt at h
  split at h <;> simp only [pure_res, bind_ok_iff, Except.ok.injEq, Prod.mk.injEq] at h
  · obtain ⟨_, _, rfl, _⟩ := h; exact ⟨rfl, rfl⟩
  · obtain ⟨rfl, _⟩ := h; exact ⟨rfl, rfl⟩

theorem _root_.EkfCal.CamState.addVecAt_same {N : Prim K} {s s' : CamState K} {v : Vec K} {i j : Nat}
    (h : s.addVecAt N v i = .ok (s', j)) : s.dim = s'.dim ∧ s.blocks = s'.blocks := by
  unfold CamState.addVecAt at h
  split at h <;> simp only [pure_res, bind_ok_iff, Except.ok.injEq, Prod.mk.injEq] at h
  · obtain ⟨_, _, _, _, rfl, _⟩ := h; exact ⟨rfl, rfl⟩
  · obtain ⟨rfl, _⟩ := h; exact ⟨rfl, rfl⟩

theorem _root_.EkfCal.FidState.addVecAt_same {N : Prim K} {s s' : FidState K} {v : Vec K} {i j : Nat}
    (h : s.addVecAt N v i = .ok (s', j)) : s.dim = s'.dim ∧ s.blocks = s'.blocks := by
  unfold FidState.addVecAt at h
  split at h <;> simp only [pure_res, bind_ok_iff, Except.ok.injEq, Prod.mk.injEq] at h
  · obtain ⟨_, _, _, _, rfl, _⟩ := h; exact ⟨rfl, rfl⟩
  · obtain ⟨rfl, _⟩ := h; exact ⟨rfl, rfl⟩

theorem _root_.EkfCal.AugState.addVecAt_same {N : Prim K} {s s' : AugState K} {v : Vec K} {i j : Nat}
    (h : s.addVecAt N v i = .ok (s', j)) : s.index = s'.index := by
  unfold AugState.addVecAt at h
  simp only [pure_res, bind_ok_iff, Except.ok.injEq, Prod.mk.injEq] at h
  obtain ⟨_, _, _, _, rfl, _⟩ := h; rfl

theorem augWindow_same {N : Prim K} {w w' : List (AugState K)} {v : Vec K} {i j : Nat}
    (h : loopIdx (fun x i => AugState.addVecAt N x v i) w i = .ok (w', j)) :
    6 * w.length = 6 * w'.length ∧ augBlocks w = augBlocks w' := by
  have := loopIdx_rel (R := fun a b : AugState K => a.index = b.index)
    (fun a i b j h => AugState.addVecAt_same h) h
  refine ⟨by rw [this.length_eq], ?_⟩
  clear h
  induction this with
  | nil => rfl
  | cons h _ ih => simp only [augBlocks, List.map_cons] at *; rw [h, ih]

/-- `State += VectorXd` keeps keys, sizes and indices. -/
theorem _root_.EkfCal.State.addVec_same {N : Prim K} {s s' : State K} {v : Vec K} (h : s.addVec N v = .ok s') :
    (s.MapsSorted → s'.MapsSorted) ∧ s'.blocks = s.blocks ∧ s'.body.index = s.body.index ∧
    mapDim ImuState.dim s'.imus = mapDim ImuState.dim s.imus ∧
    mapDim GpsState.dim s'.gpss = mapDim GpsState.dim s.gpss ∧
    mapDim CamState.dim s'.cams = mapDim CamState.dim s.cams ∧
    mapDim FidState.dim s'.fids = mapDim FidState.dim s.fids ∧
    mapDim (fun w => 6 * w.length) s'.augs = mapDim (fun w => 6 * w.length) s.augs := by
  unfold State.addVec at h
  simp only [bind_ok_iff, pure_res, Except.ok.injEq] at h
  obtain ⟨bp, hbp, body, hbody, ⟨imus, i1⟩, h1, ⟨gpss, i2⟩, h2, ⟨cams, i3⟩, h3, ⟨fids, i4⟩, h4, ⟨augs, i5⟩, h5, rfl⟩ := h
  have hbi : body.index = s.body.index := by
    unfold BodyState.addVec at hbody
    simp only [bind_ok_iff, pure_res, Except.ok.injEq] at hbody
    obtain ⟨_, _, _, _, _, _, _, _, _, _, _, _, rfl⟩ := hbody
    rfl
  have r1 := loopMap_rel (R := fun a b => a.dim = b.dim ∧ a.blocks = b.blocks)
    (fun a i b j h => ImuState.addVecAt_same h) h1
  have r2 := loopMap_rel (R := fun a b => a.dim = b.dim ∧ a.blocks = b.blocks)
    (fun a i b j h => GpsState.addVecAt_same h) h2
  have r3 := loopMap_rel (R := fun a b => a.dim = b.dim ∧ a.blocks = b.blocks)
    (fun a i b j h => CamState.addVecAt_same h) h3
  have r4 := loopMap_rel (R := fun a b => a.dim = b.dim ∧ a.blocks = b.blocks)
    (fun a i b j h => FidState.addVecAt_same h) h4
  have r5 := loopMap_rel (R := fun a b => 6 * a.length = 6 * b.length ∧ augBlocks a = augBlocks b)
    (fun a i b j h => augWindow_same h) h5
  have q1 := forall₂_sorted (r1.imp fun _ _ h => h.1)
  have q2 := forall₂_sorted (r2.imp fun _ _ h => h.1)
  have q3 := forall₂_sorted (r3.imp fun _ _ h => h.1)
  have q4 := forall₂_sorted (r4.imp fun _ _ h => h.1)
  have q5 := forall₂_sorted (r5.imp fun _ _ h => h.1)
  refine ⟨fun hs => ⟨q1 hs.imus, q2 hs.gpss, q3 hs.cams, q4 hs.fids, q5 hs.augs⟩, ?_, hbi, ?_, ?_, ?_, ?_, ?_⟩
  · simp only [State.blocks, hbi]
    rw [forall₂_mapBlocks (r1.imp fun _ _ h => ⟨h.1, h.2.2⟩), forall₂_mapBlocks (r2.imp fun _ _ h => ⟨h.1, h.2.2⟩),
      forall₂_mapBlocks (r3.imp fun _ _ h => ⟨h.1, h.2.2⟩), forall₂_mapBlocks (r4.imp fun _ _ h => ⟨h.1, h.2.2⟩),
      forall₂_mapBlocks (r5.imp fun _ _ h => ⟨h.1, h.2.2⟩)]
  · exact (forall₂_mapDim (r1.imp fun _ _ h => ⟨h.1, h.2.1⟩)).symm
  · exact (forall₂_mapDim (r2.imp fun _ _ h => ⟨h.1, h.2.1⟩)).symm
  · exact (forall₂_mapDim (r3.imp fun _ _ h => ⟨h.1, h.2.1⟩)).symm
  · exact (forall₂_mapDim (r4.imp fun _ _ h => ⟨h.1, h.2.1⟩)).symm
  · exact (forall₂_mapDim (r5.imp fun _ _ h => ⟨h.1, h.2.1⟩)).symm

theorem kalmanUpdate_form {N : Prim K} {e e' : Ekf K} {j : Mat K} {r : Vec K} {n : Mat K}
    (h : kalmanUpdate N e j r n = .ok e') :
    ∃ s c v, e' = { e with state := s, cov := c } ∧ e.state.addVec N v = .ok s ∧ c.rows = e.cov.rows ∧
      c.cols = e.cov.rows := by
  unfold kalmanUpdate at h
  cases hu : e.useRoot <;>
    simp only [hu, Bool.false_eq_true, if_false, if_true, bind_ok_iff, pure_res, ok_bind, Except.ok.injEq] at h
  · obtain ⟨_, _, _, _, inn, hinn, _, _, invm, _, gain, hgain, upd, _, s, hs, kh, hkh, ikh, hikh, a, ha, b, hb, d, hd,
      f, hf, c, hc, rfl⟩ := h
    have ha := Mat.mul_shape ha
    have hb := Mat.mul_shape hb
    have hc := Mat.add_shape hc
    have hikh := Mat.sub_shape hikh
    simp only [Mat.transpose, Mat.identity] at *
    exact ⟨s, c, upd, rfl, hs, by omega, by omega⟩
  · obtain ⟨_, _, inn, hinn, _, _, _, _, _, _, invm, _, gain, hgain, upd, _, s, hs, kh, hkh, ikh, hikh, a, ha, b, hb,
      c, hc, rfl⟩ := h
    have ha := Mat.mul_shape ha
    have hc := qrStack_shape hc
    have hikh := Mat.sub_shape hikh
    simp only [Mat.transpose, Mat.identity] at *
    exact ⟨s, c, upd, rfl, hs, by omega, by omega⟩

theorem inv_kalmanUpdate {N : Prim K} {e e' : Ekf K} {j : Mat K} {r : Vec K} {n : Mat K} (hi : Inv e)
    (h : kalmanUpdate N e j r n = .ok e') : Inv e' := by
  obtain ⟨s, c, v, rfl, hs, hr, hc⟩ := kalmanUpdate_form h
  obtain ⟨g1, g2, g3, g4, g5, g6, g7, g8⟩ := State.addVec_same hs
  refine ⟨g1 hi.sorted, ?_, hi.imu.trans g4.symm, hi.gps.trans g5.symm, hi.cam.trans g6.symm, hi.fid.trans g7.symm,
    hi.aug.trans g8.symm, hr.trans hi.covRows, hc.trans hi.covRows, hi.noiseRows, hi.noiseCols, ?_⟩
  · have := hi.size
    unfold State.dim at *
    dsimp only
    omega
  · dsimp only; rw [g2]; exact hi.tiles

/-! ## Everything else -/

theorem inv_getImu {e : Ekf K} (hi : Inv e) (id : Nat) : Inv (e.getImuState id).2 := by
  have h1 := UMap.mapDim_touch (m := e.state.imus) ImuState.dim id ImuState.default rfl hi.sorted.imus
  have h2 := UMap.mapBlocks_touch (m := e.state.imus) ImuState.blocks id ImuState.default rfl
  have hs := hi.size
  have ht := hi.tiles
  unfold State.dim at hs
  unfold State.blocks at ht
  refine ⟨⟨UMap.touch_sorted _ _ hi.sorted.imus, hi.sorted.gpss, hi.sorted.cams, hi.sorted.fids, hi.sorted.augs⟩, ?_, ?_,
    hi.gps, hi.cam, hi.fid, hi.aug, hi.covRows, hi.covCols, hi.noiseRows, hi.noiseCols, ?_⟩ <;>
    simp only [getImuState, State.dim, State.blocks, h1, h2]
  exacts [hs, hi.imu, ht]

theorem inv_getGps {e : Ekf K} (hi : Inv e) (id : Nat) : Inv (e.getGpsState id).2 := by
  have h1 := UMap.mapDim_touch (m := e.state.gpss) GpsState.dim id GpsState.default rfl hi.sorted.gpss
  have h2 := UMap.mapBlocks_touch (m := e.state.gpss) GpsState.blocks id GpsState.default rfl
  have hs := hi.size
  have ht := hi.tiles
  unfold State.dim at hs
  unfold State.blocks at ht
  refine ⟨⟨hi.sorted.imus, UMap.touch_sorted _ _ hi.sorted.gpss, hi.sorted.cams, hi.sorted.fids, hi.sorted.augs⟩, ?_,
    hi.imu, ?_, hi.cam, hi.fid, hi.aug, hi.covRows, hi.covCols, hi.noiseRows, hi.noiseCols, ?_⟩ <;>
    simp only [getGpsState, State.dim, State.blocks, h1, h2]
  exacts [hs, hi.gps, ht]

theorem inv_getCam {e : Ekf K} (hi : Inv e) (id : Nat) : Inv (e.getCamState id).2 := by
  have h1 := UMap.mapDim_touch (m := e.state.cams) CamState.dim id CamState.default rfl hi.sorted.cams
  have h2 := UMap.mapBlocks_touch (m := e.state.cams) CamState.blocks id CamState.default rfl
  have hs := hi.size
  have ht := hi.tiles
  unfold State.dim at hs
  unfold State.blocks at ht
  refine ⟨⟨hi.sorted.imus, hi.sorted.gpss, UMap.touch_sorted _ _ hi.sorted.cams, hi.sorted.fids, hi.sorted.augs⟩, ?_,
    hi.imu, hi.gps, ?_, hi.fid, hi.aug, hi.covRows, hi.covCols, hi.noiseRows, hi.noiseCols, ?_⟩ <;>
    simp only [getCamState, State.dim, State.blocks, h1, h2]
  exacts [hs, hi.cam, ht]

/-- A change that leaves maps, sizes, covariance, process noise and the body index alone keeps the invariant. -/
theorem Inv.congr {e e' : Ekf K} (hi : Inv e) (h1 : e'.state.imus = e.state.imus) (h2 : e'.state.gpss = e.state.gpss)
    (h3 : e'.state.cams = e.state.cams) (h4 : e'.state.fids = e.state.fids) (h5 : e'.state.augs = e.state.augs)
    (h6 : e'.state.body.index = 0) (h7 : e'.stateSize = e.stateSize) (h8 : e'.cov = e.cov)
    (h9 : e'.processNoise = e.processNoise) (h10 : e'.imuStateSize = e.imuStateSize)
    (h11 : e'.gpsStateSize = e.gpsStateSize) (h12 : e'.camStateSize = e.camStateSize)
    (h13 : e'.fidStateSize = e.fidStateSize) (h14 : e'.augStateSize = e.augStateSize) : Inv e' := by
  have hb : e.state.body.index = 0 := hi.tiles.1
  refine ⟨⟨?_, ?_, ?_, ?_, ?_⟩, ?_, ?_, ?_, ?_, ?_, ?_, ?_, ?_, ?_, ?_, ?_⟩
  · rw [h1]; exact hi.sorted.imus
  · rw [h2]; exact hi.sorted.gpss
  · rw [h3]; exact hi.sorted.cams
  · rw [h4]; exact hi.sorted.fids
  · rw [h5]; exact hi.sorted.augs
  · unfold State.dim; rw [h1, h2, h3, h4, h5, h7]; exact hi.size
  · rw [h10, h1]; exact hi.imu
  · rw [h11, h2]; exact hi.gps
  · rw [h12, h3]; exact hi.cam
  · rw [h13, h4]; exact hi.fid
  · rw [h14, h5]; exact hi.aug
  · rw [h8, h7]; exact hi.covRows
  · rw [h8, h7]; exact hi.covCols
  · rw [h9, h7]; exact hi.noiseRows
  · rw [h9, h7]; exact hi.noiseCols
  · have := hi.tiles
    unfold State.blocks at *
    rw [h1, h2, h3, h4, h5, h6, h7]; rwa [hb] at this

theorem inv_step {N : Prim K} {e e' : Ekf K} {op : Op K} (hi : Inv e) (hw : op.WF) (h : step N e op = .ok e') :
    Inv e' := by
  have hb : e.state.body.index = 0 := hi.tiles.1
  cases op with
  | registerIMU id s c => exact inv_registerIMU hi hw h
  | registerGPS id s c => exact inv_registerGPS hi hw h
  | registerCamera id s c => exact inv_registerCamera hi hw h
  | registerFiducial s c => exact inv_registerFiducial hi hw h
  | predict t => exact inv_predict hi h
  | frame c f => exact inv_augmentFrame hi h
  | kalman j r n => exact inv_kalmanUpdate hi h
  | getImu id => cases h; exact inv_getImu hi id
  | getGps id => cases h; exact inv_getGps hi id
  | getCam id => cases h; exact inv_getCam hi id
  | getAug c f t =>
    simp only [step, bind_ok_iff, pure_res, Except.ok.injEq] at h
    obtain ⟨r, h, rfl⟩ := h
    unfold getAugState at h
    split at h
    · cases h; exact inv_touchAug hi c
    · simp only [bind_ok_iff, pure_res, Except.ok.injEq] at h
      obtain ⟨a, _, rfl⟩ := h
      exact inv_touchAug hi _
  | initializeAt t b => cases h; exact hi.congr rfl rfl rfl rfl rfl hw rfl rfl rfl rfl rfl rfl rfl rfl
  | setMaxTrackLength n => cases h; exact hi.congr rfl rfl rfl rfl rfl hb rfl rfl rfl rfl rfl rfl rfl rfl
  | setGpsReference p a => cases h; exact hi.congr rfl rfl rfl rfl rfl hb rfl rfl rfl rfl rfl rfl rfl rfl
  | setZeroAcceleration b => cases h; exact hi.congr rfl rfl rfl rfl rfl hb rfl rfl rfl rfl rfl rfl rfl rfl
  | initializeGravity => cases h; exact hi.congr rfl rfl rfl rfl rfl hb rfl rfl rfl rfl rfl rfl rfl rfl
  | localTime t =>
    simp only [step, Except.ok.injEq] at h
    subst h
    unfold calculateLocalTime
    split
    · exact hi
    · exact hi.congr rfl rfl rfl rfl rfl hb rfl rfl rfl rfl rfl rfl rfl rfl
  | setBodyProcessNoise v => cases h; exact hi.congr rfl rfl rfl rfl rfl hb rfl rfl rfl rfl rfl rfl rfl rfl
  | attemptGpsInit t x f =>
    simp only [step, attemptGpsInit] at h
    split at h
    · simp only [bind_ok_iff] at h
      obtain ⟨a, _, h⟩ := h
      split at h <;> cases h <;> exact hi.congr rfl rfl rfl rfl rfl hb rfl rfl rfl rfl rfl rfl rfl rfl
    · cases h; exact hi.congr rfl rfl rfl rfl rfl hb rfl rfl rfl rfl rfl rfl rfl rfl
  | setBodyMotion a w α => cases h; exact hi.congr rfl rfl rfl rfl rfl hb rfl rfl rfl rfl rfl rfl rfl rfl

theorem inv_run {N : Prim K} {ops : List (Op K)} {e e' : Ekf K} (hi : Inv e) (hw : ∀ op ∈ ops, op.WF)
    (h : run N e ops = .ok e') : Inv e' := by
  induction ops generalizing e with
  | nil => cases h; exact hi
  | cons op ops ih =>
    simp only [run, bind_ok_iff] at h
    obtain ⟨e1, h1, h2⟩ := h
    exact ih (inv_step hi (hw op (by simp)) h1) (fun o ho => hw o (by simp [ho])) h2

end Ekf
end EkfCal
