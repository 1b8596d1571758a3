import Verif.Lemmas.Window
import Verif.Lemmas.Correct
import Verif.Lemmas.Clone
import Verif.Lemmas.Predict

/-! # When calls are defined -/

set_option linter.unusedSectionVars false
set_option linter.unusedSimpArgs false

namespace EkfCal
variable {K : Type}

theorem UMap.find?_mem {V : Type} {m : UMap V} {k : Nat} {v : V} (h : UMap.find? m k = some v) : (k, v) ∈ m := by
  induction m with
  | nil => simp [UMap.find?] at h
  | cons x xs ih =>
    obtain ⟨k', a⟩ := x
    by_cases hk : k' = k
    · simp [UMap.find?, hk] at h; subst h; simp [hk]
    · simp [UMap.find?, hk] at h; exact List.mem_cons_of_mem _ (ih h)

/-- Rows of a stored clone lie behind the body and inside the state. -/
theorem clone_bounds {s : State K} {n : Nat} (h : Tiles s.blocks 0 n) {k : Nat} {a : AugState K}
    (ha : a ∈ UMap.getD s.augs k []) : 18 ≤ a.index ∧ a.index + 6 ≤ n := by
  unfold State.blocks at h
  obtain ⟨i5, h, t5⟩ := h.append_inv
  obtain ⟨i4, h, t4⟩ := h.append_inv
  obtain ⟨i3, h, t3⟩ := h.append_inv
  obtain ⟨i2, h, t2⟩ := h.append_inv
  obtain ⟨i1, h, t1⟩ := h.append_inv
  obtain ⟨hb, h⟩ : s.body.index = 0 ∧ 0 + 18 = i1 := h
  have l1 := t1.le
  have l2 := t2.le
  have l3 := t3.le
  have l4 := t4.le
  have hm : (a.index, 6) ∈ mapBlocks augBlocks s.augs := by
    unfold UMap.getD at ha
    cases hf : UMap.find? s.augs k with
    | none => rw [hf] at ha; simp at ha
    | some w =>
      rw [hf] at ha
      unfold mapBlocks augBlocks
      exact List.mem_flatMap.2 ⟨(k, w), UMap.find?_mem hf, List.mem_map.2 ⟨a, ha, rfl⟩⟩
  have := t5.mem_bounds hm
  dsimp only at this
  omega

section MatOps
variable [Field K] [LinearOrder K]

theorem Mat.mul_def {a b : Mat K} (h : a.cols = b.rows) :
    ∃ c, a.mul b = .ok c ∧ c.rows = a.rows ∧ c.cols = b.cols := ⟨_, Mat.mul_ok_iff.2 ⟨h, rfl⟩, rfl, rfl⟩

theorem Mat.add_def {a b : Mat K} (h : a.rows = b.rows ∧ a.cols = b.cols) :
    ∃ c, a.add b = .ok c ∧ c.rows = a.rows ∧ c.cols = a.cols := ⟨_, Mat.add_ok_iff.2 ⟨h, rfl⟩, rfl, rfl⟩

theorem Mat.sub_def {a b : Mat K} (h : a.rows = b.rows ∧ a.cols = b.cols) :
    ∃ c, a.sub b = .ok c ∧ c.rows = a.rows ∧ c.cols = a.cols := ⟨_, Mat.sub_ok_iff.2 ⟨h, rfl⟩, rfl, rfl⟩

theorem Mat.inverse_def (N : Prim K) {a : Mat K} (h : a.rows = a.cols) :
    ∃ c, a.inverse N = .ok c ∧ c.rows = a.rows ∧ c.cols = a.cols := by
  unfold Mat.inverse; rw [if_pos h]; exact ⟨_, rfl, rfl, rfl⟩

theorem qrStack_def (N : Prim K) {a b : Mat K} (h : a.cols = b.cols) (h' : a.cols ≤ a.rows + b.rows) :
    ∃ c, qrStack N a b = .ok c ∧ c.rows = a.cols ∧ c.cols = a.cols := by
  unfold qrStack; rw [if_pos h, if_pos h']; exact ⟨_, rfl, rfl, rfl⟩

theorem Mat.block_def {m : Mat K} {i j p q : Nat} (h : i + p ≤ m.rows ∧ j + q ≤ m.cols) :
    ∃ c, m.block i j p q = .ok c ∧ c.rows = p ∧ c.cols = q := ⟨_, Mat.block_ok h, rfl, rfl⟩

theorem Mat.setBlock_def {m s : Mat K} {i j p q : Nat} (h : i + p ≤ m.rows ∧ j + q ≤ m.cols)
    (hs : s.rows = p ∧ s.cols = q) :
    ∃ c, m.setBlock i j p q s = .ok c ∧ c.rows = m.rows ∧ c.cols = m.cols := ⟨_, Mat.setBlock_ok h hs, rfl, rfl⟩

end MatOps

namespace Ekf
variable [Field K] [LinearOrder K]

theorem augmentCovariance_defined (u : Bool) (P : Mat K) (index : Nat) (hs : P.rows = P.cols) (h12 : 12 ≤ index)
    (hi : index ≤ P.rows) : ∃ out, augmentCovariance u P index = .ok out := by
  cases u with
  | false =>
    obtain ⟨o, h, _⟩ := augmentCovariance_spec P index hs h12 hi
    exact ⟨o, h⟩
  | true =>
    unfold augmentCovariance
    simp only [if_true, augSize]
    rw [Mat.block_ok (by omega)]
    simp only [ok_bind]
    rw [Mat.setBlock_ok (by simp [Mat.zero]; omega) (by simp)]
    simp only [ok_bind]
    rw [Mat.block_ok (by omega)]
    simp only [ok_bind]
    rw [Mat.setBlock_ok (by simp [Mat.zero]; omega) (by simp)]
    simp only [ok_bind]
    rw [Mat.block_ok (by omega)]
    simp only [ok_bind]
    rw [Mat.setBlock_ok (by simp [Mat.zero]; omega) (by simp)]
    simp only [ok_bind]
    rw [Mat.block_ok (by omega)]
    simp only [ok_bind]
    rw [Mat.setBlock_ok (by simp [Mat.zero]; omega) (by simp)]
    exact ⟨_, rfl⟩

theorem refresh_defined (N : Prim K) (e : Ekf K) (hs : e.state.dim ≤ e.stateSize) (hn : e.bodyProcessNoise.size = 18) :
    ∃ e', refreshIndices N e = .ok e' := by
  obtain ⟨_, _, h⟩ := refreshIndices_spec N e hs hn
  exact ⟨_, h⟩

/-- Refreshing and appending the rows of the newest clone is defined. -/
theorem refresh_augment_defined (N : Prim K) (e : Ekf K) (k : Nat) (hp : PreInv e) (hn : e.bodyProcessNoise.size = 18)
    (hr : e.cov.rows + 6 = e.stateSize) (hc : e.cov.cols + 6 = e.stateSize) (hw : UMap.getD e.state.augs k [] ≠ []) :
    ∃ e1 e2, refreshIndices N e = .ok e1 ∧ augmentAtBack e1 k = .ok e2 := by
  obtain ⟨e1, h1⟩ := refresh_defined N e hp.size.ge hn
  have hb := hp.refresh' h1 hr hc
  have hre := records_refresh h1 k
  have hne : UMap.getD e1.state.augs k [] ≠ [] := by
    intro h0
    unfold records window at hre
    rw [h0] at hre
    exact hw (List.map_eq_nil_iff.1 hre.symm)
  have hl := List.getLast?_eq_some_getLast hne
  obtain ⟨b1, b2⟩ := clone_bounds hb.tiles (List.getLast_mem hne)
  have := hb.covRows
  have := hb.covCols
  obtain ⟨out, ho⟩ := augmentCovariance_defined e1.useRoot e1.cov ((UMap.getD e1.state.augs k []).getLast hne).index
    (by omega) (by omega) (by omega)
  refine ⟨e1, { e1 with cov := out }, h1, ?_⟩
  unfold augmentAtBack
  rw [hl]
  simp only [ho, ok_bind, pure_res]

theorem augmentFrame_defined (N : Prim K) (e : Ekf K) (cam frame : Nat) (hi : Inv e)
    (hn : e.bodyProcessNoise.size = 18) (hz : e.ClonesFrame cam → e.maxTrackLength = 0 → e.window cam ≠ []) :
    ∃ e', augmentFrame N e cam frame = .ok e' := by
  unfold augmentFrame
  dsimp only
  split
  · rename_i hc
    have hsz := hi.size
    have hk := hi.aug
    have hcr := hi.covRows
    have hcc := hi.covCols
    unfold State.dim at hsz
    have hd : ∀ w, _ := fun w =>
      UMap.mapDim_insert (m := e.state.augs) (fun w => 6 * w.length) cam w [] rfl hi.sorted.augs
    have hsort : ∀ w, _ := fun w => UMap.insert_sorted (m := e.state.augs) cam w hi.sorted.augs
    split
    · simp only [ok_bind, pure_res, bind_ok_iff]
      have hd := hd (e.state.augs.getD cam [] ++ [newClone { e with frameReceived := true } frame])
      obtain ⟨e1, e2, h1, h2⟩ := refresh_augment_defined N { e with
          frameReceived := true
          state := { e.state with augs := e.state.augs.insert cam (e.state.augs.getD cam [] ++ [newClone { e with frameReceived := true } frame]) }
          stateSize := e.stateSize + augSize
          augStateSize := e.augStateSize + augSize } cam
        (by
          refine ⟨⟨hi.sorted.imus, hi.sorted.gpss, hi.sorted.cams, hi.sorted.fids, hsort _⟩, ?_, hi.imu, hi.gps, hi.cam,
            hi.fid, ?_⟩ <;> simp [State.dim, augSize] at * <;> omega)
        hn (by simp [State.dim, augSize] at *; omega) (by simp [State.dim, augSize] at *; omega)
        (by dsimp only; rw [UMap.getD_insert_self]; simp)
      exact ⟨e2, e1, h1, h2⟩
    · rename_i hl
      split
      · rename_i h0; simp at h0
      · rename_i first rest hw
        have hlen : rest.length = (e.state.augs.getD cam []).length := by
          have := congrArg List.length hw
          simp at this; omega
        have hne : e.window cam ≠ [] := by
          intro h0
          have h0' : UMap.getD e.state.augs cam [] = [] := h0
          refine hz hc ?_ h0
          rw [h0'] at hl
          simp at hl
          exact hl
        have hf : first ∈ e.window cam := by
          cases hx : e.window cam with
          | nil => exact absurd hx hne
          | cons a l =>
            have hx' : UMap.getD e.state.augs cam [] = a :: l := hx
            rw [hx'] at hw
            simp only [List.cons_append, List.cons.injEq] at hw
            rw [hw.1]; simp
        obtain ⟨b1, b2⟩ := clone_bounds hi.tiles hf
        obtain ⟨c, hc1⟩ := (removeFromMatrix_ok_iff e.cov first.index first.index 6).2 ⟨by omega, by omega⟩
        have hsh := removeFromMatrix_shape hc1
        have hd := hd rest
        have h18 : 18 ≤ e.stateSize := by rw [hi.size]; unfold State.dim; omega
        obtain ⟨e1, e2, h1, h2⟩ := refresh_augment_defined N { e with
            frameReceived := true
            state := { e.state with augs := e.state.augs.insert cam rest }
            cov := c } cam
          (by
            refine ⟨⟨hi.sorted.imus, hi.sorted.gpss, hi.sorted.cams, hi.sorted.fids, hsort _⟩, ?_, hi.imu, hi.gps, hi.cam,
              hi.fid, ?_⟩ <;> simp [State.dim, augSize] at * <;> omega)
          hn (by dsimp only; omega) (by dsimp only; omega)
          (by
            dsimp only; rw [UMap.getD_insert_self]
            intro h0
            rw [h0] at hlen
            exact hne (List.length_eq_zero_iff.1 hlen.symm))
        refine ⟨e2, ?_⟩
        show (removeFromMatrix e.cov first.index first.index 6 >>= _) = _
        rw [hc1]
        simp only [ok_bind, pure_res, bind_ok_iff]
        exact ⟨e1, h1, h2⟩
  · exact ⟨_, rfl⟩

/-- With a zero limit and an empty window a clone request has no defined result. -/
theorem augmentFrame_zero (N : Prim K) (e : Ekf K) (cam frame : Nat) (hc : e.ClonesFrame cam)
    (h0 : e.maxTrackLength = 0) (hw : e.window cam = []) : ∃ u, augmentFrame N e cam frame = .error u := by
  cases h : augmentFrame N e cam frame with
  | error u => exact ⟨u, rfl⟩
  | ok e' =>
    exfalso
    rcases augmentFrame_form h with ⟨hn, _⟩ | ⟨_, e1, h1, h2⟩
    · exact hn hc
    · obtain ⟨a, _, hl, _⟩ := augmentAtBack_form h2
      rcases h1 with ⟨h1, _⟩ | ⟨_, first, rest, out, hfr, _, h1⟩
      · omega
      · have hw' : UMap.getD e.state.augs cam [] = [] := hw
        rw [hw'] at hfr
        simp only [List.nil_append, List.cons.injEq] at hfr
        have := records_refresh h1 cam
        dsimp only at this
        rw [UMap.getD_insert_self, ← hfr.2] at this
        unfold records window at this
        rw [List.map_nil, List.map_eq_nil_iff] at this
        rw [this] at hl
        simp at hl

theorem pruneAt_defined (N : Prim K) (e : Ekf K) (i : Nat) (hi : Inv e) (hn : e.bodyProcessNoise.size = 18)
    (h : i + 1 < (e.window 0).length) : ∃ e', pruneAt N e i = .ok e' ∧ i + 1 ≤ (e'.window 0).length := by
  obtain ⟨e', he'⟩ : ∃ e', pruneAt N e i = .ok e' := by
    have h' : i + 1 < (UMap.getD e.state.augs 0 []).length := h
    unfold pruneAt
    dsimp only
    rw [List.getElem?_eq_getElem h']
    dsimp only
    split
    · rw [List.getElem?_eq_getElem (by omega)]
      dsimp only
      obtain ⟨b1, b2⟩ := clone_bounds hi.tiles (k := 0) (List.getElem_mem (l := UMap.getD e.state.augs 0 []) (n := i) (by omega))
      have hcr := hi.covRows
      have hcc := hi.covCols
      obtain ⟨c, hc1⟩ := (removeFromMatrix_ok_iff e.cov ((UMap.getD e.state.augs 0 [])[i]'(by omega)).index
        ((UMap.getD e.state.augs 0 [])[i]'(by omega)).index augSize).2 ⟨by simp only [augSize]; omega, by simp only [augSize]; omega⟩
      rw [hc1, ok_bind]
      have hd := UMap.mapDim_insert (m := e.state.augs) (fun w => 6 * w.length) 0
        ((UMap.getD e.state.augs 0 []).eraseIdx i) [] rfl hi.sorted.augs
      have hsz := hi.size
      unfold State.dim at hsz
      have hle := List.length_eraseIdx_of_lt (l := UMap.getD e.state.augs 0 []) (i := i) (by omega)
      rw [hle] at hd
      obtain ⟨noise, _, h1⟩ := refreshIndices_spec N { e with
          stateSize := e.stateSize - augSize
          augStateSize := e.augStateSize - augSize
          state := { e.state with augs := e.state.augs.insert 0 ((UMap.getD e.state.augs 0 []).eraseIdx i) }
          cov := c } (by simp only [State.dim, augSize]; omega) hn
      exact ⟨_, h1⟩
    · exact ⟨_, rfl⟩
  refine ⟨e', he', ?_⟩
  obtain ⟨_, _, _, _, _, next, hnx, hr⟩ := records_pruneAt he' 0
  rw [← length_records, hr]
  split
  · rw [List.length_eraseIdx_of_lt (by rw [length_records]; omega), length_records]; omega
  · rw [length_records]; omega

theorem pruneLoop_defined (N : Prim K) : ∀ (n : Nat) (e : Ekf K), Inv e → e.bodyProcessNoise.size = 18 →
    n + 1 ≤ (e.window 0).length ∨ n = 0 → ∃ e', pruneLoop N n e = .ok e'
  | 0, e, _, _, _ => ⟨e, rfl⟩
  | n + 1, e, hi, hn, h => by
    obtain ⟨e1, h1, hl⟩ := pruneAt_defined N e n hi hn (by omega)
    have hf := (records_pruneAt h1 0).1
    obtain ⟨e', h2⟩ := pruneLoop_defined N n e1 (inv_pruneAt hi h1) (by rw [hf.bodyNoise]; exact hn) (by omega)
    exact ⟨e', by simp only [pruneLoop, h1, ok_bind, h2]⟩

/-- Time-driven cloning reads the time of the previous clone only after writing it. -/
def PrevOK (e : Ekf K) : Prop := e.augType = .time → e.window 0 ≠ [] → e.augPrevTime ≠ none

theorem cloneDue_defined (N : Prim K) (e : Ekf K) (hp : PrevOK e) : ∃ d, cloneDue N e (e.window 0) = .ok d := by
  unfold cloneDue
  cases hl : (e.window 0).getLast? with
  | none => exact ⟨_, rfl⟩
  | some last =>
    dsimp only
    have hne : e.window 0 ≠ [] := by rintro h; rw [h] at hl; simp at hl
    cases ht : e.augType with
    | time =>
      dsimp only
      cases hpv : e.augPrevTime with
      | none => exact absurd hpv (hp ht hne)
      | some p => exact ⟨_, rfl⟩
    | error =>
      dsimp only
      split
      · exact ⟨_, rfl⟩
      · split <;> exact ⟨_, rfl⟩
    | none => exact ⟨_, rfl⟩
    | all => exact ⟨_, rfl⟩
    | primary => exact ⟨_, rfl⟩

theorem augmentTimed_defined (N : Prim K) (e : Ekf K) (hi : Inv e) (hn : e.bodyProcessNoise.size = 18)
    (hp : PrevOK e) : ∃ e', augmentTimed N e = .ok e' := by
  unfold augmentTimed
  split
  · exact ⟨_, rfl⟩
  · obtain ⟨d, hd⟩ := cloneDue_defined N e hp
    have hd' : cloneDue N e (UMap.getD e.state.augs 0 []) = .ok d := hd
    rw [hd', ok_bind]
    dsimp only
    rw [UMap.getD_touch]
    have hi' := inv_touchAug hi 0
    obtain ⟨e1, h1⟩ := pruneLoop_defined N ((UMap.getD e.state.augs 0 []).length - 1)
      { e with state := { e.state with augs := e.state.augs.touch 0 [] } } hi' hn (by
        unfold window; dsimp only; rw [UMap.getD_touch]; omega)
    rw [h1, ok_bind]
    split
    · have hi1 := inv_pruneLoop hi' h1
      have hf1 : e1.bodyProcessNoise.size = 18 := by
        have h1' : pruneLoop N ((window { e with state := { e.state with augs := e.state.augs.touch 0 [] } } 0).length - 1)
            { e with state := { e.state with augs := e.state.augs.touch 0 [] } } = .ok e1 := by
          unfold window; dsimp only; rw [UMap.getD_touch]; exact h1
        rw [(records_pruneAll h1').1.bodyNoise]; exact hn
      have hsz := hi1.size
      have hk := hi1.aug
      have hcr := hi1.covRows
      have hcc := hi1.covCols
      unfold State.dim at hsz
      have hd := UMap.mapDim_insert (m := e1.state.augs) (fun w => 6 * w.length) 0 (UMap.getD e1.state.augs 0 [] ++ [e1.newClone 0])
        [] rfl hi1.sorted.augs
      obtain ⟨e2, e3, h2, h3⟩ := refresh_augment_defined N { e1 with
          augPrevTime := some e1.currentTime
          state := { e1.state with augs := e1.state.augs.insert 0 (UMap.getD e1.state.augs 0 [] ++ [e1.newClone 0]) }
          stateSize := e1.stateSize + augSize
          augStateSize := e1.augStateSize + augSize } 0
        (by
          refine ⟨⟨hi1.sorted.imus, hi1.sorted.gpss, hi1.sorted.cams, hi1.sorted.fids, UMap.insert_sorted _ _ hi1.sorted.augs⟩,
            ?_, hi1.imu, hi1.gps, hi1.cam, hi1.fid, ?_⟩ <;> simp [State.dim, augSize] at * <;> omega)
        hf1 (by simp [State.dim, augSize] at *; omega) (by simp [State.dim, augSize] at *; omega)
        (by dsimp only; rw [UMap.getD_insert_self]; simp)
      rw [h2, ok_bind, h3]
      exact ⟨_, rfl⟩
    · exact ⟨_, rfl⟩

theorem predictCov_defined (N : Prim K) (u : Bool) (n : Nat) (P Q : Mat K) (dt : K) (hn : 18 ≤ n) (h1 : P.rows = n)
    (h2 : P.cols = n) (h3 : Q.rows = n) (h4 : Q.cols = n) : ∃ out, predictCov N u n P Q dt = .ok out := by
  subst h1
  cases u with
  | false =>
    obtain ⟨o, h, _⟩ := predictCov_spec N P Q dt h2.symm hn h3 h4
    exact ⟨o, h⟩
  | true =>
    unfold predictCov
    rw [guardUB_true (show bodySize ≤ P.rows from hn)]
    simp only [bodySize, ok_bind, if_true]
    obtain ⟨c1, e1, r1, s1⟩ := Mat.block_def (m := P) (i := 0) (j := 0) (p := 18) (q := 18) (by omega)
    rw [e1, ok_bind]
    obtain ⟨c2, e2, r2, s2, _⟩ := mul_Ft dt c1 s1
    rw [e2, ok_bind]
    obtain ⟨c3, e3, r3, s3⟩ := Mat.setBlock_def (m := P) (s := c2) (i := 0) (j := 0) (p := 18) (q := 18) (by omega) (by omega)
    rw [e3, ok_bind]
    obtain ⟨c4, e4, r4, s4⟩ := Mat.block_def (m := c3) (i := 0) (j := 18) (p := 18) (q := P.rows - 18) (by omega)
    rw [e4, ok_bind]
    obtain ⟨c5, e5, r5, s5, _⟩ := F_mul dt c4 r4
    rw [e5, ok_bind]
    obtain ⟨c6, e6, r6, s6⟩ := Mat.setBlock_def (m := c3) (s := c5) (i := 0) (j := 18) (p := 18) (q := P.rows - 18)
      (by omega) (by omega)
    rw [e6, ok_bind]
    obtain ⟨c7, e7, _⟩ := qrStack_def N (a := c6) (b := Q.smul (N.sqrt dt)) (by show _ = Q.cols; omega) (by omega)
    exact ⟨c7, e7⟩

theorem predict_defined (N : Prim K) (e : Ekf K) (t : K) (hi : Inv e) (hn : e.bodyProcessNoise.size = 18)
    (hp : PrevOK e) : ∃ e', predict N e t = .ok e' := by
  unfold predict
  split
  · exact ⟨_, rfl⟩
  · have hb : e.state.body.index = 0 := hi.tiles.1
    split
    · have h18 : 18 ≤ e.stateSize := by rw [hi.size]; unfold State.dim; omega
      obtain ⟨c, hc⟩ := predictCov_defined N e.useRoot e.stateSize e.cov e.processNoise (t - e.currentTime) h18
        hi.covRows hi.covCols hi.noiseRows hi.noiseCols
      have hsh := predictCov_shape (hi.covRows.trans hi.covCols.symm) hc
      simp only [hc, ok_bind, pure_res]
      refine augmentTimed_defined N _ ?_ hn hp
      exact ⟨⟨hi.sorted.imus, hi.sorted.gpss, hi.sorted.cams, hi.sorted.fids, hi.sorted.augs⟩, hi.size, hi.imu, hi.gps,
        hi.cam, hi.fid, hi.aug, hsh.1.trans hi.covRows, hsh.2.trans hi.covCols, hi.noiseRows, hi.noiseCols, hi.tiles⟩
    · simp only [pure_res, ok_bind]
      exact augmentTimed_defined N _ (Inv.congr hi rfl rfl rfl rfl rfl hb rfl rfl rfl rfl rfl rfl rfl rfl) hn hp

theorem kalman_defined (N : Prim K) (e : Ekf K) (J : Mat K) (r : Vec K) (R : Mat K) (hi : Inv e)
    (h1 : J.cols = e.stateSize) (h2 : R.rows = J.rows) (h3 : R.cols = J.rows) (h4 : r.size = J.rows) :
    ∃ e', kalmanUpdate N e J r R = .ok e' := by
  have hr := hi.covRows
  have hc := hi.covCols
  unfold kalmanUpdate
  cases hu : e.useRoot with
  | false =>
    simp only [Bool.false_eq_true, if_false]
    obtain ⟨c1, e1, r1, s1⟩ := Mat.mul_def (a := J) (b := e.cov) (by omega)
    rw [e1, ok_bind]
    obtain ⟨c2, e2, r2, s2⟩ := Mat.mul_def (a := c1) (b := J.transpose) (by show c1.cols = J.cols; omega)
    have s2' : c2.cols = J.rows := s2
    rw [e2, ok_bind]
    obtain ⟨c3, e3, r3, s3⟩ := Mat.add_def (a := c2) (b := R) (by omega)
    rw [e3, ok_bind]
    obtain ⟨c4, e4, r4, s4⟩ := Mat.mul_def (a := e.cov) (b := J.transpose) (by show _ = J.cols; omega)
    have s4' : c4.cols = J.rows := s4
    rw [e4, ok_bind]
    obtain ⟨c5, e5, r5, s5⟩ := Mat.inverse_def N (a := c3) (by omega)
    rw [e5, ok_bind]
    obtain ⟨G, e6, r6, s6⟩ := Mat.mul_def (a := c4) (b := c5) (by omega)
    rw [e6, ok_bind]
    obtain ⟨v, e7, sv⟩ : ∃ v, G.mulVec r = .ok v ∧ v.size = G.rows := ⟨_, Mat.mulVec_ok_iff.2 ⟨by omega, rfl⟩, rfl⟩
    rw [e7, ok_bind, State.addVec_moved N v e.state e.stateSize hi.tiles (by omega), ok_bind]
    obtain ⟨c8, e8, r8, s8⟩ := Mat.mul_def (a := G) (b := J) (by omega)
    rw [e8, ok_bind]
    obtain ⟨c9, e9, r9, s9⟩ := Mat.sub_def (a := Mat.identity e.cov.rows e.cov.cols) (b := c8)
      (by show e.cov.rows = _ ∧ e.cov.cols = _; omega)
    have r9' : c9.rows = e.cov.rows := r9
    have s9' : c9.cols = e.cov.cols := s9
    rw [e9, ok_bind]
    obtain ⟨c10, e10, r10, s10⟩ := Mat.mul_def (a := c9) (b := e.cov) (by omega)
    rw [e10, ok_bind]
    obtain ⟨c11, e11, r11, s11⟩ := Mat.mul_def (a := c10) (b := c9.transpose) (by show _ = c9.cols; omega)
    have s11' : c11.cols = c9.rows := s11
    rw [e11, ok_bind]
    obtain ⟨c12, e12, r12, s12⟩ := Mat.mul_def (a := G) (b := R) (by omega)
    rw [e12, ok_bind]
    obtain ⟨c13, e13, r13, s13⟩ := Mat.mul_def (a := c12) (b := G.transpose) (by show _ = G.cols; omega)
    have s13' : c13.cols = G.rows := s13
    rw [e13, ok_bind]
    obtain ⟨c14, e14, r14, s14⟩ := Mat.add_def (a := c11) (b := c13) (by omega)
    rw [e14]
    exact ⟨_, rfl⟩
  | true =>
    simp only [if_true]
    have m1 : (R.map N.sqrt).rows = J.rows := h2
    have m2 : (R.map N.sqrt).cols = J.rows := h3
    obtain ⟨c1, e1, r1, s1⟩ := Mat.mul_def (a := e.cov) (b := J.transpose) (by show _ = J.cols; omega)
    have s1' : c1.cols = J.rows := s1
    rw [e1, ok_bind]
    obtain ⟨c2, e2, r2, s2⟩ := qrStack_def N (a := c1) (b := R.map N.sqrt) (by omega) (by omega)
    rw [e2, ok_bind]
    obtain ⟨c3, e3, r3, s3⟩ := Mat.mul_def (a := e.cov.transpose) (b := e.cov) rfl
    have r3' : c3.rows = e.cov.cols := r3
    rw [e3, ok_bind]
    obtain ⟨c4, e4, r4, s4⟩ := Mat.mul_def (a := c3) (b := J.transpose) (by show _ = J.cols; omega)
    have s4' : c4.cols = J.rows := s4
    rw [e4, ok_bind]
    obtain ⟨c5, e5, r5, s5⟩ := Mat.mul_def (a := c2.transpose) (b := c2) rfl
    have r5' : c5.rows = c2.cols := r5
    rw [e5, ok_bind]
    obtain ⟨c6, e6, r6, s6⟩ := Mat.inverse_def N (a := c5) (by omega)
    rw [e6, ok_bind]
    obtain ⟨G, e7, r7, s7⟩ := Mat.mul_def (a := c4) (b := c6) (by omega)
    rw [e7, ok_bind]
    obtain ⟨v, e8, sv⟩ : ∃ v, G.mulVec r = .ok v ∧ v.size = G.rows := ⟨_, Mat.mulVec_ok_iff.2 ⟨by omega, rfl⟩, rfl⟩
    rw [e8, ok_bind, State.addVec_moved N v e.state e.stateSize hi.tiles (by omega), ok_bind]
    obtain ⟨c8, e8, r8, s8⟩ := Mat.mul_def (a := G) (b := J) (by omega)
    rw [e8, ok_bind]
    obtain ⟨c9, e9, r9, s9⟩ := Mat.sub_def (a := Mat.identity e.cov.rows e.cov.cols) (b := c8)
      (by show e.cov.rows = _ ∧ e.cov.cols = _; omega)
    have r9' : c9.rows = e.cov.rows := r9
    have s9' : c9.cols = e.cov.cols := s9
    rw [e9, ok_bind]
    obtain ⟨c10, e10, r10, s10⟩ := Mat.mul_def (a := e.cov) (b := c9.transpose) (by show _ = c9.cols; omega)
    have s10' : c10.cols = c9.rows := s10
    rw [e10, ok_bind]
    obtain ⟨c11, e11, r11, s11⟩ := Mat.mul_def (a := R.map N.sqrt) (b := G.transpose) (by show _ = G.cols; omega)
    have s11' : c11.cols = G.rows := s11
    rw [e11, ok_bind]
    obtain ⟨c12, e12, r12, s12⟩ := qrStack_def N (a := c10) (b := c11) (by omega) (by omega)
    rw [e12]
    exact ⟨_, rfl⟩

end Ekf
end EkfCal
