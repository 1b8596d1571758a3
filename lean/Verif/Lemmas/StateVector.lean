import Verif.Spec.StateVector
import Verif.Spec.Machine
import Verif.Lemmas.Correct
import Verif.Lemmas.Inv
import Mathlib.Tactic.FinCases
import Mathlib.Tactic.IntervalCases

/-! # Export and import of a tiled state -/

set_option linter.unusedSimpArgs false

namespace EkfCal
variable {K : Type} [Field K]

/-! ## Import -/

theorem ImuState.setAt_imported (N : Prim K) (v : Vec K) (s : ImuState K) (i j : Nat) (h : Tiles s.blocks i j)
    (hj : j ≤ v.size) : s.setAt N v i = .ok (s.imported N v, j) := by
  unfold ImuState.setAt
  rcases s with ⟨a, b, c, d, p, q, ab, ob, sz, ix, ii, ie, ext, int⟩
  cases ext <;> cases int <;> simp [ImuState.blocks, Tiles] at h
  · subst h; simp [ImuState.imported]
  · obtain ⟨rfl, rfl⟩ := h
    simp [Vec.segment3_ok (v := v) (i := ii) (by omega), Vec.segment3_ok (v := v) (i := ii + 3) (by omega),
      ImuState.imported, imuIntSize]
  · obtain ⟨rfl, rfl⟩ := h
    simp [Vec.segment3_ok (v := v) (i := ie) (by omega), Vec.segment3_ok (v := v) (i := ie + 3) (by omega),
      ImuState.imported, imuExtSize]
  · obtain ⟨rfl, rfl, rfl⟩ := h
    simp [Vec.segment3_ok (v := v) (i := ie) (by omega), Vec.segment3_ok (v := v) (i := ie + 3) (by omega),
      Vec.segment3_ok (v := v) (i := ie + 6) (by omega), Vec.segment3_ok (v := v) (i := ie + 6 + 3) (by omega),
      ImuState.imported, imuExtSize, imuIntSize]

theorem GpsState.setAt_imported (v : Vec K) (s : GpsState K) (i j : Nat) (h : Tiles s.blocks i j)
    (hj : j ≤ v.size) : s.setAt v i = .ok (s.imported v, j) := by
  unfold GpsState.setAt
  rcases s with ⟨p, q, sz, ix, ext⟩
  cases ext <;> simp [GpsState.blocks, Tiles] at h
  · subst h; simp [GpsState.imported]
  · obtain ⟨rfl, rfl⟩ := h
    simp [Vec.segment3_ok (v := v) (i := ix) (by omega), GpsState.imported, gpsExtSize]

theorem CamState.setAt_imported (N : Prim K) (v : Vec K) (s : CamState K) (i j : Nat) (h : Tiles s.blocks i j)
    (hj : j ≤ v.size) : s.setAt N v i = .ok (s.imported N v, j) := by
  unfold CamState.setAt
  rcases s with ⟨a, b, p, q, r, sz, ix, ext⟩
  cases ext <;> simp [CamState.blocks, Tiles] at h
  · subst h; simp [CamState.imported]
  · obtain ⟨rfl, rfl⟩ := h
    simp [Vec.segment3_ok (v := v) (i := ix) (by omega), Vec.segment3_ok (v := v) (i := ix + 3) (by omega),
      CamState.imported, camExtSize]

theorem FidState.setAt_imported (N : Prim K) (v : Vec K) (s : FidState K) (i j : Nat) (h : Tiles s.blocks i j)
    (hj : j ≤ v.size) : s.setAt N v i = .ok (s.imported N v, j) := by
  unfold FidState.setAt
  rcases s with ⟨f, p, q, a, b, sz, ix, id, ext⟩
  cases ext <;> simp [FidState.blocks, Tiles] at h
  · subst h; simp [FidState.imported]
  · obtain ⟨rfl, rfl⟩ := h
    simp [Vec.segment3_ok (v := v) (i := ix) (by omega), Vec.segment3_ok (v := v) (i := ix + 3) (by omega),
      FidState.imported, fidExtSize]

theorem State.setState_imported (N : Prim K) (v : Vec K) (s : State K) (j : Nat) (h : Tiles s.blocks 0 j)
    (hj : j ≤ v.size) : s.setState N v = .ok (s.imported N v) := by
  unfold State.blocks at h
  obtain ⟨i5, h, t5⟩ := h.append_inv
  obtain ⟨i4, h, t4⟩ := h.append_inv
  obtain ⟨i3, h, t3⟩ := h.append_inv
  obtain ⟨i2, h, t2⟩ := h.append_inv
  obtain ⟨i1, h, t1⟩ := h.append_inv
  obtain ⟨hb, h⟩ : s.body.index = 0 ∧ 0 + 18 = i1 := h
  have l1 := t1.le
  have l2 := t2.le
  have l3 := t3.le
  have l4 := t4.le
  have l5 := t5.le
  subst h
  unfold State.setState
  have eb : s.body.setState N ⟨18, fun k => v.get (0 + k)⟩ = .ok (s.body.imported N v) := by
    unfold BodyState.setState
    simp only [Vec.segment3, ok_bind, pure_res]
    simp [BodyState.imported, hb, Vec.at3]
  have es : v.segment 0 bodySize = .ok ⟨18, fun k => v.get (0 + k)⟩ := by
    unfold Vec.segment bodySize
    rw [if_pos (by omega)]
  rw [es, ok_bind, eb, ok_bind]
  rw [loopMap_moved (ImuState.setAt_imported N v) s.imus bodySize i2 t1 (by omega)]
  simp only [ok_bind]
  rw [loopMap_moved (GpsState.setAt_imported v) s.gpss i2 i3 t2 (by omega)]
  simp only [ok_bind]
  rw [loopMap_moved (CamState.setAt_imported N v) s.cams i3 i4 t3 (by omega)]
  simp only [ok_bind]
  rw [loopMap_moved (FidState.setAt_imported N v) s.fids i4 i5 t4 (by omega)]
  rfl

/-! ## Export -/

/-- `u` carries the entries of `v` between `i` and `j`. -/
def Vec.Agree (u v : Vec K) (i j : Nat) : Prop := ∀ k, i ≤ k → k < j → u.get k = v.get k

theorem Vec.Agree.at3 {u v : Vec K} {i j k : Nat} (h : u.Agree v i j) (h1 : i ≤ k) (h2 : k + 3 ≤ j) : u.at3 k = v.at3 k := by
  unfold Vec.at3
  rw [h k h1 (by omega), h (k + 1) (by omega) (by omega), h (k + 2) (by omega) (by omega)]

/-- What a loop over `m` leaves: the facts `P` hold of every vector with the same entries in the written range. -/
theorem putEach_tiles {α : Type} {f : α → Res (Option (Vec K))} {blocks : α → List (Nat × Nat)} {P : Vec K → α → Prop} :
    ∀ (m : List α) (_ : ∀ a ∈ m, ∃ c, f a = .ok c ∧ ∀ i j, Tiles (blocks a) i j →
        j = i + (c.map Vec.size).getD 0 ∧
        ∀ u : Vec K, (∀ w, c = some w → ∀ k, k < w.size → u.get (i + k) = w.get k) → P u a)
      (v : Vec K) (i j : Nat), Tiles (m.flatMap blocks) i j → j ≤ v.size →
      ∃ v', putEach f m v i = .ok (v', j) ∧ v'.size = v.size ∧ v'.Agree v 0 i ∧
        ∀ u : Vec K, u.Agree v' i j → ∀ a ∈ m, P u a
  | [], _, v, i, j, h, _ => by
    cases h
    exact ⟨v, rfl, rfl, fun _ _ _ => rfl, fun _ _ a ha => by cases ha⟩
  | a :: m, hf, v, i, j, h, hj => by
    have h' : Tiles (blocks a ++ m.flatMap blocks) i j := h
    obtain ⟨b, h1, h2⟩ := h'.append_inv
    have l2 := h2.le
    obtain ⟨c, hc, hab⟩ := hf a (by simp)
    obtain ⟨hb, hP⟩ := hab i b h1
    cases c with
    | none =>
      simp at hb
      subst hb
      obtain ⟨v', e1, e2, e3, e4⟩ := putEach_tiles m (fun x hx => hf x (by simp [hx])) v b j h2 hj
      refine ⟨v', ?_, e2, e3, ?_⟩
      · simp only [putEach, hc, ok_bind, e1]
      · intro u hu x hx
        rcases List.mem_cons.1 hx with rfl | hx
        · exact hP u (fun w hw => by cases hw)
        · exact e4 u hu x hx
    | some w =>
      simp at hb
      subst hb
      obtain ⟨v', e1, e2, e3, e4⟩ := putEach_tiles m (fun x hx => hf x (by simp [hx]))
        ⟨v.size, fun k => if i ≤ k ∧ k < i + w.size then w.get (k - i) else v.get k⟩ (i + w.size) j h2 hj
      refine ⟨v', ?_, e2, ?_, ?_⟩
      · simp only [putEach, hc, ok_bind, Vec.put, if_pos (show i + w.size ≤ v.size by omega), e1]
      · intro k hk1 hk2
        rw [e3 k hk1 (by omega)]
        show (if i ≤ k ∧ k < i + w.size then _ else _) = _
        rw [if_neg (by omega)]
      · intro u hu x hx
        rcases List.mem_cons.1 hx with rfl | hx
        · refine hP u (fun w' hw' k hk => ?_)
          cases hw'
          rw [hu (i + k) (by omega) (by omega), e3 (i + k) (by omega) (by omega)]
          show (if i ≤ i + k ∧ i + k < i + w.size then _ else _) = _
          rw [if_pos (by omega), Nat.add_sub_cancel_left]
        · exact e4 u (fun k h1 h2 => hu k (by omega) h2) x hx

theorem V3.eta (p : V3 K) : ![p 0, p 1, p 2] = p := by
  funext i; fin_cases i <;> rfl

theorem pose_shown {N : Prim K} {u : Vec K} {i : Nat} {p : V3 K} {q : Quat K} {g : Nat → K}
    (hg : g = (Vec.ofV3s [p, N.quatToRotVec q]).get) (h : ∀ k, k < 6 → u.get (i + k) = g k) : u.ShowsPose N i p q := by
  subst hg
  have h0 := h 0 (by omega)
  have h1 := h 1 (by omega)
  have h2 := h 2 (by omega)
  have h3 := h 3 (by omega)
  have h4 := h 4 (by omega)
  have h5 := h 5 (by omega)
  refine ⟨?_, ?_⟩
  · unfold Vec.at3
    rw [show u.get i = _ from h0, h1, h2]
    exact V3.eta p
  · unfold Vec.at3
    rw [h3, show u.get (i + 3 + 1) = _ from h4, show u.get (i + 3 + 2) = _ from h5]
    exact V3.eta (N.quatToRotVec q)

theorem ImuState.chunk_shown (N : Prim K) (s : ImuState K) (hw : s.WF)
    (hi : s.isIntrinsic = true → s.isExtrinsic = true) : ∃ c, s.chunk N = .ok c ∧ ∀ i j, Tiles s.blocks i j →
        j = i + (c.map Vec.size).getD 0 ∧
        ∀ u : Vec K, (∀ w, c = some w → ∀ k, k < w.size → u.get (i + k) = w.get k) → s.Shown N u := by
  unfold ImuState.WF ImuState.dim at hw
  unfold ImuState.chunk ImuState.toVector
  rcases s with ⟨a, b, c, d, p, q, ab, ob, sz, ix, ii, ie, ext, int⟩
  cases ext <;> cases int <;> simp at hw hi
  · subst hw
    refine ⟨none, rfl, fun i j h => ?_⟩
    simp [ImuState.blocks, Tiles] at h
    exact ⟨by simp [h], fun u hu => ⟨fun h => (Bool.false_ne_true h).elim, fun h => (Bool.false_ne_true h).elim⟩⟩
  · subst hw
    refine ⟨some ⟨6, (Vec.ofV3s [p, N.quatToRotVec q]).get⟩, rfl, fun i j h => ?_⟩
    simp [ImuState.blocks, Tiles] at h
    refine ⟨by simp [h], fun u hu => ⟨fun _ => ?_, fun h => (Bool.false_ne_true h).elim⟩⟩
    exact pose_shown rfl (h.1 ▸ hu _ rfl)
  · subst hw
    refine ⟨some ⟨12, (Vec.ofV3s [p, N.quatToRotVec q, ab, ob]).get⟩, rfl, fun i j h => ?_⟩
    simp [ImuState.blocks, Tiles] at h
    obtain ⟨rfl, rfl, rfl⟩ := h
    refine ⟨rfl, fun u hu => ?_⟩
    have hu := hu _ rfl
    refine ⟨fun _ => pose_shown (g := (Vec.ofV3s [p, N.quatToRotVec q]).get) rfl fun k hk => ?_, fun _ => ⟨?_, ?_⟩⟩
    · rw [hu k (by show k < 12; omega)]
      interval_cases k <;> rfl
    · show u.at3 (ie + 6) = ab
      unfold Vec.at3
      rw [hu 6 (by show 6 < 12; omega), show u.get (ie + 6 + 1) = _ from hu 7 (by show 7 < 12; omega),
        show u.get (ie + 6 + 2) = _ from hu 8 (by show 8 < 12; omega)]
      exact V3.eta ab
    · show u.at3 (ie + 6 + 3) = ob
      unfold Vec.at3
      rw [show u.get (ie + 6 + 3) = _ from hu 9 (by show 9 < 12; omega),
        show u.get (ie + 6 + 3 + 1) = _ from hu 10 (by show 10 < 12; omega),
        show u.get (ie + 6 + 3 + 2) = _ from hu 11 (by show 11 < 12; omega)]
      exact V3.eta ob

theorem GpsState.chunk_shown (s : GpsState K) : ∃ c, s.chunk = .ok c ∧ ∀ i j, Tiles s.blocks i j →
        j = i + (c.map Vec.size).getD 0 ∧
        ∀ u : Vec K, (∀ w, c = some w → ∀ k, k < w.size → u.get (i + k) = w.get k) →
          s.isExtrinsic = true → u.at3 s.index = s.pos := by
  rcases s with ⟨p, q, sz, ix, ext⟩
  cases ext
  · refine ⟨none, rfl, fun i j h => ?_⟩
    simp [GpsState.blocks, Tiles] at h
    exact ⟨by simp [h], fun u hu h => (Bool.false_ne_true h).elim⟩
  · refine ⟨some (Vec.ofV3s [p]), rfl, fun i j h => ?_⟩
    simp [GpsState.blocks, Tiles] at h
    obtain ⟨rfl, rfl⟩ := h
    refine ⟨rfl, fun u hu _ => ?_⟩
    have hu := hu _ rfl
    show u.at3 ix = p
    unfold Vec.at3
    rw [show u.get ix = _ from hu 0 (by show 0 < 3; omega), hu 1 (by show 1 < 3; omega), hu 2 (by show 2 < 3; omega)]
    exact V3.eta p

theorem CamState.chunk_shown (N : Prim K) (s : CamState K) : ∃ c, s.chunk N = .ok c ∧ ∀ i j, Tiles s.blocks i j →
        j = i + (c.map Vec.size).getD 0 ∧
        ∀ u : Vec K, (∀ w, c = some w → ∀ k, k < w.size → u.get (i + k) = w.get k) →
          s.isExtrinsic = true → u.ShowsPose N s.index s.pos s.ang := by
  rcases s with ⟨a, b, p, q, r, sz, ix, ext⟩
  cases ext
  · refine ⟨none, rfl, fun i j h => ?_⟩
    simp [CamState.blocks, Tiles] at h
    exact ⟨by simp [h], fun u hu h => (Bool.false_ne_true h).elim⟩
  · refine ⟨some (Vec.ofV3s [p, N.quatToRotVec q]), rfl, fun i j h => ?_⟩
    simp [CamState.blocks, Tiles] at h
    obtain ⟨rfl, rfl⟩ := h
    exact ⟨rfl, fun u hu _ => pose_shown rfl (hu _ rfl)⟩

theorem FidState.chunk_shown (N : Prim K) (s : FidState K) (hw : s.WF) : ∃ c, s.chunk N = .ok c ∧
    ∀ i j, Tiles s.blocks i j → j = i + (c.map Vec.size).getD 0 ∧
        ∀ u : Vec K, (∀ w, c = some w → ∀ k, k < w.size → u.get (i + k) = w.get k) →
          s.isExtrinsic = true → u.ShowsPose N s.index s.pos s.ang := by
  rcases s with ⟨f, p, q, a, b, sz, ix, id, ext⟩
  unfold FidState.WF FidState.dim at hw
  cases ext <;> simp at hw <;> subst hw
  · refine ⟨none, rfl, fun i j h => ?_⟩
    simp [FidState.blocks, Tiles] at h
    exact ⟨by simp [h], fun u hu h => (Bool.false_ne_true h).elim⟩
  · refine ⟨some ⟨6, (Vec.ofV3s [p, N.quatToRotVec q]).get⟩, rfl, fun i j h => ?_⟩
    simp [FidState.blocks, Tiles] at h
    obtain ⟨rfl, rfl⟩ := h
    exact ⟨rfl, fun u hu _ => pose_shown rfl (hu _ rfl)⟩

theorem AugState.chunk_shown (N : Prim K) (s : AugState K) : ∃ c, (pure (some (s.toVector N)) : Res _) = .ok c ∧
    ∀ i j, Tiles [(s.index, 6)] i j → j = i + (c.map Vec.size).getD 0 ∧
        ∀ u : Vec K, (∀ w, c = some w → ∀ k, k < w.size → u.get (i + k) = w.get k) →
          u.ShowsPose N s.index s.pos s.ang := by
  refine ⟨_, rfl, fun i j h => ?_⟩
  obtain ⟨rfl, rfl⟩ : s.index = i ∧ i + 6 = j := h
  exact ⟨rfl, fun u hu => pose_shown rfl (hu _ rfl)⟩

theorem mapBlocks_aug (m : UMap (List (AugState K))) :
    mapBlocks augBlocks m = (m.flatMap (·.2)).flatMap fun a => [(a.index, 6)] := by
  induction m with
  | nil => rfl
  | cons x m ih =>
    show augBlocks x.2 ++ mapBlocks augBlocks m = (x.2 ++ m.flatMap (·.2)).flatMap fun a => [(a.index, 6)]
    rw [ih, List.flatMap_append]
    congr 1
    unfold augBlocks
    induction x.2 with
    | nil => rfl
    | cons a l ih => simp [ih]

theorem State.getStateSize_eq (s : State K)
    (ha : mapDim (fun w => 6 * w.length) s.augs = 6 * s.augs.length) : s.getStateSize = s.dim := by
  unfold State.getStateSize State.dim
  rw [ha]
  rfl

/-- Export of a tiled state without intrinsic-only IMUs and with as many clones as windows. -/
theorem State.toVector_shown (N : Prim K) (s : State K) (ht : Tiles s.blocks 0 s.getStateSize)
    (hi : ∀ x ∈ s.imus, x.2.WF ∧ (x.2.isIntrinsic = true → x.2.isExtrinsic = true)) (hf : ∀ x ∈ s.fids, x.2.WF) :
    ∃ v, s.toVector N = .ok v ∧ v.size = s.getStateSize ∧ s.Shown N v := by
  have h := ht
  unfold State.blocks at h
  obtain ⟨i5, h, t5⟩ := h.append_inv
  obtain ⟨i4, h, t4⟩ := h.append_inv
  obtain ⟨i3, h, t3⟩ := h.append_inv
  obtain ⟨i2, h, t2⟩ := h.append_inv
  obtain ⟨i1, h, t1⟩ := h.append_inv
  obtain ⟨hb, h⟩ : s.body.index = 0 ∧ 0 + 18 = i1 := h
  have l1 := t1.le
  have l2 := t2.le
  have l3 := t3.le
  have l4 := t4.le
  have l5 := t5.le
  subst h
  rw [mapBlocks_aug] at t5
  generalize hn : s.getStateSize = n at *
  obtain ⟨v0, p0, z0, g0⟩ : ∃ v0, (⟨n, fun _ => 0⟩ : Vec K).put 0 (s.body.toVector N) = .ok v0 ∧ v0.size = n ∧
      v0.Agree (s.body.toVector N) 0 18 := by
    refine ⟨_, if_pos (by show 0 + 18 ≤ n; omega), rfl, fun k _ hk => ?_⟩
    show (if 0 ≤ k ∧ k < 0 + 18 then _ else _) = _
    rw [if_pos (by omega), Nat.sub_zero]
  obtain ⟨v1, p1, z1, a1, f1⟩ := putEach_tiles (f := fun x : Nat × ImuState K => x.2.chunk N)
    (blocks := fun x => x.2.blocks) (P := fun u x => x.2.Shown N u) s.imus
    (fun x hx => ImuState.chunk_shown N x.2 (hi x hx).1 (hi x hx).2) v0 18 i2 t1 (by omega)
  obtain ⟨v2, p2, z2, a2, f2⟩ := putEach_tiles (f := fun x : Nat × GpsState K => x.2.chunk)
    (blocks := fun x => x.2.blocks) (P := fun u x => x.2.isExtrinsic = true → u.at3 x.2.index = x.2.pos) s.gpss
    (fun x _ => GpsState.chunk_shown x.2) v1 i2 i3 t2 (by omega)
  obtain ⟨v3, p3, z3, a3, f3⟩ := putEach_tiles (f := fun x : Nat × CamState K => x.2.chunk N)
    (blocks := fun x => x.2.blocks)
    (P := fun u x => x.2.isExtrinsic = true → u.ShowsPose N x.2.index x.2.pos x.2.ang) s.cams
    (fun x _ => CamState.chunk_shown N x.2) v2 i3 i4 t3 (by omega)
  obtain ⟨v4, p4, z4, a4, f4⟩ := putEach_tiles (f := fun x : Nat × FidState K => x.2.chunk N)
    (blocks := fun x => x.2.blocks)
    (P := fun u x => x.2.isExtrinsic = true → u.ShowsPose N x.2.index x.2.pos x.2.ang) s.fids
    (fun x hx => FidState.chunk_shown N x.2 (hf x hx)) v3 i4 i5 t4 (by omega)
  obtain ⟨v5, p5, z5, a5, f5⟩ := putEach_tiles (f := fun x : AugState K => (pure (some (x.toVector N)) : Res _))
    (blocks := fun x => [(x.index, 6)]) (P := fun u x => u.ShowsPose N x.index x.pos x.ang) (s.augs.flatMap (·.2))
    (fun x _ => AugState.chunk_shown N x) v4 i5 n t5 (by omega)
  refine ⟨v5, ?_, by omega, ?_⟩
  · unfold State.toVector
    rw [hn, p0]
    simp only [ok_bind, bodySize, p1, p2, p3, p4, p5]
    rfl
  · refine ⟨?_, ?_, ?_, ?_, ?_, ?_⟩
    · have hk : ∀ k, k < 18 → v5.get k = (s.body.toVector N).get k := fun k hk => by
        rw [a5 k (by omega) (by omega), a4 k (by omega) (by omega), a3 k (by omega) (by omega),
          a2 k (by omega) (by omega), a1 k (by omega) (by omega), g0 k (by omega) (by omega)]
      unfold BodyState.Shown
      rw [hb]
      refine ⟨?_, ?_, ?_, ?_, ?_, ?_⟩ <;> unfold Vec.at3 <;> rw [hk _ (by omega), hk _ (by omega), hk _ (by omega)]
      · exact V3.eta s.body.pos
      · exact V3.eta s.body.vel
      · exact V3.eta s.body.acc
      · exact V3.eta (N.quatToRotVec s.body.ang)
      · exact V3.eta s.body.angVel
      · exact V3.eta s.body.angAcc
    · exact f1 v5 fun k h1 h2 => by
        rw [a5 k (by omega) (by omega), a4 k (by omega) (by omega), a3 k (by omega) (by omega), a2 k (by omega) (by omega)]
    · exact f2 v5 fun k h1 h2 => by
        rw [a5 k (by omega) (by omega), a4 k (by omega) (by omega), a3 k (by omega) (by omega)]
    · exact f3 v5 fun k h1 h2 => by
        rw [a5 k (by omega) (by omega), a4 k (by omega) (by omega)]
    · exact f4 v5 fun k h1 h2 => by
        rw [a5 k (by omega) (by omega)]
    · intro x hx a ha
      exact f5 v5 (fun _ _ _ => rfl) a (List.mem_flatMap.2 ⟨x, hx, ha⟩)

end EkfCal
