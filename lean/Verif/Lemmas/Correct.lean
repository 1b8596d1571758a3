import Verif.Spec.Correct
import Verif.Lemmas.Layout
import Verif.Lemmas.Mat

/-! # `addVec` on a tiled state -/

namespace EkfCal
variable {K : Type} [Field K]

theorem Vec.segment3_ok {v : Vec K} {i : Nat} (h : i + 3 ≤ v.size) : v.segment3 i = .ok (v.at3 i) := by
  simp [Vec.segment3, h, Vec.at3]

theorem Tiles.le {l : List (Nat × Nat)} {a b : Nat} (h : Tiles l a b) : a ≤ b := by
  have := h.end_eq; omega

theorem loopIdx_cons {α : Type} {f : α → Nat → Res (α × Nat)} {a a' : α} {l l' : List α} {i b j : Nat}
    (h1 : f a i = .ok (a', b)) (h2 : loopIdx f l b = .ok (l', j)) : loopIdx f (a :: l) i = .ok (a' :: l', j) := by
  unfold loopIdx
  rw [h1, ok_bind]
  simp only [h2, ok_bind, pure_res]

theorem loopMap_moved {α : Type} {f : α → Nat → Res (α × Nat)} {g : α → α} {blocks : α → List (Nat × Nat)} {n : Nat}
    (hf : ∀ a i j, Tiles (blocks a) i j → j ≤ n → f a i = .ok (g a, j)) :
    ∀ (m : UMap α) (i j : Nat), Tiles (mapBlocks blocks m) i j → j ≤ n → loopMap f m i = .ok (UMap.mapVal g m, j)
  | [], i, j, h, _ => by cases h; rfl
  | (k, a) :: m, i, j, h, hj => by
    have h' : Tiles (blocks a ++ mapBlocks blocks m) i j := h
    obtain ⟨b, h1, h2⟩ := h'.append_inv
    have e1 := hf a i b h1 (by have := h2.le; omega)
    have e2 := loopMap_moved hf m b j h2 hj
    exact loopIdx_cons (by rw [e1, ok_bind]; rfl) e2

theorem ImuState.addVecAt_moved (N : Prim K) (v : Vec K) (s : ImuState K) (i j : Nat) (h : Tiles s.blocks i j)
    (hj : j ≤ v.size) : s.addVecAt N v i = .ok (s.moved N v, j) := by
  unfold ImuState.addVecAt
  rcases s with ⟨a, b, c, d, p, q, ab, ob, sz, ix, ii, ie, ext, int⟩
  cases ext <;> cases int <;> simp [ImuState.blocks, Tiles] at h
  · subst h; simp [ImuState.moved]
  · obtain ⟨rfl, rfl⟩ := h
    simp [Vec.segment3_ok (v := v) (i := ii) (by omega), Vec.segment3_ok (v := v) (i := ii + 3) (by omega), ImuState.moved,
      imuIntSize]
  · obtain ⟨rfl, rfl⟩ := h
    simp [Vec.segment3_ok (v := v) (i := ie) (by omega), Vec.segment3_ok (v := v) (i := ie + 3) (by omega), ImuState.moved,
      imuExtSize, Quat.moved]
  · obtain ⟨rfl, rfl, rfl⟩ := h
    simp [Vec.segment3_ok (v := v) (i := ie) (by omega), Vec.segment3_ok (v := v) (i := ie + 3) (by omega), ImuState.moved,
      Vec.segment3_ok (v := v) (i := ie + 6) (by omega), Vec.segment3_ok (v := v) (i := ie + 6 + 3) (by omega),
      imuExtSize, imuIntSize, Quat.moved]

theorem GpsState.addVecAt_moved (v : Vec K) (s : GpsState K) (i j : Nat) (h : Tiles s.blocks i j)
    (hj : j ≤ v.size) : s.addVecAt v i = .ok (s.moved v, j) := by
  unfold GpsState.addVecAt
  rcases s with ⟨p, q, sz, ix, ext⟩
  cases ext <;> simp [GpsState.blocks, Tiles] at h
  · subst h; simp [GpsState.moved]
  · obtain ⟨rfl, rfl⟩ := h
    simp [Vec.segment3_ok (v := v) (i := ix) (by omega), GpsState.moved, gpsExtSize]

theorem CamState.addVecAt_moved (N : Prim K) (v : Vec K) (s : CamState K) (i j : Nat) (h : Tiles s.blocks i j)
    (hj : j ≤ v.size) : s.addVecAt N v i = .ok (s.moved N v, j) := by
  unfold CamState.addVecAt
  rcases s with ⟨a, b, p, q, r, sz, ix, ext⟩
  cases ext <;> simp [CamState.blocks, Tiles] at h
  · subst h; simp [CamState.moved]
  · obtain ⟨rfl, rfl⟩ := h
    simp [Vec.segment3_ok (v := v) (i := ix) (by omega), Vec.segment3_ok (v := v) (i := ix + 3) (by omega), CamState.moved,
      camExtSize, Quat.moved]

theorem FidState.addVecAt_moved (N : Prim K) (v : Vec K) (s : FidState K) (i j : Nat) (h : Tiles s.blocks i j)
    (hj : j ≤ v.size) : s.addVecAt N v i = .ok (s.moved N v, j) := by
  unfold FidState.addVecAt
  rcases s with ⟨f, p, q, a, b, sz, ix, id, ext⟩
  cases ext <;> simp [FidState.blocks, Tiles] at h
  · subst h; simp [FidState.moved]
  · obtain ⟨rfl, rfl⟩ := h
    simp [Vec.segment3_ok (v := v) (i := ix) (by omega), Vec.segment3_ok (v := v) (i := ix + 3) (by omega), FidState.moved,
      fidExtSize, Quat.moved]

theorem window_moved (N : Prim K) (v : Vec K) : ∀ (w : List (AugState K)) (i j : Nat), Tiles (augBlocks w) i j →
    j ≤ v.size → loopIdx (fun x i => AugState.addVecAt N x v i) w i = .ok (w.map (AugState.moved N v), j)
  | [], i, j, h, _ => by cases h; rfl
  | a :: w, i, j, h, hj => by
    obtain ⟨h1, h2⟩ : a.index = i ∧ Tiles (augBlocks w) (i + 6) j := h
    have := h2.le
    have e2 := window_moved N v w (i + 6) j h2 hj
    refine loopIdx_cons ?_ e2
    unfold AugState.addVecAt
    simp only [Nat.add_zero, Vec.segment3_ok (v := v) (i := i) (by omega),
      Vec.segment3_ok (v := v) (i := i + 3) (by omega), ok_bind, pure_res, augSize]
    subst h1
    rfl

/-- On a state whose published indices tile `0 … j`, adding a vector of at least that size is defined and moves every
component by its slice. -/
theorem State.addVec_moved (N : Prim K) (v : Vec K) (s : State K) (j : Nat) (h : Tiles s.blocks 0 j) (hj : j ≤ v.size) :
    s.addVec N v = .ok (s.moved N v) := by
  unfold State.blocks at h
  obtain ⟨i5, h, t5⟩ := h.append_inv
  obtain ⟨i4, h, t4⟩ := h.append_inv
  obtain ⟨i3, h, t3⟩ := h.append_inv
  obtain ⟨i2, h, t2⟩ := h.append_inv
  obtain ⟨i1, h, t1⟩ := h.append_inv
  obtain ⟨hb, h⟩ : s.body.index = 0 ∧ 0 + 18 = i1 := h
  have l1 := t1.le
  have l2 := t2.le
  have l3 := t3.le
  have l4 := t4.le
  have l5 := t5.le
  subst h
  unfold State.addVec
  have eb : s.body.addVec N ⟨18, fun k => v.get (0 + k)⟩ = .ok (s.body.moved N v) := by
    unfold BodyState.addVec
    simp only [Vec.segment3, ok_bind, pure_res]
    simp [BodyState.moved, hb, Vec.at3, Quat.moved]
  have es : v.segment 0 bodySize = .ok ⟨18, fun k => v.get (0 + k)⟩ := by
    unfold Vec.segment bodySize
    rw [if_pos (by omega)]
  rw [es, ok_bind, eb, ok_bind]
  rw [loopMap_moved (ImuState.addVecAt_moved N v) s.imus bodySize i2 t1 (by omega)]
  simp only [ok_bind]
  rw [loopMap_moved (GpsState.addVecAt_moved v) s.gpss i2 i3 t2 (by omega)]
  simp only [ok_bind]
  rw [loopMap_moved (CamState.addVecAt_moved N v) s.cams i3 i4 t3 (by omega)]
  simp only [ok_bind]
  rw [loopMap_moved (FidState.addVecAt_moved N v) s.fids i4 i5 t4 (by omega)]
  simp only [ok_bind]
  rw [loopMap_moved (window_moved N v) s.augs i5 j t5 (by omega)]
  rfl

end EkfCal
