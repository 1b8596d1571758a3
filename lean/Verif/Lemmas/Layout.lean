import Verif.Spec.Layout
import Verif.Lemmas.Mat
import Mathlib.Algebra.BigOperators.Group.List.Basic

/-! # Lemmas about `RefreshIndices` and the state layout -/

namespace EkfCal
variable {K : Type}

theorem Tiles.append {l₁ l₂ : List (Nat × Nat)} {a b c : Nat} (h₁ : Tiles l₁ a b) (h₂ : Tiles l₂ b c) :
    Tiles (l₁ ++ l₂) a c := by
  induction l₁ generalizing a with
  | nil => cases h₁; exact h₂
  | cons x xs ih => exact ⟨h₁.1, ih h₁.2⟩

theorem Tiles.append_inv {l₁ l₂ : List (Nat × Nat)} {a c : Nat} (h : Tiles (l₁ ++ l₂) a c) :
    ∃ b, Tiles l₁ a b ∧ Tiles l₂ b c := by
  induction l₁ generalizing a with
  | nil => exact ⟨a, rfl, h⟩
  | cons x xs ih =>
    obtain ⟨b, h1, h2⟩ := ih h.2
    exact ⟨b, ⟨h.1, h1⟩, h2⟩

theorem Tiles.end_eq {l : List (Nat × Nat)} {a b : Nat} (h : Tiles l a b) :
    b = a + (l.map Prod.snd).sum := by
  induction l generalizing a with
  | nil => simpa [Tiles] using h.symm
  | cons x xs ih => have := ih h.2; simp; omega

theorem Tiles.mem_bounds {l : List (Nat × Nat)} {a b : Nat} (h : Tiles l a b) {x : Nat × Nat} (hx : x ∈ l) :
    a ≤ x.1 ∧ x.1 + x.2 ≤ b := by
  induction l generalizing a with
  | nil => simp at hx
  | cons y ys ih =>
    have he := Tiles.end_eq h.2
    obtain ⟨h1, h2⟩ := h
    rcases List.mem_cons.1 hx with rfl | hx
    · omega
    · have := ih h2 hx; omega

/-- Every position is covered by exactly one block (as a list position). -/
theorem Tiles.cover {l : List (Nat × Nat)} {a b i : Nat} (h : Tiles l a b) (ha : a ≤ i) (hb : i < b) :
    ∃ x ∈ l, x.1 ≤ i ∧ i < x.1 + x.2 := by
  induction l generalizing a with
  | nil => simp [Tiles] at h; omega
  | cons y ys ih =>
    obtain ⟨h1, h2⟩ := h
    by_cases hi : i < a + y.2
    · exact ⟨y, by simp, by omega, by omega⟩
    · obtain ⟨x, hx, h3⟩ := ih h2 (by omega)
      exact ⟨x, by simp [hx], h3⟩

theorem Tiles.pairwise {l : List (Nat × Nat)} {a b : Nat} (h : Tiles l a b) :
    l.Pairwise fun x y => x.1 + x.2 ≤ y.1 := by
  induction l generalizing a with
  | nil => simp
  | cons y ys ih =>
    obtain ⟨h1, h2⟩ := h
    refine List.pairwise_cons.2 ⟨fun x hx => ?_, ih h2⟩
    have := h2.mem_bounds hx
    omega

/-! ## Re-indexing as a pure function -/

/-- Give every value of a map its index. -/
def accumIdx {α : Type} (g : α → Nat → α) (dim : α → Nat) : UMap α → Nat → UMap α
  | [], _ => []
  | (k, a) :: rest, i => (k, g a i) :: accumIdx g dim rest (i + dim a)

/-- Index fields an IMU gets at offset `i`. -/
def ImuState.reindex (s : ImuState K) (i : Nat) : ImuState K :=
  { s with
    index := i
    indexExtrinsic := if s.isExtrinsic then i else s.indexExtrinsic
    indexIntrinsic := if s.isIntrinsic then (if s.isExtrinsic then i + 6 else i) else s.indexIntrinsic }
/-- Index field a GPS antenna gets at offset `i`. -/
def GpsState.reindex (s : GpsState K) (i : Nat) : GpsState K := { s with index := i }
/-- Index field a camera gets at offset `i`. -/
def CamState.reindex (s : CamState K) (i : Nat) : CamState K := { s with index := i }
/-- Index field a fiducial gets at offset `i`. -/
def FidState.reindex (s : FidState K) (i : Nat) : FidState K := { s with index := i }
/-- Index fields of the clones of a window starting at offset `i`. -/
def reindexWindow : List (AugState K) → Nat → List (AugState K)
  | [], _ => []
  | a :: rest, i => { a with index := i } :: reindexWindow rest (i + 6)

@[simp] theorem mapDim_nil {α : Type} (dim : α → Nat) : mapDim dim ([] : UMap α) = 0 := rfl
@[simp] theorem mapDim_cons {α : Type} (dim : α → Nat) (kv : Nat × α) (m : UMap α) :
    mapDim dim (kv :: m) = dim kv.2 + mapDim dim m := by simp [mapDim]

theorem accumIdx_dim {α : Type} (g : α → Nat → α) (dim : α → Nat) (hd : ∀ a i, dim (g a i) = dim a)
    (m : UMap α) (i : Nat) : mapDim dim (accumIdx g dim m i) = mapDim dim m := by
  induction m generalizing i with
  | nil => rfl
  | cons x xs ih => obtain ⟨k, a⟩ := x; simp [accumIdx, hd, ih]

theorem accumIdx_keys {α : Type} (g : α → Nat → α) (dim : α → Nat) (m : UMap α) (i : Nat) :
    (accumIdx g dim m i).map Prod.fst = m.map Prod.fst := by
  induction m generalizing i with
  | nil => rfl
  | cons x xs ih => obtain ⟨k, a⟩ := x; simp [accumIdx, ih]

theorem sorted_iff_keys {α : Type} (m : UMap α) : UMap.Sorted m ↔ (m.map Prod.fst).Pairwise (· < ·) := by
  simp [UMap.Sorted, List.pairwise_map]

theorem accumIdx_sorted {α : Type} (g : α → Nat → α) (dim : α → Nat) (m : UMap α) (i : Nat) :
    UMap.Sorted (accumIdx g dim m i) ↔ UMap.Sorted m := by
  simp [sorted_iff_keys, accumIdx_keys]

theorem accumIdx_tiles {α : Type} (g : α → Nat → α) (dim : α → Nat) (blocks : α → List (Nat × Nat))
    (hb : ∀ a i, Tiles (blocks (g a i)) i (i + dim a)) (m : UMap α) (i : Nat) :
    Tiles (mapBlocks blocks (accumIdx g dim m i)) i (i + mapDim dim m) := by
  induction m generalizing i with
  | nil => simp [accumIdx, mapBlocks, Tiles]
  | cons x xs ih =>
    obtain ⟨k, a⟩ := x
    have h1 := ih (i + dim a)
    simp only [accumIdx, mapBlocks, List.flatMap_cons, mapDim_cons]
    exact (hb a i).append (by simpa [mapBlocks, Nat.add_assoc] using h1)

theorem ImuState.reindex_tiles (s : ImuState K) (i : Nat) :
    Tiles (s.reindex i).blocks i (i + s.dim) := by
  unfold ImuState.reindex ImuState.blocks ImuState.dim
  cases s.isExtrinsic <;> cases s.isIntrinsic <;> simp [Tiles]

theorem GpsState.reindex_tiles (s : GpsState K) (i : Nat) :
    Tiles (s.reindex i).blocks i (i + s.dim) := by
  unfold GpsState.reindex GpsState.blocks GpsState.dim
  cases s.isExtrinsic <;> simp [Tiles]

theorem CamState.reindex_tiles (s : CamState K) (i : Nat) :
    Tiles (s.reindex i).blocks i (i + s.dim) := by
  unfold CamState.reindex CamState.blocks CamState.dim
  cases s.isExtrinsic <;> simp [Tiles]

theorem FidState.reindex_tiles (s : FidState K) (i : Nat) :
    Tiles (s.reindex i).blocks i (i + s.dim) := by
  unfold FidState.reindex FidState.blocks FidState.dim
  cases s.isExtrinsic <;> simp [Tiles]

theorem reindexWindow_tiles (w : List (AugState K)) (i : Nat) :
    Tiles (augBlocks (reindexWindow w i)) i (i + 6 * w.length) := by
  induction w generalizing i with
  | nil => simp [reindexWindow, augBlocks, Tiles]
  | cons a rest ih =>
    refine ⟨rfl, ?_⟩
    have := ih (i + 6)
    simpa [augBlocks, List.length_cons, Nat.mul_add, Nat.add_assoc, Nat.add_comm] using this

@[simp] theorem reindexWindow_length (w : List (AugState K)) (i : Nat) :
    (reindexWindow w i).length = w.length := by
  induction w generalizing i with
  | nil => rfl
  | cons a rest ih => simp [reindexWindow, ih]

theorem reindexWindow_getElem? (w : List (AugState K)) (i n : Nat) :
    (reindexWindow w i)[n]? = (w[n]?).map fun a => { a with index := i + 6 * n } := by
  induction w generalizing i n with
  | nil => simp [reindexWindow]
  | cons a rest ih =>
    cases n with
    | zero => simp [reindexWindow]
    | succ n => simp [reindexWindow, ih]; congr 1; funext x; congr 1; omega

namespace Ekf

theorem refreshAugList_eq (w : List (AugState K)) (i : Nat) :
    refreshAugList w i = (reindexWindow w i, i + 6 * w.length) := by
  induction w generalizing i with
  | nil => simp [refreshAugList, reindexWindow]
  | cons a rest ih =>
    simp [refreshAugList, reindexWindow, ih, augSize]; omega

theorem refreshAugs_eq (m : UMap (List (AugState K))) (i : Nat) :
    refreshAugs m i =
      (accumIdx reindexWindow (fun w => 6 * w.length) m i, i + mapDim (fun w => 6 * w.length) m) := by
  induction m generalizing i with
  | nil => simp [refreshAugs, accumIdx]
  | cons x xs ih =>
    obtain ⟨k, w⟩ := x
    simp [refreshAugs, accumIdx, refreshAugList_eq, ih]; omega

theorem refreshLoop_spec {α : Type} (f : α → Refresh K → Res (α × Refresh K)) (g : α → Nat → α)
    (dim : α → Nat) (n : Nat)
    (hf : ∀ a r, r.1 + dim a ≤ n → ∃ d, f a r = .ok (g a r.1, (r.1 + dim a, d)))
    (m : UMap α) (r : Refresh K) (h : r.1 + mapDim dim m ≤ n) :
    ∃ d, refreshLoop f m r = .ok (accumIdx g dim m r.1, (r.1 + mapDim dim m, d)) := by
  induction m generalizing r with
  | nil => exact ⟨r.2, rfl⟩
  | cons x xs ih =>
    obtain ⟨k, a⟩ := x
    simp only [mapDim_cons] at h
    obtain ⟨d, hd⟩ := hf a r (by omega)
    obtain ⟨d', hd'⟩ := ih (r.1 + dim a, d) (by dsimp; omega)
    refine ⟨d', ?_⟩
    simp only [refreshLoop, hd, ok_bind]
    rw [hd']
    simp [accumIdx, Nat.add_assoc]

theorem refreshImu_spec (n : Nat) (s : ImuState K) (r : Refresh K) (h : r.1 + s.dim ≤ n) :
    ∃ d, refreshImu n s r = .ok (s.reindex r.1, (r.1 + s.dim, d)) := by
  unfold ImuState.dim at *
  unfold refreshImu ImuState.reindex put3
  cases he : s.isExtrinsic <;> cases hi : s.isIntrinsic <;>
    simp only [he, hi, if_true, Bool.false_eq_true, if_false, ok_bind, pure_res] at h ⊢
  · exact ⟨r.2, rfl⟩
  · rw [if_pos (by omega)]; simp only [ok_bind]
    rw [if_pos (by omega)]; simp only [ok_bind]
    exact ⟨_, rfl⟩
  · rw [if_pos (by omega)]; simp only [ok_bind]
    rw [if_pos (by omega)]; simp only [ok_bind]
    exact ⟨_, rfl⟩
  · rw [if_pos (by omega)]; simp only [ok_bind]
    rw [if_pos (by omega)]; simp only [ok_bind]
    rw [if_pos (by simp only [imuExtSize]; omega)]; simp only [ok_bind]
    rw [if_pos (by simp only [imuExtSize]; omega)]; simp only [ok_bind]
    exact ⟨_, rfl⟩

theorem refreshGps_spec (n : Nat) (s : GpsState K) (r : Refresh K) (h : r.1 + s.dim ≤ n) :
    ∃ d, refreshGps n s r = .ok (s.reindex r.1, (r.1 + s.dim, d)) := by
  unfold GpsState.dim at *
  unfold refreshGps GpsState.reindex put3
  cases he : s.isExtrinsic <;>
    simp only [he, if_true, Bool.false_eq_true, if_false, pure_res] at h ⊢
  · exact ⟨r.2, rfl⟩
  · rw [if_pos (by omega)]
    exact ⟨_, rfl⟩

theorem refreshCam_spec (n : Nat) (s : CamState K) (r : Refresh K) (h : r.1 + s.dim ≤ n) :
    ∃ d, refreshCam n s r = .ok (s.reindex r.1, (r.1 + s.dim, d)) := by
  unfold CamState.dim at *
  unfold refreshCam CamState.reindex put3
  cases he : s.isExtrinsic <;>
    simp only [he, if_true, Bool.false_eq_true, if_false, pure_res] at h ⊢
  · exact ⟨r.2, rfl⟩
  · rw [if_pos (by omega)]; simp only [ok_bind]
    rw [if_pos (by omega)]
    exact ⟨_, rfl⟩

theorem refreshFid_spec (n : Nat) (s : FidState K) (r : Refresh K) (h : r.1 + s.dim ≤ n) :
    ∃ d, refreshFid n s r = .ok (s.reindex r.1, (r.1 + s.dim, d)) := by
  unfold FidState.dim at *
  unfold refreshFid FidState.reindex put3
  cases he : s.isExtrinsic <;>
    simp only [he, if_true, Bool.false_eq_true, if_false, pure_res] at h ⊢
  · exact ⟨r.2, rfl⟩
  · rw [if_pos (by omega)]; simp only [ok_bind]
    rw [if_pos (by omega)]
    exact ⟨_, rfl⟩

end Ekf

/-- The state with all index fields recomputed. -/
def State.reindex (s : State K) : State K :=
  let i1 := 18 + mapDim ImuState.dim s.imus
  let i2 := i1 + mapDim GpsState.dim s.gpss
  let i3 := i2 + mapDim CamState.dim s.cams
  let i4 := i3 + mapDim FidState.dim s.fids
  { body := { s.body with index := 0 }
    imus := accumIdx ImuState.reindex ImuState.dim s.imus 18
    gpss := accumIdx GpsState.reindex GpsState.dim s.gpss i1
    cams := accumIdx CamState.reindex CamState.dim s.cams i2
    fids := accumIdx FidState.reindex FidState.dim s.fids i3
    augs := accumIdx reindexWindow (fun w => 6 * w.length) s.augs i4 }

theorem State.reindex_dim (s : State K) : s.reindex.dim = s.dim := by
  simp only [State.reindex, State.dim]
  rw [accumIdx_dim _ _ (by intros; rfl), accumIdx_dim _ _ (by intros; rfl), accumIdx_dim _ _ (by intros; rfl),
    accumIdx_dim _ _ (by intros; rfl), accumIdx_dim _ _ (by intros; simp)]

theorem State.reindex_tiles (s : State K) : Tiles s.reindex.blocks 0 s.dim := by
  unfold State.blocks State.dim State.reindex
  have t0 : Tiles [(0, 18)] 0 18 := ⟨rfl, rfl⟩
  exact ((((t0.append (accumIdx_tiles _ _ _ ImuState.reindex_tiles s.imus 18)).append
    (accumIdx_tiles _ _ _ GpsState.reindex_tiles s.gpss _)).append
    (accumIdx_tiles _ _ _ CamState.reindex_tiles s.cams _)).append
    (accumIdx_tiles _ _ _ FidState.reindex_tiles s.fids _)).append
    (accumIdx_tiles _ _ _ reindexWindow_tiles s.augs _)

theorem State.reindex_sorted {s : State K} (h : s.MapsSorted) : s.reindex.MapsSorted := by
  constructor <;> simp only [State.reindex, accumIdx_sorted]
  exacts [h.imus, h.gpss, h.cams, h.fids, h.augs]

namespace Ekf
variable [Field K] [LinearOrder K]

/-- `refreshIndices` succeeds when the size counter fits the structure, and changes only index fields, range starts and
the process noise. -/
theorem refreshIndices_spec (N : Prim K) (e : Ekf K) (hs : e.state.dim ≤ e.stateSize)
    (hn : e.bodyProcessNoise.size = 18) :
    ∃ noise : Mat K, (noise.rows = e.stateSize ∧ noise.cols = e.stateSize) ∧
      refreshIndices N e = .ok { e with
        state := e.state.reindex
        processNoise := noise
        imuStateStart := 18
        gpsStateStart := 18 + mapDim ImuState.dim e.state.imus
        camStateStart := 18 + mapDim ImuState.dim e.state.imus + mapDim GpsState.dim e.state.gpss
        fidStateStart := 18 + mapDim ImuState.dim e.state.imus + mapDim GpsState.dim e.state.gpss
          + mapDim CamState.dim e.state.cams
        augStateStart := 18 + mapDim ImuState.dim e.state.imus + mapDim GpsState.dim e.state.gpss
          + mapDim CamState.dim e.state.cams + mapDim FidState.dim e.state.fids } := by
  unfold State.dim at hs
  have g1 : guardUB (bodySize ≤ e.stateSize) UB.outOfRange = .ok () :=
    guardUB_true (by simp only [bodySize]; omega)
  have g2 : guardUB (e.bodyProcessNoise.size = bodySize) UB.sizeMismatch = .ok () := guardUB_true hn
  unfold refreshIndices
  simp only [g1, g2, ok_bind]
  obtain ⟨d1, h1⟩ := refreshLoop_spec (refreshImu e.stateSize) ImuState.reindex ImuState.dim e.stateSize
    (refreshImu_spec e.stateSize) e.state.imus
    (bodySize, fun k => if k < bodySize then e.bodyProcessNoise.get k else 0)
    (by simp only [bodySize]; omega)
  rw [h1]; simp only [ok_bind]
  obtain ⟨d2, h2⟩ := refreshLoop_spec (refreshGps e.stateSize) GpsState.reindex GpsState.dim e.stateSize
    (refreshGps_spec e.stateSize) e.state.gpss (bodySize + mapDim ImuState.dim e.state.imus, d1)
    (by simp only [bodySize]; omega)
  rw [h2]; simp only [ok_bind]
  obtain ⟨d3, h3⟩ := refreshLoop_spec (refreshCam e.stateSize) CamState.reindex CamState.dim e.stateSize
    (refreshCam_spec e.stateSize) e.state.cams
    (bodySize + mapDim ImuState.dim e.state.imus + mapDim GpsState.dim e.state.gpss, d2)
    (by simp only [bodySize]; omega)
  rw [h3]; simp only [ok_bind]
  obtain ⟨d4, h4⟩ := refreshLoop_spec (refreshFid e.stateSize) FidState.reindex FidState.dim e.stateSize
    (refreshFid_spec e.stateSize) e.state.fids
    (bodySize + mapDim ImuState.dim e.state.imus + mapDim GpsState.dim e.state.gpss
      + mapDim CamState.dim e.state.cams, d3)
    (by simp only [bodySize]; omega)
  rw [h4]; simp only [ok_bind, pure_res, refreshAugs_eq]
  refine ⟨if e.useRoot = true then Mat.map N.sqrt (diagMat e.stateSize d4) else diagMat e.stateSize d4, ?_, rfl⟩
  split <;> simp [Mat.map, diagMat]

end Ekf
end EkfCal
