import Verif.Spec.Joint
import Verif.Lemmas.Inv
import Verif.Lemmas.Clone
import Verif.Lemmas.Forms

/-! # Components listed in storage order -/

set_option linter.unusedSectionVars false

namespace EkfCal
variable {K : Type}

/-- A component with its published range. -/
abbrev Entry := Label × Nat × Nat

def ImuState.entries (id : Nat) (s : ImuState K) : List Entry :=
  (if s.isExtrinsic then [(.imuExt id, s.indexExtrinsic, 6)] else []) ++
  (if s.isIntrinsic then [(.imuInt id, s.indexIntrinsic, 6)] else [])
def GpsState.entries (id : Nat) (s : GpsState K) : List Entry := if s.isExtrinsic then [(.gps id, s.index, 3)] else []
def CamState.entries (id : Nat) (s : CamState K) : List Entry := if s.isExtrinsic then [(.cam id, s.index, 6)] else []
def FidState.entries (id : Nat) (s : FidState K) : List Entry := if s.isExtrinsic then [(.fid id, s.index, 6)] else []
def augEntriesFrom (key : Nat) : List (AugState K) → Nat → List Entry
  | [], _ => []
  | a :: w, p => (.clone key p, a.index, 6) :: augEntriesFrom key w (p + 1)

def mapEntries {α : Type} (f : Nat → α → List Entry) (m : UMap α) : List Entry := m.flatMap fun kv => f kv.1 kv.2

/-- All components in storage order. -/
def State.entries (s : State K) : List Entry :=
  [(.body, s.body.index, 18)] ++ mapEntries ImuState.entries s.imus ++ mapEntries GpsState.entries s.gpss
    ++ mapEntries CamState.entries s.cams ++ mapEntries FidState.entries s.fids
    ++ mapEntries (fun k w => augEntriesFrom k w 0) s.augs

/-- Name and size of a component. -/
def Entry.name (x : Entry) : Label × Nat := (x.1, x.2.2)

/-- Names and sizes in storage order. -/
def State.names (s : State K) : List (Label × Nat) := s.entries.map Entry.name

theorem mapEntries_snd {α : Type} {f : Nat → α → List Entry} {g : α → List (Nat × Nat)}
    (h : ∀ k a, (f k a).map Prod.snd = g a) (m : UMap α) : (mapEntries f m).map Prod.snd = mapBlocks g m := by
  induction m with
  | nil => rfl
  | cons x m ih =>
    simp only [mapEntries, mapBlocks, List.flatMap_cons, List.map_append, h] at ih ⊢
    rw [ih]

theorem augEntriesFrom_snd (k : Nat) (w : List (AugState K)) (p : Nat) : (augEntriesFrom k w p).map Prod.snd = augBlocks w := by
  induction w generalizing p with
  | nil => rfl
  | cons a w ih => simp [augEntriesFrom, augBlocks, ih]

theorem State.entries_blocks (s : State K) : s.entries.map Prod.snd = s.blocks := by
  unfold State.entries State.blocks
  simp only [List.map_append]
  rw [mapEntries_snd (g := ImuState.blocks), mapEntries_snd (g := GpsState.blocks), mapEntries_snd (g := CamState.blocks),
    mapEntries_snd (g := FidState.blocks), mapEntries_snd (g := augBlocks)]
  · rfl
  · intro k a; exact augEntriesFrom_snd k a 0
  · intro k a; unfold FidState.entries FidState.blocks; split <;> rfl
  · intro k a; unfold CamState.entries CamState.blocks; split <;> rfl
  · intro k a; unfold GpsState.entries GpsState.blocks; split <;> rfl
  · intro k a; unfold ImuState.entries ImuState.blocks; split <;> split <;> rfl

theorem mem_mapEntries {α : Type} {f : Nat → α → List Entry} {m : UMap α} {x : Entry} :
    x ∈ mapEntries f m ↔ ∃ k a, (k, a) ∈ m ∧ x ∈ f k a := by
  unfold mapEntries
  rw [List.mem_flatMap]
  constructor
  · rintro ⟨⟨k, a⟩, h1, h2⟩; exact ⟨k, a, h1, h2⟩
  · rintro ⟨k, a, h1, h2⟩; exact ⟨(k, a), h1, h2⟩

theorem mem_augEntriesFrom {k : Nat} {w : List (AugState K)} {p : Nat} {x : Entry} :
    x ∈ augEntriesFrom k w p ↔ ∃ q a, w[q]? = some a ∧ x = (.clone k (p + q), a.index, 6) := by
  induction w generalizing p with
  | nil => simp [augEntriesFrom]
  | cons a w ih =>
    simp only [augEntriesFrom, List.mem_cons, ih]
    constructor
    · rintro (rfl | ⟨q, b, h1, rfl⟩)
      · exact ⟨0, a, rfl, rfl⟩
      · exact ⟨q + 1, b, by simpa using h1, by rw [Nat.add_assoc, Nat.add_comm 1]⟩
    · rintro ⟨q, b, h1, rfl⟩
      cases q with
      | zero => left; simp at h1; simp [h1]
      | succ q => right; exact ⟨q, b, by simpa using h1, by rw [Nat.add_assoc, Nat.add_comm 1]⟩

/-- The published range of a component is the one listed for it. -/
theorem State.comp_iff {s : State K} (hs : s.MapsSorted) (a : Label) (x : Nat × Nat) :
    s.comp a = some x ↔ (a, x) ∈ s.entries := by
  unfold State.entries
  simp only [List.mem_append, List.mem_singleton, mem_mapEntries]
  constructor
  · intro h
    cases a with
    | body => simp only [State.comp, Option.some.injEq] at h; subst h; simp
    | imuExt id =>
      simp only [State.comp, Option.bind_eq_some_iff] at h
      obtain ⟨y, hy, h⟩ := h
      split at h
      · rename_i he
        simp only [Option.some.injEq] at h; subst h
        exact .inl (.inl (.inl (.inl (.inr ⟨id, y, (UMap.find?_eq_some_iff hs.imus).1 hy, by simp [ImuState.entries, he]⟩))))
      · cases h
    | imuInt id =>
      simp only [State.comp, Option.bind_eq_some_iff] at h
      obtain ⟨y, hy, h⟩ := h
      split at h
      · rename_i he
        simp only [Option.some.injEq] at h; subst h
        exact .inl (.inl (.inl (.inl (.inr ⟨id, y, (UMap.find?_eq_some_iff hs.imus).1 hy, by simp [ImuState.entries, he]⟩))))
      · cases h
    | gps id =>
      simp only [State.comp, Option.bind_eq_some_iff] at h
      obtain ⟨y, hy, h⟩ := h
      split at h
      · rename_i he
        simp only [Option.some.injEq] at h; subst h
        exact .inl (.inl (.inl (.inr ⟨id, y, (UMap.find?_eq_some_iff hs.gpss).1 hy, by simp [GpsState.entries, he]⟩)))
      · cases h
    | cam id =>
      simp only [State.comp, Option.bind_eq_some_iff] at h
      obtain ⟨y, hy, h⟩ := h
      split at h
      · rename_i he
        simp only [Option.some.injEq] at h; subst h
        exact .inl (.inl (.inr ⟨id, y, (UMap.find?_eq_some_iff hs.cams).1 hy, by simp [CamState.entries, he]⟩))
      · cases h
    | fid id =>
      simp only [State.comp, Option.bind_eq_some_iff] at h
      obtain ⟨y, hy, h⟩ := h
      split at h
      · rename_i he
        simp only [Option.some.injEq] at h; subst h
        exact .inl (.inr ⟨id, y, (UMap.find?_eq_some_iff hs.fids).1 hy, by simp [FidState.entries, he]⟩)
      · cases h
    | clone key pos =>
      simp only [State.comp, Option.map_eq_some_iff] at h
      obtain ⟨y, hy, rfl⟩ := h
      unfold UMap.getD at hy
      cases hf : UMap.find? s.augs key with
      | none => rw [hf] at hy; simp at hy
      | some w =>
        rw [hf] at hy
        exact .inr ⟨key, w, (UMap.find?_eq_some_iff hs.augs).1 hf, mem_augEntriesFrom.2 ⟨pos, y, hy, by simp⟩⟩
  · rintro (((((h | ⟨id, y, hm, h⟩) | ⟨id, y, hm, h⟩) | ⟨id, y, hm, h⟩) | ⟨id, y, hm, h⟩) | ⟨id, y, hm, h⟩)
    · cases h; rfl
    · have hf := (UMap.find?_eq_some_iff hs.imus).2 hm
      unfold ImuState.entries at h
      rcases List.mem_append.1 h with h | h
      · split at h
        · rename_i he; simp only [List.mem_singleton, Prod.mk.injEq] at h; obtain ⟨rfl, rfl⟩ := h
          simp [State.comp, hf, he]
        · cases h
      · split at h
        · rename_i he; simp only [List.mem_singleton, Prod.mk.injEq] at h; obtain ⟨rfl, rfl⟩ := h
          simp [State.comp, hf, he]
        · cases h
    · have hf := (UMap.find?_eq_some_iff hs.gpss).2 hm
      unfold GpsState.entries at h
      split at h
      · rename_i he; simp only [List.mem_singleton, Prod.mk.injEq] at h; obtain ⟨rfl, rfl⟩ := h
        simp [State.comp, hf, he]
      · cases h
    · have hf := (UMap.find?_eq_some_iff hs.cams).2 hm
      unfold CamState.entries at h
      split at h
      · rename_i he; simp only [List.mem_singleton, Prod.mk.injEq] at h; obtain ⟨rfl, rfl⟩ := h
        simp [State.comp, hf, he]
      · cases h
    · have hf := (UMap.find?_eq_some_iff hs.fids).2 hm
      unfold FidState.entries at h
      split at h
      · rename_i he; simp only [List.mem_singleton, Prod.mk.injEq] at h; obtain ⟨rfl, rfl⟩ := h
        simp [State.comp, hf, he]
      · cases h
    · have hf := (UMap.find?_eq_some_iff hs.augs).2 hm
      obtain ⟨q, b, hb, hx⟩ := mem_augEntriesFrom.1 h
      simp only [Nat.zero_add, Prod.mk.injEq] at hx
      obtain ⟨rfl, rfl⟩ := hx
      simp [State.comp, UMap.getD, hf, hb]

/-! ## Positions from names -/

/-- Total size of a list of names. -/
def nameSize (l : List (Label × Nat)) : Nat := (l.map Prod.snd).sum

/-- In a tiling, a component starts where the components before it end. -/
theorem entry_pos {es : List Entry} {i n : Nat} (ht : Tiles (es.map Prod.snd) i n) {A B : List (Label × Nat)} {y : Label × Nat}
    (h : es.map Entry.name = A ++ y :: B) : (y.1, i + nameSize A, y.2) ∈ es := by
  induction A generalizing es i with
  | nil =>
    cases es with
    | nil => simp at h
    | cons x es =>
      simp only [List.map_cons, List.nil_append, List.cons.injEq] at h
      obtain ⟨h1, _⟩ := h
      have := ht.1
      obtain ⟨a, j, m⟩ := x
      subst h1
      simp only [nameSize, List.map_nil, List.sum_nil, Nat.add_zero]
      have hj : j = i := this
      subst hj
      exact List.mem_cons_self
  | cons z A ih =>
    cases es with
    | nil => simp at h
    | cons x es =>
      simp only [List.map_cons, List.cons_append, List.cons.injEq] at h
      obtain ⟨h1, h2⟩ := h
      have := ih ht.2 h2
      refine List.mem_cons_of_mem _ ?_
      have hz : z.2 = x.2.2 := by rw [← h1]; rfl
      simp only [nameSize, List.map_cons, List.sum_cons, hz]
      rw [← Nat.add_assoc]
      exact this

/-- Conversely, every component sits at such a place. -/
theorem entry_split {es : List Entry} {i n : Nat} (ht : Tiles (es.map Prod.snd) i n) {x : Entry} (hx : x ∈ es) :
    ∃ A B, es.map Entry.name = A ++ x.name :: B ∧ x.2.1 = i + nameSize A := by
  induction es generalizing i with
  | nil => cases hx
  | cons y es ih =>
    rcases List.mem_cons.1 hx with rfl | hx
    · exact ⟨[], es.map Entry.name, rfl, by simpa [nameSize] using ht.1⟩
    · obtain ⟨A, B, h1, h2⟩ := ih ht.2 hx
      refine ⟨y.name :: A, B, by simp [h1], ?_⟩
      simp only [nameSize, List.map_cons, List.sum_cons, Entry.name] at h2 ⊢
      rw [h2, Nat.add_assoc]

theorem nameSize_append (A B : List (Label × Nat)) : nameSize (A ++ B) = nameSize A + nameSize B := by simp [nameSize]

theorem nameSize_map (ren : Label → Label) (A : List (Label × Nat)) :
    nameSize (A.map fun y => (ren y.1, y.2)) = nameSize A := by simp [nameSize, Function.comp_def]

/-- Splitting a list at an element when it is also split into two halves. -/
theorem split_append {α : Type} {A B C D : List α} {y : α} (h : A ++ y :: B = C ++ D) :
    (∃ C', C = A ++ y :: C' ∧ B = C' ++ D) ∨ (∃ D', A = C ++ D' ∧ D = D' ++ y :: B) := by
  induction A generalizing C with
  | nil =>
    cases C with
    | nil => right; exact ⟨[], rfl, h.symm⟩
    | cons c C =>
      left
      simp only [List.nil_append, List.cons_append, List.cons.injEq] at h
      exact ⟨C, by simp [h.1], h.2⟩
  | cons a A ih =>
    cases C with
    | nil => right; exact ⟨a :: A, rfl, h.symm⟩
    | cons c C =>
      simp only [List.cons_append, List.cons.injEq] at h
      obtain ⟨rfl, h⟩ := h
      rcases ih h with ⟨C', h1, h2⟩ | ⟨D', h1, h2⟩
      · left; exact ⟨C', by simp [h1], h2⟩
      · right; exact ⟨D', by simp [h1], h2⟩

/-- Names after renaming. -/
def renamed (ren : Label → Label) (A : List (Label × Nat)) : List (Label × Nat) := A.map fun y => (ren y.1, y.2)

/-- The state is laid out over `n` rows. -/
structure Laid (s : State K) (n : Nat) : Prop where
  sorted : s.MapsSorted
  tiles : Tiles s.blocks 0 n

theorem Laid.entries {s : State K} {n : Nat} (h : Laid s n) : Tiles (s.entries.map Prod.snd) 0 n := by
  rw [State.entries_blocks]; exact h.tiles

theorem Laid.at {s : State K} {n : Nat} (h : Laid s n) {A B : List (Label × Nat)} {a : Label} {m : Nat}
    (hn : s.names = A ++ (a, m) :: B) : s.comp a = some (nameSize A, m) := by
  rw [State.comp_iff h.sorted]
  have := entry_pos h.entries (y := (a, m)) hn
  simpa using this

theorem Laid.split {s : State K} {n : Nat} (h : Laid s n) {a : Label} {x : Nat × Nat} (hx : s.comp a = some x) :
    ∃ A B, s.names = A ++ (a, x.2) :: B ∧ x.1 = nameSize A := by
  rw [State.comp_iff h.sorted] at hx
  obtain ⟨A, B, h1, h2⟩ := entry_split h.entries hx
  exact ⟨A, B, h1, by simpa using h2⟩

theorem Laid.bound {s : State K} {n : Nat} (h : Laid s n) {a : Label} {x : Nat × Nat} (hx : s.comp a = some x) :
    x.1 + x.2 ≤ n := by
  have := (State.comp_iff h.sorted a x).1 hx
  have hb := h.entries.mem_bounds (List.mem_map.2 ⟨_, this, rfl⟩)
  exact hb.2

/-- Inserting components in the middle moves the later ones up by the inserted size, and nothing else. -/
theorem comp_insert {s s' : State K} {n n' : Nat} (h : Laid s n) (h' : Laid s' n') {A M B : List (Label × Nat)}
    (hn : s.names = A ++ B) (hn' : s'.names = A ++ M ++ B) {a : Label} {x : Nat × Nat} (hx : s.comp a = some x) :
    (x.1 + x.2 ≤ nameSize A ∧ s'.comp a = some x) ∨ (nameSize A ≤ x.1 ∧ s'.comp a = some (x.1 + nameSize M, x.2)) := by
  obtain ⟨C, D, h1, h2⟩ := h.split hx
  rw [hn] at h1
  rcases split_append h1.symm with ⟨C', e1, e2⟩ | ⟨D', e1, e2⟩
  · left
    constructor
    · rw [e1, nameSize_append, h2]
      simp only [nameSize, List.map_cons, List.sum_cons]
      omega
    · rw [e1] at hn'
      have := h'.at (A := C) (B := C' ++ M ++ B) (a := a) (m := x.2) (by rw [hn']; simp)
      rw [this, ← h2]
  · right
    constructor
    · rw [h2, e1, nameSize_append]; omega
    · rw [e2] at hn'
      have := h'.at (A := A ++ M ++ D') (B := D) (a := a) (m := x.2) (by rw [hn']; simp)
      rw [this, h2, e1]
      simp only [nameSize_append]
      congr 2; omega

/-- Removing components moves the later ones down by the removed size; names may change at the same time. -/
theorem comp_remove {s s' : State K} {n n' : Nat} (h : Laid s n) (h' : Laid s' n') {A M B B' : List (Label × Nat)}
    (hn : s.names = A ++ M ++ B) (hn' : s'.names = A ++ B') {old : Label → Label} (hA : ∀ y ∈ A, ∀ a, old a = y.1 → a = y.1)
    (hM : ∀ y ∈ M, ∀ a, old a ≠ y.1)
    (hB : B = renamed old B') (inj : ∀ a b, old a = old b → a = b) {a' : Label} {x : Nat × Nat} (hx : s.comp (old a') = some x) :
    (x.1 + x.2 ≤ nameSize A ∧ s'.comp a' = some x) ∨
    (nameSize A + nameSize M ≤ x.1 ∧ s'.comp a' = some (x.1 - nameSize M, x.2)) := by
  obtain ⟨C, D, h1, h2⟩ := h.split hx
  rw [hn, List.append_assoc] at h1
  rcases split_append h1.symm with ⟨C', e1, e2⟩ | ⟨D', e1, e2⟩
  · left
    constructor
    · rw [e1, nameSize_append, h2]
      simp only [nameSize, List.map_cons, List.sum_cons]
      omega
    · have ha : a' = old a' := hA (old a', x.2) (by rw [e1]; simp) a' rfl
      have := h'.at (A := C) (B := C' ++ B') (a := a') (m := x.2) (by rw [hn', e1, ← ha]; simp)
      rw [this, ← h2]
  · right
    rcases split_append e2.symm with ⟨M', f1, f2⟩ | ⟨E, f1, f2⟩
    · exact absurd rfl (hM (old a', x.2) (by rw [f1]; simp) a')
    · rw [hB] at f2
      unfold renamed at f2
      obtain ⟨B1, B2, g1, g2, g3⟩ := List.map_eq_append_iff.1 f2
      obtain ⟨y, B3, g4, g5, g6⟩ := List.map_eq_cons_iff.1 g3
      simp only [Prod.mk.injEq] at g5
      have hy : y = (a', x.2) := Prod.ext (inj _ _ g5.1) g5.2
      have hp := h'.at (A := A ++ B1) (B := B3) (a := a') (m := x.2) (by rw [hn', g1, g4, hy]; simp)
      have hs : nameSize E = nameSize B1 := by rw [← g2]; exact nameSize_map old B1
      constructor
      · rw [h2, e1, f1]; simp only [nameSize_append]; omega
      · rw [hp, h2, e1, f1]
        simp only [nameSize_append]
        congr 2; omega

/-! ## Names of the maps -/

/-- Names of one map. -/
def mapNames {α : Type} (f : Nat → α → List Entry) (m : UMap α) : List (Label × Nat) := (mapEntries f m).map Entry.name

theorem mapNames_append {α : Type} (f : Nat → α → List Entry) (m m' : UMap α) :
    mapNames f (m ++ m') = mapNames f m ++ mapNames f m' := by simp [mapNames, mapEntries]

theorem mapNames_cons {α : Type} (f : Nat → α → List Entry) (k : Nat) (a : α) (m : UMap α) :
    mapNames f ((k, a) :: m) = (f k a).map Entry.name ++ mapNames f m := by simp [mapNames, mapEntries]

theorem mapNames_accum {α : Type} (f : Nat → α → List Entry) (g : α → Nat → α) (dim : α → Nat)
    (h : ∀ k a i, (f k (g a i)).map Entry.name = (f k a).map Entry.name) (m : UMap α) (i : Nat) :
    mapNames f (accumIdx g dim m i) = mapNames f m := by
  induction m generalizing i with
  | nil => rfl
  | cons x m ih => obtain ⟨k, a⟩ := x; simp only [accumIdx, mapNames_cons, h, ih]

/-- Names of a window. -/
def windowNames (key : Nat) (w : List (AugState K)) : List (Label × Nat) := (augEntriesFrom key w 0).map Entry.name

theorem augEntriesFrom_name (key : Nat) (w : List (AugState K)) (p : Nat) :
    (augEntriesFrom key w p).map Entry.name = (List.range' p w.length).map fun q => (.clone key q, 6) := by
  induction w generalizing p with
  | nil => rfl
  | cons a w ih =>
    simp only [augEntriesFrom, List.map_cons, ih, List.length_cons, List.range'_succ]
    rfl

theorem windowNames_eq (key : Nat) (w : List (AugState K)) :
    windowNames key w = (List.range w.length).map fun q => (.clone key q, 6) := by
  unfold windowNames
  rw [augEntriesFrom_name, List.range_eq_range']

theorem State.names_eq (s : State K) : s.names = [(.body, 18)] ++ mapNames ImuState.entries s.imus
    ++ mapNames GpsState.entries s.gpss ++ mapNames CamState.entries s.cams ++ mapNames FidState.entries s.fids
    ++ mapNames (fun k w => augEntriesFrom k w 0) s.augs := by
  unfold State.names State.entries mapNames
  simp only [List.map_append]
  rfl

/-- Refreshing the indices does not rename or reorder anything. -/
theorem State.names_reindex (s : State K) : s.reindex.names = s.names := by
  rw [State.names_eq, State.names_eq]
  unfold State.reindex
  simp only
  rw [mapNames_accum, mapNames_accum, mapNames_accum, mapNames_accum, mapNames_accum]
  · intro k a i; rw [augEntriesFrom_name, augEntriesFrom_name, reindexWindow_length]
  · intro k a i; unfold FidState.entries FidState.reindex; dsimp only; split <;> rfl
  · intro k a i; unfold CamState.entries CamState.reindex; dsimp only; split <;> rfl
  · intro k a i; unfold GpsState.entries GpsState.reindex; dsimp only; split <;> rfl
  · intro k a i; unfold ImuState.entries ImuState.reindex; dsimp only; split <;> split <;> rfl

/-! ## Where `insert` puts a key -/

theorem UMap.insert_split {α : Type} {m : UMap α} (hs : UMap.Sorted m) (k : Nat) :
    ∃ l1 l2, (∀ v, UMap.insert m k v = l1 ++ (k, v) :: l2) ∧ (∀ x ∈ l1, x.1 < k) ∧ (∀ x ∈ l2, k < x.1) ∧
      ((UMap.find? m k = none ∧ m = l1 ++ l2) ∨ ∃ w, UMap.find? m k = some w ∧ m = l1 ++ (k, w) :: l2) := by
  induction m with
  | nil => exact ⟨[], [], fun v => rfl, by simp, by simp, .inl ⟨rfl, rfl⟩⟩
  | cons x m ih =>
    obtain ⟨k', v'⟩ := x
    have hs' := UMap.sorted_cons.1 hs
    by_cases h1 : k < k'
    · refine ⟨[], (k', v') :: m, fun v => by simp [UMap.insert, h1], by simp, ?_, .inl ⟨?_, rfl⟩⟩
      · intro y hy
        rcases List.mem_cons.1 hy with rfl | hy
        · exact h1
        · exact Nat.lt_trans h1 (hs'.1 y hy)
      · apply UMap.find?_none_of_lt
        intro y hy
        rcases List.mem_cons.1 hy with rfl | hy
        · exact h1
        · exact Nat.lt_trans h1 (hs'.1 y hy)
    · by_cases h2 : k = k'
      · subst h2
        exact ⟨[], m, fun v => by simp [UMap.insert], by simp, hs'.1, .inr ⟨v', by simp [UMap.find?], rfl⟩⟩
      · obtain ⟨l1, l2, e1, e2, e3, e4⟩ := ih hs'.2
        refine ⟨(k', v') :: l1, l2, fun v => by simp [UMap.insert, h1, h2, e1], ?_, e3, ?_⟩
        · intro y hy
          rcases List.mem_cons.1 hy with rfl | hy
          · show k' < k; omega
          · exact e2 y hy
        · rcases e4 with ⟨f1, f2⟩ | ⟨w, f1, f2⟩
          · left
            refine ⟨?_, by rw [f2]; rfl⟩
            rw [UMap.find?]; rw [if_neg (by omega)]; exact f1
          · right
            refine ⟨w, ?_, by rw [f2]; rfl⟩
            rw [UMap.find?]; rw [if_neg (by omega)]; exact f1

/-! ## Joint covariances under insertion, removal and cloning -/

theorem State.joint_iff {s : State K} {P : Nat → Nat → K} {a b : Label} {k l : Nat} {v : K} :
    s.joint P a b k l = some v ↔
      ∃ x y, s.comp a = some x ∧ s.comp b = some y ∧ k < x.2 ∧ l < y.2 ∧ P (x.1 + k) (y.1 + l) = v := by
  unfold State.joint
  constructor
  · intro h
    split at h
    · rename_i x y hx hy
      split at h
      · rename_i hkl
        simp only [Option.some.injEq] at h
        exact ⟨x, y, hx, hy, hkl.1, hkl.2, h⟩
      · cases h
    · cases h
  · rintro ⟨x, y, hx, hy, h1, h2, rfl⟩
    rw [hx, hy]
    simp [h1, h2]

theorem KeepsJoint.trans {s1 s2 s3 : State K} {P1 P2 P3 : Nat → Nat → K} {r r' : Label → Label → Prop}
    (h : KeepsJoint s1 P1 s2 P2 r) (h' : KeepsJoint s2 P2 s3 P3 r') :
    KeepsJoint s1 P1 s3 P3 fun a c => ∃ b, r a b ∧ r' b c := by
  rintro a c a2 c2 k l v ⟨b, h1, h2⟩ ⟨b2, h3, h4⟩ hv
  exact h' b c b2 c2 k l v h2 h4 (h a b a2 b2 k l v h1 h3 hv)

theorem KeepsJoint.mono {s1 s2 : State K} {P1 P2 : Nat → Nat → K} {r r' : Label → Label → Prop}
    (h : KeepsJoint s1 P1 s2 P2 r) (hr : ∀ a b, r' a b → r a b) : KeepsJoint s1 P1 s2 P2 r' :=
  fun a a' b b' k l v h1 h2 => h a a' b b' k l v (hr _ _ h1) (hr _ _ h2)

theorem KeepsJoint.refl (s : State K) (P : Nat → Nat → K) : KeepsJoint s P s P Eq := by
  rintro a a' b b' k l v rfl rfl h; exact h

/-- The matrix `P'` is `P` with a block `C` of size `n` inserted at `r` and zero elsewhere in the new rows and columns. -/
def InsertedP [Zero K] (P : Nat → Nat → K) (m r n : Nat) (C : Nat → Nat → K) (P' : Nat → Nat → K) : Prop :=
  ∀ i j, i < m + n → j < m + n → P' i j =
    if r ≤ i ∧ i < r + n then (if r ≤ j ∧ j < r + n then C (i - r) (j - r) else 0)
    else if r ≤ j ∧ j < r + n then 0
    else P (if i < r then i else i - n) (if j < r then j else j - n)

section
variable [Field K]

theorem insert_keeps {s s' : State K} {m : Nat} {A M B : List (Label × Nat)} (h : Laid s m) (h' : Laid s' (m + nameSize M))
    (hn : s.names = A ++ B) (hn' : s'.names = A ++ M ++ B) {P P' C : Nat → Nat → K}
    (hP : InsertedP P m (nameSize A) (nameSize M) C P') : KeepsJoint s P s' P' Eq := by
  rintro a _ b _ k l v rfl rfl hv
  obtain ⟨x, y, hx, hy, hk, hl, rfl⟩ := State.joint_iff.1 hv
  have bx := h.bound hx
  have by_ := h.bound hy
  rcases comp_insert h h' hn hn' hx with ⟨e1, e2⟩ | ⟨e1, e2⟩ <;>
  rcases comp_insert h h' hn hn' hy with ⟨f1, f2⟩ | ⟨f1, f2⟩ <;>
  · refine State.joint_iff.2 ⟨_, _, e2, f2, hk, hl, ?_⟩
    try dsimp only
    rw [hP _ _ (by omega) (by omega), if_neg (by omega), if_neg (by omega)]
    congr 1 <;> split_ifs <;> omega

theorem insert_new {s s' : State K} {m : Nat} {A M B : List (Label × Nat)} (h' : Laid s' (m + nameSize M))
    (hn' : s'.names = A ++ M ++ B) {P P' C : Nat → Nat → K}
    (hP : InsertedP P m (nameSize A) (nameSize M) C P') {M1 M2 M3 M4 : List (Label × Nat)} {a b : Label} {p q : Nat}
    (ha : M = M1 ++ (a, p) :: M2) (hb : M = M3 ++ (b, q) :: M4) {k l : Nat} (hk : k < p) (hl : l < q) :
    s'.joint P' a b k l = some (C (nameSize M1 + k) (nameSize M3 + l)) := by
  have ca := h'.at (A := A ++ M1) (B := M2 ++ B) (a := a) (m := p) (by rw [hn', ha]; simp)
  have cb := h'.at (A := A ++ M3) (B := M4 ++ B) (a := b) (m := q) (by rw [hn', hb]; simp)
  have za : nameSize M1 + p ≤ nameSize M := by
    rw [ha, nameSize_append]; simp only [nameSize, List.map_cons, List.sum_cons]; omega
  have zb : nameSize M3 + q ≤ nameSize M := by
    rw [hb, nameSize_append]; simp only [nameSize, List.map_cons, List.sum_cons]; omega
  have ba := h'.bound ca
  have bb := h'.bound cb
  rw [nameSize_append] at ca cb ba bb
  dsimp only at ba bb
  refine State.joint_iff.2 ⟨_, _, ca, cb, hk, hl, ?_⟩
  dsimp only
  rw [hP _ _ (by omega) (by omega), if_pos (by omega), if_pos (by omega)]
  congr 1 <;> omega

theorem insert_zero {s s' : State K} {m : Nat} {A M B : List (Label × Nat)} (h : Laid s m) (h' : Laid s' (m + nameSize M))
    (hn : s.names = A ++ B) (hn' : s'.names = A ++ M ++ B) {P P' C : Nat → Nat → K}
    (hP : InsertedP P m (nameSize A) (nameSize M) C P') {M1 M2 : List (Label × Nat)} {a b : Label} {p : Nat}
    (ha : M = M1 ++ (a, p) :: M2) (hb : s.comp b ≠ none) {k l : Nat} {v : K}
    (hv : s'.joint P' a b k l = some v ∨ s'.joint P' b a l k = some v) : v = 0 := by
  have ca := h'.at (A := A ++ M1) (B := M2 ++ B) (a := a) (m := p) (by rw [hn', ha]; simp)
  have za : nameSize M1 + p ≤ nameSize M := by
    rw [ha, nameSize_append]; simp only [nameSize, List.map_cons, List.sum_cons]; omega
  have ba := h'.bound ca
  rw [nameSize_append] at ca ba
  dsimp only at ba
  obtain ⟨y, hy⟩ := Option.ne_none_iff_exists'.1 hb
  have by_ := h.bound hy
  have cb := comp_insert h h' hn hn' hy
  rcases hv with hv | hv
  · obtain ⟨x, z, hx, hz, hk, hl, rfl⟩ := State.joint_iff.1 hv
    rw [ca] at hx; cases hx
    dsimp only at hk
    rcases cb with ⟨f1, f2⟩ | ⟨f1, f2⟩ <;>
    · rw [f2] at hz; cases hz
      dsimp only at hl ⊢
      rw [hP _ _ (by omega) (by omega), if_pos (by omega), if_neg (by omega)]
  · obtain ⟨x, z, hx, hz, hk, hl, rfl⟩ := State.joint_iff.1 hv
    rw [ca] at hz; cases hz
    dsimp only at hl
    rcases cb with ⟨f1, f2⟩ | ⟨f1, f2⟩ <;>
    · rw [f2] at hx; cases hx
      dsimp only at hk ⊢
      rw [hP _ _ (by omega) (by omega), if_neg (by omega), if_pos (by omega)]

theorem remove_keeps {s s' : State K} {m m' : Nat} {A M B B' : List (Label × Nat)} (h : Laid s m) (h' : Laid s' m')
    (hn : s.names = A ++ M ++ B) (hn' : s'.names = A ++ B') {old : Label → Label}
    (hA : ∀ y ∈ A, ∀ a, old a = y.1 → a = y.1) (hM : ∀ y ∈ M, ∀ a, old a ≠ y.1) (hB : B = renamed old B')
    (inj : ∀ a b, old a = old b → a = b) {P P' : Nat → Nat → K}
    (hP : ∀ i j, i < m' → j < m' → P' i j = P (shiftUp (nameSize A) (nameSize M) i) (shiftUp (nameSize A) (nameSize M) j)) :
    KeepsJoint s P s' P' fun a a' => a = old a' := by
  rintro _ a' _ b' k l v rfl rfl hv
  obtain ⟨x, y, hx, hy, hk, hl, rfl⟩ := State.joint_iff.1 hv
  rcases comp_remove h h' hn hn' hA hM hB inj hx with ⟨e1, e2⟩ | ⟨e1, e2⟩ <;>
  rcases comp_remove h h' hn hn' hA hM hB inj hy with ⟨f1, f2⟩ | ⟨f1, f2⟩ <;>
  · have bx := h'.bound e2
    have by_ := h'.bound f2
    refine State.joint_iff.2 ⟨_, _, e2, f2, hk, hl, ?_⟩
    try dsimp only at bx by_ ⊢
    rw [hP _ _ (by omega) (by omega)]
    unfold shiftUp
    congr 1 <;> split_ifs <;> omega

theorem clone_keeps {s s' : State K} {m : Nat} {A B : List (Label × Nat)} {c : Label} (h : Laid s m) (h' : Laid s' (m + 6))
    (hn : s.names = A ++ B) (hn' : s'.names = A ++ [(c, 6)] ++ B) {P P' : Nat → Nat → K}
    (hP : ∀ i j, i < m + 6 → j < m + 6 → P' i j = P (cloneSource (nameSize A) i) (cloneSource (nameSize A) j)) :
    KeepsJoint s P s' P' Eq := by
  have h6 : nameSize [(c, 6)] = 6 := rfl
  rintro a _ b _ k l v rfl rfl hv
  obtain ⟨x, y, hx, hy, hk, hl, rfl⟩ := State.joint_iff.1 hv
  have bx := h.bound hx
  have by_ := h.bound hy
  rcases comp_insert h h' hn hn' hx with ⟨e1, e2⟩ | ⟨e1, e2⟩ <;>
  rcases comp_insert h h' hn hn' hy with ⟨f1, f2⟩ | ⟨f1, f2⟩ <;>
  · refine State.joint_iff.2 ⟨_, _, e2, f2, hk, hl, ?_⟩
    try simp only [h6]
    rw [hP _ _ (by omega) (by omega)]
    unfold cloneSource
    congr 1 <;> split_ifs <;> omega

/-- The clone's covariances are those of the body pose. -/
theorem clone_new {s s' : State K} {m : Nat} {A B : List (Label × Nat)} {c : Label} (h : Laid s m) (h' : Laid s' (m + 6))
    (hbody : s.comp .body = some (0, 18))
    (hn : s.names = A ++ B) (hn' : s'.names = A ++ [(c, 6)] ++ B) {P P' : Nat → Nat → K}
    (hP : ∀ i j, i < m + 6 → j < m + 6 → P' i j = P (cloneSource (nameSize A) i) (cloneSource (nameSize A) j))
    (k l : Nat) (v : K) (hk : k < 6) :
    (∀ b, s.joint P .body b (poseRow k) l = some v → s'.joint P' c b k l = some v) ∧
    (∀ b, s.joint P b .body l (poseRow k) = some v → s'.joint P' b c l k = some v) ∧
    (l < 6 → s.joint P .body .body (poseRow k) (poseRow l) = some v → s'.joint P' c c k l = some v) := by
  have h6 : nameSize [(c, 6)] = 6 := rfl
  have cc := h'.at (A := A) (B := B) (a := c) (m := 6) (by rw [hn']; simp)
  have bc := h'.bound cc
  dsimp only at bc
  have hsrc : ∀ k, k < 6 → cloneSource (nameSize A) (nameSize A + k) = poseRow k := by
    intro k hk
    unfold cloneSource poseRow
    split_ifs <;> omega
  refine ⟨fun b hv => ?_, fun b hv => ?_, fun hl hv => ?_⟩
  · obtain ⟨x, y, hx, hy, h1, h2, rfl⟩ := State.joint_iff.1 hv
    rw [hbody] at hx; cases hx
    have by_ := h.bound hy
    rcases comp_insert h h' hn hn' hy with ⟨f1, f2⟩ | ⟨f1, f2⟩ <;>
    · refine State.joint_iff.2 ⟨_, _, cc, f2, hk, h2, ?_⟩
      try simp only [h6]
      rw [hP _ _ (by omega) (by omega), hsrc k hk, Nat.zero_add]
      congr 1
      unfold cloneSource
      split_ifs <;> omega
  · obtain ⟨y, x, hy, hx, h2, h1, rfl⟩ := State.joint_iff.1 hv
    rw [hbody] at hx; cases hx
    have by_ := h.bound hy
    rcases comp_insert h h' hn hn' hy with ⟨f1, f2⟩ | ⟨f1, f2⟩ <;>
    · refine State.joint_iff.2 ⟨_, _, f2, cc, h2, hk, ?_⟩
      try simp only [h6]
      rw [hP _ _ (by omega) (by omega), hsrc k hk, Nat.zero_add]
      congr 1
      unfold cloneSource
      split_ifs <;> omega
  · obtain ⟨x, y, hx, hy, h1, h2, rfl⟩ := State.joint_iff.1 hv
    rw [hbody] at hx hy; cases hx; cases hy
    refine State.joint_iff.2 ⟨_, _, cc, cc, hk, hl, ?_⟩
    try dsimp only
    rw [hP _ _ (by omega) (by omega), hsrc k hk, hsrc l hl, Nat.zero_add, Nat.zero_add]

end

end EkfCal
