import Verif.Lemmas.Layout

/-! # Lemmas about ordered maps -/

namespace EkfCal
namespace UMap
variable {V : Type}

theorem sorted_nil : Sorted ([] : UMap V) := List.Pairwise.nil

theorem sorted_cons {k : Nat} {v : V} {m : UMap V} :
    Sorted ((k, v) :: m) ↔ (∀ x ∈ m, k < x.1) ∧ Sorted m := List.pairwise_cons

theorem mem_insert {m : UMap V} {k : Nat} {v : V} {x : Nat × V} (h : x ∈ insert m k v) :
    x = (k, v) ∨ x ∈ m := by
  induction m with
  | nil => simpa [insert] using h
  | cons y ys ih =>
    obtain ⟨k', v'⟩ := y
    unfold insert at h
    split_ifs at h
    · simpa using h
    · rcases List.mem_cons.1 h with h | h
      · exact Or.inl h
      · exact Or.inr (List.mem_cons_of_mem _ h)
    · rcases List.mem_cons.1 h with h | h
      · exact Or.inr (by simp [h])
      · rcases ih h with h | h
        · exact Or.inl h
        · exact Or.inr (List.mem_cons_of_mem _ h)

theorem insert_sorted {m : UMap V} (k : Nat) (v : V) (h : Sorted m) : Sorted (insert m k v) := by
  induction m with
  | nil => exact List.pairwise_singleton _ _
  | cons y ys ih =>
    obtain ⟨k', v'⟩ := y
    obtain ⟨h1, h2⟩ := sorted_cons.1 h
    unfold insert
    split_ifs with hlt heq
    · refine sorted_cons.2 ⟨fun x hx => ?_, h⟩
      rcases List.mem_cons.1 hx with rfl | hx
      · exact hlt
      · exact Nat.lt_trans hlt (h1 x hx)
    · exact sorted_cons.2 ⟨fun x hx => heq ▸ h1 x hx, h2⟩
    · refine sorted_cons.2 ⟨fun x hx => ?_, ih h2⟩
      rcases mem_insert hx with rfl | hx
      · simp; omega
      · exact h1 x hx

theorem find?_none_of_lt {m : UMap V} {k : Nat} (h : ∀ x ∈ m, k < x.1) : find? m k = none := by
  induction m with
  | nil => rfl
  | cons y ys ih =>
    obtain ⟨k', v'⟩ := y
    have := h (k', v') (by simp)
    simp only [find?]
    rw [if_neg (by simp at this; omega)]
    exact ih fun x hx => h x (by simp [hx])

@[simp] theorem find?_insert_self (m : UMap V) (k : Nat) (v : V) : find? (insert m k v) k = some v := by
  induction m with
  | nil => simp [insert, find?]
  | cons y ys ih =>
    obtain ⟨k', v'⟩ := y
    unfold insert
    split_ifs with h1 h2
    · simp [find?]
    · simp [find?]
    · simp only [find?]; rw [if_neg (by omega)]; exact ih

theorem find?_insert_ne (m : UMap V) {k k' : Nat} (v : V) (h : k' ≠ k) :
    find? (insert m k v) k' = find? m k' := by
  induction m with
  | nil => simp [insert, find?]; omega
  | cons y ys ih =>
    obtain ⟨a, b⟩ := y
    unfold insert
    split_ifs with h1 h2
    · simp [find?]; omega
    · subst h2; simp only [find?]; rw [if_neg (by omega), if_neg (by omega)]
    · simp only [find?, ih]

theorem find?_eq_some_iff {m : UMap V} (h : Sorted m) {k : Nat} {v : V} :
    find? m k = some v ↔ (k, v) ∈ m := by
  induction m with
  | nil => simp [find?]
  | cons y ys ih =>
    obtain ⟨a, b⟩ := y
    obtain ⟨h1, h2⟩ := sorted_cons.1 h
    simp only [find?]
    split_ifs with hk
    · subst hk
      constructor
      · intro e; simp at e; simp [e]
      · intro hm
        rcases List.mem_cons.1 hm with e | hm
        · simp at e; simp [e]
        · exact absurd (h1 _ hm) (by simp)
    · rw [ih h2]
      constructor
      · intro hm; simp [hm]
      · intro hm
        rcases List.mem_cons.1 hm with e | hm
        · simp at e; omega
        · exact hm

theorem find?_eq_none_iff {m : UMap V} {k : Nat} : find? m k = none ↔ k ∉ keys m := by
  induction m with
  | nil => simp [find?, keys]
  | cons y ys ih =>
    obtain ⟨a, b⟩ := y
    simp only [find?, keys, List.map_cons, List.mem_cons, not_or]
    split_ifs with hk
    · simp [hk]
    · rw [ih]; simp [keys]; omega

/-- Size bookkeeping of `m[k] = v`. -/
theorem mapDim_insert {m : UMap V} (dim : V → Nat) (k : Nat) (v d : V) (hd : dim d = 0) (h : Sorted m) :
    mapDim dim (insert m k v) + dim (getD m k d) = mapDim dim m + dim v := by
  induction m with
  | nil => simp [insert, getD, find?, hd]
  | cons y ys ih =>
    obtain ⟨k', v'⟩ := y
    obtain ⟨h1, h2⟩ := sorted_cons.1 h
    have ih := ih h2
    unfold getD at *
    unfold insert
    split_ifs with hlt heq
    · rw [find?_none_of_lt (fun x hx => by
        rcases List.mem_cons.1 hx with rfl | hx
        · exact hlt
        · exact Nat.lt_trans hlt (h1 x hx))]
      simp [hd]; omega
    · subst heq; simp [find?]; omega
    · simp only [find?, mapDim_cons]; rw [if_neg (by omega)]; omega

theorem mapDim_touch {m : UMap V} (dim : V → Nat) (k : Nat) (d : V) (hd : dim d = 0) (h : Sorted m) :
    mapDim dim (touch m k d) = mapDim dim m := by
  unfold touch
  cases hf : find? m k with
  | some v => rfl
  | none =>
    have := mapDim_insert dim k d d hd h
    simp [getD, hf, hd] at this
    exact this

theorem touch_sorted {m : UMap V} (k : Nat) (d : V) (h : Sorted m) : Sorted (touch m k d) := by
  unfold touch; split
  · exact h
  · exact insert_sorted k d h

theorem mapBlocks_insert_new {m : UMap V} (blocks : V → List (Nat × Nat)) (k : Nat) (d : V)
    (hd : blocks d = []) (h : find? m k = none) : mapBlocks blocks (insert m k d) = mapBlocks blocks m := by
  induction m with
  | nil => simp [insert, mapBlocks, hd]
  | cons y ys ih =>
    obtain ⟨k', v'⟩ := y
    simp only [find?] at h
    split_ifs at h with hk
    have ih := ih h
    unfold insert
    split_ifs with h1 h2
    · simp [mapBlocks, hd]
    · omega
    · simp only [mapBlocks, List.flatMap_cons] at *; rw [ih]

theorem mapBlocks_touch {m : UMap V} (blocks : V → List (Nat × Nat)) (k : Nat) (d : V)
    (hd : blocks d = []) : mapBlocks blocks (touch m k d) = mapBlocks blocks m := by
  unfold touch
  cases hf : find? m k with
  | some v => rfl
  | none => exact mapBlocks_insert_new blocks k d hd hf

theorem getD_touch (m : UMap V) (k k' : Nat) (d : V) : getD (touch m k d) k' d = getD m k' d := by
  unfold touch
  cases hf : find? m k with
  | some v => rfl
  | none =>
    by_cases h : k' = k
    · subst h; simp [getD, hf]
    · simp [getD, find?_insert_ne m d h]

@[simp] theorem getD_insert_self (m : UMap V) (k : Nat) (v d : V) : getD (insert m k v) k d = v := by
  simp [getD]

theorem getD_insert_ne (m : UMap V) {k k' : Nat} (v d : V) (h : k' ≠ k) :
    getD (insert m k v) k' d = getD m k' d := by
  simp [getD, find?_insert_ne m v h]

end UMap

/-! ## Loops that rewrite values in place -/

/-- Every value of the result is related to the value it replaces; keys are kept. -/
theorem loopIdx_rel {α : Type} {f : α → Nat → Res (α × Nat)} {R : α → α → Prop}
    (hf : ∀ a i b j, f a i = .ok (b, j) → R a b) :
    ∀ {l : List α} {i : Nat} {l' : List α} {j : Nat}, loopIdx f l i = .ok (l', j) → List.Forall₂ R l l'
  | [], i, l', j, h => by
    obtain ⟨rfl, _⟩ : [] = l' ∧ i = j := by simpa [loopIdx] using h
    exact .nil
  | a :: rest, i, l', j, h => by
    simp only [loopIdx, bind_ok_iff, pure_res] at h
    obtain ⟨⟨b, i'⟩, h1, ⟨r, j'⟩, h2, h3⟩ := h
    simp at h3
    rw [← h3.1]
    exact .cons (hf _ _ _ _ h1) (loopIdx_rel hf h2)

theorem loopMap_rel {α : Type} {f : α → Nat → Res (α × Nat)} {R : α → α → Prop}
    (hf : ∀ a i b j, f a i = .ok (b, j) → R a b) {m m' : UMap α} {i j : Nat}
    (h : loopMap f m i = .ok (m', j)) :
    List.Forall₂ (fun x y : Nat × α => x.1 = y.1 ∧ R x.2 y.2) m m' := by
  refine loopIdx_rel (fun a i b j hab => ?_) h
  simp only [bind_ok_iff, pure_res] at hab
  obtain ⟨⟨v, i'⟩, h1, h2⟩ := hab
  simp at h2
  rw [← h2.1]
  exact ⟨rfl, hf _ _ _ _ h1⟩

theorem forall₂_keys {α : Type} {m m' : UMap α} (h : List.Forall₂ (fun x y : Nat × α => x.1 = y.1) m m') :
    m.map Prod.fst = m'.map Prod.fst := by
  induction h with
  | nil => rfl
  | cons h _ ih => simp [h, ih]

theorem forall₂_sorted {α : Type} {m m' : UMap α}
    (h : List.Forall₂ (fun x y : Nat × α => x.1 = y.1) m m') (hs : UMap.Sorted m) :
    UMap.Sorted m' := by
  rw [sorted_iff_keys] at *; rwa [← forall₂_keys h]

theorem forall₂_mapDim {α : Type} {dim : α → Nat} {m m' : UMap α}
    (h : List.Forall₂ (fun x y : Nat × α => x.1 = y.1 ∧ dim x.2 = dim y.2) m m') :
    mapDim dim m = mapDim dim m' := by
  induction h with
  | nil => rfl
  | cons h _ ih => simp [h.2, ih]

theorem forall₂_mapBlocks {α : Type} {blocks : α → List (Nat × Nat)} {m m' : UMap α}
    (h : List.Forall₂ (fun x y : Nat × α => x.1 = y.1 ∧ blocks x.2 = blocks y.2) m m') :
    mapBlocks blocks m = mapBlocks blocks m' := by
  induction h with
  | nil => rfl
  | cons h _ ih => simp only [mapBlocks, List.flatMap_cons] at *; rw [h.2, ih]

end EkfCal
