import Verif.Spec.Silent
import Verif.Props.C88
import Verif.Lemmas.Columns
import Verif.Lemmas.CamRows
import Verif.Lemmas.StationDefined
import Verif.Lemmas.Correct

/-!
# A filter inside a larger one: sums, corrections, states
-/

set_option linter.unusedSectionVars false

namespace EkfCal
open Ekf Finset
variable {K : Type} [Field K]

theorem Renumbering.ge {σ : Nat → Nat} {n n' : Nat} (h : Renumbering σ n n') (hn : 18 ≤ n) {i : Nat} (hi : i < n) (h18 : 18 ≤ i) : 18 ≤ σ i := by
  by_contra hlt
  have h1 : σ (σ i) = σ i := h.body _ (by omega)
  have := h.inj _ _ (by omega) hi h1
  omega

theorem Renumbering.lt3 {σ : Nat → Nat} {n n' : Nat} (h : Renumbering σ n n') (hn : 18 ≤ n) {i : Nat} (hi : i < n) : σ i < 3 ↔ i < 3 := by
  constructor
  · intro h3
    by_contra hge
    by_cases h18 : i < 18
    · rw [h.body i h18] at h3; exact hge h3
    · have := h.ge hn hi (by omega); omega
  · intro h3; rw [h.body i (by omega)]; exact h3

/-- A sum over the numbers of the large filter that only asks for those of the small one. -/
theorem Renumbering.sum {σ : Nat → Nat} {n n' : Nat} (h : Renumbering σ n n') {g g' : Nat → K} (hs : ∀ i, i < n → g' (σ i) = g i)
    (hz : ∀ k, (∀ i, i < n → σ i ≠ k) → g' k = 0) : ∑ k ∈ range n', g' k = ∑ i ∈ range n, g i := by
  have himg : (range n).image σ ⊆ range n' := by
    intro k hk
    obtain ⟨i, hi, rfl⟩ := mem_image.1 hk
    exact mem_range.2 (h.lt i (mem_range.1 hi))
  rw [← sum_subset himg fun k _ hk => hz k fun i hi he => hk (mem_image.2 ⟨i, mem_range.2 hi, he⟩),
    sum_image fun i hi j hj he => h.inj i j (mem_range.1 hi) (mem_range.1 hj) he]
  exact sum_congr rfl fun i hi => hs i (mem_range.1 hi)

/-- Rows of a large matrix that only use the numbers of the small filter. -/
theorem Renumbering.congr {σ : Nat → Nat} {n n' : Nat} (h : Renumbering σ n n') {T T' P P' : Nat → Nat → K} {a a' b b' : Nat}
    (ha : ∀ i, i < n → T' a' (σ i) = T a i) (ha0 : ∀ k, (∀ i, i < n → σ i ≠ k) → T' a' k = 0)
    (hb : ∀ i, i < n → T' b' (σ i) = T b i) (hb0 : ∀ k, (∀ i, i < n → σ i ≠ k) → T' b' k = 0)
    (hP : ∀ i j, i < n → j < n → P' (σ i) (σ j) = P i j) : EkfCal.congr n' T' P' a' b' = EkfCal.congr n T P a b := by
  unfold EkfCal.congr
  refine h.sum (fun i hi => h.sum (fun j hj => ?_) fun k hk => ?_) fun k hk => ?_
  · rw [ha i hi, hP i j hi hj, hb j hj]
  · rw [hb0 k hk, mul_zero]
  · exact sum_eq_zero fun l _ => by rw [ha0 k hk, zero_mul, zero_mul]

theorem Renumbering.tr {σ : Nat → Nat} {n n' : Nat} (h : Renumbering σ n n') (hn : 18 ≤ n) (dt : K) {g g' : Nat → K}
    (hs : ∀ i, i < n → g' (σ i) = g i) {i : Nat} (hi : i < n) : EkfCal.tr dt g' (σ i) = EkfCal.tr dt g i := by
  unfold EkfCal.tr
  rw [hs i hi]
  by_cases h3 : i < 3
  · rw [if_pos h3, if_pos ((h.lt3 hn hi).2 h3), h.body i (by omega), ← hs (i + 3) (by omega), h.body (i + 3) (by omega)]
  · rw [if_neg h3, if_neg (fun x => h3 ((h.lt3 hn hi).1 x))]

section Measure
variable {σ : Nat → Nat} {n n' : Nat} {P P' : Nat → Nat → K} {H H' R : Mat K}

theorem innovation_spread (h : Renumbering σ n n') (hP : ∀ i j, i < n → j < n → P' (σ i) (σ j) = P i j) (hH : H.Spread σ n H')
    (a b : Nat) : innovation n' P' H' R a b = innovation n P H R a b := by
  unfold innovation
  rw [h.congr (hH.same a) (hH.rest a) (hH.same b) (hH.rest b) hP]

theorem gain_spread (h : Renumbering σ n n') (hP : ∀ i j, i < n → j < n → P' (σ i) (σ j) = P i j) (hH : H.Spread σ n H')
    (B : Nat → Nat → K) {i : Nat} (hi : i < n) (a : Nat) : kalmanGain n' P' H' B (σ i) a = kalmanGain n P H B i a := by
  unfold kalmanGain
  rw [hH.rows]
  refine sum_congr rfl fun b _ => ?_
  congr 1
  exact h.sum (fun j hj => by rw [hP i j hi hj, hH.same b j hj]) fun k hk => by rw [hH.rest b k hk, mul_zero]

theorem joseph_spread (h : Renumbering σ n n') (hP : ∀ i j, i < n → j < n → P' (σ i) (σ j) = P i j) (hH : H.Spread σ n H')
    {G G' : Nat → Nat → K} (hG : ∀ i, i < n → ∀ a, G' (σ i) a = G i a) {i j : Nat} (hi : i < n) (hj : j < n) :
    joseph n' P' H' R G' (σ i) (σ j) = joseph n P H R G i j := by
  unfold joseph
  have hs : ∀ i, i < n → ∀ k, k < n → ((if σ i = σ k then (1 : K) else 0) - ∑ a ∈ range H'.rows, G' (σ i) a * H'.get a (σ k)) =
      (if i = k then 1 else 0) - ∑ a ∈ range H.rows, G i a * H.get a k := by
    intro i hi k hk
    rw [hH.rows]
    congr 1
    · by_cases hik : i = k
      · rw [if_pos hik, if_pos (by rw [hik])]
      · rw [if_neg hik, if_neg (fun he => hik (h.inj i k hi hk he))]
    · exact sum_congr rfl fun a _ => by rw [hG i hi, hH.same a k hk]
  have hz : ∀ i, i < n → ∀ k, (∀ l, l < n → σ l ≠ k) → ((if σ i = k then (1 : K) else 0) - ∑ a ∈ range H'.rows, G' (σ i) a * H'.get a k) = 0 := by
    intro i hi k hk
    rw [if_neg (hk i hi), sum_eq_zero fun a _ => by rw [hH.rest a k hk, mul_zero], sub_zero]
  rw [h.congr (T := fun i k => (if i = k then 1 else 0) - ∑ a ∈ range H.rows, G i a * H.get a k) (a := i) (b := j) (hs i hi) (hz i hi) (hs j hj) (hz j hj) hP]
  congr 1
  unfold EkfCal.congr
  rw [hH.rows]
  exact sum_congr rfl fun a _ => sum_congr rfl fun b _ => by rw [hG i hi, hG j hj]

theorem areInverse_same {m : Nat} {A A' B : Nat → Nat → K} (h : AreInverse m A B) (he : ∀ i j, A' i j = A i j) : AreInverse m A' B := by
  have : A' = A := by funext i j; exact he i j
  rw [this]; exact h

end Measure

/-! ## States -/

theorem UMap.find?_mapVal {α : Type} (f : α → α) (m : UMap α) (k : Nat) : (UMap.mapVal f m).find? k = (m.find? k).map f := by
  induction m with
  | nil => rfl
  | cons x xs ih =>
    show (if x.1 = k then some (f x.2) else (UMap.mapVal f xs).find? k) = Option.map f (if x.1 = k then some x.2 else UMap.find? xs k)
    split
    · rfl
    · exact ih

theorem UMap.Into.mapVal {V : Type} {R : V → V → Prop} {f f' : V → V} {m m' : UMap V} (h : UMap.Into R m m')
    (hf : ∀ k v v', m.find? k = some v → R v v' → R (f v) (f' v')) : UMap.Into R (UMap.mapVal f m) (UMap.mapVal f' m') := by
  intro k v hv
  rw [UMap.find?_mapVal] at hv
  obtain ⟨w, hw, rfl⟩ := Option.map_eq_some_iff.1 hv
  obtain ⟨w', h1, h2⟩ := h k w hw
  exact ⟨f' w', by rw [UMap.find?_mapVal, h1]; rfl, hf k w w' hw h2⟩

variable {σ : Nat → Nat} {n : Nat}

theorem at3_moves {v v' : Vec K} (hv : ∀ i, i < n → v'.get (σ i) = v.get i) {m i i' : Nat} (h : Moves σ m i i') (hi : i + m ≤ n)
    (o : Nat) (ho : o + 3 ≤ m) : v'.at3 (i' + o) = v.at3 (i + o) := by
  unfold Vec.at3
  rw [← hv (i + o) (by omega), ← hv (i + o + 1) (by omega), ← hv (i + o + 2) (by omega), Nat.add_assoc i o 1, Nat.add_assoc i o 2,
    h o (by omega), h (o + 1) (by omega), h (o + 2) (by omega)]
  rfl

theorem State.Inside.moved [LinearOrder K] (N : Prim K) {s s' : State K} (h : s.Inside σ s') (ht : Tiles s.blocks 0 n) (hb : ∀ i, i < 18 → σ i = i)
    {v v' : Vec K} (hv : ∀ i, i < n → v'.get (σ i) = v.get i) : (s.moved N v).Inside σ (s'.moved N v') where
  body := by
    show s'.body.moved N v' = s.body.moved N v
    have h0 : s.body.index = 0 ∧ 18 ≤ n := by
      unfold State.blocks at ht
      have := ht
      simp only [List.append_assoc, List.cons_append, List.nil_append] at this
      exact ⟨this.1, by have := Tiles.le' this.2; omega⟩
    have hm : Moves σ 18 0 0 := fun k hk => by rw [Nat.zero_add]; exact hb k hk
    rw [h.body]
    unfold BodyState.moved
    rw [h0.1]
    have e0 := at3_moves hv hm (by omega) 0 (by omega)
    have e3 := at3_moves hv hm (by omega) 3 (by omega)
    have e6 := at3_moves hv hm (by omega) 6 (by omega)
    have e9 := at3_moves hv hm (by omega) 9 (by omega)
    have e12 := at3_moves hv hm (by omega) 12 (by omega)
    have e15 := at3_moves hv hm (by omega) 15 (by omega)
    rw [e3, e6, e9, e12, e15]
    rw [Nat.zero_add] at e0
    rw [e0]
  imus := h.imus.mapVal fun k s s' hk hr => by
    obtain ⟨h1, h2, h3⟩ := hr
    obtain ⟨c1, c2, _⟩ := imu_columns ht hk
    refine ⟨?_, h2, h3⟩
    have q1 : s'.isExtrinsic = s.isExtrinsic := by rw [h1]
    have q2 : s'.isIntrinsic = s.isIntrinsic := by rw [h1]
    have q3 : s'.pos = s.pos ∧ s'.ang = s.ang ∧ s'.accBias = s.accBias ∧ s'.omgBias = s.omgBias := by rw [h1]; exact ⟨rfl, rfl, rfl, rfl⟩
    unfold ImuState.moved
    rw [q1, q2, q3.1, q3.2.1, q3.2.2.1, q3.2.2.2]
    have m1 : (if s.isExtrinsic = true then s.pos + v'.at3 s'.indexExtrinsic else s.pos) = if s.isExtrinsic = true then s.pos + v.at3 s.indexExtrinsic else s.pos := by
      split
      · rename_i he; rw [← Nat.add_zero s'.indexExtrinsic, at3_moves hv (h2 he) (c1 he).2 0 (by omega), Nat.add_zero]
      · rfl
    have m2 : (if s.isExtrinsic = true then s.ang.moved N (v'.at3 (s'.indexExtrinsic + 3)) else s.ang) = if s.isExtrinsic = true then s.ang.moved N (v.at3 (s.indexExtrinsic + 3)) else s.ang := by
      split
      · rename_i he; rw [at3_moves hv (h2 he) (c1 he).2 3 (by omega)]
      · rfl
    have m3 : (if s.isIntrinsic = true then s.accBias + v'.at3 s'.indexIntrinsic else s.accBias) = if s.isIntrinsic = true then s.accBias + v.at3 s.indexIntrinsic else s.accBias := by
      split
      · rename_i he; rw [← Nat.add_zero s'.indexIntrinsic, at3_moves hv (h3 he) (c2 he).2 0 (by omega), Nat.add_zero]
      · rfl
    have m4 : (if s.isIntrinsic = true then s.omgBias + v'.at3 (s'.indexIntrinsic + 3) else s.omgBias) = if s.isIntrinsic = true then s.omgBias + v.at3 (s.indexIntrinsic + 3) else s.omgBias := by
      split
      · rename_i he; rw [at3_moves hv (h3 he) (c2 he).2 3 (by omega)]
      · rfl
    rw [m1, m2, m3, m4]
    rw [h1]
  gpss := h.gpss.mapVal fun k s s' hk hr => by
    obtain ⟨h1, h2⟩ := hr
    have c1 := gps_columns ht hk
    refine ⟨?_, h2⟩
    have q1 : s'.isExtrinsic = s.isExtrinsic ∧ s'.pos = s.pos := by rw [h1]; exact ⟨rfl, rfl⟩
    unfold GpsState.moved
    rw [q1.1, q1.2]
    have m1 : (if s.isExtrinsic = true then s.pos + v'.at3 s'.index else s.pos) = if s.isExtrinsic = true then s.pos + v.at3 s.index else s.pos := by
      split
      · rename_i he; rw [← Nat.add_zero s'.index, at3_moves hv (h2 he) (c1 he).2 0 (by omega), Nat.add_zero]
      · rfl
    rw [m1]
    rw [h1]
  cams := h.cams.mapVal fun k s s' hk hr => by
    obtain ⟨h1, h2⟩ := hr
    have c1 := cam_columns ht hk
    refine ⟨?_, h2⟩
    have q1 : s'.isExtrinsic = s.isExtrinsic ∧ s'.pos = s.pos ∧ s'.ang = s.ang := by rw [h1]; exact ⟨rfl, rfl, rfl⟩
    unfold CamState.moved
    rw [q1.1, q1.2.1, q1.2.2]
    have m1 : (if s.isExtrinsic = true then s.pos + v'.at3 s'.index else s.pos) = if s.isExtrinsic = true then s.pos + v.at3 s.index else s.pos := by
      split
      · rename_i he; rw [← Nat.add_zero s'.index, at3_moves hv (h2 he) (c1 he).2 0 (by omega), Nat.add_zero]
      · rfl
    have m2 : (if s.isExtrinsic = true then s.ang.moved N (v'.at3 (s'.index + 3)) else s.ang) = if s.isExtrinsic = true then s.ang.moved N (v.at3 (s.index + 3)) else s.ang := by
      split
      · rename_i he; rw [at3_moves hv (h2 he) (c1 he).2 3 (by omega)]
      · rfl
    rw [m1, m2]
    rw [h1]
  fids := h.fids.mapVal fun k s s' hk hr => by
    obtain ⟨h1, h2⟩ := hr
    have c1 := fid_columns ht hk
    refine ⟨?_, h2⟩
    have q1 : s'.isExtrinsic = s.isExtrinsic ∧ s'.pos = s.pos ∧ s'.ang = s.ang := by rw [h1]; exact ⟨rfl, rfl, rfl⟩
    unfold FidState.moved
    rw [q1.1, q1.2.1, q1.2.2]
    have m1 : (if s.isExtrinsic = true then s.pos + v'.at3 s'.index else s.pos) = if s.isExtrinsic = true then s.pos + v.at3 s.index else s.pos := by
      split
      · rename_i he; rw [← Nat.add_zero s'.index, at3_moves hv (h2 he) (c1 he).2 0 (by omega), Nat.add_zero]
      · rfl
    have m2 : (if s.isExtrinsic = true then s.ang.moved N (v'.at3 (s'.index + 3)) else s.ang) = if s.isExtrinsic = true then s.ang.moved N (v.at3 (s.index + 3)) else s.ang := by
      split
      · rename_i he; rw [at3_moves hv (h2 he) (c1 he).2 3 (by omega)]
      · rfl
    rw [m1, m2]
    rw [h1]
  augs := h.augs.mapVal fun k w w' hk hr => by
    have c1 : ∀ a ∈ w, a.index + 6 ≤ n := fun a ha => (aug_columns ht hk ha).2
    clear hk
    induction hr with
    | nil => exact .nil
    | @cons a a' w w' h1 _ ih =>
      refine .cons ?_ (ih fun x hx => c1 x (List.mem_cons_of_mem _ hx))
      obtain ⟨h1, h2⟩ := h1
      refine ⟨?_, h2⟩
      have b := c1 a (List.mem_cons_self ..)
      have q1 : a'.pos = a.pos ∧ a'.ang = a.ang := by rw [h1]; exact ⟨rfl, rfl⟩
      have m1 : v'.at3 a'.index = v.at3 a.index := by rw [← Nat.add_zero a'.index, at3_moves hv h2 b 0 (by omega), Nat.add_zero]
      unfold AugState.moved
      rw [q1.1, q1.2, m1, at3_moves hv h2 b 3 (by omega)]
      rw [h1]

/-! ## Registration -/

/-- Everything from index `c` on moves up by `m`. -/
def shiftAt (c m i : Nat) : Nat := if i < c then i else i + m

theorem shiftAt_renumbering {c m n : Nat} (hc : 18 ≤ c) : Renumbering (shiftAt c m) n (n + m) where
  lt := fun i hi => by unfold shiftAt; split <;> omega
  inj := fun i j hi hj h => by unfold shiftAt at h; split at h <;> split at h <;> omega
  body := fun i hi => by unfold shiftAt; rw [if_pos (by omega)]

section Insert
variable {s s' : State K} {n n' : Nat} {A M B : List (Label × Nat)}

theorem comp_moves (h : Laid s n) (h' : Laid s' n') (hn : s.names = A ++ B) (hn' : s'.names = A ++ M ++ B) {a : Label} {x y : Nat × Nat}
    (hx : s.comp a = some x) (hy : s'.comp a = some y) : Moves (shiftAt (nameSize A) (nameSize M)) x.2 x.1 y.1 := by
  intro k hk
  unfold shiftAt
  rcases comp_insert h h' hn hn' hx with ⟨h1, h2⟩ | ⟨h1, h2⟩
  · obtain rfl := Option.some.inj (hy.symm.trans h2)
    rw [if_pos (by omega)]
  · obtain rfl := Option.some.inj (hy.symm.trans h2)
    rw [if_neg (by omega)]
    show x.1 + k + _ = x.1 + _ + k
    omega

/-- A state that is taken over into one with more components is found in it. -/
theorem insert_inside {s1 : State K} (h : Laid s n) (h' : Laid s1.reindex n') (hn : s.names = A ++ B)
    (hn' : s1.reindex.names = A ++ M ++ B) (hb : s1.body = s.body)
    (hi : ∀ k v, s.imus.find? k = some v → s1.imus.find? k = some v) (hg : ∀ k v, s.gpss.find? k = some v → s1.gpss.find? k = some v)
    (hc : ∀ k v, s.cams.find? k = some v → s1.cams.find? k = some v) (hf : ∀ k v, s.fids.find? k = some v → s1.fids.find? k = some v)
    (ha : ∀ k v, s.augs.find? k = some v → s1.augs.find? k = some v) :
    s.Inside (shiftAt (nameSize A) (nameSize M)) s1.reindex where
  body := by
    show { s1.body with index := 0 } = s.body
    obtain ⟨_, _, _, _, _, _, _, _, _, h0⟩ := State.tiles_kinds h.tiles
    rw [hb, ← h0]
  imus := fun k v hv => by
    obtain ⟨j, hj⟩ := find?_accumIdx ImuState.reindex ImuState.dim s1.imus 18 k
    rw [hi k v hv] at hj
    have hj' : s1.reindex.imus.find? k = some (v.reindex j) := hj
    refine ⟨v.reindex j, hj', rfl, fun he => ?_, fun he => ?_⟩
    · refine comp_moves h h' hn hn' (a := .imuExt k) (x := (v.indexExtrinsic, 6)) (y := ((v.reindex j).indexExtrinsic, 6)) ?_ ?_
      · simp [State.comp, hv, he]
      · show (s1.reindex.imus.find? k).bind _ = _
        rw [hj']; simp [ImuState.reindex, he]
    · refine comp_moves h h' hn hn' (a := .imuInt k) (x := (v.indexIntrinsic, 6)) (y := ((v.reindex j).indexIntrinsic, 6)) ?_ ?_
      · simp [State.comp, hv, he]
      · show (s1.reindex.imus.find? k).bind _ = _
        rw [hj']; simp [ImuState.reindex, he]
  gpss := fun k v hv => by
    obtain ⟨j, hj⟩ := find?_accumIdx GpsState.reindex GpsState.dim s1.gpss (18 + mapDim ImuState.dim s1.imus) k
    rw [hg k v hv] at hj
    have hj' : s1.reindex.gpss.find? k = some (v.reindex j) := hj
    refine ⟨v.reindex j, hj', rfl, fun he => ?_⟩
    refine comp_moves h h' hn hn' (a := .gps k) (x := (v.index, 3)) (y := ((v.reindex j).index, 3)) ?_ ?_
    · simp [State.comp, hv, he]
    · show (s1.reindex.gpss.find? k).bind _ = _
      rw [hj']; simp [GpsState.reindex, he]
  cams := fun k v hv => by
    obtain ⟨j, hj⟩ := find?_accumIdx CamState.reindex CamState.dim s1.cams
      (18 + mapDim ImuState.dim s1.imus + mapDim GpsState.dim s1.gpss) k
    rw [hc k v hv] at hj
    have hj' : s1.reindex.cams.find? k = some (v.reindex j) := hj
    refine ⟨v.reindex j, hj', rfl, fun he => ?_⟩
    refine comp_moves h h' hn hn' (a := .cam k) (x := (v.index, 6)) (y := ((v.reindex j).index, 6)) ?_ ?_
    · simp [State.comp, hv, he]
    · show (s1.reindex.cams.find? k).bind _ = _
      rw [hj']; simp [CamState.reindex, he]
  fids := fun k v hv => by
    obtain ⟨j, hj⟩ := find?_accumIdx FidState.reindex FidState.dim s1.fids
      (18 + mapDim ImuState.dim s1.imus + mapDim GpsState.dim s1.gpss + mapDim CamState.dim s1.cams) k
    rw [hf k v hv] at hj
    have hj' : s1.reindex.fids.find? k = some (v.reindex j) := hj
    refine ⟨v.reindex j, hj', rfl, fun he => ?_⟩
    refine comp_moves h h' hn hn' (a := .fid k) (x := (v.index, 6)) (y := ((v.reindex j).index, 6)) ?_ ?_
    · simp [State.comp, hv, he]
    · show (s1.reindex.fids.find? k).bind _ = _
      rw [hj']; simp [FidState.reindex, he]
  augs := fun k w hw => by
    obtain ⟨j, hj⟩ := find?_accumIdx reindexWindow (fun w : List (AugState K) => 6 * w.length) s1.augs
      (18 + mapDim ImuState.dim s1.imus + mapDim GpsState.dim s1.gpss + mapDim CamState.dim s1.cams + mapDim FidState.dim s1.fids) k
    rw [ha k w hw] at hj
    have hj' : s1.reindex.augs.find? k = some (reindexWindow w j) := hj
    refine ⟨reindexWindow w j, hj', List.forall₂_iff_get.2 ⟨(reindexWindow_length w j).symm, fun p h1 h2 => ?_⟩⟩
    have e1 : w[p]? = some w[p] := List.getElem?_eq_getElem h1
    have e2 : (reindexWindow w j)[p]? = some { w[p] with index := j + 6 * p } := by rw [reindexWindow_getElem?, e1]; rfl
    have e3 : (reindexWindow w j)[p] = { w[p] with index := j + 6 * p } :=
      Option.some.inj ((List.getElem?_eq_getElem h2).symm.trans e2)
    show AugState.Renumbered _ w[p] (reindexWindow w j)[p]
    rw [e3]
    refine ⟨rfl, ?_⟩
    refine comp_moves h h' hn hn' (a := .clone k p) (x := (w[p].index, 6)) (y := (j + 6 * p, 6)) ?_ ?_
    · show ((UMap.getD s.augs k [])[p]?).map _ = _
      rw [show UMap.getD s.augs k [] = w by simp [UMap.getD, hw], e1]; rfl
    · show ((UMap.getD s1.reindex.augs k [])[p]?).map _ = _
      rw [show UMap.getD s1.reindex.augs k [] = reindexWindow w j by simp [UMap.getD, hj'], e2]; rfl

theorem Laid.cover (h : Laid s n) {i : Nat} (hi : i < n) : ∃ a x, s.comp a = some x ∧ x.1 ≤ i ∧ i < x.1 + x.2 := by
  obtain ⟨x, hx, h1, h2⟩ := h.entries.cover (Nat.zero_le i) hi
  obtain ⟨y, hy, rfl⟩ := List.mem_map.1 hx
  exact ⟨y.1, y.2, (State.comp_iff h.sorted _ _).2 hy, h1, h2⟩

end Insert

theorem mem_mapNoise {α : Type} {noise : α → List (Nat × K)} {m : UMap α} {k : Nat} {v : α} (h : m.find? k = some v) {x : Nat × K}
    (hx : x ∈ noise v) : x ∈ mapNoise noise m := List.mem_flatMap.2 ⟨(k, v), UMap.mem_of_find? h, hx⟩

section Noise
variable [LinearOrder K] {s s' : State K} {d d' body body' : Nat → K}

theorem imu_noise {k : Nat} {v : ImuState K} (hv : s.imus.find? k = some v) {x : Nat × K} (hx : x ∈ v.noise) : x ∈ s.noise := by
  simp only [State.noise, List.mem_append]; exact .inl (.inl (.inl (mem_mapNoise hv hx)))
theorem gps_noise {k : Nat} {v : GpsState K} (hv : s.gpss.find? k = some v) {x : Nat × K} (hx : x ∈ v.noise) : x ∈ s.noise := by
  simp only [State.noise, List.mem_append]; exact .inl (.inl (.inr (mem_mapNoise hv hx)))
theorem cam_noise {k : Nat} {v : CamState K} (hv : s.cams.find? k = some v) {x : Nat × K} (hx : x ∈ v.noise) : x ∈ s.noise := by
  simp only [State.noise, List.mem_append]; exact .inl (.inr (mem_mapNoise hv hx))
theorem fid_noise {k : Nat} {v : FidState K} (hv : s.fids.find? k = some v) {x : Nat × K} (hx : x ∈ v.noise) : x ∈ s.noise := by
  simp only [State.noise, List.mem_append]; exact .inr (mem_mapNoise hv hx)

/-- One group of three rows. -/
theorem diag_group (hd : Diag d s body) (hd' : Diag d' s' body') {i i' o m j : Nat} {p : K} (hm : Moves σ m i i') (ho : o + 3 ≤ m)
    (h1 : (i + o, p) ∈ s.noise) (h2 : (i' + o, p) ∈ s'.noise) (hj : i + o ≤ j ∧ j < i + o + 3) : d' (σ j) = d j := by
  obtain ⟨q, rfl⟩ := Nat.exists_eq_add_of_le hj.1
  rw [hd.sensors _ h1 q (by omega), Nat.add_assoc, hm (o + q) (by omega), ← Nat.add_assoc, hd'.sensors _ h2 q (by omega)]

theorem diag_pair (hd : Diag d s body) (hd' : Diag d' s' body') {i i' j : Nat} {p q : K} (hm : Moves σ 6 i i')
    (h1 : (i, p) ∈ s.noise) (h2 : (i + 3, q) ∈ s.noise) (h1' : (i', p) ∈ s'.noise) (h2' : (i' + 3, q) ∈ s'.noise)
    (hj : i ≤ j ∧ j < i + 6) : d' (σ j) = d j := by
  by_cases h3 : j < i + 3
  · exact diag_group hd hd' (o := 0) hm (by omega) h1 h1' (by omega)
  · exact diag_group hd hd' (o := 3) hm (by omega) h2 h2' (by omega)

/-- The noise moves with what it belongs to. -/
theorem diag_inside (h : s.Inside σ s') (hl : Laid s n) (hd : Diag d s body) (hd' : Diag d' s' body') (hσ : ∀ i, i < 18 → σ i = i)
    (hb : ∀ i, i < 18 → body' i = body i) {i : Nat} (hi : i < n) : d' (σ i) = d i := by
  obtain ⟨a, x, hx, hi⟩ := hl.cover hi
  cases a with
  | body =>
    obtain rfl : (s.body.index, 18) = x := Option.some.inj hx
    obtain ⟨_, _, _, _, _, _, _, _, _, h0⟩ := State.tiles_kinds hl.tiles
    simp only [h0] at hi
    rw [hσ i (by omega), hd.bodyRows i (by omega), hd'.bodyRows i (by omega), hb i (by omega)]
  | imuExt k =>
    obtain ⟨v, hv, hx⟩ := Option.bind_eq_some_iff.1 hx
    split at hx
    · rename_i he
      obtain rfl := Option.some.inj hx
      obtain ⟨v', hv', h1, h2, _⟩ := h.imus k v hv
      have q : v'.isExtrinsic = true ∧ v'.posStability = v.posStability ∧ v'.angStability = v.angStability := by rw [h1]; exact ⟨he, rfl, rfl⟩
      exact diag_pair hd hd' (h2 he) (imu_noise hv (x := (_, v.posStability)) (by simp [ImuState.noise, he]))
        (imu_noise hv (x := (_, v.angStability)) (by simp [ImuState.noise, he])) (imu_noise hv' (by simp [ImuState.noise, q]))
        (imu_noise hv' (by simp [ImuState.noise, q])) hi
    · cases hx
  | imuInt k =>
    obtain ⟨v, hv, hx⟩ := Option.bind_eq_some_iff.1 hx
    split at hx
    · rename_i he
      obtain rfl := Option.some.inj hx
      obtain ⟨v', hv', h1, _, h2⟩ := h.imus k v hv
      have q : v'.isIntrinsic = true ∧ v'.accBiasStability = v.accBiasStability ∧ v'.omgBiasStability = v.omgBiasStability := by
        rw [h1]; exact ⟨he, rfl, rfl⟩
      exact diag_pair hd hd' (h2 he) (imu_noise hv (x := (_, v.accBiasStability)) (by simp [ImuState.noise, he]))
        (imu_noise hv (x := (_, v.omgBiasStability)) (by simp [ImuState.noise, he])) (imu_noise hv' (by simp [ImuState.noise, q]))
        (imu_noise hv' (by simp [ImuState.noise, q])) hi
    · cases hx
  | gps k =>
    obtain ⟨v, hv, hx⟩ := Option.bind_eq_some_iff.1 hx
    split at hx
    · rename_i he
      obtain rfl := Option.some.inj hx
      obtain ⟨v', hv', h1, h2⟩ := h.gpss k v hv
      have q : v'.isExtrinsic = true ∧ v'.posStability = v.posStability := by rw [h1]; exact ⟨he, rfl⟩
      exact diag_group hd hd' (o := 0) (h2 he) (by omega) (gps_noise hv (x := (_, v.posStability)) (by simp [GpsState.noise, he]))
        (gps_noise hv' (by simp [GpsState.noise, q])) hi
    · cases hx
  | cam k =>
    obtain ⟨v, hv, hx⟩ := Option.bind_eq_some_iff.1 hx
    split at hx
    · rename_i he
      obtain rfl := Option.some.inj hx
      obtain ⟨v', hv', h1, h2⟩ := h.cams k v hv
      have q : v'.isExtrinsic = true ∧ v'.posStability = v.posStability ∧ v'.angStability = v.angStability := by rw [h1]; exact ⟨he, rfl, rfl⟩
      exact diag_pair hd hd' (h2 he) (cam_noise hv (x := (_, v.posStability)) (by simp [CamState.noise, he]))
        (cam_noise hv (x := (_, v.angStability)) (by simp [CamState.noise, he])) (cam_noise hv' (by simp [CamState.noise, q]))
        (cam_noise hv' (by simp [CamState.noise, q])) hi
    · cases hx
  | fid k =>
    obtain ⟨v, hv, hx⟩ := Option.bind_eq_some_iff.1 hx
    split at hx
    · rename_i he
      obtain rfl := Option.some.inj hx
      obtain ⟨v', hv', h1, h2⟩ := h.fids k v hv
      have q : v'.isExtrinsic = true ∧ v'.posStability = v.posStability ∧ v'.angStability = v.angStability := by rw [h1]; exact ⟨he, rfl, rfl⟩
      exact diag_pair hd hd' (h2 he) (fid_noise hv (x := (_, v.posStability)) (by simp [FidState.noise, he]))
        (fid_noise hv (x := (_, v.angStability)) (by simp [FidState.noise, he])) (fid_noise hv' (by simp [FidState.noise, q]))
        (fid_noise hv' (by simp [FidState.noise, q])) hi
    · cases hx
  | clone k p =>
    obtain ⟨a, ha, hx⟩ := Option.map_eq_some_iff.1 hx
    subst hx
    cases hw : s.augs.find? k with
    | none => simp [UMap.getD, hw] at ha
    | some w =>
      have hg : UMap.getD s.augs k [] = w := by simp [UMap.getD, hw]
      rw [hg] at ha
      obtain ⟨w', hw', hf⟩ := h.augs k w hw
      obtain ⟨hp, rfl⟩ := List.getElem?_eq_some_iff.1 ha
      obtain ⟨hlen, hget⟩ := List.forall₂_iff_get.1 hf
      have h2 := (hget p hp (hlen ▸ hp)).2
      obtain ⟨q, rfl⟩ := Nat.exists_eq_add_of_le hi.1
      rw [hd.clones w[p] (List.mem_flatMap.2 ⟨(k, w), UMap.mem_of_find? hw, List.getElem_mem _⟩) q]
      have h3 := h2 q (by have := hi.2; simp only at this; omega)
      simp only [List.get_eq_getElem] at h3
      rw [h3]
      exact hd'.clones _ (List.mem_flatMap.2 ⟨(k, w'), UMap.mem_of_find? hw', List.getElem_mem _⟩) q

end Noise

end EkfCal
