import Verif.Lemmas.Tracks

/-!
# The loop over the matches of one frame
-/

namespace EkfCal.FeatureTracker

variable {K : Type} [Field K] [LinearOrder K]

theorem get_set {α : Type} {l : List α} {q i : Nat} {v a : α} (h : (l.set q v)[i]? = some a) :
    (i = q ∧ a = v) ∨ (i ≠ q ∧ l[i]? = some a) := by
  rw [List.getElem?_set] at h
  split_ifs at h with h1 h2
  · exact Or.inl ⟨h1.symm, by simpa using h.symm⟩
  · exact Or.inr ⟨fun e => h1 e.symm, h⟩

/-- Key points with different ids at different places, all ids below a bound. -/
structure KeysInv (keys : List (KeyPoint K)) (next : Nat) : Prop where
  lt : ∀ (i : Nat) (k : KeyPoint K) (id : Nat), keys[i]? = some k → k.classId = some id → id < next
  inj : ∀ (i j : Nat) (a b : KeyPoint K) (id : Nat), keys[i]? = some a → keys[j]? = some b → a.classId = some id → b.classId = some id → i = j
  pos : ∀ (i j : Nat) (a b : KeyPoint K), keys[i]? = some a → keys[j]? = some b → a.x = b.x → a.y = b.y → i = j

theorem KeysInv.mono {keys : List (KeyPoint K)} {n n' : Nat} (h : KeysInv keys n) (hn : n ≤ n') : KeysInv keys n' :=
  ⟨fun i k id h1 h2 => lt_of_lt_of_le (h.lt i k id h1 h2) hn, h.inj, h.pos⟩

theorem KeysInv.set {keys : List (KeyPoint K)} {n : Nat} (h : KeysInv keys n) {q : Nat} {p : KeyPoint K} {id : Nat}
    (hp : keys[q]? = some p) (hid : id < n)
    (hnew : ∀ (j : Nat) (b : KeyPoint K), keys[j]? = some b → b.classId ≠ some id) : KeysInv (keys.set q { p with classId := some id }) n := by
  constructor
  · intro i k id' h1 h2
    rcases get_set h1 with ⟨rfl, rfl⟩ | ⟨_, h1⟩
    · simp only [Option.some.injEq] at h2; omega
    · exact h.lt i k id' h1 h2
  · intro i j a b id' h1 h2 h3 h4
    rcases get_set h1 with ⟨rfl, rfl⟩ | ⟨_, g1⟩ <;> rcases get_set h2 with ⟨rfl, rfl⟩ | ⟨_, g2⟩
    · rfl
    · simp only [Option.some.injEq] at h3; subst h3; exact absurd h4 (hnew _ _ g2)
    · simp only [Option.some.injEq] at h4; subst h4; exact absurd h3 (hnew _ _ g1)
    · exact h.inj i j a b id' g1 g2 h3 h4
  · intro i j a b h1 h2 h3 h4
    rcases get_set h1 with ⟨rfl, rfl⟩ | ⟨_, g1⟩ <;> rcases get_set h2 with ⟨rfl, rfl⟩ | ⟨_, g2⟩
    · rfl
    · exact h.pos _ _ p b hp g2 h3 h4
    · exact h.pos _ _ a p g1 hp h3 h4
    · exact h.pos i j a b g1 g2 h3 h4

/-- Some key point carries the id. -/
def Used (keys : List (KeyPoint K)) (id : Nat) : Prop := ∃ (j : Nat) (b : KeyPoint K), keys[j]? = some b ∧ b.classId = some id

/-- What holds between two matches: `D` are the observations delivered so far, `Q` and `T` the query and train indices
already used. -/
structure LoopInv (D : List (FeaturePoint K)) (pf : Nat) (pt : K) (F : Nat) (now : K) (maxLen : Nat) (s : Matching K)
    (Q T : List Nat) : Prop where
  sorted : UMap.Sorted s.map
  keysLt : ∀ e ∈ s.map, e.1 < s.nextId
  prev : KeysInv s.prev s.nextId
  curr : KeysInv s.curr s.nextId
  prevNew : ∀ (i : Nat) (a : KeyPoint K), s.prev[i]? = some a → a.classId = none →
    ∀ τ : K, ⟨pf, τ, a.x, a.y⟩ ∉ D ++ observations s.map
  currNone : ∀ (j : Nat) (a : KeyPoint K), s.curr[j]? = some a → j ∉ T → a.classId = none
  link : ∀ (i : Nat) (a : KeyPoint K) (id : Nat), s.prev[i]? = some a → a.classId = some id → i ∉ Q → ¬ Used s.curr id
  tracks : ∀ e ∈ s.map, e.2 ≠ [] ∧ Increasing e.2 ∧ (∀ p ∈ e.2, p.frameId ≤ F) ∧ e.2.length ≤ maxLen ∧
    (¬ Used s.curr e.1 → e.2.length < maxLen ∧ ∀ p ∈ e.2, p.frameId < F)
  nodup : (D ++ observations s.map).Nodup
  fresh : ∀ p ∈ D ++ observations s.map, p.frameId ≤ F ∧ (p.frameId = F →
    ∃ (j : Nat) (b : KeyPoint K) (id : Nat), s.curr[j]? = some b ∧ b.classId = some id ∧ p = ⟨F, now, b.x, b.y⟩)

theorem mem_push_obs {D : List (FeaturePoint K)} {m : TrackMap K} (h : UMap.Sorted m) {id : Nat} {p q : FeaturePoint K} :
    q ∈ D ++ observations (m.push id p) ↔ q = p ∨ q ∈ D ++ observations m := by
  rw [List.mem_append, (TrackMap.observations_push h id p).mem_iff, List.mem_cons, List.mem_append]
  tauto

theorem nodup_push {D : List (FeaturePoint K)} {m : TrackMap K} (h : UMap.Sorted m) {id : Nat} {p : FeaturePoint K}
    (hn : (D ++ observations m).Nodup) (hp : p ∉ D ++ observations m) : (D ++ observations (m.push id p)).Nodup := by
  have := (TrackMap.observations_push h id p).append_left D
  rw [this.nodup_iff, List.perm_middle.nodup_iff, List.nodup_cons]
  exact ⟨hp, hn⟩

omit [Field K] [LinearOrder K] in
theorem increasing_snoc {pts : List (FeaturePoint K)} {p : FeaturePoint K} (h : Increasing pts)
    (hp : ∀ q ∈ pts, q.frameId < p.frameId) : Increasing (pts ++ [p]) := by
  unfold Increasing at *
  rw [List.map_append, List.pairwise_append]
  refine ⟨h, List.pairwise_singleton _ _, ?_⟩
  intro a ha b hb
  obtain ⟨q, hq, rfl⟩ := List.mem_map.1 ha
  simp only [List.map_cons, List.map_nil, List.mem_singleton] at hb
  subst hb
  exact hp q hq

omit [Field K] [LinearOrder K] in
theorem getD_mem {m : TrackMap K} (h : UMap.Sorted m) (id : Nat) :
    UMap.getD m id [] = [] ∨ (id, UMap.getD m id []) ∈ m := by
  unfold UMap.getD
  cases hf : UMap.find? m id with
  | none => exact Or.inl rfl
  | some v => exact Or.inr ((UMap.find?_eq_some_iff h).1 hf)

/-- Giving an id to a key point of the previous image and starting its track. -/
theorem LoopInv.assign {D : List (FeaturePoint K)} {pf : Nat} {pt : K} {F : Nat} {now : K} {maxLen : Nat} {s : Matching K}
    {Q T : List Nat} (h : LoopInv D pf pt F now maxLen s Q T) (hF : pf < F) (hmax : 2 ≤ maxLen) {q : Nat} {p : KeyPoint K}
    (hp : s.prev[q]? = some p) (hnone : p.classId = none) :
    LoopInv D pf pt F now maxLen
      { s with prev := s.prev.set q { p with classId := some s.nextId },
               map := s.map.push s.nextId ⟨pf, pt, p.x, p.y⟩, nextId := s.nextId + 1 } Q T := by
  have hnot : ¬ Used s.curr s.nextId := by
    rintro ⟨j, b, h1, h2⟩; exact absurd (h.curr.lt _ _ _ h1 h2) (lt_irrefl _)
  have hD := h.prevNew q p hp hnone pt
  have hget : UMap.getD s.map s.nextId [] = [] := by
    rcases getD_mem h.sorted s.nextId with h1 | h1
    · exact h1
    · exact absurd (h.keysLt _ h1) (lt_irrefl _)
  constructor
  · exact TrackMap.push_sorted h.sorted _ _
  · intro e he
    rcases (TrackMap.mem_push h.sorted).1 he with ⟨_, he⟩ | rfl
    · exact Nat.lt_succ_of_lt (h.keysLt e he)
    · exact Nat.lt_succ_self _
  · refine (h.prev.mono (Nat.le_succ _)).set hp (Nat.lt_succ_self _) ?_
    intro j b h1 h2
    exact absurd (h.prev.lt _ _ _ h1 h2) (lt_irrefl _)
  · exact h.curr.mono (Nat.le_succ _)
  · intro i a h1 h2 τ
    rcases get_set h1 with ⟨_, rfl⟩ | ⟨hne, h1⟩
    · cases h2
    · rw [mem_push_obs h.sorted, not_or]
      refine ⟨fun e => hne ?_, h.prevNew i a h1 h2 τ⟩
      simp only [FeaturePoint.mk.injEq, true_and] at e
      exact h.prev.pos _ _ _ _ h1 hp e.2.1 e.2.2
  · exact h.currNone
  · intro i a id h1 h2 h3
    rcases get_set h1 with ⟨_, rfl⟩ | ⟨hne, h1⟩
    · simp only [Option.some.injEq] at h2; subst h2; exact hnot
    · exact h.link i a id h1 h2 h3
  · intro e he
    rcases (TrackMap.mem_push h.sorted).1 he with ⟨_, he⟩ | rfl
    · exact h.tracks e he
    · simp only [hget, List.nil_append]
      refine ⟨by simp, by simp [Increasing], by simp; omega, by simp; omega, fun _ => ⟨by simp; omega, by simp; omega⟩⟩
  · exact nodup_push h.sorted h.nodup hD
  · intro r hr
    rcases (mem_push_obs h.sorted).1 hr with rfl | hr
    · exact ⟨hF.le, fun e => absurd e (by simp only; omega)⟩
    · exact h.fresh r hr

/-- Adding the observation of the current image. -/
theorem LoopInv.observe {D : List (FeaturePoint K)} {pf : Nat} {pt : K} {F : Nat} {now : K} {maxLen : Nat} {s : Matching K}
    {Q T : List Nat} (h : LoopInv D pf pt F now maxLen s Q T) (hF : pf < F) (hmax : 2 ≤ maxLen) {q t id : Nat}
    {p c : KeyPoint K} (hp : s.prev[q]? = some p) (hid : p.classId = some id) (hq : q ∉ Q)
    (hc : s.curr[t]? = some c) (ht : t ∉ T) :
    LoopInv D pf pt F now maxLen
      { s with curr := s.curr.set t { c with classId := some id }, map := s.map.push id ⟨F, now, c.x, c.y⟩ }
      (q :: Q) (t :: T) := by
  have hidlt := h.prev.lt _ _ _ hp hid
  have hunused := h.link q p id hp hid hq
  have hcnone := h.currNone t c hc ht
  have hD : (⟨F, now, c.x, c.y⟩ : FeaturePoint K) ∉ D ++ observations s.map := by
    intro hm
    obtain ⟨j, b, id', h1, h2, h3⟩ := (h.fresh _ hm).2 rfl
    simp only [FeaturePoint.mk.injEq, true_and] at h3
    have := h.curr.pos _ _ _ _ hc h1 h3.1 h3.2
    subst this
    rw [hc] at h1
    cases h1
    rw [hcnone] at h2
    cases h2
  have hset : (s.curr.set t { c with classId := some id })[t]? = some { c with classId := some id } := by
    rw [List.getElem?_set]
    have : t < s.curr.length := by
      rw [List.getElem?_eq_some_iff] at hc; exact hc.1
    simp [this]
  have husedmono : ∀ id', Used s.curr id' → Used (s.curr.set t { c with classId := some id }) id' := by
    rintro id' ⟨j, b, h1, h2⟩
    have hj : j ≠ t := by
      rintro rfl
      rw [hc] at h1; cases h1; rw [hcnone] at h2; cases h2
    exact ⟨j, b, by rw [List.getElem?_set_ne (Ne.symm hj)]; exact h1, h2⟩
  have hused : ∀ id', Used (s.curr.set t { c with classId := some id }) id' → id' = id ∨ Used s.curr id' := by
    rintro id' ⟨j, b, h1, h2⟩
    rcases get_set h1 with ⟨_, rfl⟩ | ⟨_, h1⟩
    · simp only [Option.some.injEq] at h2; exact Or.inl h2.symm
    · exact Or.inr ⟨j, b, h1, h2⟩
  constructor
  · exact TrackMap.push_sorted h.sorted _ _
  · intro e he
    rcases (TrackMap.mem_push h.sorted).1 he with ⟨_, he⟩ | rfl
    · exact h.keysLt e he
    · exact hidlt
  · exact h.prev
  · exact h.curr.set hc hidlt fun j b h1 h2 => hunused ⟨j, b, h1, h2⟩
  · intro i a h1 h2 τ
    rw [mem_push_obs h.sorted, not_or]
    refine ⟨fun e => ?_, h.prevNew i a h1 h2 τ⟩
    simp only [FeaturePoint.mk.injEq] at e
    omega
  · intro j a h1 h2
    rw [List.mem_cons, not_or] at h2
    rcases get_set h1 with ⟨e, _⟩ | ⟨_, h1⟩
    · exact absurd e h2.1
    · exact h.currNone j a h1 h2.2
  · intro i a id' h1 h2 h3 hu
    rw [List.mem_cons, not_or] at h3
    rcases hused id' hu with rfl | hu
    · exact h3.1 (h.prev.inj _ _ _ _ _ h1 hp h2 hid)
    · exact h.link i a id' h1 h2 h3.2 hu
  · intro e he
    rcases (TrackMap.mem_push h.sorted).1 he with ⟨_, he⟩ | rfl
    · obtain ⟨t1, t2, t3, t4, t5⟩ := h.tracks e he
      exact ⟨t1, t2, t3, t4, fun hu => t5 fun hu' => hu (husedmono _ hu')⟩
    · have hold : Increasing (UMap.getD s.map id []) ∧ (UMap.getD s.map id []).length < maxLen ∧
          ∀ p ∈ UMap.getD s.map id [], p.frameId < F := by
        rcases getD_mem h.sorted id with h1 | h1
        · rw [h1]; exact ⟨by simp [Increasing], by simp; omega, by simp⟩
        · obtain ⟨_, t2, _, _, t5⟩ := h.tracks _ h1
          exact ⟨t2, (t5 hunused).1, (t5 hunused).2⟩
      refine ⟨by simp, increasing_snoc hold.1 hold.2.2, ?_, by simp; omega, fun hu => ?_⟩
      · intro r hr
        rw [List.mem_append, List.mem_singleton] at hr
        rcases hr with hr | rfl
        · exact (hold.2.2 r hr).le
        · exact le_rfl
      · exact absurd ⟨t, _, hset, rfl⟩ hu
  · exact nodup_push h.sorted h.nodup hD
  · intro r hr
    rcases (mem_push_obs h.sorted).1 hr with rfl | hr
    · exact ⟨le_rfl, fun _ => ⟨t, _, id, hset, rfl, rfl⟩⟩
    · obtain ⟨f1, f2⟩ := h.fresh r hr
      refine ⟨f1, fun e => ?_⟩
      obtain ⟨j, b, id', h1, h2, h3⟩ := f2 e
      have hj : j ≠ t := by
        rintro rfl
        rw [hc] at h1; cases h1; rw [hcnone] at h2; cases h2
      exact ⟨j, b, id', by rw [List.getElem?_set_ne (Ne.symm hj)]; exact h1, h2, h3⟩

omit [Field K] [LinearOrder K] in
theorem keyAt_ok_iff {keys : List (KeyPoint K)} {i : Nat} {k : KeyPoint K} : keyAt keys i = .ok k ↔ keys[i]? = some k := by
  unfold keyAt
  cases keys[i]? <;> simp

/-- One pass of the loop. -/
theorem LoopInv.step {D : List (FeaturePoint K)} {pf : Nat} {pt : K} {F : Nat} {now : K} {maxLen : Nat} {s s' : Matching K}
    {Q T : List Nat} {m : DMatch K} (hs : matchStep pf pt F now s m = .ok s')
    (h : LoopInv D pf pt F now maxLen s Q T) (hF : pf < F) (hmax : 2 ≤ maxLen)
    (hq : m.query ∉ Q) (ht : m.train ∉ T) :
    LoopInv D pf pt F now maxLen s' (m.query :: Q) (m.train :: T) ∧ s.nextId ≤ s'.nextId := by
  unfold matchStep at hs
  rw [bind_ok_iff] at hs
  obtain ⟨p, hp, hs⟩ := hs
  rw [keyAt_ok_iff] at hp
  cases hcl : p.classId with
  | some id =>
    simp only [hcl] at hs
    rw [bind_ok_iff] at hs
    obtain ⟨c, hc, hs⟩ := hs
    rw [keyAt_ok_iff] at hc
    cases hs
    exact ⟨h.observe hF hmax hp hcl hq hc ht, le_rfl⟩
  | none =>
    simp only [hcl] at hs
    rw [bind_ok_iff] at hs
    obtain ⟨c, hc, hs⟩ := hs
    rw [keyAt_ok_iff] at hc
    cases hs
    have hset : (s.prev.set m.query { p with classId := some s.nextId })[m.query]? =
        some { p with classId := some s.nextId } := by
      rw [List.getElem?_set]
      have : m.query < s.prev.length := by
        rw [List.getElem?_eq_some_iff] at hp; exact hp.1
      simp [this]
    exact ⟨(h.assign hF hmax hp hcl).observe hF hmax hset rfl hq hc ht, Nat.le_succ _⟩

theorem LoopInv.loop {D : List (FeaturePoint K)} {pf : Nat} {pt : K} {F : Nat} {now : K} {maxLen : Nat} {s s' : Matching K}
    {Q T : List Nat} {ms : List (DMatch K)} (hs : ms.foldlM (matchStep pf pt F now) s = .ok s')
    (h : LoopInv D pf pt F now maxLen s Q T) (hF : pf < F) (hmax : 2 ≤ maxLen)
    (hq : (ms.map DMatch.query).Nodup) (ht : (ms.map DMatch.train).Nodup)
    (hq' : ∀ m ∈ ms, m.query ∉ Q) (ht' : ∀ m ∈ ms, m.train ∉ T) :
    ∃ Q' T', LoopInv D pf pt F now maxLen s' Q' T' ∧ s.nextId ≤ s'.nextId := by
  induction ms generalizing s Q T with
  | nil => cases hs; exact ⟨Q, T, h, le_rfl⟩
  | cons m ms ih =>
    rw [List.foldlM_cons, bind_ok_iff] at hs
    obtain ⟨s1, h1, hs⟩ := hs
    rw [List.map_cons, List.nodup_cons] at hq ht
    obtain ⟨g, hn⟩ := h.step h1 hF hmax (hq' m List.mem_cons_self) (ht' m List.mem_cons_self)
    obtain ⟨Q', T', g', hn'⟩ := ih hs g hq.2 ht.2 (by
      intro m' hm'
      rw [List.mem_cons, not_or]
      exact ⟨fun e => hq.1 (e ▸ List.mem_map_of_mem hm'), hq' m' (List.mem_cons_of_mem _ hm')⟩) (by
      intro m' hm'
      rw [List.mem_cons, not_or]
      exact ⟨fun e => ht.1 (e ▸ List.mem_map_of_mem hm'), ht' m' (List.mem_cons_of_mem _ hm')⟩)
    exact ⟨Q', T', g', hn.trans hn'⟩

/-! ## The matches of a frame -/

theorem applyMask_sublist {ms : List (DMatch K)} {mask : List Nat} {out} (h : applyMask ms mask = .ok out) :
    out.Sublist ms := by
  induction ms generalizing mask out with
  | nil => cases h; exact List.Sublist.slnil
  | cons m ms ih =>
    cases mask with
    | nil => cases h
    | cons b bs =>
      simp only [applyMask] at h
      rw [bind_ok_iff] at h
      obtain ⟨r, hr, h⟩ := h
      cases h
      split_ifs
      · exact (ih hr).cons_cons _
      · exact (ih hr).cons _

theorem zip_fst_sublist {α β : Type} (l : List α) (l' : List β) : ((l.zip l').map Prod.fst).Sublist l := by
  induction l generalizing l' with
  | nil => exact List.Sublist.slnil
  | cons a l ih =>
    cases l' with
    | nil => simp
    | cons b l' => exact (ih l').cons_cons _

theorem filterMatches_sublist {N : Prim K} {r : K} {prev curr : List (KeyPoint K)} {fwd bwd mask out}
    (h : filterMatches N r prev curr fwd bwd mask = .ok out) :
    out.Sublist (symmetryTest (ratioTest r fwd) (ratioTest r bwd)) := by
  unfold filterMatches at h
  rw [bind_ok_iff] at h
  obtain ⟨ran, h1, h2⟩ := h
  have s1 : ran.Sublist (symmetryTest (ratioTest r fwd) (ratioTest r bwd)) := by
    unfold ransac at h1
    split_ifs at h1
    · cases h1; exact List.nil_sublist _
    · rw [bind_ok_iff] at h1
      obtain ⟨_, _, h1⟩ := h1
      exact applyMask_sublist h1
  have s2 : out.Sublist ran := by
    unfold distanceTest at h2
    rw [bind_ok_iff] at h2
    obtain ⟨ds, _, h2⟩ := h2
    cases h2
    exact (List.Sublist.map _ List.filter_sublist).trans (zip_fst_sublist _ _)
  exact s2.trans s1

theorem ratioTest_knn {r : K} {ms : List (List (DMatch K))} (h : KnnLists ms) : KnnLists (ratioTest r ms) := by
  intro i m hm
  unfold ratioTest at hm
  rw [List.getElem?_map] at hm
  cases hg : ms[i]? with
  | none => rw [hg] at hm; cases hm
  | some m0 =>
    rw [hg] at hm
    simp only [Option.map_some, Option.some.injEq] at hm
    have h0 := h i m0 hg
    have : m = [] ∨ m = m0 := by
      rw [← hm]
      split
      · left; rfl
      · split_ifs
        · left; rfl
        · right; rfl
      · right; rfl
    rcases this with rfl | rfl
    · simp
    · exact h0

theorem filterMatches_nodup {N : Prim K} {r : K} {prev curr : List (KeyPoint K)} {fwd bwd mask out}
    (h : filterMatches N r prev curr fwd bwd mask = .ok out) (hf : KnnLists fwd) (hb : KnnLists bwd) :
    (out.map DMatch.query).Nodup ∧ (out.map DMatch.train).Nodup := by
  obtain ⟨h1, h2⟩ := C30_symmetry_injective _ _ (ratioTest_knn (r := r) hf) (ratioTest_knn (r := r) hb)
  exact ⟨h1.sublist ((filterMatches_sublist h).map _), h2.sublist ((filterMatches_sublist h).map _)⟩

end EkfCal.FeatureTracker
