import Verif.Lemmas.TrackRun

/-!
# Invariant of the simulated tracker over a sequence of images
-/

namespace EkfCal

variable {K : Type} [Field K] [LinearOrder K]

theorem labelled_append (a b : List (Nat × List (FeaturePoint K))) : labelled (a ++ b) = labelled a ++ labelled b := by
  simp [labelled]

theorem mem_labelled {l : List (Nat × List (FeaturePoint K))} {x} : x ∈ labelled l ↔ ∃ e ∈ l, x.1 = e.1 ∧ x.2 ∈ e.2 := by
  obtain ⟨id, p⟩ := x
  simp only [labelled, List.mem_flatMap, List.mem_map, Prod.mk.injEq]
  constructor
  · rintro ⟨e, he, q, hq, rfl, rfl⟩; exact ⟨e, he, rfl, hq⟩
  · rintro ⟨e, he, rfl, hq⟩; exact ⟨e, he, p, hq, rfl, rfl⟩

theorem labelled_push {m : TrackMap K} (h : UMap.Sorted m) (id : Nat) (p : FeaturePoint K) :
    (labelled (m.push id p)).Perm ((id, p) :: labelled m) := by
  unfold TrackMap.push
  induction m with
  | nil => simp [UMap.insert, UMap.getD, UMap.find?, labelled]
  | cons e m ih =>
    obtain ⟨k, v⟩ := e
    have hs := UMap.sorted_cons.1 h
    by_cases h1 : id < k
    · have hn : UMap.find? ((k, v) :: m) id = none := by
        apply UMap.find?_none_of_lt
        intro x hx
        rcases List.mem_cons.1 hx with rfl | hx
        · exact h1
        · exact lt_trans h1 (hs.1 x hx)
      simp [UMap.insert, h1, UMap.getD, hn, labelled]
    · by_cases h2 : id = k
      · subst h2
        simp only [UMap.insert, lt_irrefl, if_false, if_true, UMap.getD, UMap.find?, labelled, List.flatMap_cons,
          Option.getD_some, List.map_append, List.map_cons, List.map_nil]
        rw [List.append_assoc]
        exact List.perm_middle
      · have hf : UMap.getD ((k, v) :: m) id [] = UMap.getD m id [] := by
          simp [UMap.getD, UMap.find?, Ne.symm h2]
        simp only [UMap.insert, if_neg h1, if_neg h2, hf]
        have := ih hs.2
        simp only [labelled, List.flatMap_cons] at this ⊢
        exact (List.Perm.append_left _ this).trans List.perm_middle

theorem flush_labelled {minLen maxLen frameId : Nat} {m : TrackMap K} {out left}
    (h : ∀ e ∈ m, e.2 ≠ []) (hf : flushTracks minLen maxLen frameId m = .ok (out, left)) :
    ∃ l, (labelled out ++ labelled left).Sublist l ∧ l.Perm (labelled m) := by
  rw [flush_eq _ _ _ _ h] at hf
  simp only [Except.ok.injEq, Prod.mk.injEq] at hf
  obtain ⟨rfl, rfl⟩ := hf
  refine ⟨labelled (m.filter (finished maxLen frameId) ++ m.filter fun e => !finished maxLen frameId e), ?_, ?_⟩
  · rw [labelled_append]
    refine List.Sublist.append ?_ (List.Sublist.refl _)
    unfold labelled
    apply List.Sublist.flatMap
    apply List.monotone_filter_right
    intro e he
    simp only [Bool.and_eq_true] at he
    exact he.1
  · exact List.Perm.flatMap_right _ (List.filter_append_perm _ _)

namespace SimTracker
open FeatureTracker

/-- What holds between two images: `D` are the labelled observations delivered so far, `B` the last frame id. -/
structure SInv (D : List (Nat × FeaturePoint K)) (B : Nat) (t : SimTracker K) : Prop where
  sorted : UMap.Sorted t.map
  tracks : ∀ e ∈ t.map, e.2 ≠ [] ∧ Increasing e.2 ∧ (∀ p ∈ e.2, p.frameId ≤ B) ∧ e.2.length < t.maxLen
  nodup : (D ++ labelled t.map).Nodup
  bound : ∀ x ∈ D ++ labelled t.map, x.2.frameId ≤ B

/-- What holds between two key points of one image; `S` are the ids seen so far. -/
structure SLoop (D : List (Nat × FeaturePoint K)) (F maxLen : Nat) (m : TrackMap K) (S : List Nat) : Prop where
  sorted : UMap.Sorted m
  tracks : ∀ e ∈ m, e.2 ≠ [] ∧ Increasing e.2 ∧ (∀ p ∈ e.2, p.frameId ≤ F) ∧ e.2.length ≤ maxLen ∧
    (e.1 ∉ S → e.2.length < maxLen ∧ ∀ p ∈ e.2, p.frameId < F)
  nodup : (D ++ labelled m).Nodup
  bound : ∀ x ∈ D ++ labelled m, x.2.frameId ≤ F ∧ (x.2.frameId = F → x.1 ∈ S)

theorem SLoop.push {D : List (Nat × FeaturePoint K)} {F maxLen : Nat} {m : TrackMap K} {S : List Nat}
    (h : SLoop D F maxLen m S) (hmax : 1 ≤ maxLen) (id : Nat) (time x y : K) (hid : id ∉ S) :
    SLoop D F maxLen (m.push id ⟨F, time, x, y⟩) (id :: S) := by
  have hmem : ∀ z, z ∈ D ++ labelled (m.push id ⟨F, time, x, y⟩) ↔
      z = (id, ⟨F, time, x, y⟩) ∨ z ∈ D ++ labelled m := by
    intro z
    rw [List.mem_append, (labelled_push h.sorted id _).mem_iff, List.mem_cons, List.mem_append]
    tauto
  constructor
  · exact TrackMap.push_sorted h.sorted _ _
  · intro e he
    rcases (TrackMap.mem_push h.sorted).1 he with ⟨_, he⟩ | rfl
    · obtain ⟨t1, t2, t3, t4, t5⟩ := h.tracks e he
      exact ⟨t1, t2, t3, t4, fun hu => t5 fun hu' => hu (List.mem_cons_of_mem _ hu')⟩
    · have hold : Increasing (UMap.getD m id []) ∧ (UMap.getD m id []).length < maxLen ∧
          ∀ p ∈ UMap.getD m id [], p.frameId < F := by
        rcases getD_mem h.sorted id with h1 | h1
        · rw [h1]; exact ⟨by simp [Increasing], by simp; omega, by simp⟩
        · obtain ⟨_, t2, _, _, t5⟩ := h.tracks _ h1
          exact ⟨t2, (t5 hid).1, (t5 hid).2⟩
      refine ⟨by simp, increasing_snoc hold.1 hold.2.2, ?_, by simp; omega, fun hu => absurd List.mem_cons_self hu⟩
      intro r hr
      rw [List.mem_append, List.mem_singleton] at hr
      rcases hr with hr | rfl
      · exact (hold.2.2 r hr).le
      · exact le_rfl
  · have := (labelled_push h.sorted id (⟨F, time, x, y⟩ : FeaturePoint K)).append_left D
    rw [this.nodup_iff, List.perm_middle.nodup_iff, List.nodup_cons]
    exact ⟨fun hm => hid ((h.bound _ hm).2 rfl), h.nodup⟩
  · intro z hz
    rcases (hmem z).1 hz with rfl | hz
    · exact ⟨le_rfl, fun _ => List.mem_cons_self⟩
    · obtain ⟨b1, b2⟩ := h.bound z hz
      exact ⟨b1, fun e => List.mem_cons_of_mem _ (b2 e)⟩

theorem SLoop.loop {D : List (Nat × FeaturePoint K)} {F maxLen : Nat} {m : TrackMap K} {S : List Nat}
    (h : SLoop D F maxLen m S) (hmax : 1 ≤ maxLen) (time : K) (keys : List (Nat × K × K))
    (hk : (keys.map Prod.fst).Nodup) (hS : ∀ k ∈ keys, k.1 ∉ S) :
    ∃ S', SLoop D F maxLen (keys.foldl (fun (m : TrackMap K) k => m.push k.1 ⟨F, time, k.2.1, k.2.2⟩) m) S' ∧
      ∀ id, id ∈ S' → id ∈ S ∨ id ∈ keys.map Prod.fst := by
  induction keys generalizing m S with
  | nil => exact ⟨S, h, fun id h => Or.inl h⟩
  | cons k keys ih =>
    rw [List.map_cons, List.nodup_cons] at hk
    obtain ⟨S', g, hg⟩ := ih (h.push hmax k.1 time k.2.1 k.2.2 (hS k List.mem_cons_self)) hk.2 (by
      intro k' hk'
      rw [List.mem_cons, not_or]
      exact ⟨fun e => hk.1 (e ▸ List.mem_map_of_mem hk'), hS k' (List.mem_cons_of_mem _ hk')⟩)
    refine ⟨S', g, fun id hid => ?_⟩
    rcases hg id hid with h' | h'
    · rcases List.mem_cons.1 h' with rfl | h'
      · exact Or.inr (by simp)
      · exact Or.inl h'
    · exact Or.inr (by simp only [List.map_cons, List.mem_cons]; exact Or.inr h')

theorem SInv.generate {D : List (Nat × FeaturePoint K)} {B : Nat} {t t' : SimTracker K} {F : Nat} {time : K}
    {keys : List (Nat × K × K)} {out} (hs : t.generate F time keys = .ok (t', out)) (h : SInv D B t)
    (hmax : 1 ≤ t.maxLen) (hk : (keys.map Prod.fst).Nodup) (hF : B < F ∨ t.map = [] ∧ D = []) :
    SInv (D ++ labelled out) F t' ∧ t'.minLen = t.minLen ∧ t'.maxLen = t.maxLen ∧
    (∀ e ∈ out, Good t.minLen t.maxLen e.2) ∧
    ∀ e ∈ t'.map, (∃ l, e.2.getLast? = some l ∧ l.frameId = F) ∧ e.2.length < t.maxLen ∧ e.1 ∈ keys.map Prod.fst := by
  have hstart : SLoop D F t.maxLen t.map [] := by
    rcases hF with hF | ⟨h1, h2⟩
    · refine ⟨h.sorted, ?_, h.nodup, ?_⟩
      · intro e he
        obtain ⟨t1, t2, t3, t4⟩ := h.tracks e he
        exact ⟨t1, t2, fun p hp => (t3 p hp).trans hF.le, t4.le, fun _ => ⟨t4, fun p hp => lt_of_le_of_lt (t3 p hp) hF⟩⟩
      · intro x hx
        have := h.bound x hx
        exact ⟨this.trans hF.le, fun e => absurd e (by omega)⟩
    · refine ⟨h.sorted, by simp [h1], h.nodup, ?_⟩
      intro x hx; rw [h1, h2] at hx; simp [labelled] at hx
  unfold SimTracker.generate at hs
  dsimp only at hs
  rw [bind_ok_iff] at hs
  obtain ⟨⟨o, left⟩, hflush, hs⟩ := hs
  simp only [pure, Except.pure, Except.ok.injEq, Prod.mk.injEq] at hs
  obtain ⟨rfl, rfl⟩ := hs
  obtain ⟨S, g, hS⟩ := hstart.loop hmax time keys hk (by simp)
  set m := keys.foldl (fun (m : TrackMap K) k => m.push k.1 ⟨F, time, k.2.1, k.2.2⟩) t.map
  have hne : ∀ e ∈ m, e.2 ≠ [] := fun e he => (g.tracks e he).1
  have hobs := flush_labelled hne hflush
  rw [flush_eq _ _ _ _ hne] at hflush
  simp only [Except.ok.injEq, Prod.mk.injEq] at hflush
  obtain ⟨ho, hl⟩ := hflush
  have hleft : ∀ e ∈ left, e ∈ m ∧ finished t.maxLen F e = false := by
    intro e he; rw [← hl] at he; simpa using he
  have hsub : ∀ p, p ∈ (D ++ labelled o) ++ labelled left → p ∈ D ++ labelled m := by
    intro p hp
    rw [List.append_assoc, List.mem_append] at hp
    rw [List.mem_append]
    rcases hp with hp | hp
    · exact Or.inl hp
    · obtain ⟨l, h1, h2⟩ := hobs
      exact Or.inr (h2.mem_iff.1 (h1.subset hp))
  have hlast : ∀ e ∈ left, (∃ l, e.2.getLast? = some l ∧ l.frameId = F) ∧ e.2.length < t.maxLen ∧
      e.1 ∈ keys.map Prod.fst := by
    intro e he
    obtain ⟨h1, h2⟩ := hleft e he
    have htr := g.tracks e h1
    cases hg : e.2.getLast? with
    | none => exact absurd (List.getLast?_eq_none_iff.1 hg) htr.1
    | some l =>
      simp only [finished, hg, Bool.or_eq_false_iff, decide_eq_false_iff_not, not_lt, ge_iff_le, not_le] at h2
      have hm := List.mem_of_getLast? hg
      have h3 := htr.2.2.1 l hm
      have heq : l.frameId = F := by omega
      refine ⟨⟨l, rfl, heq⟩, h2.2, ?_⟩
      have := (g.bound (e.1, l) (List.mem_append_right _ (mem_labelled.2 ⟨e, h1, rfl, hm⟩))).2 heq
      rcases hS _ this with h' | h'
      · cases h'
      · exact h'
  refine ⟨⟨?_, ?_, ?_, ?_⟩, rfl, rfl, ?_, hlast⟩
  · rw [← hl]; exact g.sorted.filter _
  · intro e he
    obtain ⟨t1, t2, t3, _, _⟩ := g.tracks e (hleft e he).1
    exact ⟨t1, t2, t3, (hlast e he).2.1⟩
  · obtain ⟨l, h1, h2⟩ := hobs
    rw [List.append_assoc]
    exact ((h2.append_left D).nodup_iff.2 g.nodup).sublist (h1.append_left D)
  · intro p hp; exact (g.bound p (hsub p hp)).1
  · intro e he
    rw [← ho] at he
    simp only [List.mem_filter, Bool.and_eq_true, decide_eq_true_eq] at he
    obtain ⟨_, t2, _, t4, _⟩ := g.tracks e he.1
    exact ⟨he.2.2, t4, t2⟩

theorem SInv.run {D : List (Nat × FeaturePoint K)} {B : Nat} {t t' : SimTracker K}
    {fs : List (Nat × K × List (Nat × K × K))} {out} (hs : t.run fs = .ok (t', out)) (h : SInv D B t) (hmax : 1 ≤ t.maxLen)
    (hk : ∀ f ∈ fs, (f.2.2.map Prod.fst).Nodup) (hfs : (fs.map Prod.fst).Pairwise (· < ·))
    (hF : (∀ f ∈ fs, B < f.1) ∨ t.map = [] ∧ D = []) :
    ∃ B', SInv (D ++ labelled out) B' t' ∧ t'.minLen = t.minLen ∧ t'.maxLen = t.maxLen ∧
    (∀ e ∈ out, Good t.minLen t.maxLen e.2) ∧
    (∀ f, fs.getLast? = some f → ∀ e ∈ t'.map, (∃ l, e.2.getLast? = some l ∧ l.frameId = f.1) ∧
      e.2.length < t.maxLen ∧ e.1 ∈ f.2.2.map Prod.fst) := by
  induction fs generalizing t D B out with
  | nil =>
    cases hs
    exact ⟨B, by simpa [labelled] using h, rfl, rfl, by simp, by simp⟩
  | cons f fs ih =>
    simp only [SimTracker.run] at hs
    rw [bind_ok_iff] at hs
    obtain ⟨⟨t1, o1⟩, h1, hs⟩ := hs
    rw [bind_ok_iff] at hs
    obtain ⟨⟨t2, o2⟩, h2, hs⟩ := hs
    simp only [pure, Except.pure, Except.ok.injEq, Prod.mk.injEq] at hs
    obtain ⟨rfl, rfl⟩ := hs
    rw [List.map_cons, List.pairwise_cons] at hfs
    obtain ⟨g, e1, e2, g4, g5⟩ := h.generate h1 hmax (hk f List.mem_cons_self)
      (hF.imp (fun hF => hF f List.mem_cons_self) id)
    obtain ⟨B', g', e1', e2', g4', g5'⟩ := ih h2 g (by rw [e2]; exact hmax) (fun f' hf' => hk f' (List.mem_cons_of_mem _ hf'))
      hfs.2 (Or.inl fun f' hf' => hfs.1 _ (List.mem_map_of_mem hf'))
    refine ⟨B', by rw [labelled_append, ← List.append_assoc]; exact g', e1'.trans e1, e2'.trans e2, ?_, ?_⟩
    · intro e he
      rcases List.mem_append.1 he with he | he
      · exact g4 e he
      · have := g4' e he
        rw [e1, e2] at this
        exact this
    · intro f' hf'
      cases fs with
      | nil =>
        simp only [List.getLast?_singleton, Option.some.injEq] at hf'
        subst hf'
        cases h2
        exact g5
      | cons a fs =>
        rw [List.getLast?_cons_cons] at hf'
        have := g5' f' hf'
        rwa [e2] at this

end SimTracker
end EkfCal
