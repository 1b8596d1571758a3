import Verif.Lemmas.UMap
import Verif.Lemmas.Mat
import Verif.Spec.Tracks
import Verif.Props.C30

/-!
# Lemmas on track maps
-/

namespace EkfCal

variable {K : Type} [Field K] [LinearOrder K]

theorem observations_append (a b : List (Nat × List (FeaturePoint K))) :
    observations (a ++ b) = observations a ++ observations b := by simp [observations]

theorem mem_observations {l : List (Nat × List (FeaturePoint K))} {p} :
    p ∈ observations l ↔ ∃ e ∈ l, p ∈ e.2 := by simp [observations]

namespace TrackMap

theorem push_sorted {m : TrackMap K} (h : UMap.Sorted m) (id p) : UMap.Sorted (m.push id p) := UMap.insert_sorted _ _ h

theorem mem_push {m : TrackMap K} (h : UMap.Sorted m) {id : Nat} {p} {e : Nat × List (FeaturePoint K)} :
    e ∈ m.push id p ↔ (e.1 ≠ id ∧ e ∈ m) ∨ e = (id, UMap.getD m id [] ++ [p]) := by
  obtain ⟨k, v⟩ := e
  have hs := push_sorted h id p
  rw [← UMap.find?_eq_some_iff hs, ← UMap.find?_eq_some_iff h]
  unfold push
  by_cases hk : k = id
  · subst hk
    rw [UMap.find?_insert_self]
    simp [eq_comm]
  · rw [UMap.find?_insert_ne _ _ hk]
    simp [hk]

theorem observations_insert {m : TrackMap K} (h : UMap.Sorted m) (id : Nat) (p : FeaturePoint K) :
    (observations (UMap.insert m id (UMap.getD m id [] ++ [p]))).Perm (p :: observations m) := by
  induction m with
  | nil => simp [UMap.insert, UMap.getD, UMap.find?, observations]
  | cons e m ih =>
    obtain ⟨k, v⟩ := e
    have hs := UMap.sorted_cons.1 h
    by_cases h1 : id < k
    · have hn : UMap.find? ((k, v) :: m) id = none := by
        apply UMap.find?_none_of_lt
        intro x hx
        rcases List.mem_cons.1 hx with rfl | hx
        · exact h1
        · exact lt_trans h1 (hs.1 x hx)
      simp [UMap.insert, h1, UMap.getD, hn, observations]
    · by_cases h2 : id = k
      · subst h2
        simp only [UMap.insert, lt_irrefl, if_false, if_true, UMap.getD, UMap.find?, observations, List.flatMap_cons,
          Option.getD_some]
        rw [List.append_assoc]
        exact List.perm_middle
      · have hf : UMap.getD ((k, v) :: m) id [] = UMap.getD m id [] := by
          simp [UMap.getD, UMap.find?, Ne.symm h2]
        simp only [UMap.insert, if_neg h1, if_neg h2, hf]
        have := ih hs.2
        simp only [observations, List.flatMap_cons] at this ⊢
        exact (List.Perm.append_left v this).trans List.perm_middle

theorem observations_push {m : TrackMap K} (h : UMap.Sorted m) (id : Nat) (p : FeaturePoint K) :
    (observations (m.push id p)).Perm (p :: observations m) := observations_insert h id p

end TrackMap

/-- The loop that takes finished tracks out, in closed form. -/
def finished (maxLen frameId : Nat) (e : Nat × List (FeaturePoint K)) : Bool :=
  (match e.2.getLast? with | none => false | some l => decide (l.frameId < frameId)) || decide (e.2.length ≥ maxLen)

theorem flush_eq (minLen maxLen frameId : Nat) (m : TrackMap K) (h : ∀ e ∈ m, e.2 ≠ []) :
    flushTracks minLen maxLen frameId m =
      .ok (m.filter fun e => finished maxLen frameId e && decide (e.2.length ≥ minLen),
           m.filter fun e => !finished maxLen frameId e) := by
  induction m with
  | nil => rfl
  | cons e m ih =>
    obtain ⟨id, pts⟩ := e
    have hne := h _ List.mem_cons_self
    obtain ⟨last, hl⟩ : ∃ l, pts.getLast? = some l := by
      cases hp : pts.getLast? with
      | none => exact absurd (List.getLast?_eq_none_iff.1 hp) hne
      | some l => exact ⟨l, rfl⟩
    simp only [flushTracks, hl, ih fun e he => h e (List.mem_cons_of_mem _ he), bind, Except.bind, pure, Except.pure]
    by_cases hc : last.frameId < frameId ∨ pts.length ≥ maxLen
    · have hf : finished maxLen frameId (id, pts) = true := by simpa [finished, hl] using hc
      rw [if_pos hc]
      by_cases hm : pts.length ≥ minLen <;> simp [List.filter_cons, hf, hm]
    · have hf : finished maxLen frameId (id, pts) = false := by
        rw [Bool.eq_false_iff]; simpa [finished, hl] using hc
      rw [if_neg hc]
      simp [List.filter_cons, hf]

/-- What leaves and what stays are disjoint parts of the map. -/
theorem flush_observations {minLen maxLen frameId : Nat} {m : TrackMap K} {out left}
    (h : ∀ e ∈ m, e.2 ≠ []) (hf : flushTracks minLen maxLen frameId m = .ok (out, left)) :
    ∃ l, (observations out ++ observations left).Sublist l ∧ l.Perm (observations m) := by
  rw [flush_eq _ _ _ _ h] at hf
  simp only [Except.ok.injEq, Prod.mk.injEq] at hf
  obtain ⟨rfl, rfl⟩ := hf
  refine ⟨observations (m.filter (finished maxLen frameId) ++ m.filter fun e => !finished maxLen frameId e), ?_, ?_⟩
  · rw [observations_append]
    refine List.Sublist.append ?_ (List.Sublist.refl _)
    unfold observations
    apply List.Sublist.flatMap
    rw [← List.filter_filter]
    rw [List.filter_filter]
    apply List.monotone_filter_right
    intro e he
    simp only [Bool.and_eq_true] at he
    exact he.1
  · exact List.Perm.flatMap_right _ (List.filter_append_perm _ _)

end EkfCal
