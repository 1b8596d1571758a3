import Verif.Model.Ids
import Mathlib.Order.Basic

/-!
# C32: sensor, tracker, frame and feature ids are unique
-/

namespace EkfCal

/-- The ids handed out to one kind, in order. -/
def idsOf (k : IdKind) (l : List (IdKind × Nat)) : List Nat := (l.filter fun x => x.1 = k).map Prod.snd

/-- The first id a kind gets. -/
def IdKind.first : IdKind → Nat
  | .sensor | .tracker => 1
  | .frame | .feature => 0

/-- How many ids a kind's counter can hand out: `unsigned int`, or `int` for features. -/
def IdKind.limit : IdKind → Nat
  | .sensor | .tracker | .frame => 2 ^ 32
  | .feature => 2 ^ 31

namespace IdCounters

/-- The counter of a kind. -/
def of (c : IdCounters) : IdKind → Nat
  | .sensor => c.sensor
  | .tracker => c.tracker
  | .frame => c.frame
  | .feature => c.feature

theorem next_of (c : IdCounters) (k j : IdKind) : (c.next k).2.of j = if j = k then (if k = .feature then c.of k + 1 else succ32 (c.of k)) else c.of j := by
  cases k <;> cases j <;> simp [next, of]

theorem next_id (c : IdCounters) (k : IdKind) (h : c.of k + 1 < k.limit) : (c.next k).1 = c.of k + k.first := by
  cases k <;> simp [next, of, IdKind.first, IdKind.limit, succ32] at h ⊢ <;> omega

theorem run_ids (k : IdKind) (ks : List IdKind) (c : IdCounters) (h : c.of k + (ks.filter (· = k)).length < k.limit) :
    idsOf k (c.run ks) = (List.range (ks.filter (· = k)).length).map fun i => c.of k + k.first + i := by
  induction ks generalizing c with
  | nil => rfl
  | cons j ks ih =>
    by_cases hj : j = k
    · subst hj
      simp only [List.filter_cons, decide_true, if_true, List.length_cons] at h
      have hs : (c.next j).2.of j = c.of j + 1 := by
        rw [next_of, if_pos rfl]
        cases j <;> simp only [IdKind.limit, reduceCtorEq, if_false, if_true, succ32] at h ⊢ <;>
          exact Nat.mod_eq_of_lt (by omega)
      have := ih (c.next j).2 (by rw [hs]; omega)
      simp only [idsOf, run, List.filter_cons, decide_true, if_true, List.map_cons, List.length_cons,
        List.range_succ_eq_map, List.map_map] at this ⊢
      rw [this, next_id c j (by omega), hs]
      refine congrArg₂ _ (by omega) (List.map_congr_left fun i _ => ?_)
      simp only [Function.comp]
      omega
    · have hs : (c.next j).2.of k = c.of k := by rw [next_of, if_neg (Ne.symm hj)]
      have hf : (j :: ks).filter (· = k) = ks.filter (· = k) := by simp [List.filter_cons, hj]
      rw [hf] at h ⊢
      have := ih (c.next j).2 (by rw [hs]; exact h)
      rw [hs] at this
      simpa [idsOf, run, List.filter_cons, hj] using this

end IdCounters

open IdCounters

/-- **Ids of each kind increase strictly over the life of the process**, whatever is constructed in between, as long as
fewer ids of that kind are asked for than its counter can count (2³², or 2³¹ for features); so they are pairwise distinct. -/
theorem C32_increasing (k : IdKind) (ks : List IdKind) (h : (ks.filter (· = k)).length < k.limit) :
    (idsOf k (({} : IdCounters).run ks)).Pairwise (· < ·) := by
  rw [run_ids k ks {} (by cases k <;> simpa [IdCounters.of] using h), List.pairwise_map]
  exact List.pairwise_lt_range.imp fun h => by omega

/-- **One id per request of its kind.** -/
theorem C32_count (k : IdKind) (ks : List IdKind) (h : (ks.filter (· = k)).length < k.limit) :
    (idsOf k (({} : IdCounters).run ks)).length = (ks.filter (· = k)).length := by
  rw [run_ids k ks {} (by cases k <;> simpa [IdCounters.of] using h)]
  simp

/-- **Sensor and tracker ids are at least 1.** -/
theorem C32_positive_partial (k : IdKind) (hk : k = .sensor ∨ k = .tracker) (ks : List IdKind)
    (h : (ks.filter (· = k)).length < k.limit) : ∀ i ∈ idsOf k (({} : IdCounters).run ks), 1 ≤ i := by
  rw [run_ids k ks {} (by cases k <;> simpa [IdCounters.of] using h)]
  intro i hi
  obtain ⟨j, _, rfl⟩ := List.mem_map.1 hi
  rcases hk with rfl | rfl <;> simp only [IdKind.first] <;> omega

/-- **The first frame and the first feature have id 0**, which is also the id of a default clone and a default key. -/
theorem C32_positive_violated : ¬ ∀ (k : IdKind) (ks : List IdKind), (ks.filter (· = k)).length < k.limit →
    ∀ i ∈ idsOf k (({} : IdCounters).run ks), 1 ≤ i := by
  intro h
  have := h .frame [.sensor, .frame] (by decide) 0 (by decide)
  omega

/-- Two sensors, three frames and a feature. -/
example : ({} : IdCounters).run [.sensor, .frame, .sensor, .frame, .feature, .frame] =
    [(.sensor, 1), (.frame, 0), (.sensor, 2), (.frame, 1), (.feature, 0), (.frame, 2)] := by decide

end EkfCal
