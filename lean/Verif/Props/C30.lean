import Mathlib.Algebra.Order.Field.Basic
import Mathlib.Algebra.BigOperators.Group.List.Basic
import Mathlib.Algebra.Order.BigOperators.Group.List
import Mathlib.Tactic.Linarith
import Mathlib.Tactic.FieldSimp
import Mathlib.Algebra.Order.Ring.Rat
import Verif.Lemmas.Mat
import Verif.Lemmas.RealPrim
import Verif.Spec.Matches
import Verif.Spec.Samples

/-!
# C30: the match filters accept exactly the intended matches
-/

namespace EkfCal

variable {K : Type} [Field K] [LinearOrder K]

theorem foldl_add (l : List K) (a : K) : l.foldl (· + ·) a = a + l.sum := by
  induction l generalizing a with
  | nil => simp
  | cons x l ih => rw [List.foldl_cons, ih, List.sum_cons, add_assoc]

open Classical in
/-- **Symmetry test**: the best matches of the confirmed forward lists, in forward order, one for each list. -/
theorem C30_symmetry (fwd bwd : List (List (DMatch K))) :
    symmetryTest fwd bwd = (fwd.filter fun f => decide (Confirmed bwd f)).filterMap List.head? := by
  have key : ∀ f, bwd.any (symmetric f) = decide (Confirmed bwd f) := by
    intro f
    rw [Bool.eq_iff_iff, List.any_eq_true, decide_eq_true_iff]
    constructor
    · rintro ⟨b, hb, hs⟩
      unfold symmetric at hs
      split at hs
      · rename_i f0 f1 b0 b1
        simp only [Bool.decide_and, Bool.and_eq_true, decide_eq_true_eq] at hs
        exact ⟨f0, f1, rfl, b0, b1, hb, hs.2, hs.1.symm⟩
      · cases hs
    · rintro ⟨f0, f1, rfl, b0, b1, hb, h1, h2⟩
      exact ⟨_, hb, by simp [symmetric, h1, h2]⟩
  unfold symmetryTest
  rw [List.filterMap_filter]
  congr 1
  funext f
  rw [key]

/-- **Symmetry test, on nearest neighbour lists**: no query and no train key point is used by two results. -/
theorem C30_symmetry_injective (fwd bwd : List (List (DMatch K))) (hf : KnnLists fwd) (hb : KnnLists bwd) :
    ((symmetryTest fwd bwd).map DMatch.query).Nodup ∧ ((symmetryTest fwd bwd).map DMatch.train).Nodup := by
  classical
  have main : (symmetryTest fwd bwd).Pairwise fun a b => a.query ≠ b.query ∧ a.train ≠ b.train := by
    have hpw : fwd.Pairwise fun f g => ∀ a ∈ f, ∀ b ∈ g, a.query ≠ b.query := by
      rw [List.pairwise_iff_getElem]
      intro i j hi hj hij a ha b hbb e
      have h1 := ((hf i _ (List.getElem?_eq_getElem hi)).2 a ha).1
      have h2 := ((hf j _ (List.getElem?_eq_getElem hj)).2 b hbb).1
      omega
    have conf : ∀ f a, Confirmed bwd f → f.head? = some a →
        a ∈ f ∧ ∃ b0 b1, [b0, b1] ∈ bwd ∧ b0.query = a.train ∧ b0.train = a.query := by
      rintro f a ⟨f0, f1, rfl, b0, b1, h1, h2, h3⟩ he
      simp only [List.head?_cons, Option.some.injEq] at he
      subst he
      exact ⟨by simp, b0, b1, h1, h2, h3⟩
    rw [C30_symmetry]
    rw [List.pairwise_filterMap]
    have hpw' := (hpw.filter (fun f => decide (Confirmed bwd f)))
    refine hpw'.imp_of_mem ?_
    intro f g hfm hgm hne a ha b hb'
    simp only [List.mem_filter, decide_eq_true_eq] at hfm hgm
    obtain ⟨ma, a0, a1, p1, p2, p3⟩ := conf f a hfm.2 ha
    obtain ⟨mb, b0, b1, q1, q2, q3⟩ := conf g b hgm.2 hb'
    refine ⟨hne a ma b mb, fun e => hne a ma b mb ?_⟩
    obtain ⟨i, hi, hie⟩ := List.getElem_of_mem p1
    obtain ⟨j, hj, hje⟩ := List.getElem_of_mem q1
    have r1 := ((hb i _ (List.getElem?_eq_getElem hi)).2 a0 (by rw [hie]; simp)).1
    have r2 := ((hb j _ (List.getElem?_eq_getElem hj)).2 b0 (by rw [hje]; simp)).1
    have hij : i = j := by rw [← r1, ← r2, p2, q2, e]
    subst hij
    have : a0 = b0 := by
      have := hie.symm.trans hje
      simpa using (List.cons.inj this).1
    rw [← p3, ← q3, this]
  constructor
  · rw [List.Nodup, List.pairwise_map]; exact main.imp fun h => h.1
  · rw [List.Nodup, List.pairwise_map]; exact main.imp fun h => h.2

theorem keyAt_ok (keys : List (KeyPoint K)) (i : Nat) (h : i < keys.length) : keyAt keys i = .ok keys[i] := by
  simp [keyAt, List.getElem?_eq_getElem h]

theorem motion_ok (N : Prim K) (prev curr : List (KeyPoint K)) (m : DMatch K) (h : InRange prev curr m) :
    motion N prev curr m = .ok (displacement N prev curr m) := by
  simp [motion, keyAt_ok _ _ h.1, keyAt_ok _ _ h.2, displacement, List.getElem?_eq_getElem h.1,
    List.getElem?_eq_getElem h.2, bind, Except.bind, pure, Except.pure]

theorem mapM_ok {α β : Type} (f : α → Res β) (g : α → β) (l : List α) (h : ∀ a ∈ l, f a = .ok (g a)) :
    l.mapM f = .ok (l.map g) := by
  induction l with
  | nil => rfl
  | cons a l ih =>
    rw [List.mapM_cons, h a List.mem_cons_self, ih fun b hb => h b (List.mem_cons_of_mem _ hb)]
    rfl

/-- **Distance test**: exactly the matches that moved less than three times the mean, in order. -/
theorem C30_distance (N : Prim K) (prev curr : List (KeyPoint K)) (ms : List (DMatch K))
    (h : ∀ m ∈ ms, InRange prev curr m) :
    distanceTest N prev curr ms = .ok (ms.filter fun m =>
      displacement N prev curr m < mean (ms.map (displacement N prev curr)) * 3) := by
  unfold distanceTest
  rw [mapM_ok _ _ _ fun m hm => motion_ok N prev curr m (h m hm)]
  show Except.ok _ = Except.ok _
  rw [foldl_add, zero_add]
  simp only [mean, List.length_map]
  generalize hc : (ms.map (displacement N prev curr)).sum / (ms.length : K) * 3 = c
  clear hc h
  congr 1
  induction ms with
  | nil => rfl
  | cons m ms ih =>
    simp only [List.map_cons, List.zip_cons_cons, List.filter_cons]
    split_ifs <;> simp [ih]

variable [IsStrictOrderedRing K]

theorem ratioAbove_iff (a b r : K) (hb : 0 ≤ b) : ratioAbove a b r = true ↔ ¬ a ≤ r * b := by
  unfold ratioAbove
  split_ifs with h
  · subst h; simp
  · have hb' : 0 < b := lt_of_le_of_ne hb (Ne.symm h)
    rw [decide_eq_true_eq, lt_div_iff₀ hb', not_le]

open Classical in
/-- **Ratio test**: on nearest neighbour lists (at most two candidates, distances not negative) a list is kept as it is if
it has two candidates and the better one passes the ratio, and is emptied otherwise. -/
theorem C30_ratio (r : K) (ms : List (List (DMatch K))) (h : ∀ m ∈ ms, m.length ≤ 2 ∧ ∀ d ∈ m, 0 ≤ d.distance) :
    ratioTest r ms = ms.map fun m => if PassesRatio r m then m else [] := by
  unfold ratioTest
  apply List.map_congr_left
  intro m hm
  obtain ⟨h1, h2⟩ := h m hm
  match m, h1, h2 with
  | [], _, _ => simp
  | [a], _, _ =>
    rw [if_neg]
    rintro ⟨x, y, e, _⟩
    simp at e
  | [a, b], _, h2 =>
    have := ratioAbove_iff a.distance b.distance r (h2 b (by simp))
    by_cases hp : a.distance ≤ r * b.distance
    · rw [if_pos ⟨a, b, rfl, hp⟩]
      show (if ratioAbove a.distance b.distance r = true then [] else _) = _
      rw [if_neg (by rw [this]; simpa using hp)]
    · rw [if_neg (by rintro ⟨x, y, e, hxy⟩; simp at e; obtain ⟨rfl, rfl⟩ := e; exact hp hxy)]
      show (if ratioAbove a.distance b.distance r = true then [] else _) = _
      rw [if_pos (this.2 hp)]
  | _ :: _ :: _ :: _, h1, _ => simp at h1

/-- **Ratio and symmetry together**: a match survives if and only if it is the best of a forward list that passes the
ratio, and a backward list that passes the ratio confirms it. -/
theorem C30_ratio_symmetry (r : K) (fwd bwd : List (List (DMatch K))) (hf : KnnLists fwd) (hb : KnnLists bwd)
    (m : DMatch K) :
    m ∈ symmetryTest (ratioTest r fwd) (ratioTest r bwd) ↔
      ∃ f ∈ fwd, PassesRatio r f ∧ f.head? = some m ∧
        ∃ b ∈ bwd, PassesRatio r b ∧ ∃ b0, b.head? = some b0 ∧ b0.query = m.train ∧ b0.train = m.query := by
  classical
  have hk : ∀ {ms : List (List (DMatch K))}, KnnLists ms → ∀ m ∈ ms, m.length ≤ 2 ∧ ∀ d ∈ m, 0 ≤ d.distance := by
    intro ms h m hm
    obtain ⟨i, hi, rfl⟩ := List.getElem_of_mem hm
    have := h i _ (List.getElem?_eq_getElem hi)
    exact ⟨this.1, fun d hd => (this.2 d hd).2⟩
  rw [C30_symmetry, C30_ratio r fwd (hk hf), C30_ratio r bwd (hk hb)]
  simp only [List.mem_filterMap, List.mem_filter, List.mem_map, decide_eq_true_eq]
  constructor
  · rintro ⟨_, ⟨⟨f, hfm, rfl⟩, f0, f1, hfe, b0, b1, hbm, h1, h2⟩, hh⟩
    have hp : PassesRatio r f := by
      by_contra hp; rw [if_neg hp] at hfe; cases hfe
    rw [if_pos hp] at hh
    rw [if_pos hp] at hfe
    subst hfe
    simp only [List.head?_cons, Option.some.injEq] at hh
    subst hh
    obtain ⟨b, hbm, hbe⟩ := List.mem_map.1 hbm
    have hq : PassesRatio r b := by
      by_contra hq; rw [if_neg hq] at hbe; cases hbe
    rw [if_pos hq] at hbe
    subst hbe
    exact ⟨_, hfm, hp, rfl, _, hbm, hq, b0, rfl, h1, h2⟩
  · rintro ⟨f, hfm, hp, hh, b, hbm, hq, b0, hb0, h1, h2⟩
    obtain ⟨f0, f1, rfl, _⟩ := id hp
    obtain ⟨c0, c1, rfl, _⟩ := id hq
    simp only [List.head?_cons, Option.some.injEq] at hh hb0
    subst hh; subst hb0
    exact ⟨[f0, f1], ⟨⟨_, hfm, if_pos hp⟩, f0, f1, rfl, c0, c1, List.mem_map.2 ⟨_, hbm, if_pos hq⟩, h1, h2⟩, rfl⟩

/-- A list of numbers, not all zero and none negative, has a member below three times its mean. -/
theorem exists_below_mean (l : List K) (h0 : ∀ x ∈ l, 0 ≤ x) (h1 : ∃ x ∈ l, x ≠ 0) : ∃ x ∈ l, x < mean l * 3 := by
  by_contra hc
  push Not at hc
  have hlen : 0 < (l.length : K) := by
    obtain ⟨x, hx, _⟩ := h1
    exact_mod_cast List.length_pos_of_mem hx
  have hs : ∀ (c : K) (l : List K), (∀ x ∈ l, c ≤ x) → (l.length : K) * c ≤ l.sum := by
    intro c l
    induction l with
    | nil => intro _; simp
    | cons a l ih =>
      intro h
      have := ih fun x hx => h x (List.mem_cons_of_mem _ hx)
      have := h a List.mem_cons_self
      simp only [List.length_cons, List.sum_cons]; push_cast; linarith
  have h3 := hs _ l hc
  have hm : (l.length : K) * mean l = l.sum := by unfold mean; field_simp
  have hnn : 0 ≤ l.sum := List.sum_nonneg h0
  have hz : l.sum = 0 := by nlinarith
  obtain ⟨x, hx, hne⟩ := h1
  have hle := List.single_le_sum h0 x hx
  exact hne (le_antisymm (hz ▸ hle) (h0 x hx))

/-- **The distance test never drops everything that moves**: if some key point moved, some match survives. -/
theorem C30_distance_keeps (N : Prim K) (prev curr : List (KeyPoint K)) (ms : List (DMatch K))
    (h : ∀ m ∈ ms, InRange prev curr m) (h0 : ∀ m ∈ ms, 0 ≤ displacement N prev curr m)
    (h1 : ∃ m ∈ ms, displacement N prev curr m ≠ 0) :
    ∃ out, distanceTest N prev curr ms = .ok out ∧ out ≠ [] := by
  refine ⟨_, C30_distance N prev curr ms h, ?_⟩
  obtain ⟨x, hx, hlt⟩ := exists_below_mean (ms.map (displacement N prev curr)) (by simpa using h0) (by
    obtain ⟨m, hm, hne⟩ := h1
    exact ⟨_, List.mem_map_of_mem hm, hne⟩)
  obtain ⟨m, hm, rfl⟩ := List.mem_map.1 hx
  exact List.ne_nil_of_mem (List.mem_filter.2 ⟨hm, by simpa using hlt⟩)

omit [IsStrictOrderedRing K] in
/-- **It drops everything when nothing moves**: zero is not below three times zero.  A camera at rest loses every match. -/
theorem C30_distance_still (N : Prim K) (prev curr : List (KeyPoint K)) (ms : List (DMatch K))
    (h : ∀ m ∈ ms, InRange prev curr m) (h0 : ∀ m ∈ ms, displacement N prev curr m = 0) :
    distanceTest N prev curr ms = .ok [] := by
  rw [C30_distance N prev curr ms h]
  congr 1
  rw [List.filter_eq_nil_iff]
  intro m hm
  have : (ms.map (displacement N prev curr)).sum = 0 := by
    rw [List.map_congr_left h0]; simp
  simp [h0 m hm, mean, this]

/-- Lists that meet the hypotheses: the first pair is confirmed, the second fails the ratio, the third is not confirmed. -/
example :
    let fwd : List (List (DMatch ℚ)) := [[⟨0, 1, 1⟩, ⟨0, 2, 9⟩], [⟨1, 0, 5⟩, ⟨1, 2, 6⟩], [⟨2, 1, 1⟩, ⟨2, 0, 7⟩]]
    let bwd : List (List (DMatch ℚ)) := [[⟨0, 1, 5⟩, ⟨0, 2, 10⟩], [⟨1, 0, 1⟩, ⟨1, 2, 8⟩], [⟨2, 0, 9⟩]]
    symmetryTest (ratioTest (7/10) fwd) (ratioTest (7/10) bwd) = [⟨0, 1, 1⟩] := by decide +kernel

/-- Key points and a match that meet the hypotheses of `C30_distance` and `C30_distance_keeps`. -/
example :
    let prev : List (KeyPoint ℝ) := [⟨0, 0, none⟩]
    let curr : List (KeyPoint ℝ) := [⟨1, 1, none⟩, ⟨3, 4, none⟩]
    InRange prev curr ⟨0, 1, 0⟩ ∧ displacement realPrim prev curr ⟨0, 1, 0⟩ = 5 := by
  refine ⟨⟨by simp, by simp⟩, ?_⟩
  show Real.sqrt ((3 - 0) ^ 2 + (4 - 0) ^ 2) = 5
  rw [show ((3 : ℝ) - 0) ^ 2 + (4 - 0) ^ 2 = 5 * 5 by norm_num, Real.sqrt_mul_self (by norm_num)]

end EkfCal
