import Verif.Lemmas.Progress
import Verif.Lemmas.RealPrim
import Verif.Spec.Samples
import Mathlib.Tactic.Linarith
import Mathlib.Tactic.FieldSimp

/-!
# C17 — interpolated clones lie between their neighbours
-/

set_option linter.unusedSectionVars false

namespace EkfCal
open Ekf
variable {K : Type} [Field K] [LinearOrder K]

/-- The known poses a query is interpolated between, oldest first: the clones, then the current body pose. -/
def Ekf.track (e : Ekf K) : List (AugState K) := e.window e.queryKey ++ [e.poseClone 0]

/-- `a` and `b` are neighbours on the track that enclose time `t`. -/
def Encloses (l : List (AugState K)) (t : K) (a b : AugState K) : Prop :=
  (∃ i : Nat, l[i]? = some a ∧ l[i + 1]? = some b) ∧ a.time ≤ t ∧ t ≤ b.time

theorem getAug_interp (N : Prim K) (e : Ekf K) (cam frame : Nat) (t : K) (hc : ¬ e.ClonesFrame cam) :
    e.getAugState N cam frame t = (interpolateClone N e (e.window e.queryKey) t >>= fun a =>
      pure (a, { e with state := { e.state with augs := e.state.augs.touch e.queryKey [] } })) := by
  unfold getAugState
  rw [if_neg (by exact hc)]
  rfl

theorem bracket_spec (t : K) : ∀ (w : List (AugState K)) (acc : K × AugState K × AugState K) (first last : AugState K),
    (times w).Pairwise (· < ·) → w.head? = some first → w.getLast? = some last → first.time ≤ t → t < last.time →
    ∃ i a b, w[i]? = some a ∧ w[i + 1]? = some b ∧ a.time ≤ t ∧ t < b.time ∧
      bracket t w acc = .ok ((t - a.time) / (b.time - a.time), a, b) := by
  intro w
  induction w with
  | nil => intro acc first last _ h; cases h
  | cons a w ih =>
    intro acc first last hs hf hl h1 h2
    cases w with
    | nil =>
      simp at hf hl; subst hf hl
      exact absurd h1 (not_le.2 h2)
    | cons b rest =>
      simp only [List.head?_cons, Option.some.injEq] at hf
      subst hf
      have hs2 := (List.pairwise_cons.1 hs).2
      have hab : a.time < b.time := (List.pairwise_cons.1 hs).1 b.time (by simp)
      have hl2 : (b :: rest).getLast? = some last := by rw [← hl]; simp
      by_cases hb : b.time ≤ t
      · obtain ⟨i, x, y, g1, g2, g3, g4, _⟩ := ih acc b last hs2 rfl hl2 hb h2
        have hacc : ∀ acc', bracket t (b :: rest) acc' = .ok ((t - x.time) / (y.time - x.time), x, y) := by
          intro acc'
          obtain ⟨i', x', y', g1', g2', g3', g4', g5'⟩ := ih acc' b last hs2 rfl hl2 hb h2
          have : i' = i := by
            have key : ∀ (p q : Nat) (xp yp xq yq : AugState K), (b :: rest)[p]? = some xp → (b :: rest)[p + 1]? = some yp →
                (b :: rest)[q]? = some xq → (b :: rest)[q + 1]? = some yq → xp.time ≤ t → t < yp.time → xq.time ≤ t →
                t < yq.time → ¬ p < q := by
              intro p q xp yp xq yq a1 a2 a3 a4 a5 a6 a7 a8 hpq
              -- yp is at or before xq
              have : yp.time ≤ xq.time := by
                rcases Nat.lt_or_ge (p + 1) q with hlt | hge
                · obtain ⟨b1, b2⟩ := List.getElem?_eq_some_iff.1 a2
                  obtain ⟨c1, c2⟩ := List.getElem?_eq_some_iff.1 a3
                  have := List.pairwise_iff_getElem.1 hs2 (p + 1) q (by simpa [times] using b1) (by simpa [times] using c1) hlt
                  simp only [times, List.getElem_map] at this
                  rw [b2, c2] at this
                  exact this.le
                · have : p + 1 = q := by omega
                  subst this
                  rw [a2] at a3; cases a3; exact le_rfl
              exact absurd (this.trans a7) (not_le.2 a6)
            have k1 := key i' i x' y' x y g1' g2' g1 g2 g3' g4' g3 g4
            have k2 := key i i' x y x' y' g1 g2 g1' g2' g3 g4 g3' g4'
            omega
          subst this
          rw [g1] at g1'; cases g1'
          rw [g2] at g2'; cases g2'
          exact g5'
        refine ⟨i + 1, x, y, by simpa using g1, by simpa using g2, g3, g4, ?_⟩
        unfold bracket
        split
        · rw [if_neg (sub_ne_zero.2 hab.ne')]; exact hacc _
        · exact hacc _
      · have hb' := not_le.1 hb
        refine ⟨0, a, b, rfl, rfl, h1, hb', ?_⟩
        unfold bracket
        rw [if_pos ⟨h1, hb'.le⟩, if_neg (sub_ne_zero.2 hab.ne')]
        -- no later pair matches
        have later : ∀ (l : List (AugState K)) (acc : K × AugState K × AugState K), (∀ x ∈ l, t < x.time) →
            bracket t l acc = .ok acc := by
          intro l
          induction l with
          | nil => intro acc _; rfl
          | cons x l ihl =>
            intro acc hx
            cases l with
            | nil => rfl
            | cons y l =>
              unfold bracket
              rw [if_neg (fun h => absurd h.1 (not_le.2 (hx x (by simp))))]
              exact ihl acc fun z hz => hx z (List.mem_cons_of_mem _ hz)
        refine later _ _ fun x hx => ?_
        rcases List.mem_cons.1 hx with rfl | hx
        · exact hb'
        · exact hb'.trans ((List.pairwise_cons.1 hs2).1 x.time (List.mem_map.2 ⟨x, hx, rfl⟩))

variable [IsStrictOrderedRing K]

/-- The full claim for one query time, with the times on the track strictly increasing: the answer is the
interpolation, with weight `alpha ∈ [0, 1]` proportional to elapsed time, of the two track poses enclosing the query
time, and carries the time asked for and the row index of the older of the two. -/
theorem C17_between_partial (N : Prim K) (e : Ekf K) (cam frame : Nat) (t : K) (hc : ¬ e.ClonesFrame cam)
    (hs : (times e.track).Pairwise (· < ·)) (first : AugState K) (hf : (e.window e.queryKey).head? = some first)
    (h1 : first.time ≤ t) (h2 : t ≤ e.currentTime) :
    ∃ out e' a b, e.getAugState N cam frame t = .ok (out, e') ∧ Encloses e.track t a b ∧
      out.alpha = (t - a.time) / (b.time - a.time) ∧ 0 ≤ out.alpha ∧ out.alpha ≤ 1 ∧
      out.pos = a.pos + out.alpha • (b.pos - a.pos) ∧ out.ang = N.slerp a.ang out.alpha b.ang ∧
      out.time = t ∧ out.index = a.index ∧ a ∈ e.window e.queryKey ∧ (t = a.time → out.alpha = 0) ∧
      (t < e.currentTime → t < b.time) := by
  have hne : e.window e.queryKey ≠ [] := by intro h; rw [h] at hf; cases hf
  obtain ⟨last, hl⟩ : ∃ last, (e.window e.queryKey).getLast? = some last := by
    cases h : (e.window e.queryKey).getLast? with
    | none => exact absurd (List.getLast?_eq_none_iff.1 h) hne
    | some a => exact ⟨a, rfl⟩
  have htr : times e.track = times (e.window e.queryKey) ++ [e.currentTime] := by simp [track, times, poseClone]
  rw [htr, List.pairwise_append] at hs
  have hlast : last ∈ e.window e.queryKey := List.mem_of_getLast? hl
  have hlt : last.time < e.currentTime := hs.2.2 last.time (List.mem_map.2 ⟨last, hlast, rfl⟩) e.currentTime (by simp)
  have alpha01 : ∀ a b : K, a ≤ t → t ≤ b → a < b → 0 ≤ (t - a) / (b - a) ∧ (t - a) / (b - a) ≤ 1 := by
    intro a b h1 h2 h3
    have hp : 0 < b - a := sub_pos.2 h3
    exact ⟨div_nonneg (sub_nonneg.2 h1) hp.le, (div_le_one hp).2 (sub_le_sub_right h2 a)⟩
  suffices hm : ∃ out a b, interpolateClone N e (e.window e.queryKey) t = .ok out ∧ Encloses e.track t a b ∧
      out.alpha = (t - a.time) / (b.time - a.time) ∧ 0 ≤ out.alpha ∧ out.alpha ≤ 1 ∧
      out.pos = a.pos + out.alpha • (b.pos - a.pos) ∧ out.ang = N.slerp a.ang out.alpha b.ang ∧
      out.time = t ∧ out.index = a.index ∧ a ∈ e.window e.queryKey ∧ (t = a.time → out.alpha = 0) ∧
      (t < e.currentTime → t < b.time) by
    obtain ⟨out, a, b, ho, rest⟩ := hm
    refine ⟨out, { e with state := { e.state with augs := e.state.augs.touch e.queryKey [] } }, a, b, ?_, rest⟩
    rw [getAug_interp N e cam frame t hc, ho]; rfl
  unfold interpolateClone
  rw [hf, hl]
  dsimp only
  rw [if_neg (not_lt.2 h1)]
  by_cases hc2 : t < last.time
  · obtain ⟨i, a, b, g1, g2, g3, g4, g5⟩ :=
      bracket_spec t (e.window e.queryKey) (0, AugState.default, AugState.default) first last hs.1 hf hl h1 hc2
    rw [if_pos hc2, g5]
    obtain ⟨b1, b2⟩ := List.getElem?_eq_some_iff.1 g2
    obtain ⟨al0, al1⟩ := alpha01 a.time b.time g3 g4.le (lt_of_le_of_lt g3 g4)
    refine ⟨_, a, b, rfl, ⟨⟨i, ?_, ?_⟩, g3, g4.le⟩, rfl, al0, al1, rfl, rfl, rfl, rfl, List.mem_of_getElem? g1, ?_, fun _ => g4⟩
    · unfold track; rw [List.getElem?_append_left (by omega)]; exact g1
    · unfold track; rw [List.getElem?_append_left b1]; exact g2
    · intro ht; show (t - a.time) / _ = 0; rw [ht, sub_self, zero_div]
  · rw [if_neg hc2, if_neg (sub_ne_zero.2 hlt.ne')]
    obtain ⟨al0, al1⟩ := alpha01 last.time e.currentTime (not_lt.1 hc2) h2 hlt
    refine ⟨_, last, e.poseClone 0, rfl, ⟨⟨(e.window e.queryKey).length - 1, ?_, ?_⟩, not_lt.1 hc2, h2⟩, rfl, al0, al1, rfl,
      rfl, rfl, rfl, hlast, ?_, fun h => h⟩
    · have hp : 0 < (e.window e.queryKey).length := List.length_pos_iff.2 hne
      unfold track
      rw [List.getElem?_append_left (by omega), ← List.getLast?_eq_getElem?]; exact hl
    · have hp : 0 < (e.window e.queryKey).length := List.length_pos_iff.2 hne
      unfold track
      rw [show (e.window e.queryKey).length - 1 + 1 = (e.window e.queryKey).length by omega]
      simp
    · intro ht; show (t - last.time) / _ = 0; rw [ht, sub_self, zero_div]

/-- A query before the oldest clone returns the oldest clone's position and index. -/
theorem C17_before (N : Prim K) (e : Ekf K) (cam frame : Nat) (t : K) (hc : ¬ e.ClonesFrame cam)
    (first : AugState K) (hf : (e.window e.queryKey).head? = some first) (h1 : t < first.time) :
    ∃ out e', e.getAugState N cam frame t = .ok (out, e') ∧ out.pos = first.pos ∧ out.index = first.index ∧ out.alpha = 0 := by
  obtain ⟨last, hl⟩ : ∃ last, (e.window e.queryKey).getLast? = some last := by
    cases h : (e.window e.queryKey).getLast? with
    | none => rw [List.getLast?_eq_none_iff.1 h] at hf; cases hf
    | some a => exact ⟨a, rfl⟩
  rw [getAug_interp N e cam frame t hc]
  have : ∃ out, interpolateClone N e (e.window e.queryKey) t = .ok out ∧ out.pos = first.pos ∧
      out.index = first.index ∧ out.alpha = 0 := by
    unfold interpolateClone
    rw [hf, hl]
    dsimp only
    rw [if_pos h1]
    exact ⟨_, rfl, by simp, rfl, rfl⟩
  obtain ⟨out, ho, h2, h3, h4⟩ := this
  rw [ho]
  exact ⟨out, _, rfl, h2, h3, h4⟩

/-- Eigen's spherical interpolation at weight 0 is the first pose, exactly. -/
theorem slerp_zero (a b : Quat ℝ) : slerp a 0 b = a := by
  unfold slerp
  by_cases h : |a.w * b.w + a.x * b.x + a.y * b.y + a.z * b.z| ≥ 1 - 1 / 2 ^ 52
  · simp only [h, if_true]; ext <;> simp
  · simp only [h, if_false]
    have hs : Real.sin (Real.arccos |a.w * b.w + a.x * b.x + a.y * b.y + a.z * b.z|) ≠ 0 := by
      rw [Real.sin_arccos]
      have h1 : |a.w * b.w + a.x * b.x + a.y * b.y + a.z * b.z| < 1 := by
        have : (0 : ℝ) < 1 / 2 ^ 52 := by positivity
        linarith [not_le.1 h]
      have h0 := abs_nonneg (a.w * b.w + a.x * b.x + a.y * b.y + a.z * b.z)
      exact (Real.sqrt_pos.2 (by nlinarith)).ne'
    ext <;> simp [hs]

/-- Exact at clone times (with the real spherical interpolation): asking for the time of a clone returns its pose. -/
theorem C17_exact_partial (e : Ekf ℝ) (cam frame : Nat) (hc : ¬ e.ClonesFrame cam)
    (hs : (times e.track).Pairwise (· < ·)) (c : AugState ℝ) (hm : c ∈ e.window e.queryKey) :
    ∃ out e', e.getAugState realPrim cam frame c.time = .ok (out, e') ∧ out.pos = c.pos ∧ out.ang = c.ang ∧
      out.index = c.index ∧ out.time = c.time := by
  have htr : times e.track = times (e.window e.queryKey) ++ [e.currentTime] := by simp [track, times, poseClone]
  have hs' := hs
  rw [htr, List.pairwise_append] at hs'
  have hlt : c.time < e.currentTime := hs'.2.2 c.time (List.mem_map.2 ⟨c, hm, rfl⟩) e.currentTime (by simp)
  obtain ⟨first, hf⟩ : ∃ first, (e.window e.queryKey).head? = some first := by
    cases h : e.window e.queryKey with
    | nil => rw [h] at hm; cases hm
    | cons a l => exact ⟨a, rfl⟩
  have hfirst : first.time ≤ c.time := by
    cases h : e.window e.queryKey with
    | nil => rw [h] at hm; cases hm
    | cons a l =>
      rw [h] at hf hm
      simp only [List.head?_cons, Option.some.injEq] at hf
      subst hf
      rcases List.mem_cons.1 hm with rfl | hm
      · exact le_rfl
      · have := hs'.1
        rw [h] at this
        exact ((List.pairwise_cons.1 this).1 c.time (List.mem_map.2 ⟨c, hm, rfl⟩)).le
  obtain ⟨out, e', a, b, h1, ⟨⟨i, ha, hb⟩, h2, h3⟩, h4, h5, h6, h7, h8, h9, h10, h11, h12, h13⟩ :=
    C17_between_partial realPrim e cam frame c.time hc hs first hf hfirst hlt.le
  -- the older neighbour is `c` itself, or the younger one is
  obtain ⟨j, hj⟩ := List.getElem?_of_mem hm
  obtain ⟨j1, j2⟩ := List.getElem?_eq_some_iff.1 hj
  have hjt : e.track[j]? = some c := by unfold track; rw [List.getElem?_append_left j1]; exact hj
  have mono : ∀ (p q : Nat) (x y : AugState ℝ), e.track[p]? = some x → e.track[q]? = some y → p < q → x.time < y.time := by
    intro p q x y hx hy hpq
    obtain ⟨b1, b2⟩ := List.getElem?_eq_some_iff.1 hx
    obtain ⟨c1, c2⟩ := List.getElem?_eq_some_iff.1 hy
    have := List.pairwise_iff_getElem.1 hs p q (by simpa [times] using b1) (by simpa [times] using c1) hpq
    simp only [times, List.getElem_map] at this
    rw [b2, c2] at this
    exact this
  have hi : j = i := by
    rcases Nat.lt_trichotomy j i with hlt' | heq | hgt
    · exact absurd h2 (not_le.2 (mono j i c a hjt ha hlt'))
    · exact heq
    · have hb' := h13 hlt
      rcases Nat.lt_or_ge (i + 1) j with h' | h'
      · exact absurd (mono (i + 1) j b c hb hjt h') (not_lt.2 hb'.le)
      · have : i + 1 = j := by omega
        subst this
        rw [hb] at hjt; cases hjt
        exact absurd hb' (lt_irrefl _)
  subst hi
  rw [hjt] at ha; cases ha
  have hz := h12 rfl
  refine ⟨out, e', h1, ?_, ?_, h10, h9⟩
  · rw [h7, hz]; simp
  · rw [h8, hz]; exact slerp_zero _ _

/-- Violated: asking a filter that has no clone yet is undefined behaviour (`[0]` on an empty vector). -/
theorem C17_empty_violated (N : Prim K) (e : Ekf K) (cam frame : Nat) (t : K) (hc : ¬ e.ClonesFrame cam)
    (hw : e.window e.queryKey = []) : e.getAugState N cam frame t = .error .emptyVector := by
  rw [getAug_interp N e cam frame t hc, hw]; rfl

/-- Violated: asking for the current time right after a clone was taken divides zero by zero. -/
theorem C17_now_violated (N : Prim K) (e : Ekf K) (cam frame : Nat) (hc : ¬ e.ClonesFrame cam)
    (first last : AugState K) (hf : (e.window e.queryKey).head? = some first) (hl : (e.window e.queryKey).getLast? = some last)
    (h1 : first.time ≤ e.currentTime) (h2 : last.time = e.currentTime) :
    e.getAugState N cam frame e.currentTime = .error .nonFinite := by
  rw [getAug_interp N e cam frame _ hc]
  unfold interpolateClone
  rw [hf, hl]
  dsimp only
  rw [if_neg (not_lt.2 h1), if_neg (not_lt.2 h2.le), if_pos (by rw [h2, sub_self])]
  rfl

/-- Both happen: with time-driven cloning a fresh filter has no clone, and right after the first prediction the clone is
as young as the clock. -/
theorem C17_violated :
    (init Samples.prim (Samples.params .time false)).getAugState Samples.prim 1 1 0 = .error .emptyVector ∧
    ∃ e : Ekf ℚ, run Samples.prim (init Samples.prim (Samples.params .time false)) [.predict 1] = .ok e ∧
      (e.getAugState Samples.prim 1 1 1 matches .error .nonFinite) = true := by
  refine ⟨rfl, ?_⟩
  exact Samples.ok_of_check (by decide +kernel)

/-- A track with two clones and the body that meets the hypotheses of `C17_between_partial`. -/
example : ∃ e : Ekf ℚ, run Samples.prim (init Samples.prim (Samples.params .time false))
    [.registerCamera 7 Samples.cam (Samples.cov 6), .setMaxTrackLength 20, .predict 1, .frame 7 1, .predict 3, .predict 4] = .ok e ∧
    (times e.track = [1, 3, 4] ∧ e.queryKey = 0 ∧ e.augType = .time) := by
  exact Samples.ok_of_check (by decide +kernel)

end EkfCal
