import Verif.Lemmas.Smoother
import Verif.Spec.Samples
import Mathlib.Algebra.Field.Rat
import Mathlib.Algebra.Order.Ring.Rat
import Mathlib.Data.Rat.Floor
import Mathlib.Tactic.NormNum

/-!
# C41: the tabulated truth stays inside its tables

Partial: see the `_violated` theorems for the last table entry, for `MaxAcceleration`, for short tables, for samples at the
first control point and for the ends of the sliding window.
-/

namespace EkfCal

section
variable {K : Type} [Field K] [LinearOrder K] [IsStrictOrderedRing K]

/-- Sampling a polyline: with control points at increasing times, samples at non-decreasing times give as many entries, each
the point of the polyline at its time, or zero outside. -/
theorem C41_interpolate_partial (samples times : List K) (vectors : List (V3 K)) (first last : K)
    (hs : times.Pairwise (· < ·)) (hm : samples.Pairwise (· ≤ ·)) (hf : times[0]? = some first)
    (hl : times.getLast? = some last) (hv : times.length ≤ vectors.length) :
    ∃ out, interpolateVectors samples times vectors = .ok out ∧ out.length = samples.length ∧
      List.Forall₂ (SampleOf times vectors first last) samples out := by
  obtain ⟨out, h, hf2⟩ := interpLoop_spec times vectors first last hs hf hl hv samples hm 0
    ⟨first, hf, fun s _ h => h.le⟩
  exact ⟨out, h, hf2.length_eq.symm, hf2⟩

/-- Differences: at least two values at increasing times give as many derivatives; each is the difference quotient to the
next value, and the last repeats the one before. -/
theorem C41_derivative_partial (times : List K) (values : List (V3 K)) (hs : times.Pairwise (· < ·))
    (hl : values.length ≤ times.length) (h2 : 2 ≤ values.length) :
    ∃ ds, derivative times values = .ok ds ∧ ds.length = values.length ∧
      (∀ k, k + 1 < values.length → ∃ t0 t1 a b d, times[k]? = some t0 ∧ times[k + 1]? = some t1 ∧ t0 < t1 ∧
        values[k]? = some a ∧ values[k + 1]? = some b ∧ ds[k]? = some d ∧ (t1 - t0) • d = b - a) ∧
      ds[values.length - 1]? = ds[values.length - 2]? := by
  obtain ⟨ds, hd, hdl, hds⟩ := derivLoop_spec times hs 0 values (by omega)
  have hne : values ≠ [] := by rintro rfl; simp at h2
  have hdne : ds ≠ [] := by rintro rfl; simp at hdl; omega
  obtain ⟨d, hlast⟩ : ∃ d, ds.getLast? = some d := ⟨_, List.getLast?_eq_getLast_of_ne_nil hdne⟩
  refine ⟨ds ++ [d], ?_, by simp [hdl]; omega, ?_, ?_⟩
  · rw [derivative, guardUB_true hne, ok_bind, hd, ok_bind, hlast]
    rfl
  · intro k hk
    obtain ⟨t0, t1, a, b, d', h0, h1, hlt, ha, hb, hd', he⟩ := hds k hk
    refine ⟨t0, t1, a, b, d', by simpa using h0, by simpa using h1, hlt, ha, hb, ?_, he⟩
    rw [List.getElem?_append_left (by omega)]
    exact hd'
  · rw [List.getElem?_append_right (by omega), List.getElem?_append_left (by omega), hdl, Nat.sub_self]
    rw [List.getLast?_eq_getElem?, hdl] at hlast
    rw [show values.length - 2 = values.length - 1 - 1 by omega, hlast]
    rfl

end

section
variable {K : Type} [Field K] [LinearOrder K]

/-- Sliding window: the result is as long as the data, and each entry is the mean of its window, where entries outside the
data count as zero. -/
theorem C41_window_partial (data : List (V3 K)) (b : Nat) (hb : 2 * b + 1 < 2 ^ 32) :
    ∃ out padded, slidingWindow data b = .ok (out, padded) ∧ out.length = data.length ∧
      ∀ i, i < data.length → out[i]? = some (((2 * b + 1 : Nat) : K)⁻¹ •
        ∑ j ∈ Finset.range (2 * b + 1), entryOr0 data ((i : Int) + j - b)) := by
  set padded := List.replicate b (0 : V3 K) ++ data ++ List.replicate b 0 with hp
  have hpl : padded.length = data.length + 2 * b := by simp [hp]; omega
  have hmap := mapM_ok_of (fun i => (do
      let s ← windowSum padded i (2 * b + 1)
      pure (((2 * b + 1 : Nat) : K)⁻¹ • s) : Res (V3 K)))
    (fun i => ((2 * b + 1 : Nat) : K)⁻¹ • ∑ j ∈ Finset.range (2 * b + 1), padded.getD (i + j) 0)
    (List.range data.length) (fun i hi => by
      have := List.mem_range.1 hi
      show (do let s ← windowSum padded i (2 * b + 1); pure (((2 * b + 1 : Nat) : K)⁻¹ • s) : Res (V3 K)) = _
      rw [windowSum_spec _ _ _ (by omega)]
      rfl)
  refine ⟨(List.range data.length).map
    (fun i => ((2 * b + 1 : Nat) : K)⁻¹ • ∑ j ∈ Finset.range (2 * b + 1), padded.getD (i + j) 0), padded, ?_, ?_, ?_⟩
  · rw [slidingWindow]
    rw [← hp, Nat.mod_eq_of_lt hb, Nat.mod_eq_of_lt (by omega), hpl, Nat.add_sub_cancel, hmap]
    rfl
  · simp
  · intro i hi
    rw [List.getElem?_map, List.getElem?_range hi, Option.map_some]
    congr 2
    refine Finset.sum_congr rfl fun j _ => ?_
    rw [padded_getD]
    rfl

end

section
variable {K : Type} [Field K] [LinearOrder K] [IsStrictOrderedRing K] [FloorRing K]

omit [IsStrictOrderedRing K] in
theorem truncInt_nonneg {x : K} (h : 0 ≤ x) : truncInt x = ⌊x⌋ := if_pos h

/-- A query before the last entry of its table returns a point between the two entries around it. -/
theorem C41_query_partial (s : Smoother K) (values : List (V3 K)) (time : K) (hr : 0 < s.rate) (h0 : 0 ≤ time)
    (hn : values.length < 2 ^ 32) (hin : time * s.rate < (values.length : K) - 1) :
    ∃ v a b, s.interpolated time values = .ok v ∧ values[⌊time * s.rate⌋.toNat]? = some a ∧
      values[⌊time * s.rate⌋.toNat + 1]? = some b ∧ OnSegment a b v ∧
      v = a + (time * s.rate - ⌊time * s.rate⌋) • (b - a) := by
  have hx : 0 ≤ time * s.rate := mul_nonneg h0 hr.le
  have hfl : 0 ≤ ⌊time * s.rate⌋ := Int.floor_nonneg.2 hx
  obtain ⟨k, hk⟩ := Int.eq_ofNat_of_zero_le hfl
  have hkl : k + 1 < values.length := by
    have h1 : ((⌊time * s.rate⌋ : Int) : K) ≤ time * s.rate := Int.floor_le _
    rw [hk] at h1
    have h2 : ((k + 1 : Nat) : K) < (values.length : K) := by push_cast; push_cast at h1; linarith
    exact_mod_cast h2
  have hmod : (k + 1) % 2 ^ 32 = k + 1 := Nat.mod_eq_of_lt (by omega)
  refine ⟨_, values[k], values[k + 1], ?_, ?_, ?_, ?_, rfl⟩
  · rw [Smoother.interpolated]
    rw [truncInt_nonneg hx, guardUB_true (by constructor <;> omega), ok_bind, hk, Int.toNat_natCast, hmod,
      readAt_lt (l := values) (i := k) (by omega), ok_bind, readAt_lt hkl, ok_bind]
    show Except.ok _ = Except.ok _
    congr 1
    module
  · rw [hk]; simp [show k < values.length by omega]
  · rw [hk]; simp [hkl]
  · exact ⟨_, sub_nonneg.2 (Int.floor_le _), by linarith [Int.lt_floor_add_one (time * s.rate)], rfl⟩

/-- Construction and queries: with increasing control times and at least two samples, the tables are built, all have one
entry per sample, and every query from the start of motion up to the last sample is answered by a point between the two
entries around it. -/
theorem C41_engine_partial (times : List K) (poses angles : List (V3 K)) (stationary maxTime rate : K)
    (hs : times.Pairwise (· < ·)) (h0 : times ≠ []) (hp : times.length ≤ poses.length) (ha : times.length ≤ angles.length)
    (hr : 0 < rate) (h2 : 2 ≤ ⌈maxTime * rate⌉) (hmax : ⌈maxTime * rate⌉ < 2 ^ 32) (hst : 0 ≤ stationary) :
    ∃ s : Smoother K, Smoother.new times poses angles stationary maxTime rate = .ok s ∧
      ∀ table ∈ [s.pos, s.vel, s.acc, s.ang, s.angVel, s.angAcc], table.length = ⌈maxTime * rate⌉.toNat ∧
        ∀ t, stationary ≤ t → t * rate < ⌈maxTime * rate⌉ - 1 →
          ∃ v a b, s.body table t = .ok v ∧ table[⌊t * rate⌋.toNat]? = some a ∧ table[⌊t * rate⌋.toNat + 1]? = some b ∧
            OnSegment a b v := by
  obtain ⟨n, hn⟩ := Int.eq_ofNat_of_zero_le (show 0 ≤ ⌈maxTime * rate⌉ by omega)
  have hn2 : 2 ≤ n := by omega
  set time : List K := (List.range n).map fun i : Nat => (i : K) / rate with htime
  have htl : time.length = n := by simp [htime]
  have hts : time.Pairwise (· < ·) := by
    rw [htime, List.pairwise_map]
    refine (List.pairwise_lt_range (n := n)).imp fun {i j} h => ?_
    have : (i : K) < j := by exact_mod_cast h
    exact div_lt_div_of_pos_right this hr
  have htm : time.Pairwise (· ≤ ·) := hts.imp fun h => h.le
  obtain ⟨first, hf⟩ : ∃ x, times[0]? = some x := by
    cases times with
    | nil => exact absurd rfl h0
    | cons x _ => exact ⟨x, rfl⟩
  obtain ⟨last, hl⟩ : ∃ x, times.getLast? = some x := ⟨_, List.getLast?_eq_getLast_of_ne_nil h0⟩
  obtain ⟨pos, hpos, hposl, -⟩ := C41_interpolate_partial time times poses first last hs htm hf hl hp
  obtain ⟨ang, hang, hangl, -⟩ := C41_interpolate_partial time times angles first last hs htm hf hl ha
  obtain ⟨vel, hvel, hvell, -⟩ := C41_derivative_partial time pos hts (by omega) (by omega)
  obtain ⟨acc, hacc, haccl, -⟩ := C41_derivative_partial time vel hts (by omega) (by omega)
  obtain ⟨angVel, hav, havl, -⟩ := C41_derivative_partial time ang hts (by omega) (by omega)
  obtain ⟨angAcc, haa, haal, -⟩ := C41_derivative_partial time angVel hts (by omega) (by omega)
  refine ⟨⟨stationary, maxTime, rate, time, pos, vel, acc, ang, angVel, angAcc⟩, ?_, ?_⟩
  · rw [Smoother.new]
    dsimp only
    rw [hn, guardUB_true (by constructor <;> omega), ok_bind, Int.toNat_natCast, ← htime, hpos, ok_bind, hang, ok_bind, hvel,
      ok_bind, hacc, ok_bind, hav, ok_bind, haa, ok_bind]
    rfl
  · intro table htab
    have htabl : table.length = n := by
      simp only [List.mem_cons, List.not_mem_nil, or_false] at htab
      rcases htab with rfl | rfl | rfl | rfl | rfl | rfl <;> omega
    refine ⟨by rw [htabl, hn, Int.toNat_natCast], fun t hst' ht => ?_⟩
    have ht0 : 0 ≤ t := hst.trans hst'
    obtain ⟨v, a, b, h1, h2', h3, h4, -⟩ := C41_query_partial
      (⟨stationary, maxTime, rate, time, pos, vel, acc, ang, angVel, angAcc⟩ : Smoother K) table t hr ht0 (by omega)
      (by rw [htabl]; rw [hn] at ht; exact_mod_cast ht)
    refine ⟨v, a, b, ?_, h2', h3, h4⟩
    have hle : t ≤ maxTime := by
      have h5 : ((⌈maxTime * rate⌉ : Int) : K) < maxTime * rate + 1 := Int.ceil_lt_add_one _
      have h6 : t * rate < maxTime * rate := by linarith
      exact (lt_of_mul_lt_mul_right h6 hr.le).le
    have hval : (⟨stationary, maxTime, rate, time, pos, vel, acc, ang, angVel, angAcc⟩ : Smoother K).isTimeInvalid
        (t - stationary) = false := by
      simp only [Smoother.isTimeInvalid, decide_eq_false_iff_not, not_or, not_lt, gt_iff_lt]
      exact ⟨by linarith, by linarith⟩
    rw [Smoother.body, hval]
    exact h1

/-- The last entry of a table cannot be queried: at its own time the entry behind the table is read. -/
theorem C41_last_violated (s : Smoother K) (values : List (V3 K)) (hr : 0 < s.rate) (h1 : values ≠ [])
    (hn : values.length < 2 ^ 32) :
    s.interpolated (((values.length - 1 : Nat) : K) / s.rate) values = .error .outOfRange := by
  have hl : 0 < values.length := List.length_pos_iff.2 h1
  have hx : ((values.length - 1 : Nat) : K) / s.rate * s.rate = ((values.length - 1 : Nat) : K) := div_mul_cancel₀ _ hr.ne'
  rw [Smoother.interpolated]
  rw [hx, truncInt_nonneg (Nat.cast_nonneg _), Int.floor_natCast, guardUB_true (by constructor <;> omega), ok_bind,
    Int.toNat_natCast, readAt_lt (l := values) (i := values.length - 1) (by omega), ok_bind, Nat.mod_eq_of_lt (by omega),
    readAt_ge (by omega)]
  rfl

end

section
variable {K : Type} [Field K] [LinearOrder K] [IsStrictOrderedRing K]

/-- `MaxAcceleration` reads outside its tables for all data with at least two entries. -/
theorem C41_max_violated (times : List K) (data : List (V3 K)) (hs : times.Pairwise (· < ·))
    (ht : data.length ≤ times.length) (h2 : 2 ≤ data.length) : maxAcceleration times data = .error .outOfRange :=
  accelLoop_outside times data hs ht (data.length - 1) 1 0 (by omega) (by omega) (by omega)

omit [IsStrictOrderedRing K] in
/-- Tables with fewer than two entries have no derivative. -/
theorem C41_short_violated (times : List K) (v : V3 K) :
    derivative times [] = .error .outOfRange ∧ derivative times [v] = .error .emptyVector := ⟨rfl, rfl⟩

end

/-- An engine whose valid times include one it cannot answer: `max_time` itself. -/
theorem C41_end_violated : ∃ s : Smoother ℚ,
    Smoother.new [0, 2] [0, 0] [0, 0] 0 1 2 = .ok s ∧ s.isTimeInvalid (1 - s.stationary) = false ∧
      s.body s.pos 1 = .error .outOfRange := by
  obtain ⟨s, hs, -⟩ := C41_engine_partial (K := ℚ) [0, 2] [0, 0] [0, 0] 0 1 2 (by simp) (by simp) (by simp) (by simp)
    (by norm_num) (by norm_num) (by norm_num) le_rfl
  refine ⟨s, hs, ?_⟩
  have : s.stationary = 0 ∧ s.maxTime = 1 ∧ s.rate = 2 ∧ s.pos.length = 2 := by
    have h := Samples.ok_of_check (P := fun s : Smoother ℚ => s.stationary = 0 ∧ s.maxTime = 1 ∧ s.rate = 2 ∧ s.pos.length = 2)
      (r := Smoother.new [0, 2] [0, 0] [0, 0] 0 1 2) (by decide +kernel)
    obtain ⟨s', h', hp⟩ := h
    rw [hs] at h'
    cases h'
    exact hp
  obtain ⟨h1, h2, h3, h4⟩ := this
  refine ⟨by simp [Smoother.isTimeInvalid, h1, h2], ?_⟩
  rw [Smoother.body, if_neg (by simp [Smoother.isTimeInvalid, h1, h2]), Smoother.interpolated]
  rw [h3, truncInt_nonneg (by norm_num), show ⌊(1 : ℚ) * 2⌋ = 2 by norm_num, guardUB_true (by norm_num), ok_bind,
    readAt_ge (by rw [h4]; decide)]
  rfl

/-- A sample at the time of the first control point is not that control point but zero. -/
theorem C41_first_violated : interpolateVectors (K := ℚ) [0] [0, 1] [![1, 1, 1], ![1, 1, 1]] = .ok [0] ∧
    ¬OnSegment (K := ℚ) ![1, 1, 1] ![1, 1, 1] 0 := by
  refine ⟨?_, ?_⟩
  · simp [interpolateVectors, interpLoop, readAt]
  · rintro ⟨s, -, -, h⟩
    have := congrFun h 0
    simp at this

/-- The window of a constant table is not that constant at the ends. -/
theorem C41_window_violated : ∃ out padded, slidingWindow (K := ℚ) [![3, 3, 3]] 1 = .ok (out, padded) ∧
    out = [![1, 1, 1]] := by
  obtain ⟨out, padded, h, hl, hv⟩ := C41_window_partial (K := ℚ) [![3, 3, 3]] 1 (by norm_num)
  refine ⟨out, padded, h, ?_⟩
  have h0 := hv 0 (by simp)
  match out, hl, h0 with
  | [a], _, h0 =>
    simp only [List.getElem?_cons_zero, Option.some.injEq] at h0
    rw [h0]
    congr 1
    funext i
    fin_cases i <;> norm_num [Finset.sum_range_succ, entryOr0]

/-! ## The hypotheses can be met -/

example : ∃ out, interpolateVectors (K := ℚ) [1 / 2, 1, 5 / 2, 4] [0, 1, 3] [0, ![2, 0, 0], ![2, 4, 0]] = .ok out ∧
    out.length = 4 := by
  obtain ⟨out, h, hl, -⟩ := C41_interpolate_partial (K := ℚ) [1 / 2, 1, 5 / 2, 4] [0, 1, 3] [0, ![2, 0, 0], ![2, 4, 0]] 0 3
    (by norm_num) (by norm_num) rfl rfl (by simp)
  exact ⟨out, h, by simpa using hl⟩

example : ∃ ds, derivative (K := ℚ) [0, 1, 3] [0, ![2, 0, 0], ![2, 4, 0]] = .ok ds ∧ ds.length = 3 := by
  obtain ⟨ds, h, hl, -⟩ := C41_derivative_partial (K := ℚ) [0, 1, 3] [0, ![2, 0, 0], ![2, 4, 0]] (by norm_num) (by simp) (by simp)
  exact ⟨ds, h, by simpa using hl⟩

example : ∃ s : Smoother ℚ, Smoother.new [0, 1, 3] [0, ![2, 0, 0], ![2, 4, 0]] [0, 0, 0] (1 / 10) 3 5 = .ok s ∧
    ∃ v, s.body s.pos (5 / 2) = .ok v := by
  obtain ⟨s, h, ht⟩ := C41_engine_partial (K := ℚ) [0, 1, 3] [0, ![2, 0, 0], ![2, 4, 0]] [0, 0, 0] (1 / 10) 3 5 (by norm_num)
    (by simp) (by simp) (by simp) (by norm_num) (by norm_num) (by norm_num) (by norm_num)
  obtain ⟨v, -, -, hv, -⟩ := (ht s.pos (by simp)).2 (5 / 2) (by norm_num) (by norm_num)
  exact ⟨s, h, v, hv⟩

end EkfCal
