import Mathlib.Algebra.Order.Field.Basic
import Mathlib.Tactic.Linarith
import Verif.Props.C25

/-!
# C26: rate-limited logging respects the rate
-/

namespace EkfCal.DataLogger

variable {K : Type} [Field K] [LinearOrder K]

/-- A sequence of rate-limited calls. -/
def calls (c : List (String × K)) : List (Op K) := c.map fun p => .rateLimitedLog p.1 p.2

/-- A new logger, its header defined and logging enabled. -/
def started (directory fileName header : String) (rate : K) : DataLogger K :=
  (newRated directory fileName rate).run [.defineHeader header, .enable]

/-- The limiter's own bookkeeping: the counter agrees with the rows on file. -/
def Counts (l : DataLogger K) : Prop :=
  l.on = true ∧ l.count = l.rows.length ∧ (l.file = none → l.rows.length = 0) ∧ ∀ f, l.file = some f → f.lines ≠ []

theorem log_rows (l : DataLogger K) (m : String) (h : Counts l) (hb : l.rows.length + 1 < 2 ^ 32) :
    Counts (l.log m) ∧ (l.log m).rows = l.rows ++ [m] ∧ (l.log m).rate = l.rate ∧ (l.log m).timeInit = l.timeInit := by
  obtain ⟨h1, h2, h3, h4⟩ := h
  have hr : (l.log m).rows = l.rows ++ [m] := by
    simp only [rows, log, h1, if_true]
    cases hf : l.file with
    | none => simp
    | some f =>
      have := h4 f hf
      cases hl : f.lines with
      | nil => exact absurd hl this
      | cons a b => simp [hl]
  refine ⟨⟨?_, ?_, ?_, ?_⟩, hr, ?_, ?_⟩
  · simp [log, h1]
  · rw [hr]; simp only [log, h1, if_true, List.length_append, List.length_singleton]
    rw [h2, Nat.mod_eq_of_lt hb]
  · simp [log, h1]
  · intro f hf
    simp only [log, h1, if_true, Option.some.injEq] at hf
    rw [← hf]; simp
  · simp [log, h1]
  · simp [log, h1]

variable [IsStrictOrderedRing K]

/-- Once the reference time is set, each call keeps the bound. -/
theorem limited (l : DataLogger K) (r t1 T b : K) (c : List (String × K)) (h : Counts l) (hr : l.rate = r) (hr0 : 0 < r)
    (ht : l.timeInit = t1) (ht1 : t1 ≠ 0) (hT : ∀ p ∈ c, p.2 ≤ T) (hb : 1 ≤ b)
    (hl : (l.rows.length : K) ≤ r * (T - t1) + b) (hc : l.rows.length + c.length < 2 ^ 32) :
    ((l.run (calls c)).rows.length : K) ≤ r * (T - t1) + b := by
  induction c generalizing l with
  | nil => exact hl
  | cons p c ih =>
    have hlen : l.rows.length + (c.length + 1) < 2 ^ 32 := by simpa using hc
    have hT' := fun q hq => hT q (List.mem_cons_of_mem _ hq)
    have hstep : l.run (calls (p :: c)) = (l.rateLimitedLog p.1 p.2).run (calls c) := rfl
    rw [hstep]
    by_cases hlim : (l.count : K) < l.rate * (p.2 - l.timeInit)
    · have e : l.rateLimitedLog p.1 p.2 = l.log p.1 := by
        simp only [rateLimitedLog, h.1, if_true]
        rw [if_pos (by rw [ht]; exact ht1), if_pos (Or.inr hlim)]
      obtain ⟨g1, g2, g3, g4⟩ := log_rows l p.1 h (by omega)
      rw [e]
      refine ih _ g1 (g3.trans hr) (g4.trans ht) hT' ?_ (by rw [g2]; simp; omega)
      rw [g2]
      have := hT p List.mem_cons_self
      rw [h.2.1, hr, ht] at hlim
      have hm : r * (p.2 - t1) ≤ r * (T - t1) := by
        apply mul_le_mul_of_nonneg_left _ hr0.le; linarith
      simp only [List.length_append, List.length_singleton, Nat.cast_add, Nat.cast_one]
      linarith
    · have e : l.rateLimitedLog p.1 p.2 = l := by
        have : r ≠ 0 := hr0.ne'
        simp only [rateLimitedLog, h.1, if_true]
        rw [if_pos (by rw [ht]; exact ht1), if_neg]
        rw [not_or]; exact ⟨by rw [hr]; exact this, hlim⟩
      rw [e]
      exact ih _ h hr ht hT' hl (by omega)

omit [IsStrictOrderedRing K] in
/-- Calls at time zero are all written. -/
theorem zeros (l : DataLogger K) (c : List (String × K)) (h : Counts l) (ht : l.timeInit = 0) (hz : ∀ p ∈ c, p.2 = 0)
    (hc : l.rows.length + c.length < 2 ^ 32) :
    Counts (l.run (calls c)) ∧ (l.run (calls c)).rows = l.rows ++ c.map Prod.fst ∧
      (l.run (calls c)).rate = l.rate ∧ (l.run (calls c)).timeInit = 0 := by
  induction c generalizing l with
  | nil => exact ⟨h, by simp [calls, run_nil], rfl, ht⟩
  | cons p c ih =>
    have hstep : l.run (calls (p :: c)) = (l.rateLimitedLog p.1 p.2).run (calls c) := rfl
    have hlen : l.rows.length + (c.length + 1) < 2 ^ 32 := by simpa using hc
    have e : l.rateLimitedLog p.1 p.2 = l.log p.1 := by
      have hp := hz p List.mem_cons_self
      have hl : { l with timeInit := p.2 } = l := by rw [hp, ← ht]
      unfold rateLimitedLog
      rw [if_pos h.1, if_neg (by simp [ht]), hl]
    obtain ⟨g1, g2, g3, g4⟩ := log_rows l p.1 h (by omega)
    rw [hstep, e]
    obtain ⟨i1, i2, i3, i4⟩ := ih _ g1 (g4.trans ht) (fun q hq => hz q (List.mem_cons_of_mem _ hq)) (by rw [g2]; simp; omega)
    exact ⟨i1, by rw [i2, g2]; simp, i3.trans g3, i4⟩

omit [IsStrictOrderedRing K] in
theorem counts_started (d f hd : String) (r : K) : Counts (started d f hd r) ∧ (started d f hd r).rows = [] ∧
    (started d f hd r).rate = r ∧ (started d f hd r).timeInit = 0 := by
  refine ⟨⟨rfl, rfl, fun _ => rfl, ?_⟩, rfl, rfl, rfl⟩
  intro g hg; cases hg

/-- **The rate is respected, up to calls at time zero**: let `r > 0` and let a new logger be called at times that start
with `z` zeros, then `t₁ ≠ 0`, then anything up to `T`.  The number of rows is at most `r · (T − t₁) + 1 + z`.  With
`z = 0` this is the property.  (Fewer than `2³²` calls: the row counter is 32 bits wide.) -/
theorem C26_partial (directory fileName header : String) (r : K) (hr : 0 < r)
    (zs : List String) (m₁ : String) (t₁ : K) (ht₁ : t₁ ≠ 0) (c : List (String × K)) (T : K) (hT₁ : t₁ ≤ T)
    (hT : ∀ p ∈ c, p.2 ≤ T) (hn : zs.length + 1 + c.length < 2 ^ 32) :
    (((started directory fileName header r).run
        (calls (zs.map (fun m => (m, (0 : K))) ++ (m₁, t₁) :: c))).rows.length : K)
      ≤ r * (T - t₁) + 1 + zs.length := by
  obtain ⟨h0, h1, h2, h3⟩ := counts_started directory fileName header r
  set l := started directory fileName header r
  have hz := zeros l (zs.map fun m => (m, (0 : K))) h0 h3 (by simp) (by rw [h1]; simp; omega)
  obtain ⟨z1, z2, z3, z4⟩ := hz
  have e : l.run (calls (zs.map (fun m => (m, (0 : K))) ++ (m₁, t₁) :: c)) =
      ((l.run (calls (zs.map fun m => (m, (0 : K))))).rateLimitedLog m₁ t₁).run (calls c) := by
    rw [calls, List.map_append, run_append]; rfl
  rw [e]
  set l' := l.run (calls (zs.map fun m => (m, (0 : K))))
  have hrows : l'.rows.length = zs.length := by rw [z2, h1]; simp
  have e2 : l'.rateLimitedLog m₁ t₁ = log { l' with timeInit := t₁ } m₁ := by
    simp [rateLimitedLog, z1.1, z4]
  have hc' : Counts { l' with timeInit := t₁ } := z1
  obtain ⟨g1, g2, g3, g4⟩ := log_rows { l' with timeInit := t₁ } m₁ hc' (by
    show l'.rows.length + 1 < _; omega)
  have hlen : (log { l' with timeInit := t₁ } m₁).rows.length = zs.length + 1 := by
    rw [g2]; simp only [List.length_append, List.length_singleton]; rw [show rows { l' with timeInit := t₁ } = l'.rows from rfl, hrows]
  rw [e2]
  have := limited (log { l' with timeInit := t₁ } m₁) r t₁ T (1 + zs.length) c g1
    (g3.trans (z3.trans h2)) hr g4 ht₁ hT (by simp) (by
      rw [hlen]
      have : 0 ≤ r * (T - t₁) := mul_nonneg hr.le (by linarith)
      push_cast; linarith) (by rw [hlen]; omega)
  linarith

/-- **The rate is not respected by calls at time zero**: with a rate of one row per second, `n` calls at time zero write
`n` rows, for every `n`; the property allows one. -/
theorem C26_violated : ¬ ∀ (r : K) (m₁ : String) (t₁ : K) (c : List (String × K)) (T : K), 0 < r → t₁ ≤ T →
    (∀ p ∈ c, t₁ ≤ p.2 ∧ p.2 ≤ T) → c.length < 2 ^ 31 →
    (((started "" "x.csv" "h" r).run (calls ((m₁, t₁) :: c))).rows.length : K) ≤ r * (T - t₁) + 1 := by
  intro h
  have := h 1 "a" 0 [("b", 0)] 0 one_pos le_rfl (by simp) (by simp)
  obtain ⟨h0, h1, h2, h3⟩ := counts_started (K := K) "" "x.csv" "h" 1
  have hz := (zeros (started "" "x.csv" "h" (1 : K)) [("a", 0), ("b", 0)] h0 h3 (by simp) (by rw [h1]; simp)).2.1
  rw [hz, h1] at this
  norm_num at this

omit [IsStrictOrderedRing K] in
/-- **With rate zero every call is logged**, in order. -/
theorem C26_unlimited (directory fileName header : String) (c : List (String × K)) :
    ((started directory fileName header (0 : K)).run (calls c)).rows = c.map Prod.fst := by
  have hm : ∀ op ∈ calls c, op.setsRate = false := by
    intro op hop; simp only [calls, List.mem_map] at hop; obtain ⟨p, _, rfl⟩ := hop; rfl
  have := file_all (started directory fileName header (0 : K)) rfl rfl rfl (calls c) hm
  have hf : (calls c).filterMap Op.message? = c.map Prod.fst := by
    simp only [calls, List.filterMap_map]
    rw [← List.filterMap_eq_map]
    rfl
  rw [rows, this, hf]
  split_ifs with h0
  · rw [h0]; rfl
  · rfl

/-- The limiter does drop rows: at one row per second, five calls within half a second leave one row. -/
example : ((started "" "x.csv" "h" (1 : ℚ)).run (calls [("a", 10), ("b", 10), ("c", 10), ("d", 10), ("e", 21/2)])).rows
    = ["a"] := by decide +kernel

/-- And lets them through in step with the clock. -/
example : ((started "" "x.csv" "h" (2 : ℚ)).run (calls [("a", 10), ("b", 11), ("c", 11), ("d", 11), ("e", 12)])).rows
    = ["a", "b", "e"] := by decide +kernel

end EkfCal.DataLogger
