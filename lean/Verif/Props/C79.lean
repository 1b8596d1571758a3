import Verif.Model.MonteCarlo
import Mathlib.Data.List.Infix
import Mathlib.Data.List.Nodup
import Mathlib.Tactic.Ring
import Mathlib.Tactic.Linarith

/-!
# C79: a set of Monte Carlo runs is the one that is configured
-/

namespace EkfCal.Mc

variable {T R : Type}

/-! ### Helpers: names -/

theorem padded_inj {d i j : Nat} (h : padded d i = padded d j) : i = j := by
  have hv (k : Nat) : Nat.ofDigitChars 10 (padded d k) 0 = k := by
    rw [padded, Nat.ofDigitChars_append, Nat.ofDigitChars_replicate_zero, Nat.mul_zero, Nat.ofDigitChars_ten_toDigits]
  rw [← hv i, h, hv j]

theorem padded_length {n i : Nat} (hn : 1 < n) (h : i < n) : (padded (Nat.clog 10 n) i).length = Nat.clog 10 n := by
  have h1 : 0 < Nat.clog 10 n := Nat.clog_pos (by norm_num) hn
  have h2 : (Nat.toDigits 10 i).length ≤ Nat.clog 10 n :=
    (Nat.length_toDigits_le_iff (by norm_num) h1).2 (h.trans_le (Nat.le_pow_clog (by norm_num) n))
  rw [padded, List.length_append, List.length_replicate]
  omega

theorem padded_digit {d i : Nat} {c : Char} (h : c ∈ padded d i) : c.isDigit = true := by
  rw [padded, List.mem_append] at h
  rcases h with h | h
  · rw [List.eq_of_mem_replicate h]; rfl
  · exact Nat.isDigit_of_mem_toDigits (by norm_num) (by norm_num) h

theorem runFile_inj {input : Path} {n i j : Nat} (h : runFile input n i = runFile input n j) : i = j := by
  simp only [runFile, List.append_cancel_left_eq, List.cons.injEq, true_and, List.append_cancel_right_eq] at h
  exact padded_inj h

/-! ### Helpers: the text before the ending -/

theorem infix_split {w a b : List Char} {c : Char} (hc : c ∉ w) (h : w <:+: a ++ c :: b) : w <:+: a ∨ w <:+: b := by
  obtain ⟨s, t, h⟩ := h
  rw [List.append_assoc] at h
  rcases List.append_eq_append_iff.1 h with ⟨a', rfl, h2⟩ | ⟨c', rfl, h2⟩
  · rcases List.append_eq_append_iff.1 h2 with ⟨a'', rfl, -⟩ | ⟨c'', rfl, h3⟩
    · exact .inl ⟨s, a'', by simp⟩
    · rcases c'' with _ | ⟨x, c''⟩
      · exact .inl ⟨s, [], by simp⟩
      · simp only [List.cons_append, List.cons.injEq] at h3
        exact absurd (by simp [h3.1]) hc
  · rcases c' with _ | ⟨x, c'⟩
    · rcases w with _ | ⟨y, w⟩
      · exact .inl (List.nil_infix)
      · simp only [List.nil_append, List.cons_append, List.cons.injEq] at h2
        exact absurd (by simp [h2.1]) hc
    · simp only [List.cons_append, List.cons.injEq] at h2
      exact .inr ⟨c', t, by simp [h2.2]⟩

theorem beforeYaml_free (p : Path) : ¬ ".yaml".toList <:+: beforeYaml p := by
  induction p with
  | nil => rw [beforeYaml]; decide
  | cons c cs ih =>
    rw [beforeYaml]
    split
    · decide
    · next h =>
      intro hi
      rcases List.infix_cons_iff.1 hi with h1 | h1
      · have h2 : beforeYaml cs <+: cs := by
          clear ih h hi h1
          induction cs with
          | nil => exact List.nil_prefix
          | cons d ds ih =>
            rw [beforeYaml]
            split
            · exact List.nil_prefix
            · exact List.cons_prefix_cons.2 ⟨rfl, ih⟩
        exact h (List.isPrefixOf_iff_prefix.2 (h1.trans (List.cons_prefix_cons.2 ⟨rfl, h2⟩)))
      · exact ih h1

theorem beforeYaml_append (p : Path) (h : ¬ ".yaml".toList <:+: p) : beforeYaml (p ++ ".yaml".toList) = p := by
  induction p with
  | nil => rfl
  | cons c cs ih =>
    rw [List.cons_append, beforeYaml, if_neg, ih fun h1 => h (List.infix_cons_iff.2 (.inr h1))]
    intro hp
    have hp := List.isPrefixOf_iff_prefix.1 hp
    rw [← List.cons_append] at hp
    obtain ⟨t, ht⟩ := hp
    rcases List.append_eq_append_iff.1 ht with ⟨a', h1, -⟩ | ⟨c', h1, h2⟩
    · exact h ⟨[], a', by rw [h1]; simp⟩
    · rcases c' with _ | ⟨x, c'⟩
      · exact h ⟨[], [], by rw [h1]; simp⟩
      · have hx : x = '.' := by
          have : ".yaml".toList = '.' :: "yaml".toList := rfl
          rw [this] at h2
          simp only [List.cons_append, List.cons.injEq] at h2
          exact h2.1.symm
        have h3 : ".yaml".toList = '.' :: ['y', 'a', 'm', 'l'] := rfl
        rw [h3] at h1
        simp only [List.cons_append, List.cons.injEq] at h1
        have h4 : x ∈ ['y', 'a', 'm', 'l'] := by rw [h1.2]; simp
        rw [hx] at h4
        exact absurd h4 (by decide)

/-- The file of a run without its ending. -/
def stem (input : Path) (n i : Nat) : Path :=
  beforeYaml input ++ '/' :: ("runs".toList ++ '/' :: (beforeYaml (baseName input) ++ '_' :: padded (Nat.clog 10 n) i))

theorem runFile_stem (input : Path) (n i : Nat) : runFile input n i = stem input n i ++ ".yaml".toList := by
  simp [runFile, stem]

theorem stem_free (input : Path) (n i : Nat) : ¬ ".yaml".toList <:+: stem input n i := by
  intro h
  rcases infix_split (by decide) h with h | h
  · exact beforeYaml_free _ h
  rcases infix_split (by decide) h with h | h
  · exact absurd h (by decide)
  rcases infix_split (by decide) h with h | h
  · exact beforeYaml_free _ h
  · have h1 : '.' ∈ padded (Nat.clog 10 n) i := h.subset (by decide)
    exact absurd (padded_digit h1) (by decide)

/-! ### Helpers: the loop -/

theorem turns_map (draw : Nat → Nat) (seed : Nat) (time : Option T) (file : Nat → Path) (is : List Nat) (c : Cfg T R) :
    (turns draw seed time file is c).map Prod.fst = is.map file := by
  induction is generalizing c with
  | nil => rfl
  | cons i is ih => rw [turns, List.map_cons, ih]; rfl

theorem turns_get (draw : Nat → Nat) (seed : Nat) (time : Option T) (file : Nat → Path) (is : List Nat) (c : Cfg T R)
    (k : Nat) (p : Path × Cfg T R) (h : (turns draw seed time file is c)[k]? = some p) :
    p.2 = { c with
      seed := if seed ≠ 0 then draw (is.getD k 0) else c.seed
      numberOfRuns := 1
      runNumber := c.runNumber + (is.take (k + 1)).sum
      maxTime := time.getD c.maxTime } := by
  induction is generalizing c k with
  | nil => simp [turns] at h
  | cons i is ih =>
    rw [turns] at h
    rcases k with _ | k
    · simp only [List.getElem?_cons_zero, Option.some.injEq] at h
      rw [← h]
      simp [turn]
    · rw [List.getElem?_cons_succ] at h
      rw [ih _ _ h]
      simp only [turn, List.getD_cons_succ, List.take_succ_cons, List.sum_cons]
      congr 1
      · split <;> rfl
      · omega
      · cases time <;> rfl

theorem sum_range_id (k : Nat) : (List.range (k + 1)).sum * 2 = k * (k + 1) := by
  induction k with
  | zero => rfl
  | succ k ih => rw [List.range_succ, List.sum_append, Nat.add_mul, ih]; simp; ring

/-- The contents of the file of a run. -/
theorem generate_get (draw : Nat → Nat → Nat) (arg : Option Nat) (time : Option T) (input : Path) (c : Cfg T R)
    (hn : 1 < numRuns arg c.numberOfRuns) (k : Nat) (p : Path × Cfg T R)
    (h : (generate draw arg time input c)[k]? = some p) :
    p.2 = { c with
      seed := if c.seed ≠ 0 then draw c.seed k else c.seed
      numberOfRuns := 1
      runNumber := c.runNumber + k * (k + 1) / 2
      maxTime := time.getD c.maxTime } := by
  rw [generate, if_pos hn] at h
  have hk : k < numRuns arg c.numberOfRuns := by
    have h1 := congrArg List.length (turns_map (draw c.seed) c.seed time (runFile input (numRuns arg c.numberOfRuns))
      (List.range (numRuns arg c.numberOfRuns)) c)
    have h2 := (List.getElem?_eq_some_iff.1 h).1
    simp only [List.length_map, List.length_range] at h1
    omega
  rw [turns_get _ _ _ _ _ _ _ _ h]
  have h1 : (List.range (numRuns arg c.numberOfRuns)).getD k 0 = k := by
    rw [List.getD_eq_getElem?_getD, List.getElem?_range hk]; rfl
  have h2 : ((List.range (numRuns arg c.numberOfRuns)).take (k + 1)).sum = k * (k + 1) / 2 := by
    rw [List.take_range, Nat.min_eq_left hk]
    have := sum_range_id k
    rw [Nat.succ_eq_add_one]
    omega
  rw [h1, h2]

/-! ### The claims -/

/-- The files of a set: as many as there should be runs, no two the same, and exactly those that are evaluated when the same
arguments are given. -/
theorem C79_files (draw : Nat → Nat → Nat) (arg : Option Nat) (time : Option T) (input : Path) (c : Cfg T R) :
    (generate draw arg time input c).length = max 1 (numRuns arg c.numberOfRuns) ∧
    ((generate draw arg time input c).map Prod.fst).Nodup ∧
    (generate draw arg time input c).map Prod.fst = evaluated arg input c := by
  rw [generate, evaluated]
  by_cases hn : 1 < numRuns arg c.numberOfRuns
  · rw [if_pos hn, if_pos hn, turns_map]
    refine ⟨?_, (List.nodup_range).map fun _ _ h => runFile_inj h, rfl⟩
    rw [← List.length_map (f := Prod.fst), turns_map, List.length_map, List.length_range]
    omega
  · rw [if_neg hn, if_neg hn]
    refine ⟨?_, List.nodup_singleton _, rfl⟩
    simp only [List.length_singleton]
    omega

/-- The directories with the results: each is the file without its ending, and no two runs share one. -/
theorem C79_dirs (draw : Nat → Nat → Nat) (arg : Option Nat) (time : Option T) (input : Path) (c : Cfg T R) :
    (((generate draw arg time input c).map Prod.fst).map dataDir).Nodup ∧
    (1 < numRuns arg c.numberOfRuns → ∀ f ∈ (generate draw arg time input c).map Prod.fst, f = dataDir f ++ ".yaml".toList) := by
  rw [(C79_files draw arg time input c).2.2, evaluated]
  have hd (n i : Nat) : dataDir (runFile input n i) = stem input n i := by
    rw [dataDir, runFile_stem, beforeYaml_append _ (stem_free input n i)]
  by_cases hn : 1 < numRuns arg c.numberOfRuns
  · rw [if_pos hn, List.map_map]
    refine ⟨(List.nodup_range).map fun i j h => ?_, fun _ f hf => ?_⟩
    · simp only [Function.comp, hd] at h
      exact runFile_inj (by rw [runFile_stem, runFile_stem, h])
    · obtain ⟨i, -, rfl⟩ := List.mem_map.1 hf
      rw [hd, runFile_stem]
  · rw [if_neg hn]
    exact ⟨List.nodup_singleton _, fun h => absurd h hn⟩

/-- The runs of a set: each has the configured settings except for its seed and, if one is given, the length; with a seed, each
has its own number of the sequence that the seed fixes. -/
theorem C79_settings_partial (draw : Nat → Nat → Nat) (arg : Option Nat) (time : Option T) (input : Path) (c : Cfg T R)
    (hn : 1 < numRuns arg c.numberOfRuns) (k : Nat) (p : Path × Cfg T R)
    (h : (generate draw arg time input c)[k]? = some p) :
    p.2.rest = c.rest ∧ p.2.numberOfRuns = 1 ∧ p.2.maxTime = time.getD c.maxTime ∧
      (c.seed ≠ 0 → p.2.seed = draw c.seed k) := by
  rw [generate_get draw arg time input c hn k p h]
  exact ⟨rfl, rfl, rfl, fun h => if_pos h⟩

/-- Runs with different positive seeds are simulated with different generators. -/
theorem C79_independent_partial (draw : Nat → Nat → Nat) (arg : Option Nat) (time : Option T) (input : Path) (c : Cfg T R)
    (hn : 1 < numRuns arg c.numberOfRuns) (hs : c.seed ≠ 0) (k k' : Nat) (p p' : Path × Cfg T R)
    (h : (generate draw arg time input c)[k]? = some p) (h' : (generate draw arg time input c)[k']? = some p')
    (hpos : 0 < draw c.seed k ∧ 0 < draw c.seed k') (hne : draw c.seed k ≠ draw c.seed k') :
    simInput p.2 ≠ simInput p'.2 := by
  intro he
  have h1 := congrArg Prod.fst he
  simp only [simInput] at h1
  rw [(C79_settings_partial draw arg time input c hn k p h).2.2.2 hs,
    (C79_settings_partial draw arg time input c hn k' p' h').2.2.2 hs, generator, generator, if_pos hpos.1, if_pos hpos.2] at h1
  exact hne h1

/-- The number of the run `k` is not the first number plus `k`: the increments add up. -/
theorem C79_number_violated (draw : Nat → Nat → Nat) (arg : Option Nat) (time : Option T) (input : Path) (c : Cfg T R)
    (k : Nat) (hn : k < numRuns arg c.numberOfRuns) (hk : 2 ≤ k) :
    ∃ p, (generate draw arg time input c)[k]? = some p ∧ p.2.runNumber = c.runNumber + k * (k + 1) / 2 ∧
      p.2.runNumber ≠ c.runNumber + k := by
  have hl : k < (generate draw arg time input c).length := by
    rw [(C79_files draw arg time input c).1]; omega
  have h := List.getElem?_eq_getElem hl
  refine ⟨_, h, ?_⟩
  rw [generate_get draw arg time input c (by omega) k _ h]
  refine ⟨rfl, ?_⟩
  have : k * 3 ≤ k * (k + 1) := Nat.mul_le_mul_left k (by omega)
  simp only
  omega

/-- The length that is given as an argument is ignored if there is a single run. -/
theorem C79_time_violated (draw : Nat → Nat → Nat) (arg : Option Nat) (time : Option T) (input : Path) (c : Cfg T R)
    (hn : numRuns arg c.numberOfRuns ≤ 1) : (generate draw arg time input c).map (fun p => p.2.maxTime) = [c.maxTime] := by
  rw [generate, if_neg (by omega)]
  rfl

/-- With the seed zero all runs of a set are the same simulation. -/
theorem C79_seed_violated (draw : Nat → Nat → Nat) (arg : Option Nat) (time : Option T) (input : Path) (c : Cfg T R)
    (hn : 1 < numRuns arg c.numberOfRuns) (hs : c.seed = 0) (p p' : Path × Cfg T R)
    (h : p ∈ generate draw arg time input c) (h' : p' ∈ generate draw arg time input c) : simInput p.2 = simInput p'.2 := by
  obtain ⟨k, hk⟩ := List.mem_iff_getElem?.1 h
  obtain ⟨k', hk'⟩ := List.mem_iff_getElem?.1 h'
  rw [generate_get draw arg time input c hn k p hk, generate_get draw arg time input c hn k' p' hk', simInput, simInput]
  simp [hs]

/-- Different seeds that the script can draw are the same simulation: zero is drawn as well, and means the seed 5489. -/
theorem C79_drawn_violated (draw : Nat → Nat → Nat) (arg : Option Nat) (time : Option T) (input : Path) (c : Cfg T R)
    (hn : numRuns arg c.numberOfRuns = 2) (hs : c.seed ≠ 0) (h0 : draw c.seed 0 = 0) (h1 : draw c.seed 1 = 5489) :
    ∃ p p', generate draw arg time input c = [p, p'] ∧ p.2.seed ≠ p'.2.seed ∧ simInput p.2 = simInput p'.2 := by
  have hl := (C79_files draw arg time input c).1
  rw [hn] at hl
  obtain ⟨p, p', hp⟩ := List.length_eq_two.1 hl
  have e0 := generate_get draw arg time input c (by omega) 0 p (by rw [hp]; rfl)
  have e1 := generate_get draw arg time input c (by omega) 1 p' (by rw [hp]; rfl)
  refine ⟨p, p', hp, ?_, ?_⟩
  · rw [e0, e1]; simp [hs, h0, h1]
  · rw [e0, e1]; simp [hs, h0, h1, simInput, generator]

/-- Two configurations, the same files: behind a directory with the ending in its name the path is cut off. -/
theorem C79_path_violated (n i : Nat) :
    runFile "/sets.yaml.d/fast/gps.yaml".toList n i = runFile "/sets.yaml.d/slow/gps.yaml".toList n i := by
  have h1 : beforeYaml "/sets.yaml.d/fast/gps.yaml".toList = beforeYaml "/sets.yaml.d/slow/gps.yaml".toList := by decide +kernel
  have h2 : baseName "/sets.yaml.d/fast/gps.yaml".toList = baseName "/sets.yaml.d/slow/gps.yaml".toList := by decide +kernel
  rw [runFile, runFile, h1, h2]

/-! ### Concrete cases -/

/-- Twelve runs from the seed 7 with a length of 30. -/
def twelve : Cfg Nat Unit := ⟨7, 12, 0, 10, ()⟩

example : (generate (fun s i => s * 100 + i) none (some 30) "/c/gps.yaml".toList twelve)[11]? =
    some ("/c/gps/runs/gps_11.yaml".toList, ⟨711, 1, 66, 30, ()⟩) := by decide +kernel

example : (generate (fun s i => s * 100 + i) none none "/c/gps.yaml".toList twelve)[4]?.map (fun p => String.ofList (dataDir p.1)) =
    some "/c/gps/runs/gps_04" := by decide +kernel

/-- `C79_settings_partial`, `C79_independent_partial` and `C79_number_violated` apply. -/
example (p p' : Path × Cfg Nat Unit)
    (h : (generate (fun s i => s * 100 + i) none none "/c/gps.yaml".toList twelve)[3]? = some p)
    (h' : (generate (fun s i => s * 100 + i) none none "/c/gps.yaml".toList twelve)[4]? = some p') :
    simInput p.2 ≠ simInput p'.2 :=
  C79_independent_partial _ _ _ _ twelve (by decide) (by decide) 3 4 p p' h h' (by decide) (by decide)

example : ∃ p, (generate (fun s i => s * 100 + i) none none "/c/gps.yaml".toList twelve)[3]? = some p ∧
    p.2.runNumber = 0 + 3 * 4 / 2 ∧ p.2.runNumber ≠ 0 + 3 :=
  C79_number_violated _ _ _ _ twelve 3 (by decide) (by decide)

/-- `C79_seed_violated` and `C79_time_violated` apply. -/
example (p p' : Path × Cfg Nat Unit)
    (h : p ∈ generate (fun s i => s * 100 + i) none none "/c/gps.yaml".toList { twelve with seed := 0 })
    (h' : p' ∈ generate (fun s i => s * 100 + i) none none "/c/gps.yaml".toList { twelve with seed := 0 }) :
    simInput p.2 = simInput p'.2 :=
  C79_seed_violated _ _ _ _ _ (by decide) rfl p p' h h'

example : (generate (fun s i => s * 100 + i) (some 1) (some 30) "/c/gps.yaml".toList twelve).map (fun p => p.2.maxTime) = [10] :=
  C79_time_violated _ _ _ _ twelve (by decide)

/-- `C79_drawn_violated` applies. -/
example : ∃ p p', generate (fun _ i => if i = 0 then 0 else 5489) (some 2) none "/c/gps.yaml".toList twelve = [p, p'] ∧
    p.2.seed ≠ p'.2.seed ∧ simInput p.2 = simInput p'.2 :=
  C79_drawn_violated _ _ _ _ twelve rfl (by decide) rfl rfl

end EkfCal.Mc
