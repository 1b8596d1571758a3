import Verif.Model.Logger

/-!
# C28: debug messages are filtered by level only
-/

namespace EkfCal.DebugLogger

/-- The level a logger is configured with after a history: the one set last. -/
def configured (init : Int) (h : List Op) : Int :=
  h.foldl (fun v op => match op with
    | .log _ _ => v
    | .setLevel w => w.toInt
    | .setLevelUnsigned n => LogLevel.ofUnsigned n) init

/-- The lines one message adds, to the standard output and to the error stream, under a configured level.  Independent of
anything printed before. -/
def emission (configured : Int) (v : LogLevel) (m : String) : List String × List String :=
  if v.toInt ≤ configured then
    let l := "[" ++ LogLevel.names.getD v.toInt.toNat "" ++ "]: " ++ m
    match v with
    | .debug | .info => ([l], [])
    | .warn | .error | .fatal => ([], [l])
  else ([], [])

/-- The configured level is the one set last, whatever else happened. -/
theorem C28_level (l l' : DebugLogger) (h : List Op) (hr : l.run h = .ok l') : l'.level = configured l.level h := by
  induction h generalizing l with
  | nil => cases hr; rfl
  | cons op h ih =>
    simp only [run, List.foldlM_cons] at hr
    cases op with
    | log v m =>
      have : (l.log v m).level = l.level := by
        simp only [log]; split_ifs <;> cases v <;> rfl
      have h2 := ih (l.log v m) hr
      rw [this] at h2; exact h2
    | setLevel w =>
      have : (l.setLevel w).level = w.toInt := by simp only [setLevel]; split_ifs <;> rfl
      have h2 := ih (l.setLevel w) hr
      rw [this] at h2; exact h2
    | setLevelUnsigned n =>
      cases hs : l.setLevelUnsigned n with
      | error e => simp [step, hs, bind, Except.bind] at hr
      | ok l1 =>
        have : l1.level = LogLevel.ofUnsigned n := by
          simp only [setLevelUnsigned] at hs
          split_ifs at hs
          · split at hs
            · cases hs
            · cases hs; rfl
          · cases hs; rfl
        have h2 := ih l1 (by simpa [step, hs, bind, Except.bind, run] using hr)
        rw [this] at h2; exact h2

/-- **Filtering by level only**: after any history, logging a message adds to the two streams exactly what the configured
level alone decides. -/
theorem C28_log (l l' : DebugLogger) (h : List Op) (hr : l.run h = .ok l') (v : LogLevel) (m : String) :
    (l'.log v m).out = l'.out ++ (emission (configured l.level h) v m).1 ∧
    (l'.log v m).err = l'.err ++ (emission (configured l.level h) v m).2 := by
  rw [← C28_level l l' h hr]
  simp only [log, emission]
  by_cases hc : v.toInt ≤ l'.level
  · rw [if_pos hc, if_pos hc]
    cases v <;> simp [line, LogLevel.toInt, LogLevel.names]
  · rw [if_neg hc, if_neg hc]; simp

/-- **Emitted exactly once on exactly one stream, or not at all**, according to the level. -/
theorem C28_once (c : Int) (v : LogLevel) (m : String) :
    (v.toInt ≤ c → (emission c v m).1.length + (emission c v m).2.length = 1) ∧
    (¬ v.toInt ≤ c → emission c v m = ([], [])) := by
  constructor
  · intro h; simp only [emission, if_pos h]; cases v <;> rfl
  · intro h; simp only [emission, if_neg h]

/-- **Raising the level never hides a message.** -/
theorem C28_monotone (c c' : Int) (h : c ≤ c') (v : LogLevel) (m : String) (he : emission c v m ≠ ([], [])) :
    emission c' v m = emission c v m := by
  by_cases hc : v.toInt ≤ c
  · simp only [emission, if_pos hc, if_pos (hc.trans h)]
  · exact absurd (by simp only [emission, if_neg hc]) he

/-- **Messages are never lost or reordered**: over any history of messages at a fixed level each stream is the
concatenation of what the messages emit, in order. -/
theorem C28_history (l : DebugLogger) (ms : List (LogLevel × String)) :
    ∃ l', l.run (ms.map fun p => .log p.1 p.2) = .ok l' ∧
      l'.out = l.out ++ (ms.map fun p => (emission l.level p.1 p.2).1).flatten ∧
      l'.err = l.err ++ (ms.map fun p => (emission l.level p.1 p.2).2).flatten := by
  induction ms generalizing l with
  | nil => exact ⟨l, rfl, by simp, by simp⟩
  | cons p ms ih =>
    obtain ⟨l', h1, h2, h3⟩ := ih (l.log p.1 p.2)
    have hl : (l.log p.1 p.2).level = l.level := by
      simp only [log]; split_ifs <;> cases p.1 <;> rfl
    obtain ⟨g1, g2⟩ := C28_log l l [] rfl p.1 p.2
    refine ⟨l', h1, ?_, ?_⟩
    · rw [h2, g1, hl]; simp [configured]
    · rw [h3, g2, hl]; simp [configured]

/-- Setting a level by number is defined for every number only while the logger stays at DEBUG or above: a number outside
the enumeration reads past the table of names. -/
theorem C28_set_level_defined (l : DebugLogger) (n : Nat) (hn : n < 2 ^ 32) :
    (∃ l', l.setLevelUnsigned n = .ok l') ↔ n ≤ 4 ∨ (4 ≤ l.level ∧ n < 2 ^ 31) := by
  have hm : n % 2 ^ 32 = n := Nat.mod_eq_of_lt hn
  simp only [setLevelUnsigned, LogLevel.ofUnsigned, hm, LogLevel.toInt]
  by_cases h4 : n ≤ 4
  · have hs : ∃ name, LogLevel.names[n]? = some name :=
      ⟨_, List.getElem?_eq_getElem (show n < LogLevel.names.length by simp [LogLevel.names]; omega)⟩
    obtain ⟨name, hs⟩ := hs
    simp only [h4, true_or, iff_true]
    rw [hs]
    split_ifs <;> exact ⟨_, rfl⟩
  · have hs : LogLevel.names[n]? = none := List.getElem?_eq_none (by simp [LogLevel.names]; omega)
    rw [hs]
    simp only [h4, false_or]
    by_cases hb : n < 2 ^ 31
    · rw [if_pos hb]
      by_cases hl : 4 ≤ l.level
      · rw [if_neg (by omega)]; exact ⟨fun _ => ⟨hl, hb⟩, fun _ => ⟨_, rfl⟩⟩
      · rw [if_pos (by omega)]; constructor
        · rintro ⟨_, h⟩; cases h
        · rintro ⟨h, _⟩; exact absurd h hl
    · rw [if_neg hb, if_pos (by omega)]
      constructor
      · rintro ⟨_, h⟩; cases h
      · rintro ⟨_, h⟩; exact absurd h hb

/-- A history with all five levels and a change of level in the middle. -/
example : (DebugLogger.new .warn).run [.log .debug "a", .log .warn "b", .log .fatal "c", .setLevel .debug, .log .debug "d",
      .log .info "e", .log .error "f"] =
    .ok ⟨4, ["[INFO ]: Log level set to: DEBUG", "[DEBUG]: d", "[INFO ]: e"], ["[WARN ]: b", "[FATAL]: c", "[ERROR]: f"]⟩ := by
  decide +kernel

end EkfCal.DebugLogger
