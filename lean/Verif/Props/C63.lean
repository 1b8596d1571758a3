import Mathlib.Algebra.Field.Rat
import Mathlib.Algebra.Order.Ring.Rat
import Verif.Model.LogFiles
import Verif.Props.C25

/-!
# C63: every log file holds what its own logger wrote
-/

set_option linter.unusedSectionVars false

namespace EkfCal

/-! ## File names -/

theorem repr_inj {a b : Nat} (h : Nat.repr a = Nat.repr b) : a = b := by
  rw [Nat.repr_eq_ofList_toDigits, Nat.repr_eq_ofList_toDigits] at h
  have := String.ofList_injective h
  rw [← Nat.ofDigitChars_ten_toDigits (n := a), this, Nat.ofDigitChars_ten_toDigits]

/-- Two writers that belong to the same sensor and log the same kind of thing: only trackers on one camera, or boards
watched by one camera, are different and alike. -/
def LogWriter.Alike : LogWriter → LogWriter → Prop
  | .msckf c _, .msckf c' _ => c = c'
  | .triangulation c _, .triangulation c' _ => c = c'
  | .fiducial c _, .fiducial c' _ => c = c'
  | a, b => a = b

theorem mid_inj {p a b : String} (h : p ++ a ++ ".csv" = p ++ b ++ ".csv") : a = b := by
  rwa [String.append_left_inj, String.append_right_inj] at h

/-- **Names tell apart what is not alike**: two writers get the same file name exactly if they are alike. -/
theorem C63_names (a b : LogWriter) : a.fileName = b.fileName ↔ a.Alike b := by
  constructor
  · intro h
    cases a <;> cases b <;> simp only [LogWriter.fileName] at h <;>
      first
      | rfl
      | (have h := repr_inj (mid_inj h); subst h; rfl)
      | (exact absurd h (by decide))
      | (exfalso
         have h := congrArg String.toList h
         simp [String.toList_append] at h)
  · intro h
    cases a <;> cases b <;> simp only [LogWriter.Alike] at h <;> first | rfl | (cases h <;> rfl)

/-! ## What is on disk -/

variable {K : Type} [Field K] [LinearOrder K]

theorem linesText_append (a b : List String) : linesText (a ++ b) = linesText a ++ linesText b := by simp [linesText]

theorem overwrite_end (old s : List Char) : overwrite old old.length s = old ++ s := by
  unfold overwrite
  split
  · simp_all
  · rw [Nat.sub_self, List.replicate_zero, List.append_nil, List.take_length, List.drop_of_length_le (by omega), List.append_nil]

/-- What one call does to a logger's file. -/
theorem step_file (l : DataLogger K) (op : DataLogger.Op K) :
    (l.step op).file = l.file ∨
    (∃ m, op.message? = some m ∧ l.file = none ∧ (l.step op).file = some ⟨l.directory ++ l.fileName, [l.header, m]⟩) ∨
    (∃ m f, op.message? = some m ∧ l.file = some f ∧ (l.step op).file = some ⟨f.path, f.lines ++ [m]⟩) := by
  cases hon : l.on with
  | false => exact .inl (DataLogger.step_off l op hon).1
  | true =>
    rcases (DataLogger.step_on l op hon).2 with ⟨h, _⟩ | ⟨m, hm, h⟩
    · exact .inl h
    · cases hf : l.file with
      | none => rw [hf] at h; exact .inr (.inl ⟨m, hm, rfl, h⟩)
      | some f => rw [hf] at h; exact .inr (.inr ⟨m, f, hm, rfl, h⟩)

namespace LogDisk

/-- Nobody else writes where `w` writes. -/
def Alone (d : LogDisk K) (w : LogWriter) (f : LogFile) : Prop :=
  ∀ w' f', w' ≠ w → (d.loggers w').file = some f' → f'.path ≠ f.path

/-- The file of a writer that has its path to itself is its lines, and its stream stands at the end. -/
def Good (d : LogDisk K) : Prop :=
  ∀ w f, (d.loggers w).file = some f → d.Alone w f → d.files f.path = linesText f.lines ∧ d.pos w = (linesText f.lines).length

theorem step_loggers (d : LogDisk K) (w : LogWriter) (op : DataLogger.Op K) :
    (d.step w op).loggers = Function.update d.loggers w ((d.loggers w).step op) := by
  unfold step
  dsimp only
  split <;> rfl

/-- An open file stays open, at the same path. -/
theorem step_keeps (d : LogDisk K) (w v : LogWriter) (op : DataLogger.Op K) {f : LogFile} (h : (d.loggers v).file = some f) :
    ∃ f', ((d.step w op).loggers v).file = some f' ∧ f'.path = f.path := by
  rw [step_loggers]
  by_cases hv : v = w
  · subst hv
    rw [Function.update_self]
    rcases step_file (d.loggers v) op with h1 | ⟨m, _, h1, h2⟩ | ⟨m, g, _, h1, h2⟩
    · exact ⟨f, h1.trans h, rfl⟩
    · rw [h] at h1; cases h1
    · rw [h] at h1; cases h1; exact ⟨_, h2, rfl⟩
  · rw [Function.update_of_ne hv]
    exact ⟨f, h, rfl⟩

/-- One call on `w` leaves every file alone except the one at `w`'s path. -/
theorem step_elsewhere (d : LogDisk K) (w : LogWriter) (op : DataLogger.Op K) (p : String)
    (h : ∀ f, ((d.step w op).loggers w).file = some f → f.path ≠ p) : (d.step w op).files p = d.files p := by
  have hl := congrFun (step_loggers d w op) w
  rw [Function.update_self] at hl
  rw [hl] at h
  unfold step
  dsimp only
  split
  · rename_i f h1 h2
    have := h f h2
    simp only [write, Function.update_of_ne (Ne.symm this)]
  · rename_i f f' h1 h2
    have := h f' h2
    simp only [write, Function.update_of_ne (Ne.symm this)]
  · rfl

theorem step_pos_other (d : LogDisk K) (w v : LogWriter) (op : DataLogger.Op K) (h : v ≠ w) : (d.step w op).pos v = d.pos v := by
  unfold step
  dsimp only
  split <;> simp only [write, Function.update_of_ne h]

theorem step_good {d : LogDisk K} (hg : d.Good) (w : LogWriter) (op : DataLogger.Op K) : (d.step w op).Good := by
  intro v f hf ha
  by_cases hv : v = w
  · subst hv
    have hl := congrFun (step_loggers d v op) v
    rw [Function.update_self] at hl
    rw [hl] at hf
    rcases step_file (d.loggers v) op with h1 | ⟨m, _, h1, h2⟩ | ⟨m, g, _, h1, h2⟩
    · rw [h1] at hf
      have hal : d.Alone v f := by
        intro w' f' hne hw'
        obtain ⟨f'', k1, k2⟩ := step_keeps d v w' op hw'
        rw [← k2]; exact ha w' f'' hne k1
      obtain ⟨g1, g2⟩ := hg v f hf hal
      unfold step
      dsimp only
      rw [h1, hf]
      simp only [List.drop_length, write, Function.update_self]
      constructor
      · rw [← g1]; rfl
      · rw [g2]; rfl
    · rw [h2] at hf
      cases hf
      unfold step
      dsimp only
      rw [h1, h2]
      simp only [write, Function.update_self]
      exact ⟨overwrite_end [] _, Nat.zero_add _⟩
    · rw [h2] at hf
      cases hf
      have hal : d.Alone v g := by
        intro w' f' hne hw'
        obtain ⟨f'', k1, k2⟩ := step_keeps d v w' op hw'
        rw [← k2]; exact ha w' f'' hne k1
      obtain ⟨g1, g2⟩ := hg v g h1 hal
      unfold step
      dsimp only
      rw [h1, h2]
      simp only [write, Function.update_self, List.drop_left, g1, g2, linesText_append, List.length_append]
      exact ⟨overwrite_end _ _, trivial⟩
  · have hl := congrFun (step_loggers d w op) v
    rw [Function.update_of_ne hv] at hl
    rw [hl] at hf
    have hal : d.Alone v f := by
      intro w' f' hne hw'
      obtain ⟨f'', k1, k2⟩ := step_keeps d w w' op hw'
      rw [← k2]; exact ha w' f'' hne k1
    obtain ⟨g1, g2⟩ := hg v f hf hal
    rw [step_elsewhere d w op f.path (fun g hgw => ha w g (Ne.symm hv) hgw), step_pos_other d w v op hv]
    exact ⟨g1, g2⟩

theorem run_good {d : LogDisk K} (hg : d.Good) (h : List (LogWriter × DataLogger.Op K)) : (d.run h).Good := by
  induction h generalizing d with
  | nil => exact hg
  | cons c h ih => exact ih (step_good hg c.1 c.2)

theorem init_good (dir : String) (files : String → List Char) : (init dir files : LogDisk K).Good := by
  intro w f hf
  cases hf

end LogDisk

/-- A call that changes where a logger writes. -/
def DataLogger.Op.moves : DataLogger.Op K → Bool
  | .setDirectory _ => true
  | .setFileName _ => true
  | _ => false

theorem step_place (l : DataLogger K) (op : DataLogger.Op K) (h : op.moves = false) :
    (l.step op).directory = l.directory ∧ (l.step op).fileName = l.fileName := by
  cases op <;> simp_all [DataLogger.step, DataLogger.log, DataLogger.rateLimitedLog, DataLogger.Op.moves] <;> (repeat' split) <;> simp

theorem run_place {d : LogDisk K} {dir : String} (h0 : ∀ w, (d.loggers w).directory = dir ∧ (d.loggers w).fileName = w.fileName ∧
      ∀ f, (d.loggers w).file = some f → f.path = dir ++ w.fileName)
    (h : List (LogWriter × DataLogger.Op K)) (hh : ∀ c ∈ h, c.2.moves = false) :
    ∀ w f, ((d.run h).loggers w).file = some f → f.path = dir ++ w.fileName := by
  induction h generalizing d with
  | nil => exact fun w => (h0 w).2.2
  | cons c h ih =>
    refine ih (d := d.step c.1 c.2) (fun w => ?_) (fun c' hc => hh c' (List.mem_cons_of_mem _ hc))
    rw [LogDisk.step_loggers]
    by_cases hw : w = c.1
    · subst hw
      rw [Function.update_self]
      obtain ⟨p1, p2⟩ := step_place (d.loggers c.1) c.2 (hh c (List.mem_cons_self ..))
      obtain ⟨q1, q2, q3⟩ := h0 c.1
      refine ⟨p1.trans q1, p2.trans q2, fun f hf => ?_⟩
      rcases step_file (d.loggers c.1) c.2 with h1 | ⟨m, _, h1, h2⟩ | ⟨m, g, _, h1, h2⟩
      · exact q3 f (h1 ▸ hf)
      · rw [h2] at hf; cases hf; rw [q1, q2]
      · rw [h2] at hf; cases hf; exact q3 g h1
    · rw [Function.update_of_ne hw]
      exact h0 w

/-- What the logger of `w` has been asked to write is kept by its own model (C25). -/
theorem run_own (d : LogDisk K) (h : List (LogWriter × DataLogger.Op K)) (w : LogWriter) :
    (d.run h).loggers w = (d.loggers w).run ((h.filter fun c => c.1 = w).map Prod.snd) := by
  induction h generalizing d with
  | nil => rfl
  | cons c h ih =>
    refine (ih (d.step c.1 c.2)).trans ?_
    rw [LogDisk.step_loggers]
    by_cases hw : c.1 = w
    · subst hw
      simp [DataLogger.run_cons]
    · rw [Function.update_of_ne (Ne.symm hw)]
      simp [hw]

/-- **A file belongs to its writer, one tracker and one board per camera**: after any interleaving of calls on all loggers of a
run, whatever was in the directory before, the file at a writer's path holds exactly the lines that its own calls produce (the
header and its messages, C25), provided no other writer that is alike has written. -/
theorem C63_own_partial (dir : String) (files : String → List Char) (h : List (LogWriter × DataLogger.Op K))
    (hh : ∀ c ∈ h, c.2.moves = false) (w : LogWriter) (f : LogFile)
    (hf : ((DataLogger.new dir w.fileName : DataLogger K).run ((h.filter fun c => c.1 = w).map Prod.snd)).file = some f)
    (halone : ∀ v, v ≠ w → v.Alike w →
      ((DataLogger.new dir v.fileName : DataLogger K).run ((h.filter fun c => c.1 = v).map Prod.snd)).file = none) :
    ((LogDisk.init dir files).run h).files (dir ++ w.fileName) = linesText f.lines := by
  have hp := run_place (d := (LogDisk.init dir files : LogDisk K)) (dir := dir)
    (fun w => ⟨rfl, rfl, fun f hf => by cases hf⟩) h hh
  have ho := run_own (LogDisk.init dir files : LogDisk K) h
  have hw : (((LogDisk.init dir files : LogDisk K).run h).loggers w).file = some f := by rw [ho w]; exact hf
  have := (LogDisk.run_good (LogDisk.init_good dir files) h w f hw ?_).1
  · rwa [hp w f hw] at this
  · intro v g hne hv hpath
    rw [hp w f hw, hp v g hv, String.append_right_inj, C63_names] at hpath
    have := halone v hne hpath
    have hv' := hv
    rw [ho v] at hv'
    exact absurd (this.symm.trans hv') (by simp)

/-- A file that no logger writes to is left as it was. -/
theorem C63_others (dir : String) (files : String → List Char) (h : List (LogWriter × DataLogger.Op K))
    (hh : ∀ c ∈ h, c.2.moves = false) (p : String) (hp : ∀ w : LogWriter, p ≠ dir ++ w.fileName) :
    ((LogDisk.init dir files : LogDisk K).run h).files p = files p := by
  suffices H : ∀ h' : List (LogWriter × DataLogger.Op K), h' <+: h →
      ((LogDisk.init dir files : LogDisk K).run h').files p = files p from H h (List.prefix_refl h)
  intro h' hpre
  induction h' using List.reverseRecOn with
  | nil => rfl
  | append_singleton l c ih =>
    have hl : l <+: h := (List.prefix_append l [c]).trans hpre
    have hm : ∀ c' ∈ l ++ [c], c'.2.moves = false := fun c' hc => hh c' (hpre.subset hc)
    have hpl := run_place (d := (LogDisk.init dir files : LogDisk K)) (dir := dir)
      (fun w => ⟨rfl, rfl, fun f hf => by cases hf⟩) (l ++ [c]) hm
    have hrun : (LogDisk.init dir files : LogDisk K).run (l ++ [c]) = ((LogDisk.init dir files : LogDisk K).run l).step c.1 c.2 := by
      simp [LogDisk.run, List.foldl_append]
    rw [hrun] at hpl ⊢
    rw [LogDisk.step_elsewhere _ _ _ p (fun f hf heq => hp c.1 ((hpl c.1 f hf).symm.trans heq).symm)]
    exact ih hl

/-- **Violated for boards on one camera**: in every state in which one board's logger has written, the first row of another board
on the same camera empties the file, whatever rows the first board had put there. -/
theorem C63_boards_violated (d : LogDisk K) (camera b b' : Nat) (f : LogFile) (m : String) (hne : b ≠ b')
    (hf : (d.loggers (.fiducial camera b)).file = some f)
    (hpath : f.path = (d.loggers (.fiducial camera b')).directory ++ (d.loggers (.fiducial camera b')).fileName)
    (hon : (d.loggers (.fiducial camera b')).on = true) (hnew : (d.loggers (.fiducial camera b')).file = none) :
    ((d.step (.fiducial camera b') (.log m)).loggers (.fiducial camera b)).file = some f ∧
    (d.step (.fiducial camera b') (.log m)).files f.path = linesText [(d.loggers (.fiducial camera b')).header, m] := by
  have hw : LogWriter.fiducial camera b ≠ .fiducial camera b' := by simpa using hne
  refine ⟨?_, ?_⟩
  · rw [LogDisk.step_loggers, Function.update_of_ne hw, hf]
  · have : ((d.loggers (.fiducial camera b')).step (.log m)).file =
        some ⟨f.path, [(d.loggers (.fiducial camera b')).header, m]⟩ := by
      simp [DataLogger.step, DataLogger.log, hon, hnew, hpath]
    unfold LogDisk.step
    dsimp only
    rw [hnew, this]
    simp only [LogDisk.write, Function.update_self]
    exact overwrite_end [] _

/-- The same for two feature trackers on one camera. -/
theorem C63_trackers_violated (d : LogDisk K) (camera t t' : Nat) (f : LogFile) (m : String) (hne : t ≠ t')
    (hf : (d.loggers (.msckf camera t)).file = some f)
    (hpath : f.path = (d.loggers (.msckf camera t')).directory ++ (d.loggers (.msckf camera t')).fileName)
    (hon : (d.loggers (.msckf camera t')).on = true) (hnew : (d.loggers (.msckf camera t')).file = none) :
    ((d.step (.msckf camera t') (.log m)).loggers (.msckf camera t)).file = some f ∧
    (d.step (.msckf camera t') (.log m)).files f.path = linesText [(d.loggers (.msckf camera t')).header, m] := by
  have hw : LogWriter.msckf camera t ≠ .msckf camera t' := by simpa using hne
  refine ⟨?_, ?_⟩
  · rw [LogDisk.step_loggers, Function.update_of_ne hw, hf]
  · have : ((d.loggers (.msckf camera t')).step (.log m)).file =
        some ⟨f.path, [(d.loggers (.msckf camera t')).header, m]⟩ := by
      simp [DataLogger.step, DataLogger.log, hon, hnew, hpath]
    unfold LogDisk.step
    dsimp only
    rw [hnew, this]
    simp only [LogDisk.write, Function.update_self]
    exact overwrite_end [] _

/-! ## Witnesses -/

namespace LogSample

/-- Two sensors take turns. -/
def turns : List (LogWriter × DataLogger.Op ℚ) :=
  [(.imu 3, .defineHeader "time"), (.gps 3, .defineHeader "t"), (.imu 3, .enable), (.gps 3, .enable), (.imu 3, .log "1"), (.gps 3, .log "2"),
   (.imu 3, .log "3"), (.gps 3, .log "4")]

/-- Two boards on camera 1. -/
def boards : List (LogWriter × DataLogger.Op ℚ) :=
  [(.fiducial 1 4, .defineHeader "time"), (.fiducial 1 5, .defineHeader "time"), (.fiducial 1 4, .enable), (.fiducial 1 5, .enable),
   (.fiducial 1 4, .log "1.0"), (.fiducial 1 4, .log "1.5"), (.fiducial 1 5, .log "1.75")]

end LogSample

/-- The hypotheses of `C63_own_partial` are met by two sensors writing in turn, and the file is the IMU's own. -/
example : (∀ c ∈ LogSample.turns, c.2.moves = false) ∧
    ((DataLogger.new "/log/" (LogWriter.imu 3).fileName : DataLogger ℚ).run ((LogSample.turns.filter fun c => c.1 = .imu 3).map Prod.snd)).file =
      some ⟨"/log/imu_3.csv", ["time", "1", "3"]⟩ ∧
    (∀ v : LogWriter, v ≠ .imu 3 → v.Alike (.imu 3) →
      ((DataLogger.new "/log/" v.fileName : DataLogger ℚ).run ((LogSample.turns.filter fun c => c.1 = v).map Prod.snd)).file = none) ∧
    String.ofList (((LogDisk.init "/log/" fun _ => "old".toList : LogDisk ℚ).run LogSample.turns).files "/log/imu_3.csv") = "time\n1\n3\n" := by
  refine ⟨by decide, by decide +kernel, ?_, by decide +kernel⟩
  intro v hv ha
  cases v <;> simp_all [LogWriter.Alike]

/-- **Violated**: two boards on one camera, each logging; the first board's rows are not in the file, and its next row is written
at its old position, over the other board's rows and beyond their end. -/
theorem C63_violated :
    ((DataLogger.new "/log/" (LogWriter.fiducial 1 4).fileName : DataLogger ℚ).run
      ((LogSample.boards.filter fun c => c.1 = .fiducial 1 4).map Prod.snd)).file = some ⟨"/log/fiducial_1.csv", ["time", "1.0", "1.5"]⟩ ∧
    String.ofList (((LogDisk.init "/log/" fun _ => [] : LogDisk ℚ).run LogSample.boards).files "/log/fiducial_1.csv") = "time\n1.75\n" ∧
    String.ofList (((LogDisk.init "/log/" fun _ => [] : LogDisk ℚ).run (LogSample.boards ++ [(.fiducial 1 4, .log "2.0")])).files
      "/log/fiducial_1.csv") = "time\n1.75\n\x00\x00\x002.0\n" := by
  refine ⟨by decide +kernel, by decide +kernel, by decide +kernel⟩

end EkfCal
