import Mathlib.Algebra.Field.Rat
import Mathlib.Algebra.Order.Ring.Rat
import Mathlib.Data.List.Induction
import Verif.Spec.Logger

/-!
# C25: log files start with one header and keep row order
-/

namespace EkfCal.DataLogger

variable {K : Type} [Field K] [LinearOrder K]

theorem run_nil (l : DataLogger K) : l.run [] = l := rfl
theorem run_cons (l : DataLogger K) (op : Op K) (h) : l.run (op :: h) = (l.step op).run h := rfl
theorem run_append (l : DataLogger K) (h h') : l.run (h ++ h') = (l.run h).run h' := by
  simp [run, List.foldl_append]

/-- What one call does to the file of a logger that is on: nothing, or it appends the call's own message. -/
theorem step_on (l : DataLogger K) (op : Op K) (hon : l.on = true) :
    (l.step op).on = true ∧
    ((l.step op).file = l.file ∧ op.plain? = none ∨
     ∃ m, op.message? = some m ∧ (l.step op).file =
      some (match l.file with
        | none => ⟨l.directory ++ l.fileName, [l.header, m]⟩
        | some f => ⟨f.path, f.lines ++ [m]⟩)) := by
  cases op with
  | log m =>
    refine ⟨?_, Or.inr ⟨m, rfl, ?_⟩⟩ <;> simp only [step, log, hon, if_true]
    cases l.file <;> rfl
  | rateLimitedLog m t =>
    simp only [step, rateLimitedLog, hon, if_true, log, Op.plain?, Op.message?]
    by_cases h0 : l.timeInit = 0
    · simp only [h0, ne_eq, not_true_eq_false, if_false, hon, if_true, true_and]
      right; refine ⟨m, rfl, ?_⟩; cases l.file <;> rfl
    · simp only [ne_eq, h0, not_false_eq_true, if_true]
      split
      · simp only [true_and]
        right; refine ⟨m, rfl, ?_⟩; cases l.file <;> rfl
      · exact ⟨hon, Or.inl ⟨rfl, trivial⟩⟩
  | _ => exact ⟨by simp [step, hon], Or.inl ⟨rfl, rfl⟩⟩

/-- A logger that is off writes nothing. -/
theorem step_off (l : DataLogger K) (op : Op K) (hoff : l.on = false) :
    (l.step op).file = l.file ∧ ((l.step op).on = true → op = .enable) := by
  cases op <;> simp [step, log, rateLimitedLog, hoff]

/-- **Nothing is written while logging is off**: as long as logging is not enabled there is no file at all. -/
theorem C25_disabled (l : DataLogger K) (hl : l.on = false) (hf : l.file = none) (h : List (Op K))
    (hh : Op.enable ∉ h) : (l.run h).file = none := by
  induction h generalizing l with
  | nil => exact hf
  | cons op h ih =>
    rw [run_cons]
    obtain ⟨h1, h2⟩ := step_off l op hl
    refine ih _ ?_ (h1.trans hf) (fun hm => hh (List.mem_cons_of_mem _ hm))
    cases hb : (l.step op).on with
    | false => rfl
    | true => exact absurd (h2 hb) (fun e => hh (e ▸ List.mem_cons_self))

/-- **The file is append only and the header is written once**: whatever is done with a logger whose file is open, the
file keeps its place and its lines, and gains a list of messages, each handed in by one of the calls, in their order,
with no plain message missing. -/
theorem C25_append (l : DataLogger K) (hl : l.on = true) (f : LogFile) (hf : l.file = some f) (h : List (Op K)) :
    ∃ ms : List String, (l.run h).file = some ⟨f.path, f.lines ++ ms⟩ ∧
      ms.Sublist (h.filterMap Op.message?) ∧ (h.filterMap Op.plain?).Sublist ms := by
  induction h generalizing l f with
  | nil => exact ⟨[], by simp [run_nil, hf], by simp, by simp⟩
  | cons op h ih =>
    rw [run_cons]
    obtain ⟨hon, hs⟩ := step_on l op hl
    rcases hs with ⟨h1, h2⟩ | ⟨m, h1, h2⟩
    · obtain ⟨ms, ha, hb, hc⟩ := ih _ hon f (h1.trans hf)
      refine ⟨ms, ha, ?_, by simpa [h2] using hc⟩
      cases hm : op.message? with
      | none => simpa [hm] using hb
      | some m => rw [List.filterMap_cons_some hm]; exact hb.cons _
    · rw [hf] at h2
      obtain ⟨ms, ha, hb, hc⟩ := ih _ hon _ h2
      refine ⟨m :: ms, by simpa using ha, by rw [List.filterMap_cons_some h1]; exact hb.cons_cons _, ?_⟩
      cases hp : op.plain? with
      | none => rw [List.filterMap_cons_none hp]; exact hc.cons _
      | some m' =>
        have : m' = m := by cases op <;> simp_all [Op.plain?, Op.message?]
        rw [List.filterMap_cons_some hp, this]; exact hc.cons_cons _

theorem lastHeader_snoc (h : List (Op K)) (op : Op K) :
    lastHeader (h ++ [op]) = match op with | .defineHeader s => s | _ => lastHeader h := by
  cases op <;> simp [lastHeader, List.filterMap_append]

/-- While no line has been written the header is the last one defined. -/
theorem header_run (l : DataLogger K) (hl : l.header = "") (h : List (Op K)) : (l.run h).header = lastHeader h := by
  induction h using List.reverseRecOn with
  | nil => simpa [run_nil, lastHeader] using hl
  | append_singleton h op ih =>
    rw [run_append, lastHeader_snoc]
    show ((l.run h).step op).header = _
    cases op with
    | rateLimitedLog m t => simp only [step, rateLimitedLog, log]; split_ifs <;> simpa using ih
    | log m => simp only [step, log]; split_ifs <;> simpa using ih
    | _ => simp [step, ih]

theorem on_run (l : DataLogger K) (hl : l.on = true) (h : List (Op K)) : (l.run h).on = true := by
  induction h generalizing l with
  | nil => exact hl
  | cons op h ih => exact ih _ (step_on l op hl).1

/-- Before the first line of a logger that is on, and after it. -/
theorem run_on (l : DataLogger K) (hl : l.on = true) (hf : l.file = none) (h : List (Op K)) :
    ((l.run h).file = none ∧ h.filterMap Op.plain? = []) ∨
    ∃ pre post path ms, h = pre ++ post ∧
      (l.run h).file = some ⟨path, (l.run pre).header :: ms⟩ ∧ ms ≠ [] ∧
      ms.Sublist (h.filterMap Op.message?) ∧ (h.filterMap Op.plain?).Sublist ms ∧ (l.run pre).file = none := by
  induction h generalizing l with
  | nil => exact Or.inl ⟨hf, rfl⟩
  | cons op h ih =>
    obtain ⟨hon, hs⟩ := step_on l op hl
    rcases hs with ⟨h1, h2⟩ | ⟨m, h1, h2⟩
    · rcases ih _ hon (h1.trans hf) with ⟨ha, hb⟩ | ⟨pre, post, path, ms, rfl, ha, hn, hb, hc, hd⟩
      · left; exact ⟨by rw [run_cons]; exact ha, by simp [h2, hb]⟩
      · right
        refine ⟨op :: pre, post, path, ms, rfl, by rw [run_cons]; exact ha, hn, ?_, by
          rw [List.filterMap_cons_none h2]; exact hc, hd⟩
        cases hm : op.message? with
        | none => rw [List.filterMap_cons_none hm]; exact hb
        | some m => rw [List.filterMap_cons_some hm]; exact hb.cons _
    · right
      rw [hf] at h2
      obtain ⟨ms, ha, hb, hc⟩ := C25_append _ hon _ h2 h
      refine ⟨[], op :: h, l.directory ++ l.fileName, m :: ms, rfl, by
        rw [run_cons]; simpa [run_nil] using ha, by simp, by
        rw [List.filterMap_cons_some h1]; exact hb.cons_cons _, ?_, hf⟩
      cases hp : op.plain? with
      | none => rw [List.filterMap_cons_none hp]; exact hc.cons _
      | some m' =>
        have : m' = m := by cases op <;> simp_all [Op.plain?, Op.message?]
        rw [List.filterMap_cons_some hp, this]; exact hc.cons_cons _

/-- The history splits at the first `enable`. -/
theorem split_enable (h : List (Op K)) :
    (Op.enable ∉ h ∧ sinceEnabled h = []) ∨ ∃ pre, Op.enable ∉ pre ∧ h = pre ++ .enable :: sinceEnabled h := by
  induction h with
  | nil => exact Or.inl ⟨by simp, rfl⟩
  | cons op h ih =>
    cases op with
    | enable => exact Or.inr ⟨[], by simp, rfl⟩
    | _ =>
      rcases ih with ⟨h1, h2⟩ | ⟨pre, h1, h2⟩
      · exact Or.inl ⟨by simpa using h1, h2⟩
      · exact Or.inr ⟨_ :: pre, by refine List.not_mem_cons_of_ne_of_not_mem ?_ h1; (intro h; cases h), congrArg (_ :: ·) h2⟩

theorem off_run (l : DataLogger K) (hl : l.on = false) (h : List (Op K)) (hh : Op.enable ∉ h) : (l.run h).on = false := by
  induction h generalizing l with
  | nil => exact hl
  | cons op h ih =>
    refine ih _ ?_ (fun hm => hh (List.mem_cons_of_mem _ hm))
    cases hb : (l.step op).on with
    | false => rfl
    | true => exact absurd ((step_off l op hl).2 hb) (fun e => hh (e ▸ List.mem_cons_self))

/-- **One header, then rows in order**: after any history of calls on a new logger there is either no file, and then no
plain message was logged while logging was on; or the file is one header line, the header defined last when the first
line was written, followed by at least one row.  The rows are messages handed in while logging was on, in that order,
none twice, and no plainly logged message is missing. -/
theorem C25_file (directory fileName : String) (rate : K) (h : List (Op K)) :
    let l := (newRated directory fileName rate).run h
    (l.file = none ∧ plainMessages h = []) ∨
    ∃ pre post path ms, h = pre ++ post ∧ ((newRated directory fileName rate).run pre).file = none ∧
      l.file = some ⟨path, lastHeader pre :: ms⟩ ∧ ms ≠ [] ∧
      ms.Sublist (messages h) ∧ (plainMessages h).Sublist ms := by
  intro l
  set l0 := newRated directory fileName rate with hl0
  rcases split_enable h with ⟨h1, h2⟩ | ⟨pre, h1, h2⟩
  · left
    exact ⟨C25_disabled l0 rfl rfl h h1, by simp [plainMessages, h2]⟩
  · have hoff := C25_disabled l0 rfl rfl pre h1
    have e : l = ((l0.run pre).step .enable).run (sinceEnabled h) := by
      conv_lhs => rw [show l = l0.run h from rfl, h2]
      rw [run_append, run_cons]
    rcases run_on ((l0.run pre).step .enable) rfl hoff (sinceEnabled h) with ⟨ha, hb⟩ | ⟨p, q, path, ms, hpq, ha, hn, hb, hc, hd⟩
    · left; exact ⟨by rw [e]; exact ha, hb⟩
    · right
      have e2 : ((l0.run pre).step .enable).run p = l0.run (pre ++ .enable :: p) := by rw [run_append, run_cons]
      refine ⟨pre ++ .enable :: p, q, path, ms, ?_, by rw [← e2]; exact hd, ?_, hn, hb, hc⟩
      · conv_lhs => rw [h2, hpq]
        simp
      · rw [e, ha, e2, header_run l0 rfl]

/-- A logger whose rate is zero accepts every message. -/
theorem step_all (l : DataLogger K) (op : Op K) (hon : l.on = true) (hr : l.rate = 0) (ho : op.setsRate = false) :
    (l.step op).rate = 0 ∧ (l.step op).file = match op.message? with
      | none => l.file
      | some m => some (match l.file with
        | none => ⟨l.directory ++ l.fileName, [l.header, m]⟩
        | some f => ⟨f.path, f.lines ++ [m]⟩) := by
  cases op with
  | log m => refine ⟨by simp [step, log, hon, hr], ?_⟩; simp only [step, log, hon, if_true, Op.message?]; cases l.file <;> rfl
  | rateLimitedLog m t =>
    simp only [step, rateLimitedLog, hon, if_true, log, Op.message?, hr, true_or]
    split_ifs <;> refine ⟨rfl, ?_⟩ <;> cases l.file <;> rfl
  | setRate r => simp [Op.setsRate] at ho
  | _ => simp [step, hr, Op.message?]

theorem append_all (l : DataLogger K) (hl : l.on = true) (hr : l.rate = 0) (f : LogFile) (hf : l.file = some f)
    (h : List (Op K)) (hh : ∀ op ∈ h, op.setsRate = false) :
    (l.run h).file = some ⟨f.path, f.lines ++ h.filterMap Op.message?⟩ := by
  induction h generalizing l f with
  | nil => simp [run_nil, hf]
  | cons op h ih =>
    obtain ⟨h1, h2⟩ := step_all l op hl hr (hh op List.mem_cons_self)
    have hon := (step_on l op hl).1
    rw [run_cons]
    have hh' := fun o ho => hh o (List.mem_cons_of_mem _ ho)
    cases hm : op.message? with
    | none => rw [hm] at h2; rw [List.filterMap_cons_none hm]; exact ih _ hon h1 f (h2.trans hf) hh'
    | some m =>
      rw [hm, hf] at h2
      rw [List.filterMap_cons_some hm, ih _ hon h1 _ h2 hh']
      simp

theorem file_all (l : DataLogger K) (hl : l.on = true) (hr : l.rate = 0) (hf : l.file = none)
    (h : List (Op K)) (hh : ∀ op ∈ h, op.setsRate = false) :
    ((l.run h).file.map LogFile.lines).getD [] =
      if h.filterMap Op.message? = [] then [] else
        (l.run (h.takeWhile fun op => op.message?.isNone)).header :: h.filterMap Op.message? := by
  induction h generalizing l with
  | nil => simp [run_nil, hf]
  | cons op h ih =>
    obtain ⟨h1, h2⟩ := step_all l op hl hr (hh op List.mem_cons_self)
    have hon := (step_on l op hl).1
    have hh' := fun o ho => hh o (List.mem_cons_of_mem _ ho)
    cases hm : op.message? with
    | none =>
      rw [hm] at h2
      rw [run_cons, ih _ hon h1 (h2.trans hf) hh', List.filterMap_cons_none hm]
      rw [List.takeWhile_cons_of_pos (by simp [hm]), run_cons]
    | some m =>
      rw [hm, hf] at h2
      rw [run_cons, append_all _ hon h1 _ h2 h hh', List.filterMap_cons_some hm]
      rw [List.takeWhile_cons_of_neg (by simp [hm])]
      simp [run_nil]

theorem rate_run (l : DataLogger K) (h0 : l.rate = 0) (h : List (Op K)) (hp : ∀ op ∈ h, op.setsRate = false) :
    (l.run h).rate = 0 := by
  induction h generalizing l with
  | nil => exact h0
  | cons op h ih =>
    refine ih _ ?_ (fun o ho => hp o (List.mem_cons_of_mem _ ho))
    have := hp op List.mem_cons_self
    cases op with
    | setRate r => simp [Op.setsRate] at this
    | log m => simp only [step, log]; split_ifs <;> exact h0
    | rateLimitedLog m t => simp only [step, rateLimitedLog, log]; split_ifs <;> exact h0
    | _ => exact h0

/-- **Without a rate the file is exactly the header and the messages**: a new logger on which no rate is ever set holds,
after any history, nothing if no message was handed in while logging was on, and otherwise the header defined last before
the first of those messages, followed by all of them, plain and rate limited, in order. -/
theorem C25_exact (directory fileName : String) (h : List (Op K)) (hh : ∀ op ∈ h, op.setsRate = false) :
    (((new directory fileName : DataLogger K).run h).file.map LogFile.lines).getD [] =
      if messages h = [] then [] else
        lastHeader (h.take (h.length - (sinceEnabled h).length) ++
          (sinceEnabled h).takeWhile fun op => op.message?.isNone) :: messages h := by
  set l0 : DataLogger K := new directory fileName with hl0
  rcases split_enable h with ⟨h1, h2⟩ | ⟨pre, h1, h2⟩
  · rw [C25_disabled l0 rfl rfl h h1]; simp [messages, h2]
  · have hoff := C25_disabled l0 rfl rfl pre h1
    have e : l0.run h = ((l0.run pre).step .enable).run (sinceEnabled h) := by
      conv_lhs => rw [h2]
      rw [run_append, run_cons]
    have hrate : (l0.run pre).rate = 0 := by
      have hp : ∀ op ∈ pre, op.setsRate = false := fun o ho => hh o (h2 ▸ List.mem_append_left _ ho)
      exact rate_run l0 rfl pre hp
    have hp : ∀ op ∈ sinceEnabled h, op.setsRate = false := fun o ho =>
      hh o (h2 ▸ List.mem_append_right _ (List.mem_cons_of_mem _ ho))
    rw [e, file_all ((l0.run pre).step .enable) rfl hrate hoff _ hp]
    have ht : h.take (h.length - (sinceEnabled h).length) = pre ++ [.enable] := by
      have hlen : h.length - (sinceEnabled h).length = (pre ++ [Op.enable (K := K)]).length := by
        have := congrArg List.length h2
        simp at this ⊢; omega
      rw [hlen]
      conv_lhs => rw [h2, show pre ++ Op.enable :: sinceEnabled h = (pre ++ [Op.enable]) ++ sinceEnabled h by simp]
      exact List.take_left
    have e2 : ∀ p, ((l0.run pre).step .enable).run p = l0.run ((pre ++ [.enable]) ++ p) := fun p => by
      rw [run_append, run_append]; rfl
    rw [ht, e2, header_run l0 rfl]
    rfl

/-- A history that meets the hypotheses of `C25_exact` and exercises every part: messages before enabling are dropped, the
header is redefined before and after the first row, and both kinds of call appear. -/
example :
    let h : List (Op ℚ) := [.log "lost", .defineHeader "a", .enable, .defineHeader "b", .log "1", .defineHeader "c",
      .rateLimitedLog "2" 5, .rateLimitedLog "3" 5, .enable, .log "4"]
    (∀ op ∈ h, op.setsRate = false) ∧
    ((new "dir/" "x.csv").run h).file = some ⟨"dir/x.csv", ["b", "1", "2", "3", "4"]⟩ := by
  refine ⟨by decide, ?_⟩
  decide +kernel

/-- A history with a rate in which the limiter drops a row. -/
example :
    let h : List (Op ℚ) := [.defineHeader "h", .enable, .rateLimitedLog "1" 5, .rateLimitedLog "2" 5, .log "3",
      .rateLimitedLog "4" 8]
    ((newRated "dir/" "x.csv" 1).run h).file = some ⟨"dir/x.csv", ["h", "1", "3", "4"]⟩ := by
  decide +kernel

end EkfCal.DataLogger
