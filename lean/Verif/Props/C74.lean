import Verif.Model.RosLogger
import Verif.Lemmas.Mat

/-!
# C74: the debug messages of the node are the ones asked for, as they were written

Shown in part, for messages without a percent sign and levels set by number.  The node's logger takes a message for a
`printf` format, announces a change of level with the level it leaves, reads past its table of names once the documented
level 5 is configured, and numbers its levels differently from the documentation.
-/

namespace EkfCal.RosLogger

open DebugLogger (Op)

/-- A text that `printf` prints as it is. -/
def Plain (m : String) : Prop := ∀ c ∈ m.toList, c ≠ '%' ∧ c ≠ '\x00'

/-- The call is one the logger handles as asked: plain messages, and levels set by one of the five numbers. -/
def Proper : Op → Prop
  | .log _ m => Plain m
  | .setLevel _ => False
  | .setLevelUnsigned n => n ≤ 4

/-- The lines a history of calls should print: each message whose severity both the level in force and ROS admit, as it was
written; and each new level by its name, unless the logger was at DEBUG and stays there. -/
def expected (ros : Int) : Int → List Op → List (LogLevel × String)
  | _, [] => []
  | level, .log v m :: h =>
    (if v.toInt ≤ level ∧ v.toInt ≤ ros then [(v, m)] else []) ++ expected ros level h
  | level, .setLevel w :: h =>
    (if (level = 4 ∧ w = .debug) ∨ ros < 3 then []
      else [(.info, "Log level set to: " ++ LogLevel.names.getD w.toInt.toNat "")]) ++ expected ros w.toInt h
  | level, .setLevelUnsigned n :: h =>
    (if (level = 4 ∧ n = 4) ∨ ros < 3 then []
      else [(.info, "Log level set to: " ++ LogLevel.names.getD n "")]) ++ expected ros n h

theorem printfChars_plain (cs : List Char) (h : ∀ c ∈ cs, c ≠ '%') : printfChars cs = .ok cs := by
  induction cs with
  | nil => rfl
  | cons c cs ih =>
    have hc : c ≠ '%' := h c (by simp)
    have := ih fun d hd => h d (by simp [hd])
    rw [printfChars]
    · rw [this]; rfl
    · intro _ h1; exact absurd h1 hc
    · intro h1; exact absurd h1 hc

theorem takeWhile_all {α : Type} (p : α → Bool) (l : List α) (h : ∀ a ∈ l, p a = true) : l.takeWhile p = l := by
  induction l with
  | nil => rfl
  | cons a l ih => rw [List.takeWhile_cons_of_pos (h a (by simp)), ih fun b hb => h b (by simp [hb])]

theorem printfText_plain (m : String) (h : Plain m) : printfText m = .ok m := by
  have h1 : m.toList.takeWhile (· ≠ '\x00') = m.toList := by
    exact takeWhile_all _ _ fun c hc => by simpa using (h c hc).2
  rw [printfText, h1, printfChars_plain _ fun c hc => (h c hc).1]
  simp [Except.map]

theorem ofUnsigned_small (n : Nat) (hn : n < 2 ^ 31) : LogLevel.ofUnsigned n = n := by
  have hm : n % 2 ^ 32 = n := Nat.mod_eq_of_lt (by omega)
  simp only [LogLevel.ofUnsigned, hm, if_pos hn]

/-- **What is asked for is what is printed**: from any of the five levels, whatever history of plain messages and numbered
levels follows, nothing undefined happens and ROS prints exactly the expected lines, in order. -/
theorem C74_printed_partial (l : RosLogger) (h : List Op) (h0 : 0 ≤ l.level) (h4 : l.level ≤ 4) (hp : ∀ op ∈ h, Proper op) :
    ∃ l', l.run h = .ok l' ∧ l'.out = l.out ++ expected l.ros l.level h := by
  induction h generalizing l with
  | nil => exact ⟨l, rfl, by simp [expected]⟩
  | cons op h ih =>
    have hop := hp op (by simp)
    have hrest : ∀ op ∈ h, Proper op := fun o ho => hp o (by simp [ho])
    have key : ∃ l1, l.step op = .ok l1 ∧ 0 ≤ l1.level ∧ l1.level ≤ 4 ∧ l1.ros = l.ros ∧
        l1.out ++ expected l1.ros l1.level h = l.out ++ expected l.ros l.level (op :: h) := by
      cases op with
      | log v m =>
        simp only [step, log, expected]
        by_cases h1 : v.toInt ≤ l.level
        · by_cases h2 : v.toInt ≤ l.ros
          · rw [if_pos h1, if_pos h2, printfText_plain m hop, if_pos ⟨h1, h2⟩]
            exact ⟨_, rfl, by simpa [print, if_pos h2] using h0, by simpa [print, if_pos h2] using h4,
              by simp [print, if_pos h2], by simp [print, if_pos h2]⟩
          · rw [if_pos h1, if_neg h2, if_neg fun x => h2 x.2]
            exact ⟨l, rfl, h0, h4, rfl, by simp⟩
        · rw [if_neg h1, if_neg fun x => h1 x.1]
          exact ⟨l, rfl, h0, h4, rfl, by simp⟩
      | setLevel w => exact absurd hop id
      | setLevelUnsigned n =>
        have hn : n ≤ 4 := hop
        have hu := ofUnsigned_small n (by omega)
        have hm : n % 2 ^ 32 = n := Nat.mod_eq_of_lt (by omega)
        have hname : nameAt ((n % 2 ^ 32 : Nat) : Int) = .ok (LogLevel.names.getD n "") := by
          rw [hm, nameAt, if_pos (by omega)]; rfl
        simp only [step, setLevelUnsigned, expected, hu, LogLevel.toInt]
        by_cases h1 : l.level ≤ 3 ∨ (n : Int) ≤ 3
        · rw [if_pos h1, hname]
          by_cases h2 : (3 : Int) ≤ l.ros
          · rw [if_neg (by omega)]
            exact ⟨_, rfl, by simp, by simpa using hn, by simp [print, LogLevel.toInt, h2], by simp [print, LogLevel.toInt, h2]⟩
          · rw [if_pos (by omega)]
            exact ⟨_, rfl, by simp, by simpa using hn, by simp [print, LogLevel.toInt, h2], by simp [print, LogLevel.toInt, h2]⟩
        · rw [if_neg h1, if_pos (by omega)]
          exact ⟨_, rfl, by simp, by simpa using hn, rfl, by simp⟩
    obtain ⟨l1, e1, a0, a4, er, eo⟩ := key
    obtain ⟨l', e2, o2⟩ := ih l1 a0 a4 hrest
    refine ⟨l', ?_, o2.trans eo⟩
    simp only [run, List.foldlM_cons] at e2 ⊢
    rw [e1]; exact e2

/-- A history with all five severities and a change of level in the middle meets the hypotheses, and prints four lines. -/
example : (∀ op ∈ ([.log .debug "a", .log .warn "b", .setLevelUnsigned 4, .log .debug "d", .log .info "e", .log .fatal "f"] : List Op),
      Proper op) ∧
    (RosLogger.new .warn 3).run [.log .debug "a", .log .warn "b", .setLevelUnsigned 4, .log .debug "d", .log .info "e", .log .fatal "f"] =
      .ok ⟨4, 3, [(.warn, "b"), (.info, "Log level set to: DEBUG"), (.info, "e"), (.fatal, "f")]⟩ := by
  constructor
  · intro op hop
    simp only [List.mem_cons, List.not_mem_nil, or_false] at hop
    rcases hop with rfl | rfl | rfl | rfl | rfl | rfl <;> simp [Proper, Plain]
  · decide +kernel

/-- A message that the level and ROS admit is undefined as soon as it has a percent sign that no other follows: for every
text before and after it. -/
theorem C74_percent_violated (l : RosLogger) (v : LogLevel) (hl : v.toInt ≤ l.level) (hr : v.toInt ≤ l.ros)
    (pre post : List Char) (c : Char) (hpre : ∀ d ∈ pre, d ≠ '%' ∧ d ≠ '\x00') (hc : c ≠ '%') (h0 : c ≠ '\x00') :
    l.log v (String.ofList (pre ++ '%' :: c :: post)) = .error .uninitialised := by
  have key : ∀ rest : List Char, printfChars (pre ++ '%' :: c :: rest) = .error .uninitialised := by
    intro rest
    induction pre with
    | nil =>
      rw [List.nil_append, printfChars]
      intro cs h1; exact hc (List.cons.inj h1).1
    | cons d pre ih =>
      have hd := (hpre d (by simp)).1
      rw [List.cons_append, printfChars, ih fun e he => hpre e (by simp [he])]
      · rfl
      · intro _ h1; exact absurd h1 hd
      · intro h1; exact absurd h1 hd
  have htake : (pre ++ '%' :: c :: post).takeWhile (· ≠ '\x00') =
      pre ++ '%' :: c :: post.takeWhile (· ≠ '\x00') := by
    rw [List.takeWhile_append_of_pos (by intro d hd; simpa using (hpre d hd).2)]
    simp [h0]
  rw [log, if_pos hl, if_pos hr, printfText, String.toList_ofList, htake, key]
  rfl

/-- The name of a sensor is part of its messages (src/sensors/imu.cpp:64-66): an IMU called `left%side` is enough. -/
example : (RosLogger.new .debug 4).log .debug "IMU \"left%side\" callback complete" = .error .uninitialised := by
  decide +kernel

/-- A doubled percent sign is printed once, so that the message is not printed as it was written. -/
theorem C74_doubled_violated : (RosLogger.new .info 3).log .info "50%% done" = .ok ⟨3, 3, [(.info, "50% done")]⟩ := by
  decide +kernel

/-- **A change of level is announced as the level that was left**: whatever the two levels. -/
theorem C74_announced_violated (v w : LogLevel) (hne : v ≠ w) :
    (RosLogger.new v 3).setLevel w =
      .ok ⟨w.toInt, 3, [(.info, "Log level set to: " ++ LogLevel.names.getD v.toInt.toNat "")]⟩ ∧
    expected 3 v.toInt [.setLevel w] = [(.info, "Log level set to: " ++ LogLevel.names.getD w.toInt.toNat "")] ∧
    LogLevel.names.getD v.toInt.toNat "" ≠ LogLevel.names.getD w.toInt.toNat "" := by
  cases v <;> cases w <;> first | exact absurd rfl hne | decide +kernel

/-- The level a number of `debug_log_level` stands for, as config/example.yaml:3-8 documents it. -/
def documented : Nat → Option LogLevel
  | 1 => some .fatal | 2 => some .error | 3 => some .warn | 4 => some .info | 5 => some .debug
  | _ => none

/-- **Every documented level but the last lets the next severity through as well**: a message less severe than the
documented level is printed. -/
theorem C74_documented_violated (n : Nat) (h1 : 1 ≤ n) (h4 : n ≤ 4) (ros : Int) (hr : 4 ≤ ros) (m : String) (hm : Plain m) :
    ∃ d v, documented n = some d ∧ d.toInt < v.toInt ∧
      (RosLogger.newUnsigned n ros).log v m = .ok ⟨n, ros, [(v, m)]⟩ := by
  have hu := ofUnsigned_small n (by omega)
  have key : ∀ d v : LogLevel, documented n = some d → d.toInt < v.toInt → v.toInt ≤ n →
      ∃ d v, documented n = some d ∧ d.toInt < v.toInt ∧ (RosLogger.newUnsigned n ros).log v m = .ok ⟨n, ros, [(v, m)]⟩ := by
    intro d v hd hlt hle
    refine ⟨d, v, hd, hlt, ?_⟩
    have hv : v.toInt ≤ ros := by omega
    rw [log, newUnsigned, if_pos (by rw [hu]; exact hle), if_pos hv, printfText_plain m hm]
    simp [bind, Except.bind, print, hv, hu]
  have : n = 1 ∨ n = 2 ∨ n = 3 ∨ n = 4 := by omega
  rcases this with rfl | rfl | rfl | rfl
  · exact key .fatal .error rfl (by decide) (by decide)
  · exact key .error .warn rfl (by decide) (by decide)
  · exact key .warn .info rfl (by decide) (by decide)
  · exact key .info .debug rfl (by decide) (by decide)

/-- **The documented level DEBUG has no name**: after it is configured, every change of level to another one reads past the
table of names. -/
theorem C74_fifth_violated (ros : Int) (w : LogLevel) (hw : w ≠ .debug) :
    documented 5 = some .debug ∧ (RosLogger.newUnsigned 5 ros).setLevel w = .error .outOfRange := by
  refine ⟨rfl, ?_⟩
  have : w.toInt ≤ LogLevel.info.toInt := by cases w <;> first | exact absurd rfl hw | decide
  rw [setLevel, if_pos (Or.inr this)]
  rfl

/-- **Debug messages stay hidden**: with the threshold ROS starts with, no configured number and no later change of level makes
the node print a debug message. -/
theorem C74_debug_violated (n : Nat) (h : List Op) (l : RosLogger) (hr : (RosLogger.newUnsigned n 3).run h = .ok l)
    (m : String) : l.log .debug m = .ok l := by
  have key : ∀ (h : List Op) (a b : RosLogger), a.run h = .ok b → b.ros = a.ros := by
    intro h
    induction h with
    | nil => intro a b hb; cases hb; rfl
    | cons op h ih =>
      intro a b hb
      simp only [run, List.foldlM_cons] at hb
      obtain ⟨a1, e1, e2⟩ := bind_ok_iff.mp hb
      rw [ih a1 b e2]
      have hp : ∀ v t, (a.print v t).ros = a.ros := by intro v t; simp only [print]; split_ifs <;> rfl
      cases op with
      | log v t =>
        simp only [step, log] at e1
        split_ifs at e1
        · obtain ⟨t', _, e3⟩ := bind_ok_iff.mp e1
          cases e3; exact hp _ _
        · cases e1; rfl
        · cases e1; rfl
      | setLevel w =>
        simp only [step, setLevel] at e1
        split_ifs at e1
        · obtain ⟨t', _, e3⟩ := bind_ok_iff.mp e1
          cases e3; exact hp _ _
        · cases e1; rfl
      | setLevelUnsigned k =>
        simp only [step, setLevelUnsigned] at e1
        split_ifs at e1
        · obtain ⟨t', _, e3⟩ := bind_ok_iff.mp e1
          cases e3; exact hp _ _
        · cases e1; rfl
  have h3 : l.ros = 3 := key h _ _ hr
  simp only [log, h3, LogLevel.toInt]
  split_ifs <;> first | rfl | omega

/-- Such a history: the level DEBUG is configured and set again. -/
example : ∃ l, (RosLogger.newUnsigned 4 3).run [.setLevelUnsigned 4, .log .info "a"] = .ok l ∧ l.level = 4 ∧ l.out = [(.info, "a")] :=
  ⟨_, rfl, rfl, rfl⟩

end EkfCal.RosLogger
