import Verif.Model.Logger

/-!
# The debug logger of the ROS node

The node is linked with another version of `DebugLogger` than the simulation: src/infrastructure/ros/ros_debug_logger.cpp.
It hands its lines to the ROS logger named "Logger".
-/

namespace EkfCal

/-- What `printf` makes of a format to which no arguments are passed (ros_debug_logger.cpp:54-70: the message itself is the
format of `RCLCPP_…`).  A doubled percent sign is printed once; any other conversion reads an argument that was not
passed, or ends the format within a conversion, which is undefined.  Flags, widths and GNU's `%m` are not distinguished. -/
def printfChars : List Char → Res (List Char)
  | [] => .ok []
  | '%' :: '%' :: cs => (printfChars cs).map ('%' :: ·)
  | '%' :: _ => .error .uninitialised
  | c :: cs => (printfChars cs).map (c :: ·)

/-- The text `RCLCPP_…(logger, message_c_str)` prints (ros_debug_logger.cpp:50, 54-70).  `c_str` hands over the characters up
to the first null character. -/
def printfText (m : String) : Res String :=
  (printfChars (m.toList.takeWhile (· ≠ '\x00'))).map String.ofList

/-- `DebugLogger` of the node (src/infrastructure/debug_logger.hpp:36-76), with the lines the ROS logger has printed.
`ros` is the severity threshold of the ROS logger on the scale of `LogLevel`: it prints what is at most this number.
ROS starts with a threshold of INFO, which is 3. -/
structure RosLogger where
  level : Int
  ros : Int
  out : List (LogLevel × String)
  deriving DecidableEq, Repr

namespace RosLogger

/-- `DebugLogger(LogLevel, …)` (src/infrastructure/debug_logger.cpp:21-23), under a threshold of ROS. -/
def new (level : LogLevel) (ros : Int) : RosLogger := ⟨level.toInt, ros, []⟩

/-- `DebugLogger(unsigned int, …)` (debug_logger.cpp:25-27), under a threshold of ROS.  The node calls it with the parameter
`debug_log_level` (src/application/ros/node/ekf_cal_node.cpp:95-99). -/
def newUnsigned (level : Nat) (ros : Int) : RosLogger := ⟨LogLevel.ofUnsigned level, ros, []⟩

/-- `m_log_level_names[i]` (debug_logger.hpp:75): five names, read without a check. -/
def nameAt (i : Int) : Res String :=
  if 0 ≤ i ∧ i < 5 then .ok (LogLevel.names.getD i.toNat "") else .error .outOfRange

/-- The ROS logger prints a text if its threshold admits the severity. -/
def print (l : RosLogger) (v : LogLevel) (text : String) : RosLogger :=
  if v.toInt ≤ l.ros then { l with out := l.out ++ [(v, text)] } else l

/-- `SetLogLevel(LogLevel)` (ros_debug_logger.cpp:26-35).  The streamed text is put together whether or not ROS prints it,
and the name is looked up with the level in force so far. -/
def setLevel (l : RosLogger) (level : LogLevel) : Res RosLogger :=
  if l.level ≤ LogLevel.info.toInt ∨ level.toInt ≤ LogLevel.info.toInt then do
    let name ← nameAt l.level
    .ok { l.print .info ("Log level set to: " ++ name) with level := level.toInt }
  else .ok { l with level := level.toInt }

/-- `SetLogLevel(unsigned int)` (ros_debug_logger.cpp:37-46). -/
def setLevelUnsigned (l : RosLogger) (n : Nat) : Res RosLogger :=
  if l.level ≤ LogLevel.info.toInt ∨ LogLevel.ofUnsigned n ≤ LogLevel.info.toInt then do
    let name ← nameAt (n % 2 ^ 32 : Nat)
    .ok { l.print .info ("Log level set to: " ++ name) with level := LogLevel.ofUnsigned n }
  else .ok { l with level := LogLevel.ofUnsigned n }

/-- `DebugLogger::Log` (ros_debug_logger.cpp:48-74).  ROS formats a message only if its threshold admits the severity. -/
def log (l : RosLogger) (v : LogLevel) (m : String) : Res RosLogger :=
  if v.toInt ≤ l.level then
    if v.toInt ≤ l.ros then do
      let text ← printfText m
      .ok (l.print v text)
    else .ok l
  else .ok l

/-- The logger after one call. -/
def step (l : RosLogger) : DebugLogger.Op → Res RosLogger
  | .log v m => l.log v m
  | .setLevel v => l.setLevel v
  | .setLevelUnsigned n => l.setLevelUnsigned n

/-- The logger after a history of calls. -/
def run (l : RosLogger) (h : List DebugLogger.Op) : Res RosLogger := h.foldlM step l

end RosLogger
end EkfCal
