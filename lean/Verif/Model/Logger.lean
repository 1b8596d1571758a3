import Mathlib.Algebra.Field.Defs
import Mathlib.Order.Defs.LinearOrder
import Verif.Model.Base

/-!
# Data and debug loggers (`src/infrastructure`)

`DataLogger` writes comma separated files; `DebugLogger` prints messages by level.  The file is the list of lines written
to it, which is what `std::ofstream` followed by `std::endl` leaves on disk when opening and writing succeed.  Failing to
open the file is not modelled: the stream then swallows every line.
-/

namespace EkfCal

/-- A file written by one logger: where it was opened, and its lines in order. -/
structure LogFile where
  path : String
  lines : List String
  deriving DecidableEq, Repr

/-- `DataLogger` (src/infrastructure/data_logger.hpp:25-97).  `file` is `none` until the first `open`, which is what
`m_initialized` records. -/
structure DataLogger (K : Type) where
  header : String
  file : Option LogFile
  on : Bool
  directory : String
  fileName : String
  rate : K
  timeInit : K
  /-- an `unsigned int`, so it is kept below `2 ^ 32` -/
  count : Nat

namespace DataLogger
variable {K : Type} [Field K] [LinearOrder K]

/-- `DataLogger()` with the member initialisers (data_logger.hpp:28, 88-96). -/
def default : DataLogger K := ⟨"", none, false, "", "default.log", 0, 0, 0⟩

/-- `DataLogger(log_directory, file_name)` (data_logger.cpp:21-25). -/
def new (directory fileName : String) : DataLogger K := { default with directory := directory, fileName := fileName }

/-- `DataLogger(log_directory, file_name, logging_rate)` (data_logger.cpp:27-34). -/
def newRated (directory fileName : String) (rate : K) : DataLogger K := { new directory fileName with rate := rate }

/-- `DataLogger::Log` (data_logger.cpp:36-47). -/
def log (l : DataLogger K) (message : String) : DataLogger K :=
  if l.on then
    let f : LogFile := match l.file with
      | none => ⟨l.directory ++ l.fileName, [l.header]⟩
      | some f => f
    { l with file := some { f with lines := f.lines ++ [message] }, count := (l.count + 1) % 2 ^ 32 }
  else l

/-- `DataLogger::RateLimitedLog` (data_logger.cpp:49-63). -/
def rateLimitedLog (l : DataLogger K) (message : String) (time : K) : DataLogger K :=
  if l.on then
    if l.timeInit ≠ 0 then
      let maxCount := l.rate * (time - l.timeInit)
      if l.rate = 0 ∨ (l.count : K) < maxCount then l.log message else l
    else log { l with timeInit := time } message
  else l

/-- One call on a logger. -/
inductive Op (K : Type)
  | log (message : String)
  | rateLimitedLog (message : String) (time : K)
  | enable
  | setDirectory (d : String)
  | setFileName (f : String)
  | defineHeader (h : String)
  | setRate (r : K)

/-- The logger after one call (data_logger.cpp:36-91). -/
def step (l : DataLogger K) : Op K → DataLogger K
  | .log m => l.log m
  | .rateLimitedLog m t => l.rateLimitedLog m t
  | .enable => { l with on := true }
  | .setDirectory d => { l with directory := d }
  | .setFileName f => { l with fileName := f }
  | .defineHeader h => { l with header := h }
  | .setRate r => { l with rate := r }

/-- The logger after a history of calls. -/
def run (l : DataLogger K) (h : List (Op K)) : DataLogger K := h.foldl step l

end DataLogger

/-! ## Debug logger -/

/-- `LogLevel` (src/infrastructure/debug_logger.hpp:24-31). -/
inductive LogLevel
  | fatal | error | warn | info | debug
  deriving DecidableEq, Repr

/-- The number of a level: the enumeration counts from zero in the order it lists them (debug_logger.hpp:24-31). -/
def LogLevel.toInt : LogLevel → Int
  | .fatal => 0 | .error => 1 | .warn => 2 | .info => 3 | .debug => 4

/-- `m_log_level_names` (debug_logger.hpp:75). -/
def LogLevel.names : List String := ["FATAL", "ERROR", "WARN ", "INFO ", "DEBUG"]

/-- `static_cast<LogLevel>` of an `unsigned int`: the enumeration is stored in an `int`, so the value wraps
(debug_logger.cpp:26). -/
def LogLevel.ofUnsigned (n : Nat) : Int := if n % 2 ^ 32 < 2 ^ 31 then (n % 2 ^ 32 : Nat) else (n % 2 ^ 32 : Nat) - 2 ^ 32

/-- `DebugLogger` (src/infrastructure/debug_logger.hpp) with what has been printed on the two streams so far.  The level is
a number, because the constructor and the setter also take an `unsigned int` and cast it. -/
structure DebugLogger where
  level : Int
  out : List String
  err : List String
  deriving DecidableEq, Repr

namespace DebugLogger

/-- `DebugLogger(LogLevel, …)` (debug_logger.cpp:21-23). -/
def new (level : LogLevel) : DebugLogger := ⟨level.toInt, [], []⟩

/-- `DebugLogger(unsigned int, …)` (debug_logger.cpp:25-27). -/
def newUnsigned (level : Nat) : DebugLogger := ⟨LogLevel.ofUnsigned level, [], []⟩

/-- One printed line: the name of the level in brackets, then the message (src/infrastructure/sim/sim_debug_logger.cpp:61-64). -/
def line (name message : String) : String := "[" ++ name ++ "]: " ++ message

/-- `SetLogLevel(LogLevel)` (src/infrastructure/sim/sim_debug_logger.cpp:25-37). -/
def setLevel (l : DebugLogger) (level : LogLevel) : DebugLogger :=
  if l.level ≤ LogLevel.info.toInt ∨ level.toInt ≤ LogLevel.info.toInt then
    { l with level := level.toInt,
             out := l.out ++ [line "INFO " ("Log level set to: " ++ LogLevel.names.getD level.toInt.toNat "")] }
  else { l with level := level.toInt }

/-- `SetLogLevel(unsigned int)` (sim_debug_logger.cpp:39-53).  The name is looked up in an array of five, and only when
the line is printed. -/
def setLevelUnsigned (l : DebugLogger) (n : Nat) : Res DebugLogger :=
  if l.level ≤ LogLevel.info.toInt ∨ LogLevel.ofUnsigned n ≤ LogLevel.info.toInt then
    match LogLevel.names[n % 2 ^ 32]? with
    | none => .error .outOfRange
    | some name => .ok { l with level := LogLevel.ofUnsigned n, out := l.out ++ [line "INFO " ("Log level set to: " ++ name)] }
  else .ok { l with level := LogLevel.ofUnsigned n }

/-- `DebugLogger::Log` (sim_debug_logger.cpp:55-76). -/
def log (l : DebugLogger) (level : LogLevel) (message : String) : DebugLogger :=
  if level.toInt ≤ l.level then
    match level with
    | .debug => { l with out := l.out ++ [line "DEBUG" message] }
    | .info => { l with out := l.out ++ [line "INFO " message] }
    | .warn => { l with err := l.err ++ [line "WARN " message] }
    | .error => { l with err := l.err ++ [line "ERROR" message] }
    | .fatal => { l with err := l.err ++ [line "FATAL" message] }
  else l

/-- One call on a debug logger. -/
inductive Op
  | log (level : LogLevel) (message : String)
  | setLevel (level : LogLevel)
  | setLevelUnsigned (n : Nat)

/-- The logger after one call. -/
def step (l : DebugLogger) : Op → Res DebugLogger
  | .log v m => .ok (l.log v m)
  | .setLevel v => .ok (l.setLevel v)
  | .setLevelUnsigned n => l.setLevelUnsigned n

/-- The logger after a history of calls. -/
def run (l : DebugLogger) (h : List Op) : Res DebugLogger := h.foldlM step l

end DebugLogger
end EkfCal
