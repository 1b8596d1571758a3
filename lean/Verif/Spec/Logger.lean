import Verif.Model.Logger

/-!
# What a log file should contain

Read from the calls alone, without the logger's fields.
-/

namespace EkfCal.DataLogger

variable {K : Type}

/-- The message of a logging call, plain or rate limited. -/
def Op.message? : Op K → Option String
  | .log m => some m
  | .rateLimitedLog m _ => some m
  | _ => none

/-- The message of a plain logging call. -/
def Op.plain? : Op K → Option String
  | .log m => some m
  | _ => none

/-- The calls made once logging is on: those after the first `enable`. -/
def sinceEnabled : List (Op K) → List (Op K)
  | [] => []
  | .enable :: h => h
  | _ :: h => sinceEnabled h

/-- The messages handed in while logging is on. -/
def messages (h : List (Op K)) : List String := (sinceEnabled h).filterMap Op.message?

/-- Those of them that are not rate limited. -/
def plainMessages (h : List (Op K)) : List String := (sinceEnabled h).filterMap Op.plain?

/-- The header in force: the last one defined. -/
def lastHeader (h : List (Op K)) : String :=
  ((h.filterMap fun | .defineHeader s => some s | _ => none).getLast?).getD ""

/-- The rows of the file: the lines after the first. -/
def rows (l : DataLogger K) : List String := ((l.file.map LogFile.lines).getD []).tail

/-- A call that sets a rate. -/
def Op.setsRate : Op K → Bool
  | .setRate _ => true
  | _ => false

end EkfCal.DataLogger
