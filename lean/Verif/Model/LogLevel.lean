import Verif.Model.Py

/-! The log level: nidn/utils/set_log_level.py and its calls in nidn/__init__.py. The logger is loguru's, one per process, shared with the program that imports the package. -/

namespace Nidn

/-- Where messages go, as far as it decides whether a message is shown: the lowest level shown and the test of the sender's module. Handlers may be those of the package or of the program around it. -/
structure LogSink where
  level : ℕ
  accepts : List Char → Bool

/-- A message: its level and the module that sends it. -/
structure LogMessage where
  level : ℕ
  sender : List Char
  deriving DecidableEq

/-- The level names of loguru and their numbers (library contract). -/
def logLevels : List (List Char × ℕ) :=
  [("TRACE".toList, 5), ("DEBUG".toList, 10), ("INFO".toList, 20), ("SUCCESS".toList, 25), ("WARNING".toList, 30), ("ERROR".toList, 40), ("CRITICAL".toList, 50)]

/-- loguru's `filter="nidn"` (library contract): `(name + ".")[:len("nidn.")] == "nidn."`. -/
def nidnFilter (sender : List Char) : Bool := (sender ++ ['.']).take 5 = "nidn.".toList

/-- `logger.add(…, level=level, filter="nidn")`, set_log_level.py:12-18; loguru refuses an unknown level name with ValueError. -/
def addSink (level : List Char) (sinks : List LogSink) : Except PyErr (List LogSink) :=
  match logLevels.lookup level with
  | some n => .ok (sinks ++ [⟨n, nidnFilter⟩])
  | none => .error .valueError

/-- How often a message is shown. -/
def timesShown (sinks : List LogSink) (m : LogMessage) : ℕ := (sinks.filter fun s => decide (s.level ≤ m.level) && s.accepts m.sender).length

/-- `logger.remove()` without an argument, set_log_level.py:11: every handler is dropped (library contract). -/
def removeSinks (_ : List LogSink) : List LogSink := []

/-- set_log_level.py:5-19 `set_log_level`: the handlers afterwards and the exception, if any. `upper` is `str.upper`. The message of line 19 changes nothing. -/
def setLogLevel (upper : List Char → List Char) (name : List Char) (sinks : List LogSink) : List LogSink × Except PyErr Unit :=
  let sinks := removeSinks sinks
  match addSink (upper name) sinks with
  | .ok sinks => (sinks, .ok ())
  | .error e => (sinks, .error e)

/-- nidn/__init__.py:30 and 41: the handlers after `import nidn`; the other lines leave them alone. -/
def importSinks (upper : List Char → List Char) (sinks : List LogSink) : List LogSink :=
  (setLogLevel upper "WARNING".toList (setLogLevel upper "INFO".toList sinks).1).1

end Nidn
