/-
storage/ErrorHandler as a state machine over a file system.
-/
import Verif.Model.Basic

namespace CenCalVM

/-- `ErrorHandler::StatusEnum`, libsrc/cencalvm/storage/ErrorHandler.h:53-57. -/
inductive Status where
  | OK
  | WARNING
  | ERROR
  deriving DecidableEq, Repr

/-- `ErrorHandler::_NULLFILE`, libsrc/cencalvm/storage/ErrorHandler.cc:20. -/
def NULLFILE : String := "/dev/null"

/-- Contents of the files, by name.  What is written to the null device is discarded.  Buffering is not
modelled: contents are those after the stream has been flushed. -/
abbrev Files := String → String

/-- An `ErrorHandler` object, libsrc/cencalvm/storage/ErrorHandler.h (private members).  `sink` is the
name of the file the stream `_pLogFile` is open on, `none` after a failed open. -/
structure ErrorHandler where
  message : String
  logFilename : String
  sink : Option String
  status : Status
  deriving DecidableEq, Repr

namespace ErrorHandler

/-- The constructor, libsrc/cencalvm/storage/ErrorHandler.cc:23-29. -/
def init : ErrorHandler :=
  { message := "", logFilename := NULLFILE, sink := some NULLFILE, status := .OK }

/-- `resetStatus`, libsrc/cencalvm/storage/ErrorHandler.icc:18-22. -/
def resetStatus (h : ErrorHandler) : ErrorHandler := { h with status := .OK, message := "" }

/-- `error`, libsrc/cencalvm/storage/ErrorHandler.icc:37-41. -/
def error (h : ErrorHandler) (msg : String) : ErrorHandler := { h with status := .ERROR, message := msg }

/-- `warning`, libsrc/cencalvm/storage/ErrorHandler.icc:44-48. -/
def warning (h : ErrorHandler) (msg : String) : ErrorHandler :=
  { h with status := .WARNING, message := msg }

end ErrorHandler

/-- Store a file's contents; the null device keeps nothing. -/
def Files.set (fs : Files) (name contents : String) : Files :=
  if name = NULLFILE then fs else fun n => if n = name then contents else fs n

namespace ErrorHandler

/-- `logFilename`, libsrc/cencalvm/storage/ErrorHandler.cc:39-50: close, then open with `out|trunc`.
`canOpen` says whether the operating system lets the file be opened. -/
def setLogFilename (canOpen : String → Bool) (h : ErrorHandler) (fs : Files) (name : String) :
    ErrorHandler × Files :=
  if canOpen name then ({ h with logFilename := name, sink := some name }, fs.set name "")
  else ({ h with logFilename := name, sink := none }, fs)

/-- `loggingOn`, libsrc/cencalvm/storage/ErrorHandler.cc:54-65: close, then open the log file with
`out|app` or the null device. -/
def loggingOn (canOpen : String → Bool) (h : ErrorHandler) (fs : Files) (turnOn : Bool) :
    ErrorHandler × Files :=
  if turnOn && decide (h.logFilename.length > 0) then
    if canOpen h.logFilename then ({ h with sink := some h.logFilename }, fs)
    else ({ h with sink := none }, fs)
  else ({ h with sink := some NULLFILE }, fs)

/-- `log`, libsrc/cencalvm/storage/ErrorHandler.cc:69-74. -/
def log (h : ErrorHandler) (fs : Files) (msg : String) : Files :=
  match h.sink with
  | none => fs
  | some name => fs.set name (fs name ++ msg)

end ErrorHandler

/-- The calls a user can make on a handler. -/
inductive ErrCall where
  | error (msg : String)
  | warning (msg : String)
  | resetStatus
  | logFilename (name : String)
  | loggingOn (turnOn : Bool)
  | log (msg : String)
  deriving DecidableEq, Repr

/-- One call. -/
def ErrorHandler.call (canOpen : String → Bool) (s : ErrorHandler × Files) : ErrCall → ErrorHandler × Files
  | .error m => (s.1.error m, s.2)
  | .warning m => (s.1.warning m, s.2)
  | .resetStatus => (s.1.resetStatus, s.2)
  | .logFilename n => s.1.setLogFilename canOpen s.2 n
  | .loggingOn b => s.1.loggingOn canOpen s.2 b
  | .log m => (s.1, s.1.log s.2 m)

/-- A history of calls. -/
def ErrorHandler.run (canOpen : String → Bool) (s : ErrorHandler × Files) (cs : List ErrCall) :
    ErrorHandler × Files :=
  cs.foldl (ErrorHandler.call canOpen) s

end CenCalVM
