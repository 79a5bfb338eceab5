/-
Vocabulary of the properties of the C and Fortran interfaces.
-/
import Verif.Model.CApi

namespace CenCalVM
namespace CApi
variable {K : Type} [Field K] [LinearOrder K]

/-- The C++ call a function of the C interface stands for; none for the functions that only report. -/
def Fn.cpp : Fn K → List (VMQuery.Call K)
  | .open disk => [.open disk]
  | .close f fx => [.close f fx]
  | .queryType n => [.queryType n]
  | .queryRes r => [.queryRes r]
  | .queryVals names n => [.queryVals names n]
  | .filename n => [.filename n]
  | .cacheSize n => [.cacheSize n]
  | .filenameExt n => [.filenameExt n]
  | .cacheSizeExt n => [.cacheSizeExt n]
  | .squash f l => [.squash (decide (f ≠ 0)) l]
  | .query n lon lat elev => [.query n lon lat elev]
  | .errLogFilename n => [.handler (.logFilename n)]
  | .errLoggingOn f => [.handler (.loggingOn (decide (f ≠ 0)))]
  | .errResetStatus => [.handler .resetStatus]
  | .errorHandler | .errStatus | .errMessage => []

/-- Functions declared in cvmerror.h that change the error handler. -/
def Fn.OnHandler : Fn K → Prop
  | .errLogFilename _ | .errLoggingOn _ | .errResetStatus => True
  | _ => False

/-- The number of a status in the C interface: 0 is OK, 1 a warning, 2 an error. -/
def statusNumber (s : Status) : Int := if s = .ERROR then 2 else if s = .WARNING then 1 else 0

/-- What a function hands back after the C++ calls have led to the session `s`: the status, the values of the query,
pointers and texts; the functions on the handler always return 0. -/
def Fn.Gives (f : Fn K) (h : Nat) (s : VMQuery.Session K) (r : Ret K) : Prop :=
  match f with
  | .query _ _ _ _ => ∃ vals, s.outs = [vals] ∧ r = .answer (statusNumber s.q.err.status) (some vals)
  | .errorHandler => r = .ptr h
  | .errMessage => r = .text (some s.q.err.message)
  | .errLogFilename _ | .errLoggingOn _ | .errResetStatus => r = .code 0
  | _ => r = .code (statusNumber s.q.err.status)

/-- No object at the null pointer nor at pointers not handed out yet. -/
def World.Wf (w : World K) : Prop := w.objs 0 = none ∧ ∀ k, w.next < k → w.objs k = none

/-- The C++ calls a history of C calls makes on one object. -/
def callsOn (h : Nat) (cs : List (Call K)) : List (VMQuery.Call K) :=
  cs.flatMap fun c => match c with
    | .fn f k => if k = h then f.cpp else []
    | _ => []

/-- The values a history of C calls returned for one object. -/
def answersOn (h : Nat) : List (Call K) → List (Ret K) → List (List K)
  | .fn _ k :: cs, .answer _ (some v) :: rs => if k = h then v :: answersOn h cs rs else answersOn h cs rs
  | _ :: cs, _ :: rs => answersOn h cs rs
  | _, _ => []

end CApi
end CenCalVM
