import Verif.Model.Handles

/-! What it means that handles of databases are used properly, in terms of the sequence of calls of libetree. -/

namespace CenCalVM
namespace Handles

/-- At every call with a handle, other than the `etree_open` that gives it, the handle has been given before and
`etree_close` has not been called with it. -/
def Proper (log : List Event) : Prop :=
  ∀ pre post e h, log = pre ++ e :: post → e = .used h ∨ e = .closed h →
    (∃ name, Event.opened h name ∈ pre) ∧ Event.closed h ∉ pre

/-- `etree_close` has been called with every handle given by `etree_open`. -/
def AllClosed (log : List Event) : Prop := ∀ h name, Event.opened h name ∈ log → Event.closed h ∈ log

/-- The handle is open: given, and not closed. -/
def Live (log : List Event) (h : Nat) : Prop := (∃ name, Event.opened h name ∈ log) ∧ Event.closed h ∉ log

variable {K : Type} [Field K] [LinearOrder K]

/-- The call takes the creator from one state to the other, normally or with an exception that the caller catches. -/
def After (s : Creator K) (c : CreatorCall K) (s' : Creator K) : Prop :=
  creatorCall s c = .ok s' () ∨ ∃ m, creatorCall s c = .exc m s'

/-- If the call is `packDB`, `etree_close` does not fail in it. -/
def CloseWorks (c : CreatorCall K) : Prop :=
  ∀ env p u, c = .packDB env p u → env.closeIn = false ∧ env.closeOut = false

/-- The call is not `openDB` while a database is open, and not a `packDB` that fails after it opened a database. -/
def Orderly (s : Creator K) (c : CreatorCall K) : Prop :=
  (∀ env f d t, c = .openDB env f d t → s.pDB = none) ∧
    ∀ env p u, c = .packDB env p u → s.c.disk u = none ∨ ∃ s', creatorCall s c = .ok s' ()

/-- Every call of the history is so. -/
def OrderlyRun : Creator K → List (CreatorCall K) → Prop
  | _, [] => True
  | s, c :: cs => Orderly s c ∧ ∀ s', After s c s' → OrderlyRun s' cs

/-- No call of `average` but the last raises an exception. -/
def OnlyLastFails : Averager K → List (AverageCall K) → Prop
  | _, [] => True
  | s, c :: cs => cs = [] ∨ ∃ s', average c.env s c.fileIn c.fileOut c.stamp = .ok s' () ∧ OnlyLastFails s' cs

end Handles
end CenCalVM
