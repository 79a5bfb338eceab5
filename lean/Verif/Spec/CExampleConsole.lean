/-
Vocabulary of the properties of what the example program in C writes to standard error.
-/
import Verif.Spec.CExample
import Verif.Spec.QueryConsole
import Verif.Model.CExampleConsole

namespace CenCalVM
namespace CExample
variable {K : Type} [Field K] [LinearOrder K]
open QueryApp (Options Env Line Configured TypeNamed CloseFails)

/-- Why the program ends with 1, and what it writes then. -/
inductive Reason (env : Env K) (o : Options K) : String → Prop
  | openExt (hne : o.filenameDBExt ≠ "") (h : env.disk o.filenameDBExt = none) :
      Reason env o ("Could not open the etree (regional) database '" ++ o.filenameDBExt ++ "' for querying.\n")
  | openDb (h : env.disk o.filenameDB = none) :
      Reason env o ("Could not open the etree database '" ++ o.filenameDB ++ "' for querying.\n")
  | resolution (h : ∀ fn res, ¬ TypeNamed o fn res) (hr : o.queryRes < 0) :
      Reason env o ("Query resolution must be a positive value." ++ usage)
  | queryType (h : ∀ fn res, ¬ TypeNamed o fn res) (hr : 0 ≤ o.queryRes) :
      Reason env o ("Could not parse query string '" ++ o.queryType ++ "'  into a known type of query." ++ usage)
  | input (h : env.input o.filenameIn = none) :
      Reason env o ("Could not open file '" ++ o.filenameIn ++ "' to read query locations.\n")
  /-- The message names the input file. -/
  | output (h : env.canWrite o.filenameOut = false) :
      Reason env o ("Could not open file '" ++ o.filenameIn ++ "' to write query data.\n")
  | query {q q' : VMQuery K} {l : K × K × K} {fs' : Files} {vals : List K} (hq : Configured env o q)
      (h : VMQuery.query env.fmt q (fun _ => "") 9 l.1 l.2.1 l.2.2 = .ok (q', fs', vals)) (he : q'.err.status = .ERROR) :
      Reason env o q'.err.message
  | close (h : CloseFails env o) : Reason env o ("Could not close the etree database '" ++ o.filenameDB ++ "'.\n")

end CExample
end CenCalVM
