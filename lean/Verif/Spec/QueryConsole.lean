/-
Vocabulary of the properties of what cencalvmquery writes to standard error.
-/
import Verif.Spec.QueryApp
import Verif.Model.QueryConsole

namespace CenCalVM
namespace QueryApp
variable {K : Type} [Field K] [LinearOrder K]

/-- The warning for a location without data. -/
def noDataSaid (fmt : Fmt K) (l : Line K) : String :=
  "WARNING: No data for " ++ fmt.sci l.lon ++ ", " ++ fmt.sci l.lat ++ ", " ++ fmt.sci l.elev ++ ".\n"

/-- The warning that an octant has no parent in the database; the elevation is the one asked for after squashing. -/
def ParentSaid (fmt : Fmt K) (l : Line K) (t : String) : Prop :=
  ∃ parent child z, t = "Could not find parent octant " ++ fmt.addr parent ++ "\nof child octant " ++ fmt.addr child ++
    "\nfor location " ++ fmt.gen l.lon ++ ", " ++ fmt.gen l.lat ++ ", " ++ fmt.gen z ++ ".\nUsing values from child octant."

/-- What is written for a line of output: the warning if its fault block is 0, else nothing or, with WAVERES, the warning about
a parent. -/
def LineSaid (fmt : Fmt K) (o : Options K) (l : Line K) (t : String) : Prop :=
  if l.vals[6]? = some 0 then t = noDataSaid fmt l
  else t = "" ∨ (∃ res, TypeNamed o .WAVERES res) ∧ ParentSaid fmt l t

/-- The exceptions of the geometry have a message. -/
def Speaks (g : Geom K) : Prop :=
  (∀ a lon lat elev m, g.lonLatElevToAddr a lon lat elev = .exc m → m ≠ "") ∧ ∀ a m, g.addrToLonLatElev a = .exc m → m ≠ ""

/-- Why the program ends with 1, and what it writes then. -/
inductive Reason (env : Env K) (o : Options K) : String → Prop
  | openExt (hne : o.filenameDBExt ≠ "") (h : env.disk o.filenameDBExt = none) :
      Reason env o ("Could not open the etree (regional) database '" ++ o.filenameDBExt ++ "' for querying.")
  | openDb (h : env.disk o.filenameDB = none) :
      Reason env o ("Could not open the etree database '" ++ o.filenameDB ++ "' for querying.")
  | resolution (h : ∀ fn res, ¬ TypeNamed o fn res) (hr : o.queryRes < 0) :
      Reason env o ("Query resolution must be a positive value." ++ usage)
  | queryType (h : ∀ fn res, ¬ TypeNamed o fn res) (hr : 0 ≤ o.queryRes) :
      Reason env o ("Could not parse query string '" ++ o.queryType ++ "' into a known type of query." ++ usage)
  | input (h : env.input o.filenameIn = none) :
      Reason env o ("Could not open file '" ++ o.filenameIn ++ "' to read query locations.\n")
  | output (h : env.canWrite o.filenameOut = false) :
      Reason env o ("Could not open file '" ++ o.filenameOut ++ "' to receive query data.\n")
  | query {q q' : VMQuery K} {l : K × K × K} {fs' : Files} {vals : List K} (hq : Configured env o q)
      (h : VMQuery.query env.fmt q (fun _ => "") 9 l.1 l.2.1 l.2.2 = .ok (q', fs', vals)) (he : q'.err.status = .ERROR) :
      Reason env o q'.err.message
  | close (h : CloseFails env o) : Reason env o ("Could not close the etree database '" ++ o.filenameDB ++ "'.")

end QueryApp
end CenCalVM
