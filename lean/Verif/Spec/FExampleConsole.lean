/-
Vocabulary of the properties of what the example program cencalvmf77query writes to standard output.
-/
import Verif.Spec.FExample
import Verif.Spec.QueryConsole
import Verif.Model.FExampleConsole

namespace CenCalVM
namespace FExample
open QueryApp (Env Line Configured LineSaid)
variable {K : Type} [Field K] [LinearOrder K]

/-- 256 characters: the text, as much of it as fits, then terminating characters. -/
def fieldOf (t : String) : List Char := ((t.toList.takeWhile (· ≠ Fortran.NUL)) ++ List.replicate 256 Fortran.NUL).take 256

/-- What is written for a line of the output: if its query did not end with an error what cencalvmquery writes, if anything;
otherwise the message of the error. -/
def OutFor (env : Env K) (log db : String) (v : Vars K) (line : Line K) (items : List (List Char)) : Prop :=
  ∃ name q q' fs', Names v.queryType name ∧ Configured env (options log db name v.queryRes) q ∧
    VMQuery.query env.fmt q (fun _ => "") 9 line.lon line.lat line.elev = .ok (q', fs', line.vals) ∧
    ((q'.err.status ≠ .ERROR ∧ ∃ t, LineSaid env.fmt (options log db name v.queryRes) line t ∧ items = if t = "" then [] else [fieldOf t]) ∨
     (q'.err.status = .ERROR ∧ items = [fieldOf q'.err.message]))

/-- Why the program ends after writing ERROR, and what it writes before that. -/
inductive Reason (env : Env K) (db : String) (v : Vars K) : List Char → Prop
  | openDb (h : env.disk db = none) :
      Reason env db v (fieldOf ("Could not open the etree database '" ++ db ++ "' for querying."))
  | resolution (h : ¬ Names v.queryType "maxres") (hr : v.queryRes < 0) :
      Reason env db v "Query resolution must be a positive value.".toList
  | queryType (h : ∀ name, ¬ Names v.queryType name) (hr : 0 ≤ v.queryRes) :
      Reason env db v "Could not parse query resolution string.".toList
  | close (h : env.closeFail = true) :
      Reason env db v (fieldOf ("Could not close the etree database '" ++ db ++ "'."))

end FExample
end CenCalVM
