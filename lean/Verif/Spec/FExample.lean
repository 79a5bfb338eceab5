/-
Vocabulary of the properties of the example program cencalvmf77query.
-/
import Verif.Spec.Fortran
import Verif.Spec.QueryApp
import Verif.Model.FExample

namespace CenCalVM
namespace FExample
open QueryApp (Env Line Options)
variable {K : Type} [Field K] [LinearOrder K]

/-- The options of cencalvmquery that ask for what the constants say. -/
def options (log db queryType : String) (res : K) : Options K :=
  ⟨"", "", db, "", log, queryType, res, 128, 1000000⟩

/-- A variable that starts with the name of a type of query (and goes on in any way: the program compares so many
characters only). -/
def Names (var : List Char) (name : String) : Prop :=
  name ∈ ["maxres", "fixedres", "waveres"] ∧ ∃ more, var = name.toList ++ more

/-- A line with a location and the values of the query there, whatever its status. -/
def AnyLine (fmt : Fmt K) (q : VMQuery K) (l : K × K × K) (line : Line K) : Prop :=
  (line.lon, line.lat, line.elev) = l ∧ ∃ q' fs', VMQuery.query fmt q (fun _ => "") 9 l.1 l.2.1 l.2.2 = .ok (q', fs', line.vals)

end FExample
end CenCalVM
