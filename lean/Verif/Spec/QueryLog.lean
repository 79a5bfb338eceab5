/-
Vocabulary of the property of the log file of cencalvmquery.
-/
import Verif.Spec.QueryApp

namespace CenCalVM
namespace QueryApp
variable {K : Type} [Field K] [LinearOrder K]

/-- What is to be logged for a location without data. -/
def noDataText (fmt : Fmt K) (lon lat elev : K) : String :=
  fmt.sci lon ++ ", " ++ fmt.sci lat ++ ", " ++ fmt.sci elev ++ ", No data\n"

/-- The texts for those lines of the output whose fault block (the seventh value) is 0, in order. -/
def noDataTexts (fmt : Fmt K) (lines : List (Line K)) : List String :=
  lines.flatMap fun l => if l.vals[6]? = some 0 then [noDataText fmt l.lon l.lat l.elev] else []

end QueryApp
end CenCalVM
