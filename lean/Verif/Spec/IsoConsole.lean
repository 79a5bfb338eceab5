/-
Vocabulary of the properties of what cencalvmisosurface writes to standard error.
-/
import Verif.Spec.IsoApp
import Verif.Model.IsoConsole

namespace CenCalVM
namespace IsoApp
variable {K : Type} [Field K] [LinearOrder K]

/-- A query of the database at the elevation, for the speed or for the elevation of the ground, ends with a warning. -/
def Warns (fmt : Fmt K) (q : VMQuery K) (lon lat z : K) : Prop :=
  ∃ i q' fs' vals, (i = 1 ∨ (i = 8 ∧ z = -5000)) ∧
    VMQuery.query fmt { q with queryVals := [some i] } (fun _ => "") 1 lon lat z = .ok (q', fs', vals) ∧ q'.err.status = .WARNING

/-- What is written for a line of output: nothing, or a warning about some elevation at its location where there is one. -/
def LineSaid (fmt : Fmt K) (q : VMQuery K) (l : Line K) (t : String) : Prop :=
  t = "" ∨ ∃ z, Warns fmt q l.lon l.lat z ∧
    t = "WARNING: No data for " ++ fmt.sci l.lon ++ ", " ++ fmt.sci l.lat ++ ", " ++ fmt.sci z ++ ".\n"

/-- What is written about databases that cannot be opened. -/
def Unopened (env : QueryApp.Env K) (o : Options K) (t : String) : Prop :=
  (o.filenameDBExt ≠ "" ∧ env.disk o.filenameDBExt = none ∧
    t = "Could not open the etree (regional) database '" ++ o.filenameDBExt ++ "' for querying.") ∨
  (env.disk o.filenameDB = none ∧ t = "Could not open the etree database '" ++ o.filenameDB ++ "' for querying.")

/-- What is written about input and output files that cannot be opened. -/
def NoFile (env : QueryApp.Env K) (o : Options K) (t : String) : Prop :=
  (env.input o.filenameIn = none ∧ t = "Could not open file '" ++ o.filenameIn ++ "' to read query locations.\n") ∨
  (env.canWrite o.filenameOut = false ∧ t = "Could not open file '" ++ o.filenameOut ++ "' to receive query data.\n")

/-- What is written about a search that cannot start: the target is above the speeds at three elevations, and these are what is
stored there. -/
def Range (fmt : Fmt K) (o : Options K) (q : VMQuery K) (lon lat : K) (t : String) : Prop :=
  ∃ u l m vU vL vM, ValueAt fmt q 1 lon lat u vU ∧ ValueAt fmt q 1 lon lat l vL ∧ ValueAt fmt q 1 lon lat m vM ∧
    vU < o.vs ∧ vM < o.vs ∧ vL < o.vs ∧ 0 ≤ vL ∧
    t = "Invalid search range!\nTarget vs: " ++ fmt.gen o.vs ++ "\nLocation: (" ++ fmt.gen lon ++ ", " ++ fmt.gen lat ++
      ")\nUpper Vs(z=" ++ fmt.gen u ++ "): " ++ fmt.gen vU ++ "\nLower Vs(z=" ++ fmt.gen l ++ "): " ++ fmt.gen vL ++
      "\nMiddle Vs(z=" ++ fmt.gen m ++ "): " ++ fmt.gen vM ++ "\n"

/-- The message of the query for the elevation of the ground, which ended with an error. -/
def Failed (fmt : Fmt K) (q : VMQuery K) (lon lat : K) (t : String) : Prop :=
  ∃ q' fs' vals, VMQuery.query fmt { q with queryVals := [some 8] } (fun _ => "") 1 lon lat (-5000) = .ok (q', fs', vals) ∧
    q'.err.status = .ERROR ∧ t = q'.err.message

/-- The last message, by how the program ends, if the databases were opened. -/
def Final (env : QueryApp.Env K) (o : Options K) (q : VMQuery K) : Ending → String → Prop
  | .ret c, t => (c = 0 ∧ t = "") ∨ (c = 1 ∧ (NoFile env o t ∨ (∃ lon lat, Failed env.fmt q lon lat t) ∨
      (CloseFails env o ∧ t = "Could not close the etree database '" ++ o.filenameDB ++ "'.")))
  | .exit, t => ∃ lon lat, Range env.fmt o q lon lat t
  | .abort, _ => False

end IsoApp
end CenCalVM
