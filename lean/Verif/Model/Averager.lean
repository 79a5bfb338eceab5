/-
average/Averager: averaging a database file into another one.
-/
import Verif.Model.AvgEngine
import Verif.Model.Create

namespace CenCalVM
namespace Averager
variable {K : Type} [Field K] [LinearOrder K]

/-- What averaging meets: the failures of the engine's operations; whether the output can be created, its schema
registered and its metadata stored; whether the payload size of a file differs from the expected one; what a failing
`etree_close` leaves of the output (`none`: closing succeeds); the text of an error. -/
structure Env (K : Type) where
  engine : AvgEngine.Env K
  create : String → Bool
  schema : Bool
  setMeta : Bool
  otherSize : String → Bool
  closeLoss : Option (Db K)
  str : String

/-- The metadata of the output, libsrc/cencalvm/average/Averager.cc:106-122; `stamp` stands for the lines with time and
host. -/
def metainfo (stamp : String) (appmeta : Option String) : Option String :=
  appmeta.map fun m => m ++ "\n" ++ "spatially averaged on: " ++ stamp

/-- The output file on disk after `etree_close`, called at libsrc/cencalvm/average/Averager.cc:130 and by the destructor
(48-51); the result of the call is not looked at. -/
def stored (env : Env K) (stamp : String) (f : EtreeFile K) (db : Db K) : EtreeFile K :=
  ⟨env.closeLoss.getD db, some SCHEMA, metainfo stamp f.appmeta⟩

/-- `Averager::average`, libsrc/cencalvm/average/Averager.cc:58-131, followed by the destructor (42-52).  A
missing schema is a null pointer given to `strcmp` (87-88).  Creating the output truncates the file (96-97); if it is the
input, which is open, what libetree then does is not specified.  Messages are abbreviated. -/
def average (env : Env K) (disk : EtreeDisk K) (fileIn fileOut stamp : String) : Run (EtreeDisk K) Unit :=
  match disk fileIn with
  | none => .exc ("Could not open etree database '" ++ fileIn ++ "' for averaging.") disk
  | some f =>
    if env.otherSize fileIn then .exc "Payload size doesn't match the expected payload size." disk
    else match f.schema with
      | none => .ub
      | some s =>
        if s ≠ SCHEMA then .exc "Schema doesn't match the expected schema." disk
        else if env.create fileOut then .exc "Could not open etree database for output of averaged etree database." disk
        else if fileOut = fileIn then .ub
        else if env.schema then .exc env.str (disk.set fileOut ⟨Db.empty, none, none⟩)
        else if f.appmeta.isSome && env.setMeta then .exc env.str (disk.set fileOut ⟨Db.empty, some SCHEMA, none⟩)
        else match AvgEngine.average env.engine f.db with
          | .ub => .ub
          | .exc m s => .exc m (disk.set fileOut (stored env stamp f s.out))
          | .ok s _ => .ok (disk.set fileOut (stored env stamp f s.out)) ()

end Averager
end CenCalVM
