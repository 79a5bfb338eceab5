/-
extensions/cencalvm/CenCalVMDB.py: the Python class for the spatial database.
-/
import Verif.Model.CenCalVMDB

namespace CenCalVM
namespace PyDB
variable {K : Type}

/-- Values of properties; numbers with a dimension are in SI units (`.value`). -/
inductive Val (K : Type) where
  | str (s : String)
  | num (x : K)
  | int (n : Int)
  | bool (b : Bool)

/-- The properties a user has set, by name.  Simplification: Pyre's treatment of values of the wrong type is an exception. -/
abbrev Settings (K : Type) := String → Option (Val K)

/-- The value of a property of text type, or its default, as Pyre's `inventory.str`, extensions/cencalvm/CenCalVMDB.py:56. -/
def strOf (set : Settings K) (name dflt : String) : Outcome String :=
  match set name with
  | none => .ok dflt
  | some (.str s) => .ok s
  | some _ => .exc name
/-- As Pyre's `inventory.dimensional`, extensions/cencalvm/CenCalVMDB.py:61. -/
def numOf (set : Settings K) (name : String) (dflt : K) : Outcome K :=
  match set name with
  | none => .ok dflt
  | some (.num x) => .ok x
  | some _ => .exc name
/-- As Pyre's `inventory.int`, extensions/cencalvm/CenCalVMDB.py:67. -/
def intOf (set : Settings K) (name : String) (dflt : Int) : Outcome Int :=
  match set name with
  | none => .ok dflt
  | some (.int n) => .ok n
  | some _ => .exc name
/-- As Pyre's `inventory.bool`, extensions/cencalvm/CenCalVMDB.py:76. -/
def boolOf (set : Settings K) (name : String) (dflt : Bool) : Outcome Bool :=
  match set name with
  | none => .ok dflt
  | some (.bool b) => .ok b
  | some _ => .exc name

/-- The members of the inventory, extensions/cencalvm/CenCalVMDB.py:34-88. -/
structure Inventory (K : Type) where
  queryType : String
  queryRes : K
  filename : String
  cacheSize : Int
  filenameExt : String
  cacheSizeExt : Int
  squash : Bool
  squashLimit : K
  minVs : K
  projectDownward : Bool

/-- Reading the inventory, extensions/cencalvm/CenCalVMDB.py:54-88, with the validator of `query_type` (:57).  The member
`cacheSizeExt` is declared with the name "cache_size" (:73), as the member `cacheSize` is (:67). -/
def inventory [Field K] (set : Settings K) : Outcome (Inventory K) := do
  let queryType ← strOf set "query_type" "maxres"
  if queryType ∈ ["maxres", "fixedres", "waveres"] then do
    let queryRes ← numOf set "query_res" 100
    let filename ← strOf set "filename" ""
    let cacheSize ← intOf set "cache_size" 128
    let filenameExt ← strOf set "filename_ext" ""
    let cacheSizeExt ← intOf set "cache_size" 128
    let squash ← boolOf set "squash" false
    let squashLimit ← numOf set "squash_limit" (-2000)
    let minVs ← numOf set "min_vs" 0
    let projectDownward ← boolOf set "project_downward" false
    .ok ⟨queryType, queryRes, filename, cacheSize, filenameExt, cacheSizeExt, squash, squashLimit, minVs, projectDownward⟩
  else .exc "query_type"

variable [Field K] [LinearOrder K]

/-- The call for the query type, extensions/cencalvm/CenCalVMDB.py:109-116.  `MAXRES` and `WAVERES` are 0 and 2 (as in
libsrc/cencalvm/query/VMQuery.h). -/
def setType (s : CenCalVMDB K) (name : String) : Run (CenCalVMDB K) Unit :=
  if name = "maxres" then CenCalVMDB.queryType s 0
  else if name = "fixedres" then CenCalVMDB.queryType s 0
  else if name = "waveres" then CenCalVMDB.queryType s 2
  else .exc "Unknown queryType" s

/-- `_configure`, extensions/cencalvm/CenCalVMDB.py:103-126 (the calls of the setters are those of `CenCalVMDB.call`). -/
def configure (fmt : Fmt K) (set : Settings K) (s : CenCalVMDB K) : Run (CenCalVMDB K) Unit :=
  match inventory set with
  | .ub => .ub
  | .exc m => .exc m s
  | .ok i =>
    (setType s i.queryType).bind fun s _ =>
    (CenCalVMDB.call fmt s (.queryRes i.queryRes)).bind fun s _ =>
    (CenCalVMDB.call fmt s (.filename i.filename)).bind fun s _ =>
    (CenCalVMDB.call fmt s (.cacheSize i.cacheSize)).bind fun s _ =>
    (CenCalVMDB.call fmt s (.filenameExt i.filenameExt)).bind fun s _ =>
    (CenCalVMDB.call fmt s (.cacheSizeExt i.cacheSizeExt)).bind fun s _ =>
    (CenCalVMDB.call fmt s (.squash i.squash i.squashLimit)).bind fun s _ =>
    (CenCalVMDB.call fmt s (.minVs i.minVs)).bind fun s _ =>
    CenCalVMDB.call fmt s (.projectDownward i.projectDownward)

end PyDB
end CenCalVM
