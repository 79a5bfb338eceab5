/-
create/VMCreator: creating, filling and packing etree databases.
-/
import Verif.Model.Geometry
import Verif.Model.Etree
import Verif.Model.Run

namespace CenCalVM

/-- `Payload::SCHEMA`, libsrc/cencalvm/storage/Payload.cc:16-24. -/
def SCHEMA : String :=
  "float32_t Vp; float32_t Vs; float32_t Density; float32_t Qp; float32_t Qs; float32_t DepthFreeSurf; " ++
    "int16_t FaultBlock; int16_t Zone;"

/-- An etree file: octants, registered schema, application metadata. -/
structure EtreeFile (K : Type) where
  db : Db K
  schema : Option String
  appmeta : Option String

/-- The etree files by name. -/
abbrev EtreeDisk (K : Type) := String → Option (EtreeFile K)

/-- A file system with one file replaced. -/
def EtreeDisk.set {K : Type} (d : EtreeDisk K) (name : String) (f : EtreeFile K) : EtreeDisk K :=
  fun n => if n = name then some f else d n

/-- Failures of libetree: creating a file, registering the schema, storing the metadata, starting and ending an
append, reading the cursor, appending, advancing the cursor (the last three by position), inserting (by number of
octants stored), closing.  `str` is the text of an error. -/
structure EtreeEnv where
  create : String → Bool
  schema : Bool
  setMeta : Bool
  beginAppend : Bool
  endAppend : Bool
  get : Nat → Bool
  append : Nat → Bool
  adv : Nat → Bool
  insert : Nat → Bool
  closeIn : Bool
  closeOut : Bool
  str : String

namespace VMCreator
variable {K : Type} [Field K] [LinearOrder K]

/-- A `VMCreator` object (libsrc/cencalvm/create/VMCreator.h:111-113, without the `_quiet` flag, which only
affects console output) together with the file system.  The contents of an open database reach the file system when
it is closed. -/
structure Creator (K : Type) where
  filename : String
  pDB : Option (String × EtreeFile K)
  disk : EtreeDisk K

/-- Constructor, libsrc/cencalvm/create/VMCreator.cc:34-39. -/
def init (disk : EtreeDisk K) : Creator K := ⟨"", none, disk⟩

/-- The text of the metadata: description, creation time and host, libsrc/cencalvm/create/VMCreator.cc:77-86.  Time
and host are given by `stamp`. -/
def metainfo (description stamp : String) : String := description ++ "\n" ++ stamp

/-- `VMCreator::openDB`, libsrc/cencalvm/create/VMCreator.cc:53-94.  The database handle is stored before schema and
metadata are written. -/
def openDB (env : EtreeEnv) (c : Creator K) (filename description stamp : String) : Run (Creator K) Unit :=
  if env.create filename then .exc "Could not create etree database." { c with pDB := none }
  else if env.schema then .exc env.str { c with pDB := some (filename, ⟨Db.empty, none, none⟩) }
  else if env.setMeta then .exc env.str { c with pDB := some (filename, ⟨Db.empty, some SCHEMA, none⟩) }
  else .ok { c with
    filename := filename
    pDB := some (filename, ⟨Db.empty, some SCHEMA, some (metainfo description stamp)⟩) } ()

/-- `VMCreator::closeDB`, libsrc/cencalvm/create/VMCreator.cc:99-107 (also the destructor, 43-48).  The result of
`etree_close` is ignored; a failing close is not modelled here. -/
def closeDB (c : Creator K) : Creator K :=
  match c.pDB with
  | none => c
  | some (name, f) => { c with pDB := none, disk := c.disk.set name f }

/-- `etree_insert` on the open database. -/
def insertEntry (env : EtreeEnv) (c : Creator K) (name : String) (f : EtreeFile K) (e : Entry K) :
    Run (Creator K) Unit :=
  if env.insert f.db.entries.length then .exc env.str c
  else match f.db.insert e with
    | none => .exc env.str c
    | some db => .ok { c with pDB := some (name, { f with db := db }) } ()

/-- `VMCreator::insert`, libsrc/cencalvm/create/VMCreator.cc:180-197.  The coordinates of `addr` are uninitialised
(0 here; they are only written).  A negative level fails the assertion of `lonLatElevToAddr`.  The return code of the
conversion is ignored. -/
def insert (env : EtreeEnv) (c : Creator K) (p : Payload K) (lon lat elev resHoriz : K) (g : Option (Geom K)) :
    Run (Creator K) Unit :=
  match g, c.pDB with
  | some g, some (name, f) =>
    match g.level resHoriz with
    | .exc m => .exc m c
    | .ub => .ub
    | .ok n =>
      if n < 0 then .ub
      else match g.lonLatElevToAddr { x := 0, y := 0, z := 0, level := n.toNat, type := .leaf } lon lat elev with
        | .exc m => .exc m c
        | .ub => .ub
        | .ok r => insertEntry env c name f ⟨r.1, p⟩
  | _, _ => .ub

/-- The loop of `packDB`, libsrc/cencalvm/create/VMCreator.cc:154-162, at the octants `es` with number `i` of the
unpacked database; the state is the packed database. -/
def packLoop (env : EtreeEnv) : Nat → List (Entry K) → Db K → Run (Db K) Unit
  | _, [], out => .ok out ()
  | i, e :: es, out =>
    if env.get i then .exc env.str out
    else if env.append i then .exc env.str out
    else match out.append e with
      | none => .exc env.str out
      | some out => if env.adv i then .ok out () else packLoop env (i + 1) es out

/-- `VMCreator::packDB`, libsrc/cencalvm/create/VMCreator.cc:112-175.  The packed database is on disk (in some state) from
its creation on; on an exception both stay open.  Creating the packed database truncates the file (127-128); if it is the
unpacked one, which is open, what libetree then does is not specified. -/
def packDB (env : EtreeEnv) (disk : EtreeDisk K) (packed unpacked : String) : Run (EtreeDisk K) Unit :=
  match disk unpacked with
  | none => .exc "Could not open unpacked etree database." disk
  | some f =>
    if env.create packed then .exc "Could not open packed etree database." disk
    else if packed = unpacked then .ub
    else if env.schema then .exc env.str (disk.set packed ⟨Db.empty, none, none⟩)
    else if f.appmeta.isSome && env.setMeta then .exc env.str (disk.set packed ⟨Db.empty, some SCHEMA, none⟩)
    else
      let file := fun db : Db K => (⟨db, some SCHEMA, f.appmeta⟩ : EtreeFile K)
      if f.db.entries = [] then .exc env.str (disk.set packed (file Db.empty))
      else if env.beginAppend then .exc env.str (disk.set packed (file Db.empty))
      else match packLoop env 0 f.db.entries Db.empty with
        | .ub => .ub
        | .exc m out => .exc m (disk.set packed (file out))
        | .ok out _ =>
          if env.endAppend || env.closeIn || env.closeOut then .exc env.str (disk.set packed (file out))
          else .ok (disk.set packed (file out)) ()

end VMCreator
end CenCalVM
