/-
The handles of etree databases: which are opened, used and closed by query/VMQuery, create/VMCreator and
average/Averager.
-/
import Verif.Model.QueryApi
import Verif.Model.Averager

namespace CenCalVM
namespace Handles

/-- A call of libetree with a handle: `etree_open` that succeeds and gives it, `etree_close` (whatever it returns), or any
other function. -/
inductive Event where
  | opened (h : Nat) (name : String)
  | used (h : Nat)
  | closed (h : Nat)
  deriving DecidableEq, Repr

/-- libetree, as far as handles are concerned: the next handle, and the calls so far.  Every `etree_open` gives a handle of
its own.  Simplification: calls in a row of functions other than `etree_open` and `etree_close` appear as one `used` for
each of their handles. -/
structure Lib where
  next : Nat
  log : List Event
  deriving DecidableEq, Repr

/-- No calls yet. -/
def Lib.init : Lib := ⟨0, []⟩
/-- `etree_open`, successful; the handle is `next`. -/
def Lib.open (l : Lib) (name : String) : Lib := ⟨l.next + 1, l.log ++ [.opened l.next name]⟩
/-- Any other function. -/
def Lib.use (l : Lib) (h : Nat) : Lib := { l with log := l.log ++ [.used h] }
/-- `etree_close`. -/
def Lib.close (l : Lib) (h : Nat) : Lib := { l with log := l.log ++ [.closed h] }
/-- A function given a pointer that may be null. -/
def Lib.useOpt (l : Lib) : Option Nat → Lib
  | none => l
  | some h => l.use h
/-- `if (0 != p) etree_close(p)`. -/
def Lib.closeOpt (l : Lib) : Option Nat → Lib
  | none => l
  | some h => l.close h

section query
variable {K : Type} [Field K] [LinearOrder K]

/-- A query object with its pointers `_db`, `_dbExt` (libsrc/cencalvm/query/VMQuery.h:304-305; `none` is null). -/
structure Query (K : Type) where
  s : VMQuery.Session K
  db : Option Nat
  dbExt : Option Nat
  lib : Lib

/-- First half of `open`, libsrc/cencalvm/query/VMQuery.cc:79-88. -/
def openMain (disk : String → Option (Db K)) (o : Query K) : Outcome (Query K) :=
  match o.db with
  | some _ => .ok o
  | none =>
    if o.s.q.cacheSize > 0 then
      match disk o.s.q.filename with
      | some d => .ok { o with
          s := { o.s with q := { o.s.q with db := some d } }
          db := some o.lib.next
          lib := o.lib.open o.s.q.filename }
      | none => .ok { o with
          s := { o.s with q := { o.s.q with err := o.s.q.err.error (VMQuery.openMessage o.s.q.filename) } } }
    else .ub

/-- Second half of `open`, libsrc/cencalvm/query/VMQuery.cc:90-99. -/
def openExt (disk : String → Option (Db K)) (o : Query K) : Outcome (Query K) :=
  if o.s.q.filenameExt ≠ "" then
    match o.dbExt with
    | some _ => .ok o
    | none =>
      if o.s.q.cacheSizeExt > 0 then
        match disk o.s.q.filenameExt with
        | some d => .ok { o with
            s := { o.s with q := { o.s.q with dbExt := some d } }
            dbExt := some o.lib.next
            lib := o.lib.open o.s.q.filenameExt }
        | none => .ok { o with
            s := { o.s with
              q := { o.s.q with err := o.s.q.err.error (VMQuery.openExtMessage o.s.q.filenameExt) } } }
      else .ub
  else .ok o

/-- `close`, libsrc/cencalvm/query/VMQuery.cc:105-120. -/
def close (fail failExt : Bool) (o : Query K) : Query K :=
  ⟨{ o.s with q := VMQuery.close fail failExt o.s.q }, none, none, (o.lib.closeOpt o.db).closeOpt o.dbExt⟩

/-- One call, libsrc/cencalvm/query/VMQuery.cc:68-290.  A query uses the databases through `_db` and `_dbExt`
(libsrc/cencalvm/query/VMQuery.cc:191-290 and the functions it calls); both are taken as used in every query, though some use only the first. -/
def call (fmt : Fmt K) (canOpen : String → Bool) (o : Query K) : VMQuery.Call K → Outcome (Query K)
  | .open disk => do
    let o ← openMain disk o
    openExt disk o
  | .close f fx => .ok (close f fx o)
  | .query n lon lat elev => do
    let s ← VMQuery.call fmt canOpen o.s (.query n lon lat elev)
    .ok { o with s := s, lib := (o.lib.useOpt o.db).useOpt o.dbExt }
  | c => do
    let s ← VMQuery.call fmt canOpen o.s c
    .ok { o with s := s }

/-- A history of calls. -/
def run (fmt : Fmt K) (canOpen : String → Bool) : Query K → List (VMQuery.Call K) → Outcome (Query K)
  | o, [] => .ok o
  | o, c :: cs => do
    let o ← call fmt canOpen o c
    run fmt canOpen o cs

/-- Constructor, libsrc/cencalvm/query/VMQuery.cc:32-53: both pointers are null. -/
def newQuery (g : Geom K) (fs : Files) : Query K := ⟨⟨VMQuery.init g, fs, []⟩, none, none, Lib.init⟩

/-- Destructor, libsrc/cencalvm/query/VMQuery.cc:57-63 (`VMQuery.destroy` for the error handler). -/
def destroy (fail failExt : Bool) (o : Query K) : Outcome Lib := do
  let _ ← VMQuery.destroy fail failExt o.s.q
  .ok ((o.lib.closeOpt o.db).closeOpt o.dbExt)

end query

section creator
variable {K : Type} [Field K] [LinearOrder K]

/-- A creator with its pointer `_pDB` (libsrc/cencalvm/create/VMCreator.h:112). -/
structure Creator (K : Type) where
  c : VMCreator.Creator K
  pDB : Option Nat
  lib : Lib

/-- `VMCreator::openDB`, libsrc/cencalvm/create/VMCreator.cc:53-94: the pointer is overwritten. -/
def openDB (env : EtreeEnv) (s : Creator K) (filename description stamp : String) : Run (Creator K) Unit :=
  if env.create filename then
    .exc "Could not create etree database." { s with c := { s.c with pDB := none }, pDB := none }
  else
    let l := (s.lib.open filename).use s.lib.next
    if env.schema then
      .exc env.str ⟨{ s.c with pDB := some (filename, ⟨Db.empty, none, none⟩) }, some s.lib.next, l⟩
    else if env.setMeta then
      .exc env.str ⟨{ s.c with pDB := some (filename, ⟨Db.empty, some SCHEMA, none⟩) }, some s.lib.next, l⟩
    else .ok ⟨{ s.c with
        filename := filename
        pDB := some (filename, ⟨Db.empty, some SCHEMA, some (VMCreator.metainfo description stamp)⟩) },
      some s.lib.next, l⟩ ()

/-- `VMCreator::closeDB`, libsrc/cencalvm/create/VMCreator.cc:99-107, and the destructor, 43-48. -/
def closeDB (s : Creator K) : Creator K := ⟨VMCreator.closeDB s.c, none, s.lib.closeOpt s.pDB⟩

/-- `VMCreator::insert`, libsrc/cencalvm/create/VMCreator.cc:180-197.  The database is taken as used even if the
conversion of the location fails before. -/
def insert (env : EtreeEnv) (s : Creator K) (p : Payload K) (lon lat elev resHoriz : K) (g : Option (Geom K)) :
    Run (Creator K) Unit :=
  match VMCreator.insert env s.c p lon lat elev resHoriz g with
  | .ok c _ => .ok { s with c := c, lib := s.lib.useOpt s.pDB } ()
  | .exc m c => .exc m { s with c := c, lib := s.lib.useOpt s.pDB }
  | .ub => .ub

/-- `VMCreator::packDB`, libsrc/cencalvm/create/VMCreator.cc:112-175.  The handles are `u` for the unpacked and `p` for the
packed database.  After a failed `etree_close` the handle is given to `etree_errno` (168, 171). -/
def packDB (env : EtreeEnv) (disk : EtreeDisk K) (l : Lib) (packed unpacked : String) : Run (EtreeDisk K × Lib) Unit :=
  match disk unpacked with
  | none => .exc "Could not open unpacked etree database." (disk, l)
  | some f =>
    let u := l.next
    let l := l.open unpacked
    if env.create packed then .exc "Could not open packed etree database." (disk, l)
    else if packed = unpacked then .ub
    else
      let p := l.next
      let l := (l.open packed).use p
      if env.schema then .exc env.str (disk.set packed ⟨Db.empty, none, none⟩, l)
      else
        let l := (l.use u).use p
        if f.appmeta.isSome && env.setMeta then .exc env.str (disk.set packed ⟨Db.empty, some SCHEMA, none⟩, l)
        else
          let file := fun db : Db K => (⟨db, some SCHEMA, f.appmeta⟩ : EtreeFile K)
          if f.db.entries = [] then .exc env.str (disk.set packed (file Db.empty), l)
          else if env.beginAppend then .exc env.str (disk.set packed (file Db.empty), l)
          else match VMCreator.packLoop env 0 f.db.entries Db.empty with
            | .ub => .ub
            | .exc m out => .exc m (disk.set packed (file out), l)
            | .ok out _ =>
              if env.endAppend then .exc env.str (disk.set packed (file out), l)
              else if env.closeIn then .exc env.str (disk.set packed (file out), (l.close u).use u)
              else if env.closeOut then .exc env.str (disk.set packed (file out), ((l.close u).close p).use p)
              else .ok (disk.set packed (file out), (l.close u).close p) ()

/-- The public calls of `VMCreator` (libsrc/cencalvm/create/VMCreator.h:42-100) that touch databases. -/
inductive CreatorCall (K : Type) where
  | openDB (env : EtreeEnv) (filename description stamp : String)
  | closeDB
  | packDB (env : EtreeEnv) (packed unpacked : String)
  | insert (env : EtreeEnv) (p : Payload K) (lon lat elev resHoriz : K) (g : Option (Geom K))

/-- One call, libsrc/cencalvm/create/VMCreator.cc:53-197. -/
def creatorCall (s : Creator K) : CreatorCall K → Run (Creator K) Unit
  | .openDB env filename description stamp => openDB env s filename description stamp
  | .closeDB => .ok (closeDB s) ()
  | .packDB env packed unpacked =>
    match packDB env s.c.disk s.lib packed unpacked with
    | .ok r _ => .ok { s with c := { s.c with disk := r.1 }, lib := r.2 } ()
    | .exc m r => .exc m { s with c := { s.c with disk := r.1 }, lib := r.2 }
    | .ub => .ub
  | .insert env p lon lat elev resHoriz g => insert env s p lon lat elev resHoriz g

/-- A history of calls; the caller catches exceptions and goes on with the object. -/
def creatorRun : Creator K → List (CreatorCall K) → Outcome (Creator K)
  | s, [] => .ok s
  | s, c :: cs =>
    match creatorCall s c with
    | .ok s _ => creatorRun s cs
    | .exc _ s => creatorRun s cs
    | .ub => .ub

/-- Constructor, libsrc/cencalvm/create/VMCreator.cc:34-39. -/
def newCreator (disk : EtreeDisk K) : Creator K := ⟨VMCreator.init disk, none, Lib.init⟩

end creator

section averager
variable {K : Type} [Field K] [LinearOrder K]

/-- An averager with its pointers `_dbIn`, `_dbAvg` (libsrc/cencalvm/average/Averager.h:85-86), and the files. -/
structure Averager (K : Type) where
  disk : EtreeDisk K
  dbIn : Option Nat
  dbAvg : Option Nat
  lib : Lib

/-- `Averager::average`, libsrc/cencalvm/average/Averager.cc:58-135: the pointers are overwritten, and kept on an
exception. -/
def average (env : Averager.Env K) (s : Averager K) (fileIn fileOut stamp : String) : Run (Averager K) Unit :=
  match s.disk fileIn with
  | none => .exc ("Could not open etree database '" ++ fileIn ++ "' for averaging.") { s with dbIn := none }
  | some f =>
    let i := s.lib.next
    let s := { s with dbIn := some i, lib := (s.lib.open fileIn).use i }
    if env.otherSize fileIn then .exc "Payload size doesn't match the expected payload size." s
    else match f.schema with
      | none => .ub
      | some sc =>
        if sc ≠ SCHEMA then .exc "Schema doesn't match the expected schema." s
        else if env.create fileOut then
          .exc "Could not open etree database for output of averaged etree database." { s with dbAvg := none }
        else if fileOut = fileIn then .ub
        else
          let o := s.lib.next
          let s := { s with dbAvg := some o, lib := ((s.lib.open fileOut).use o).use i }
          if env.schema then .exc env.str { s with disk := s.disk.set fileOut ⟨Db.empty, none, none⟩ }
          else if f.appmeta.isSome && env.setMeta then
            .exc env.str { s with disk := s.disk.set fileOut ⟨Db.empty, some SCHEMA, none⟩ }
          else match AvgEngine.average env.engine f.db with
            | .ub => .ub
            | .exc m e => .exc m { s with disk := s.disk.set fileOut (Averager.stored env stamp f e.out) }
            | .ok e _ => .ok ⟨s.disk.set fileOut (Averager.stored env stamp f e.out), none, none,
                (s.lib.close i).close o⟩ ()

/-- A call of `average` after setting the file names. -/
structure AverageCall (K : Type) where
  env : Averager.Env K
  fileIn : String
  fileOut : String
  stamp : String

/-- A history of averages by one object; the caller catches exceptions and goes on. -/
def averagerRun : Averager K → List (AverageCall K) → Outcome (Averager K)
  | s, [] => .ok s
  | s, c :: cs =>
    match average c.env s c.fileIn c.fileOut c.stamp with
    | .ok s _ => averagerRun s cs
    | .exc _ s => averagerRun s cs
    | .ub => .ub

/-- Constructor, libsrc/cencalvm/average/Averager.cc:31-38. -/
def newAverager (disk : EtreeDisk K) : Averager K := ⟨disk, none, none, Lib.init⟩

/-- Destructor, libsrc/cencalvm/average/Averager.cc:42-52. -/
def destroyAverager (s : Averager K) : Lib := (s.lib.closeOpt s.dbIn).closeOpt s.dbAvg

end averager
end Handles
end CenCalVM
