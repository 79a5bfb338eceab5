/-
extensions/libsrc/cencalvmdb/CenCalVMDB: the spatial database on top of the query object.
-/
import Verif.Model.Run
import Verif.Model.Query

namespace CenCalVM

/-- A `CenCalVMDB` object, extensions/libsrc/cencalvmdb/CenCalVMDB.h:174-181, with its `VMQuery` object and the log files. -/
structure CenCalVMDB (K : Type) where
  minVs : K
  vsVal : Int
  vpVal : Int
  densityVal : Int
  projectDownward : Bool
  q : VMQuery K
  fs : Files

namespace CenCalVMDB
variable {K : Type} [Field K] [LinearOrder K]

/-- The constructor, extensions/libsrc/cencalvmdb/CenCalVMDB.cc:32-42; `g` is the geometry the `VMQuery` creates. -/
def init (g : Geom K) (fs : Files) : CenCalVMDB K := ⟨0, -1, -1, -1, false, VMQuery.init g, fs⟩

/-- Raising an exception if the status is ERROR, extensions/libsrc/cencalvmdb/CenCalVMDB.cc:60-61, 72-73, 98-99, 111-112,
155-156. -/
def throwOnError (s : CenCalVMDB K) : Run (CenCalVMDB K) Unit :=
  if s.q.err.status = .ERROR then .exc s.q.err.message s else .ok s ()

/-- `open`, extensions/libsrc/cencalvmdb/CenCalVMDB.cc:54-62. -/
def openDb (s : CenCalVMDB K) (disk : String → Option (Db K)) : Run (CenCalVMDB K) Unit :=
  match VMQuery.openDb disk s.q with
  | .exc m => .exc m s
  | .ub => .ub
  | .ok q => throwOnError { s with q := q }

/-- `close`, extensions/libsrc/cencalvmdb/CenCalVMDB.cc:66-74. -/
def close (s : CenCalVMDB K) (fail failExt : Bool) : Run (CenCalVMDB K) Unit :=
  throwOnError { s with q := VMQuery.close fail failExt s.q }

/-- `queryType`, extensions/libsrc/cencalvmdb/CenCalVMDB.cc:78-100; the enumerations have the same values (0, 1, 2). -/
def queryType (s : CenCalVMDB K) (n : Int) : Run (CenCalVMDB K) Unit :=
  if n = 0 ∨ n = 1 ∨ n = 2 then throwOnError { s with q := VMQuery.queryType s.q n } else .ub

/-- One round of the loop over the names, extensions/libsrc/cencalvmdb/CenCalVMDB.cc:117-124. -/
def noteName (s : CenCalVMDB K) (i : Nat) (name : String) : CenCalVMDB K :=
  { s with
    vsVal := if VMQuery.sameName name "Vs" then i else s.vsVal
    vpVal := if VMQuery.sameName name "Vp" then i else s.vpVal
    densityVal := if VMQuery.sameName name "density" then i else s.densityVal }

/-- The loop over the names from position `i` on, extensions/libsrc/cencalvmdb/CenCalVMDB.cc:117-124. -/
def noteNames (s : CenCalVMDB K) (i : Nat) : List String → CenCalVMDB K
  | [] => s
  | n :: ns => noteNames (noteName s i n) (i + 1) ns

/-- `queryVals`, extensions/libsrc/cencalvmdb/CenCalVMDB.cc:104-125. -/
def queryVals (s : CenCalVMDB K) (names : List String) (numVals : Int) : Run (CenCalVMDB K) Unit :=
  match VMQuery.setQueryVals s.q names numVals with
  | .exc m => .exc m s
  | .ub => .ub
  | .ok q => (throwOnError { s with q := q }).bind fun s _ =>
    .ok (noteNames { s with vsVal := -1, vpVal := -1, densityVal := -1 } 0 (names.take numVals.toNat)) ()

/-- `pVals[i]`; out of range is undefined. -/
def valAt (vals : List K) (i : Int) : Outcome K :=
  if 0 ≤ i then match vals[i.toNat]? with
    | some v => .ok v
    | none => .ub
  else .ub

/-- State of a query: query object and log files, the values, and (for specification only) the elevations queried so far. -/
structure Tried (K : Type) where
  q : VMQuery K
  fs : Files
  vals : List K
  elevs : List K

/-- One query of the underlying object, extensions/libsrc/cencalvmdb/CenCalVMDB.cc:153, 166. -/
def ask (fmt : Fmt K) (q : VMQuery K) (fs : Files) (numVals : Int) (lon lat elev : K) (elevs : List K) : Outcome (Tried K) :=
  match VMQuery.query fmt q fs numVals lon lat elev with
  | .exc m => .exc m
  | .ub => .ub
  | .ok r => .ok ⟨r.1, r.2.1, r.2.2, elevs ++ [elev]⟩

/-- The loop filling voids, extensions/libsrc/cencalvmdb/CenCalVMDB.cc:160-171; `left` is the number of rounds still
allowed (`maxIter - iter + 1`).  The status of these queries is not looked at.  The new elevation
is rounded to double; its second term, at most 3200, is exact. -/
def fill (fmt : Fmt K) (vsVal : Int) (numVals : Int) (lon lat elev : K) : Nat → Nat → Tried K → Outcome (Tried K)
  | 0, _, t => .ok t
  | left + 1, iter, t => match valAt t.vals vsVal with
    | .exc m => .exc m
    | .ub => .ub
    | .ok v =>
      if v < 0 then
        match ask fmt { t.q with err := t.q.err.resetStatus } t.fs numVals lon lat 
            (t.q.rd.double (elev - 2 ^ (iter - 1) * 25)) t.elevs with
        | .exc m => .exc m
        | .ub => .ub
        | .ok t => fill fmt vsVal numVals lon lat elev left (iter + 1) t
      else .ok t

/-- Replacing `pVals[i]` by `low` if it is above `pos` but below `low`, extensions/libsrc/cencalvmdb/CenCalVMDB.cc:172-173,
179-180, 186-187. -/
def raise (vals : List K) (i : Int) (pos low : K) : Outcome (List K) :=
  match valAt vals i with
  | .exc m => .exc m
  | .ub => .ub
  | .ok v => .ok (if pos < v ∧ v < low then vals.set i.toNat low else vals)

/-- Filling voids and enforcing the minimum speed, extensions/libsrc/cencalvmdb/CenCalVMDB.cc:158-174. -/
def project (fmt : Fmt K) (s : CenCalVMDB K) (numVals : Int) (lon lat elev : K) (t : Tried K) : Outcome (Tried K) :=
  if s.vsVal ≥ 0 ∧ s.projectDownward = true then do
    let t ← fill fmt s.vsVal numVals lon lat elev 8 1 t
    let vals ← raise t.vals s.vsVal 0 s.minVs
    .ok { t with vals := vals }
  else .ok t

/-- Minimum of Vp, extensions/libsrc/cencalvmdb/CenCalVMDB.cc:175-181; the literal 1.16, the product and the sum are rounded to double. -/
def raiseVp (s : CenCalVMDB K) (vals : List K) : Outcome (List K) :=
  if s.vpVal ≥ 0 then raise vals s.vpVal 0 (s.q.rd.double (1360 + s.q.rd.double (s.q.rd.double (116 / 100) * s.minVs))) else .ok vals

/-- Minimum of the density, extensions/libsrc/cencalvmdb/CenCalVMDB.cc:182-188. -/
def raiseDensity (s : CenCalVMDB K) (vals : List K) : Outcome (List K) :=
  if s.densityVal ≥ 0 then raise vals s.densityVal 1000 2000 else .ok vals

/-- `query`, extensions/libsrc/cencalvmdb/CenCalVMDB.cc:130-198, for three coordinates; `conv` is the conversion of
coordinates (spatialdata).  Returns the error code, the values and the elevations queried. -/
def query (fmt : Fmt K) (conv : K × K × K → Outcome (K × K × K)) (s : CenCalVMDB K) (numVals : Int) (coords : K × K × K) :
    Run (CenCalVMDB K) (Int × List K × List K) :=
  match conv coords with
  | .exc m => .exc m s
  | .ub => .ub
  | .ok b =>
    let elev := if b.2.2 < -44950 then -44950 else b.2.2
    match ask fmt s.q s.fs numVals b.1 b.2.1 elev [] with
    | .exc m => .exc m s
    | .ub => .ub
    | .ok t =>
      if t.q.err.status = .ERROR then .exc t.q.err.message { s with q := t.q, fs := t.fs }
      else match (do
          let t ← project fmt s numVals b.1 b.2.1 elev t
          let vals ← raiseVp s t.vals
          let vals ← raiseDensity s vals
          Outcome.ok { t with vals := vals }) with
        | .exc m => .exc m s
        | .ub => .ub
        | .ok t =>
          if t.q.err.status = .WARNING then
            .ok { s with q := { t.q with err := t.q.err.resetStatus }, fs := t.fs } (1, t.vals, t.elevs)
          else .ok { s with q := t.q, fs := t.fs } (0, t.vals, t.elevs)

/-- The public calls. -/
inductive Call (K : Type) where
  | open (disk : String → Option (Db K))
  | close (fail failExt : Bool)
  | queryType (n : Int)
  | queryVals (names : List String) (numVals : Int)
  | queryRes (r : K)
  | minVs (v : K)
  | projectDownward (b : Bool)
  | filename (n : String)
  | filenameExt (n : String)
  | cacheSize (n : Int)
  | cacheSizeExt (n : Int)
  | squash (flag : Bool) (limit : K)
  | query (conv : K × K × K → Outcome (K × K × K)) (numVals : Int) (coords : K × K × K)

/-- One call; the setters are extensions/libsrc/cencalvmdb/CenCalVMDB.icc:18-69. -/
def call (fmt : Fmt K) (s : CenCalVMDB K) : Call K → Run (CenCalVMDB K) Unit
  | .open disk => openDb s disk
  | .close f fx => close s f fx
  | .queryType n => queryType s n
  | .queryVals names n => queryVals s names n
  | .queryRes r => .ok { s with q := VMQuery.setQueryRes s.q r } ()
  | .minVs v => .ok { s with minVs := v } ()
  | .projectDownward b => .ok { s with projectDownward := b } ()
  | .filename n => .ok { s with q := VMQuery.setFilename s.q n } ()
  | .filenameExt n => .ok { s with q := VMQuery.setFilenameExt s.q n } ()
  | .cacheSize n => .ok { s with q := VMQuery.setCacheSize s.q n } ()
  | .cacheSizeExt n => .ok { s with q := VMQuery.setCacheSizeExt s.q n } ()
  | .squash f l => .ok { s with q := VMQuery.squash s.q f l } ()
  | .query conv n c => (query fmt conv s n c).bind fun s _ => .ok s ()

/-- The object after a call; a caller may catch the exception.  `none` is undefined behaviour. -/
def step (fmt : Fmt K) (s : CenCalVMDB K) (c : Call K) : Option (CenCalVMDB K) :=
  match call fmt s c with
  | .ok s _ => some s
  | .exc _ s => some s
  | .ub => none

/-- The object after a history of calls. -/
def run (fmt : Fmt K) : CenCalVMDB K → List (Call K) → Option (CenCalVMDB K)
  | s, [] => some s
  | s, c :: cs => (step fmt s c).bind fun s => run fmt s cs

end CenCalVMDB
end CenCalVM
