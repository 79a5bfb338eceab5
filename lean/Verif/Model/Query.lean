/-
query/VMQuery: configuration, lifecycle and queries.
-/
import Verif.Model.Etree
import Verif.Model.Geometry
import Verif.Model.ErrorHandler
import Verif.Model.Rounding

namespace CenCalVM

/-- `VMQuery::QueryEnum`, libsrc/cencalvm/query/VMQuery.h:71-75. -/
inductive QueryType where
  | MAXRES
  | FIXEDRES
  | WAVERES
  deriving DecidableEq, Repr

/-- Formatting of numbers and addresses in messages (iostreams, `etree_straddr`): parameters. -/
structure Fmt (K : Type) where
  /-- scientific notation, six digits (VMQuery.cc:233-236) -/
  sci : K → String
  /-- default formatting (VMQuery.cc:419) -/
  gen : K → String
  /-- `etree_straddr` -/
  addr : Addr → String

/-- A `VMQuery` object, libsrc/cencalvm/query/VMQuery.h (private members).  `_querySize` is the length of
`queryVals`; an entry `none` is an element of `_pQueryVals` that was never written.  `rd` is not a member: it says how the quotients and means
of the WAVERES query are rounded (by default not at all). -/
structure VMQuery (K : Type) where
  queryRes : K
  squashLimit : K
  db : Option (Db K)
  dbExt : Option (Db K)
  queryVals : List (Option Nat)
  geom : Option (Geom K)
  err : ErrorHandler
  filename : String
  filenameExt : String
  queryFn : QueryType
  cacheSize : Int
  cacheSizeExt : Int
  squashTopo : Bool
  rd : Rd K := Rd.exact

namespace VMQuery

variable {K : Type} [Field K] [LinearOrder K]

/-- The address set up before a location is converted: level and type, VMQuery.cc:308-309,345-346,382-383,
456-457 of libsrc/cencalvm/query. -/
def leafAt (a : Addr) (level : Nat) : Addr := { a with level := level, type := .leaf }

/-- `VMQuery::_queryMax`, libsrc/cencalvm/query/VMQuery.cc:295-325.  Returns payload and address. -/
def queryMax (g : Geom K) (addr : Addr) (db : Db K) (lon lat elev : K) (useAddr : Bool) :
    Outcome (Payload K × Addr) := do
  let r ← if useAddr then .ok (addr, 0) else g.lonLatElevToAddr (leafAt addr ETREE_MAXLEVEL) lon lat elev
  if r.2 ≠ 0 then .ok (noDataPayload, r.1)
  else match db.search r.1.toKey with
    | none => .ok (noDataPayload, r.1)
    | some e => if e.addr.type = .interior then .ok (noDataPayload, r.1) else .ok (e.payload, r.1)

/-- `VMQuery::_queryFixed`, libsrc/cencalvm/query/VMQuery.cc:330-362.  A negative level fails the assertion
of `lonLatElevToAddr`. -/
def queryFixed (g : Geom K) (queryRes : K) (addr : Addr) (db : Db K) (lon lat elev : K) (useAddr : Bool) :
    Outcome (Payload K × Addr) := do
  let r ← if useAddr then .ok (addr, 0) else do
    let n ← g.level (g.vertExag * queryRes)
    if n < 0 then .ub else g.lonLatElevToAddr (leafAt addr n.toNat) lon lat elev
  if r.2 ≠ 0 then .ok (noDataPayload, r.1)
  else match db.search r.1.toKey with
    | none => .ok (noDataPayload, r.1)
    | some e =>
      if e.addr.type = .interior ∧ r.1.level > e.addr.level then .ok (noDataPayload, r.1)
      else .ok (e.payload, r.1)

/-- IEEE comparison `len / v > m` for finite `len > 0`: a zero divisor gives infinity
(libsrc/cencalvm/query/VMQuery.cc:399-400). -/
def quotGt (rd : Rd K) (len v m : K) : Bool := if v = 0 then true else decide (rd.double (len / v) > m)

/-- Mean of two values, libsrc/cencalvm/query/VMQuery.cc:430-437: the sum of two numbers of type `float` is a `float`, its product with
the `double` 0.5 is a `double`, stored in a `float`. -/
def waveMean (rd : Rd K) (c p : K) : K := rd.single (rd.double (1 / 2 * rd.single (c + p)))

/-- Mean of the two payloads bracketing the criterion; fault block and zone of the second,
libsrc/cencalvm/query/VMQuery.cc:430-437. -/
def waveAverage (rd : Rd K) (child p : Payload K) : Payload K :=
  { vp := waveMean rd child.vp p.vp, vs := waveMean rd child.vs p.vs,
    density := waveMean rd child.density p.density, qp := waveMean rd child.qp p.qp,
    qs := waveMean rd child.qs p.qs, depth := waveMean rd child.depth p.depth,
    faultBlock := p.faultBlock, zone := p.zone }

/-- How the walk of `_queryWave` ends: reaching the criterion with (child, last octant), or at an octant whose
parent is not stored. -/
inductive WaveEnd (K : Type) where
  | reached (child : Payload K) (last : Payload K)
  | orphan (parent child : Addr)

/-- The loop of `VMQuery::_queryWave`, libsrc/cencalvm/query/VMQuery.cc:406-424.  `fuel` bounds the number of
rounds; each round goes to a smaller level and the loop stops at level 0, so `fuel = res.addr.level` is
never exhausted early (`waveLoop_fuel`). -/
def waveLoop (rd : Rd K) (g : Geom K) (db : Db K) (minPeriod : K) : Nat → Payload K → Entry K → Outcome (WaveEnd K)
  | 0, child, res => .ok (.reached child res.payload)
  | fuel + 1, child, res =>
    if res.payload.vs > 0 ∧ rd.double (g.edgeLen res.addr.level / res.payload.vs) < minPeriod ∧ res.addr.level > 0 then
      match findAncestor res.addr ((res.addr.level : Int) - 1) with
      | .ok parent =>
        match db.search parent.toKey with
        | none => .ok (.orphan parent res.addr)
        | some e => waveLoop rd g db minPeriod fuel res.payload e
      | .exc m => .exc m
      | .ub => .ub
    else .ok (.reached child res.payload)

/-- Message of the warning for a missing parent, libsrc/cencalvm/query/VMQuery.cc:413-420.  Both
`etree_straddr` calls write the same buffer before it is printed; which address appears is left to `fmt`. -/
def orphanMessage (fmt : Fmt K) (parent child : Addr) (lon lat elev : K) : String :=
  "Could not find parent octant " ++ fmt.addr parent ++ "\nof child octant " ++ fmt.addr child ++
    "\nfor location " ++ fmt.gen lon ++ ", " ++ fmt.gen lat ++ ", " ++ fmt.gen elev ++
    ".\nUsing values from child octant."

/-- `VMQuery::_queryWave`, libsrc/cencalvm/query/VMQuery.cc:368-438. -/
def queryWave (fmt : Fmt K) (rd : Rd K) (g : Geom K) (queryRes : K) (h : ErrorHandler) (addr : Addr) (db : Db K)
    (lon lat elev : K) (useAddr : Bool) : Outcome (Payload K × Addr × ErrorHandler) := do
  let r ← if useAddr then .ok (addr, 0) else g.lonLatElevToAddr (leafAt addr ETREE_MAXLEVEL) lon lat elev
  if r.2 ≠ 0 then .ok (noDataPayload, r.1, h)
  else match db.search r.1.toKey with
    | none => .ok (noDataPayload, r.1, h)
    | some e =>
      let minPeriod := g.vertExag * queryRes
      if e.addr.type = .interior ∧ quotGt rd (g.edgeLen e.addr.level) e.payload.vs minPeriod = true then
        .ok (noDataPayload, r.1, h)
      else do
        match ← waveLoop rd g db minPeriod e.addr.level e.payload e with
        | .reached child last => .ok (waveAverage rd child last, r.1, h)
        | .orphan parent child =>
          -- the first search is repeated (VMQuery.cc:422) and gives `e` again
          .ok (e.payload, r.1, h.warning (orphanMessage fmt parent child lon lat elev))

/-- The call through `_queryFn` (VMQuery.cc:216,221 of libsrc/cencalvm/query), as set by `queryType`. -/
def runQueryFn (fmt : Fmt K) (q : VMQuery K) (g : Geom K) (h : ErrorHandler) (addr : Addr) (db : Db K)
    (lon lat elev : K) (useAddr : Bool) : Outcome (Payload K × Addr × ErrorHandler) :=
  match q.queryFn with
  | .MAXRES => do
    let r ← queryMax g addr db lon lat elev useAddr
    .ok (r.1, r.2, h)
  | .FIXEDRES => do
    let r ← queryFixed g q.queryRes addr db lon lat elev useAddr
    .ok (r.1, r.2, h)
  | .WAVERES => queryWave fmt q.rd g q.queryRes h addr db lon lat elev useAddr

/-- The search in the extended database by `_queryElev`: an interior octant is accepted,
libsrc/cencalvm/query/VMQuery.cc:467-471. -/
def elevOctantExt (ext : Option (Db K)) (k : Key) : Option (Entry K × Db K) :=
  match ext with
  | none => none
  | some x => (x.search k).map fun e => (e, x)

/-- Which stored octant `_queryElev` takes the ground elevation from, with its database:
libsrc/cencalvm/query/VMQuery.cc:462-471. -/
def elevOctant (db : Db K) (ext : Option (Db K)) (k : Key) : Option (Entry K × Db K) :=
  match db.search k with
  | some e => if e.addr.type = .interior then elevOctantExt ext k else some (e, db)
  | none => elevOctantExt ext k

/-- The cell at the ground elevation is missing, an average, or without shear speed:
libsrc/cencalvm/query/VMQuery.cc:487-488. -/
def groundMissing (db : Db K) (k : Key) : Bool :=
  match db.search k with
  | none => true
  | some e => decide (e.addr.type = .interior) || decide (e.payload.vs = NODATAVAL)

/-- The address one cell lower (unsigned subtraction), libsrc/cencalvm/query/VMQuery.cc:489-490. -/
def oneCellLower (a : Addr) : Addr := { a with z := a.z - GeomCenCA.tickLen a.level }

/-- `VMQuery::_queryElev`, libsrc/cencalvm/query/VMQuery.cc:444-500.  Returns elevation and the address
variable of the caller.  The sums of a centroid elevation and a depth are rounded to double, :482,493. -/
def queryElev (rd : Rd K) (g : Geom K) (db : Db K) (ext : Option (Db K)) (addr : Addr) (lon lat elev : K)
    (allowAdjustment : Bool) : Outcome (K × Addr) := do
  let a1 ← g.lonLatElevToAddr (leafAt addr ETREE_MAXLEVEL) lon lat elev
  match elevOctant db ext a1.1.toKey with
  | none => .ok (NODATAVAL, a1.1)
  | some (e, dbElev) => do
    let c ← g.addrToLonLatElev e.addr
    let elevRef := rd.double (c.2.2 + e.payload.depth)
    let a2 ← g.lonLatElevToAddr a1.1 lon lat elevRef
    if groundMissing dbElev a2.1.toKey && allowAdjustment then do
      let c' ← g.addrToLonLatElev (oneCellLower e.addr)
      .ok (rd.double (c'.2.2 + e.payload.depth), a2.1)
    else .ok (elevRef, a2.1)

/-- Result of the `try` block of `query`. -/
structure Fetched (K : Type) where
  elevRef : K
  payload : Payload K
  addr : Addr
  err : ErrorHandler

/-- The ground elevation looked up for squashing (0 if squashing does not apply),
libsrc/cencalvm/query/VMQuery.cc:207-211. -/
def squashElev (q : VMQuery K) (g : Geom K) (db : Db K) (addr : Addr) (lon lat elev : K) : Outcome (K × Addr) :=
  if q.squashTopo ∧ elev > q.squashLimit then queryElev q.rd g db q.dbExt addr lon lat elev true else .ok (0, addr)

/-- The `try` block of `VMQuery::query`, libsrc/cencalvm/query/VMQuery.cc:206-227; the elevation queried is a
sum in double, :213. -/
def fetch (fmt : Fmt K) (q : VMQuery K) (g : Geom K) (db : Db K) (addr : Addr) (lon lat elev : K) :
    Outcome (Fetched K) := do
  let r ← squashElev q g db addr lon lat elev
  let elevQuery := if q.squashTopo ∧ elev > q.squashLimit ∧ r.1 ≠ NODATAVAL then q.rd.double (elev + r.1) else elev
  let p ← runQueryFn fmt q g q.err r.2 db lon lat elevQuery false
  if p.1.faultBlock = NODATABLOCK then
    match q.dbExt with
    | none => .ok ⟨r.1, p.1, p.2.1, p.2.2⟩
    | some x => do
      let p' ← runQueryFn fmt q g p.2.2 p.2.1 x lon lat elevQuery true
      .ok ⟨r.1, p'.1, p'.2.1, p'.2.2⟩
  else .ok ⟨r.1, p.1, p.2.1, p.2.2⟩

/-- The line written to the log when there is no data, libsrc/cencalvm/query/VMQuery.cc:231-237. -/
def noDataLine (fmt : Fmt K) (lon lat elev : K) : String :=
  fmt.sci lon ++ ", " ++ fmt.sci lat ++ ", " ++ fmt.sci elev ++ ", No data\n"

/-- The warning when there is no data, libsrc/cencalvm/query/VMQuery.cc:238-245. -/
def noDataWarning (fmt : Fmt K) (lon lat elev : K) : String :=
  "WARNING: No data for " ++ fmt.sci lon ++ ", " ++ fmt.sci lat ++ ", " ++ fmt.sci elev ++ ".\n"

/-- State of the loop copying values: elevation variable, address variable, error handler. -/
structure CopyState (K : Type) where
  elevRef : K
  addr : Addr
  err : ErrorHandler

/-- One round of the loop copying values, libsrc/cencalvm/query/VMQuery.cc:250-288.  Reading an element of
`_pQueryVals` that was never written is undefined; a value outside 0..8 leaves the output unwritten, which is
undefined for the caller reading it (no call can store such a value). -/
def copyValue (q : VMQuery K) (g : Geom K) (db : Db K) (lon lat elev : K) (p : Payload K)
    (s : CopyState K) : Option Nat → Outcome (K × CopyState K)
  | some 0 => .ok (p.vp, s)
  | some 1 => .ok (p.vs, s)
  | some 2 => .ok (p.density, s)
  | some 3 => .ok (p.qp, s)
  | some 4 => .ok (p.qs, s)
  | some 5 => .ok (p.depth, s)
  | some 6 => .ok ((p.faultBlock : K), s)
  | some 7 => .ok ((p.zone : K), s)
  | some 8 =>
    match queryElev q.rd g db q.dbExt s.addr lon lat elev false with
    | .ok r => .ok (r.1, { s with elevRef := r.1, addr := r.2 })
    | .exc m => .ok (s.elevRef, { s with err := s.err.error m })
    | .ub => .ub
  | _ => .ub

/-- The loop copying values, libsrc/cencalvm/query/VMQuery.cc:249-289. -/
def copyValues (q : VMQuery K) (g : Geom K) (db : Db K) (lon lat elev : K) (p : Payload K) :
    CopyState K → List (Option Nat) → Outcome (List K × CopyState K)
  | s, [] => .ok ([], s)
  | s, v :: vs => do
    let r ← copyValue q g db lon lat elev p s v
    let rs ← copyValues q g db lon lat elev p r.2 vs
    .ok (r.1 :: rs.1, rs.2)

/-- `VMQuery::query`, libsrc/cencalvm/query/VMQuery.cc:191-290.  The address variable of the caller is
uninitialised at first (its coordinates are only written, see `Geom.Overwrites`); it is 0 here.  An exception in
the `try` block is raised before `payload` is written, so the test of `payload.FaultBlock` that follows reads an
uninitialised variable. -/
def query (fmt : Fmt K) (q : VMQuery K) (fs : Files) (numVals : Int) (lon lat elev : K) :
    Outcome (VMQuery K × Files × List K) :=
  if numVals ≠ q.queryVals.length then .ub
  else match q.geom, q.db with
    | some g, some db =>
      match fetch fmt q g db ⟨⟨0, 0, 0, 0⟩, .leaf⟩ lon lat elev with
      | .ub => .ub
      | .exc _ => .ub
      | .ok f =>
        let noData := decide (f.payload.faultBlock = NODATABLOCK)
        let fs' := if noData then f.err.log fs (noDataLine fmt lon lat elev) else fs
        let err' := if noData then f.err.warning (noDataWarning fmt lon lat elev) else f.err
        match copyValues q g db lon lat elev f.payload ⟨f.elevRef, f.addr, err'⟩ q.queryVals with
        | .ok (vals, s) => .ok ({ q with err := s.err }, fs', vals)
        | .exc m => .exc m
        | .ub => .ub
    | _, _ => .ub

/-! ### Configuration -/

/-- Constructor, libsrc/cencalvm/query/VMQuery.cc:32-53; `g` is the `GeomCenCA` it creates. -/
def init (g : Geom K) : VMQuery K :=
  { queryRes := 0, squashLimit := -2000, db := none, dbExt := none,
    queryVals := (List.range 9).map some, geom := some g, err := ErrorHandler.init,
    filename := "", filenameExt := "", queryFn := .MAXRES, cacheSize := 128, cacheSizeExt := 128,
    squashTopo := false }

/-- `geometry`, libsrc/cencalvm/query/VMQuery.cc:68-72; the test is on the old pointer, so a null argument is
dereferenced. -/
def geometry (q : VMQuery K) (g : Option (Geom K)) : Outcome (VMQuery K) :=
  match q.geom, g with
  | some _, some g => .ok { q with geom := some g }
  | some _, none => .ub
  | none, _ => .ok { q with geom := none }

/-- Error message of a failed open, libsrc/cencalvm/query/VMQuery.cc:83-84. -/
def openMessage (name : String) : String :=
  "Could not open the etree database '" ++ name ++ "' for querying."
/-- Error message of a failed open, libsrc/cencalvm/query/VMQuery.cc:95-96. -/
def openExtMessage (name : String) : String :=
  "Could not open the etree (regional) database '" ++ name ++ "' for querying."
/-- Error message of a failed close, libsrc/cencalvm/query/VMQuery.cc:109,116. -/
def closeMessage (name : String) : String :=
  "Could not close the etree database '" ++ name ++ "'."

/-- First half of `open`, libsrc/cencalvm/query/VMQuery.cc:79-88.  `disk` gives the databases that
`etree_open` can open, by file name. -/
def openMain (disk : String → Option (Db K)) (q : VMQuery K) : Outcome (VMQuery K) :=
  match q.db with
  | some _ => .ok q
  | none =>
    if q.cacheSize > 0 then
      match disk q.filename with
      | some d => .ok { q with db := some d }
      | none => .ok { q with err := q.err.error (openMessage q.filename) }
    else .ub

/-- Second half of `open`, libsrc/cencalvm/query/VMQuery.cc:90-99. -/
def openExt (disk : String → Option (Db K)) (q : VMQuery K) : Outcome (VMQuery K) :=
  if q.filenameExt ≠ "" then
    match q.dbExt with
    | some _ => .ok q
    | none =>
      if q.cacheSizeExt > 0 then
        match disk q.filenameExt with
        | some d => .ok { q with dbExt := some d }
        | none => .ok { q with err := q.err.error (openExtMessage q.filenameExt) }
      else .ub
  else .ok q

/-- `open`, libsrc/cencalvm/query/VMQuery.cc:77-100. -/
def openDb (disk : String → Option (Db K)) (q : VMQuery K) : Outcome (VMQuery K) := do
  let q ← openMain disk q
  openExt disk q

/-- Effect of one `etree_close` on the error handler, libsrc/cencalvm/query/VMQuery.cc:107-111,114-118. -/
def closeErr (h : ErrorHandler) (isOpen fail : Bool) (name : String) : ErrorHandler :=
  if isOpen && fail then h.error (closeMessage name) else h

/-- `close`, libsrc/cencalvm/query/VMQuery.cc:105-120.  `fail`, `failExt` say whether `etree_close` fails. -/
def close (fail failExt : Bool) (q : VMQuery K) : VMQuery K :=
  { q with
    db := none
    dbExt := none
    err := closeErr (closeErr q.err q.db.isSome fail q.filename) q.dbExt.isSome failExt q.filename }

/-- Destructor, libsrc/cencalvm/query/VMQuery.cc:57-63: the error handler is deleted before `close` is called, so
a failing close uses it after deletion. -/
def destroy (fail failExt : Bool) (q : VMQuery K) : Outcome Unit :=
  if (q.db.isSome && fail) || (q.dbExt.isSome && failExt) then .ub else .ok ()

/-- `queryType`, libsrc/cencalvm/query/VMQuery.cc:125-142 (an enumeration, so any integer can arrive). -/
def queryType (q : VMQuery K) (n : Int) : VMQuery K :=
  if n = 0 then { q with queryFn := .MAXRES }
  else if n = 1 then { q with queryFn := .FIXEDRES }
  else if n = 2 then { q with queryFn := .WAVERES }
  else { q with err := q.err.error "Could not find query function for requested query type." }

/-- `strcasecmp(a, b) == 0` in the C locale. -/
def sameName (a b : String) : Bool := a.toList.map Char.toLower == b.toList.map Char.toLower

/-- The chain of comparisons in `queryVals`, libsrc/cencalvm/query/VMQuery.cc:157-174. -/
def valueIndex (name : String) : Option Nat :=
  if sameName "Vp" name then some 0
  else if sameName "Vs" name then some 1
  else if sameName "Density" name then some 2
  else if sameName "Qp" name then some 3
  else if sameName "Qs" name then some 4
  else if sameName "DepthFreeSurf" name then some 5
  else if sameName "FaultBlock" name then some 6
  else if sameName "Zone" name then some 7
  else if sameName "elevation" name then some 8
  else none

/-- Message for an unknown name, libsrc/cencalvm/query/VMQuery.cc:176-182. -/
def unknownNameMessage (name : String) : String :=
  "Value name '" ++ name ++ "' does not match any of the values in the velocity database.\n" ++
    "Values in database are:\n" ++
    "  Vp, Vs, Density, Qp, Qs, DepthFreeSurf, FaultBlock, Zone, elevation."

/-- Effect of one name on the error handler, libsrc/cencalvm/query/VMQuery.cc:175-183. -/
def nameErr (h : ErrorHandler) (name : String) : ErrorHandler :=
  match valueIndex name with
  | some _ => h
  | none => h.error (unknownNameMessage name)

/-- `queryVals`, libsrc/cencalvm/query/VMQuery.cc:147-186.  `names` holds the strings of the array passed;
reading beyond it is undefined. -/
def setQueryVals (q : VMQuery K) (names : List String) (numVals : Int) : Outcome (VMQuery K) :=
  if numVals > 0 then
    if numVals.toNat ≤ names.length then
      let ns := names.take numVals.toNat
      .ok { q with
        queryVals := ns.map valueIndex
        err := ns.foldl nameErr q.err }
    else .ub
  else .ok q

/-- `filename`, libsrc/cencalvm/query/VMQuery.icc:18-22. -/
def setFilename (q : VMQuery K) (n : String) : VMQuery K := { q with filename := n }
/-- `filenameExt`, libsrc/cencalvm/query/VMQuery.icc:25-29. -/
def setFilenameExt (q : VMQuery K) (n : String) : VMQuery K := { q with filenameExt := n }
/-- `cacheSize`, libsrc/cencalvm/query/VMQuery.icc:32-36. -/
def setCacheSize (q : VMQuery K) (n : Int) : VMQuery K := if n > 0 then { q with cacheSize := n } else q
/-- `cacheSizeExt`, libsrc/cencalvm/query/VMQuery.icc:39-43. -/
def setCacheSizeExt (q : VMQuery K) (n : Int) : VMQuery K :=
  if n > 0 then { q with cacheSizeExt := n } else q
/-- `queryRes`, libsrc/cencalvm/query/VMQuery.icc:46-50. -/
def setQueryRes (q : VMQuery K) (r : K) : VMQuery K := if r > 0 then { q with queryRes := r } else q
/-- `squash`, libsrc/cencalvm/query/VMQuery.icc:61-67. -/
def squash (q : VMQuery K) (flag : Bool) (limit : K) : VMQuery K :=
  { q with squashTopo := flag, squashLimit := limit }

end VMQuery

end CenCalVM
