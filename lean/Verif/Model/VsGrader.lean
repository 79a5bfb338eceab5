/-
extensions/applications/vsgrader: extracting a grid of points and limiting the gradient of the shear wave speed.
-/
import Verif.Model.Create
import Verif.Model.Rounding
import Verif.Model.Query

namespace CenCalVM
namespace VsGrader
variable {K : Type} [Field K] [LinearOrder K]

/-! ### Limiting the difference along a line -/

/-- The arrays `pData` and `pIsChanged` of a line. -/
structure Line (K : Type) where
  data : Nat → Payload K
  changed : Nat → Bool

/-- Reducing the shear wave speed of a payload to `vs`, the other properties in proportion,
extensions/applications/vsgrader/VsGrader.cc:565-572, 577-584: `scale` is a `double`, products with it are computed in `double`
and stored in `float`. -/
def reduce (rd : Rd K) (p : Payload K) (vs : K) : Payload K :=
  let scale := rd.double (vs / p.vs)
  { p with
    vp := rd.single (rd.double (p.vp * scale)), vs := rd.single vs, density := rd.single (rd.double (p.density * scale))
    qp := rd.single (rd.double (p.qp * scale)), qs := rd.single (rd.double (p.qs * scale)) }

/-- One step of either sweep: point `i` is limited by its neighbour `j`,
extensions/applications/vsgrader/VsGrader.cc:564-574, 576-586.  The difference is that of two `float`s, the sum that of a `float`
and a `double`. -/
def limitPoint (rd : Rd K) (maxdiff : K) (l : Line K) (i j : Nat) : Line K :=
  if rd.single ((l.data i).vs - (l.data j).vs) > maxdiff then
    { data := Function.update l.data i (reduce rd (l.data i) (rd.double ((l.data j).vs + maxdiff)))
      changed := Function.update l.changed i true }
  else l

/-- The sweep over `i = 1, ..., k`, extensions/applications/vsgrader/VsGrader.cc:563-574. -/
def sweepUp (rd : Rd K) (maxdiff : K) (l : Line K) : Nat → Line K
  | 0 => l
  | k + 1 => limitPoint rd maxdiff (sweepUp rd maxdiff l k) (k + 1) k

/-- The sweep over `i = k - 1, ..., 0`, extensions/applications/vsgrader/VsGrader.cc:575-586. -/
def sweepDown (rd : Rd K) (maxdiff : K) : Nat → Line K → Line K
  | 0, l => l
  | k + 1, l => sweepDown rd maxdiff k (limitPoint rd maxdiff l k (k + 1))

/-- `VsGrader::_limitDiff`, extensions/applications/vsgrader/VsGrader.cc:552-587, for `n` points. -/
def limitDiff (rd : Rd K) (maxdiff : K) (n : Nat) (data : Nat → Payload K) : Line K :=
  sweepDown rd maxdiff (n - 1) (sweepUp rd maxdiff { data := data, changed := fun _ => false } (n - 1))

/-! ### Points of the grid -/

/-- The settings of a `VsGrader` used after `_readParams` and `_initialize`
(extensions/applications/vsgrader/VsGrader.h), the projection of its geometry, and sine and cosine of `_AZIMUTHLEN`
(extensions/applications/vsgrader/VsGrader.cc:34).  `rd` rounds results.  The projection
and the level of a cell are those of the libraries. -/
structure Grid (K : Type) where
  gradientMax : K
  minVs : K
  swElev : K
  swX : K
  swY : K
  domainLen : K
  domainWidth : K
  domainHt : K
  resVert : K
  sinAz : K
  cosAz : K
  proj : Projector K
  geom : Geom K
  rd : Rd K := Rd.exact

/-- `resHoriz`, extensions/applications/vsgrader/VsGrader.cc:292, 373, 487, 514, 540.  Not rounded: the vertical exaggeration is 4
(libsrc/cencalvm/storage/GeomCenCA.cc:33), so that the product is exact. -/
def Grid.resHoriz (s : Grid K) : K := s.resVert * s.geom.vertExag

/-- `VsGrader::_indexToLonLat`, extensions/applications/vsgrader/VsGrader.cc:479-496; every operation is one
on `double`s, the sums from left to right. -/
def Grid.lonLat (s : Grid K) (iLen iWidth : Nat) : Outcome (K × K) :=
  let l := s.rd.double (iLen * s.resHoriz)
  let w := s.rd.double (iWidth * s.resHoriz)
  let x := s.rd.double (s.rd.double (s.swX + s.rd.double (l * s.sinAz)) + s.rd.double (w * s.cosAz))
  let y := s.rd.double (s.rd.double (s.swY + s.rd.double (l * s.cosAz)) - s.rd.double (w * s.sinAz))
  s.proj.invProject x y

/-- `VsGrader::_indexToElev`, extensions/applications/vsgrader/VsGrader.icc:61-65. -/
def Grid.elev (s : Grid K) (iHt : Nat) : K := s.rd.double (s.swElev - s.rd.double (iHt * s.resVert))

variable [FloorRing K]

/-- Truncation toward zero. -/
def trunc (v : K) : Int := if 0 ≤ v then ⌊v⌋ else ⌈v⌉

/-- `int(1 + len / res)`, extensions/applications/vsgrader/VsGrader.cc:293-295, 374-376, as the number of points of a loop;
conversion of an infinite or too large value is undefined. -/
def count (rd : Rd K) (len res : K) : Outcome Nat :=
  let v := trunc (rd.double (1 + rd.double (len / res)))
  if res = 0 then .ub
  else if -2 ^ 31 ≤ v ∧ v < 2 ^ 31 then .ok v.toNat
  else .ub

/-- Number of points along the length, the width and the height. -/
def Grid.numLen (s : Grid K) : Outcome Nat := count s.rd s.domainLen s.resHoriz
/-- See `Grid.numLen`. -/
def Grid.numWidth (s : Grid K) : Outcome Nat := count s.rd s.domainWidth s.resHoriz
/-- See `Grid.numLen`. -/
def Grid.numHt (s : Grid K) : Outcome Nat := count s.rd s.domainHt s.resVert

/-! ### Grading -/

/-- The octant address of a point, extensions/applications/vsgrader/VsGrader.cc:511-517, 537-543.  The coordinates of the
uninitialised address are only written; a negative level fails the assertion of `lonLatElevToAddr`; the return code is
ignored. -/
def pointAddr (s : Grid K) (lon lat elev : K) : Outcome Addr :=
  match s.geom.level s.resHoriz with
  | .exc m => .exc m
  | .ub => .ub
  | .ok n =>
    if n < 0 then .ub
    else match s.geom.lonLatElevToAddr { x := 0, y := 0, z := 0, level := n.toNat, type := .leaf } lon lat elev with
      | .exc m => .exc m
      | .ub => .ub
      | .ok r => .ok r.1

/-- `VsGrader::_pullData`, extensions/applications/vsgrader/VsGrader.cc:501-523. -/
def pullData (s : Grid K) (db : Db K) (lon lat elev : K) : Outcome (Payload K) :=
  match pointAddr s lon lat elev with
  | .exc m => .exc m
  | .ub => .ub
  | .ok a => match db.search a.toKey with
    | none => .exc "Could not find octant in database."
    | some e => .ok e.payload

/-- `VsGrader::_pushData`, extensions/applications/vsgrader/VsGrader.cc:528-547. -/
def pushData (s : Grid K) (db : Db K) (p : Payload K) (lon lat elev : K) : Outcome (Db K) :=
  match pointAddr s lon lat elev with
  | .exc m => .exc m
  | .ub => .ub
  | .ok a => match db.update a.toKey p with
    | none => .exc "Could not update octant in database."
    | some db => .ok db

/-- Location of a point of the grid. -/
def Grid.loc (s : Grid K) (iLen iWidth iHt : Nat) : Outcome (K × K × K) :=
  match s.lonLat iLen iWidth with
  | .exc m => .exc m
  | .ub => .ub
  | .ok r => .ok (r.1, r.2, s.elev iHt)

/-- Reading the first `k` points of a line, whose locations are `loc`,
extensions/applications/vsgrader/VsGrader.cc:393-396, 421-424, 450-453. -/
def pullLine (s : Grid K) (loc : Nat → Outcome (K × K × K)) (db : Db K) (junk : Payload K) : Nat → Outcome (Nat → Payload K)
  | 0 => .ok fun _ => junk
  | k + 1 => match pullLine s loc db junk k with
    | .exc m => .exc m
    | .ub => .ub
    | .ok d => match loc k with
      | .exc m => .exc m
      | .ub => .ub
      | .ok r => match pullData s db r.1 r.2.1 r.2.2 with
        | .exc m => .exc m
        | .ub => .ub
        | .ok p => .ok (Function.update d k p)

/-- Writing those of the first `k` points that changed, extensions/applications/vsgrader/VsGrader.cc:400-404, 428-432,
457-461.  An exception leaves what was written before. -/
def pushLine (s : Grid K) (loc : Nat → Outcome (K × K × K)) (l : Line K) : Nat → Db K → Run (Db K) Unit
  | 0, db => .ok db ()
  | k + 1, db => (pushLine s loc l k db).bind fun db _ =>
    if l.changed k then
      match loc k with
      | .exc m => .exc m db
      | .ub => .ub
      | .ok r => match pushData s db (l.data k) r.1 r.2.1 r.2.2 with
        | .exc m => .exc m db
        | .ub => .ub
        | .ok db => .ok db ()
    else .ok db ()

/-- Limiting one line of `n` points, extensions/applications/vsgrader/VsGrader.cc:393-404, 421-432, 450-461.  The arrays
are reused by the code; all their elements are written before they are read. -/
def gradeLine (s : Grid K) (loc : Nat → Outcome (K × K × K)) (maxdiff : K) (junk : Payload K) (n : Nat) (db : Db K) :
    Run (Db K) Unit :=
  match pullLine s loc db junk n with
  | .exc m => .exc m db
  | .ub => .ub
  | .ok d => pushLine s loc (limitDiff s.rd maxdiff n d) n db

/-- A loop `for (int i=0; i < n; ++i)`. -/
def loop {σ : Type} (body : Nat → σ → Run σ Unit) : Nat → σ → Run σ Unit
  | 0, s => .ok s ()
  | n + 1, s => (loop body n s).bind fun s _ => body n s

/-- `VsGrader::_grade`, extensions/applications/vsgrader/VsGrader.cc:357-474, on the contents of the open database: vertical
pass 388-405, length pass 416-434, width pass 445-463.  The locations are the same in every pass; the vertical pass
computes longitude and latitude once per line. -/
def grade (s : Grid K) (junk : Payload K) (db : Db K) : Run (Db K) Unit :=
  match s.numLen, s.numWidth, s.numHt with
  | .ok nLen, .ok nWidth, .ok nHt =>
    (loop (fun iLen db => loop (fun iWidth db =>
        gradeLine s (fun iHt => s.loc iLen iWidth iHt) (s.rd.double (s.gradientMax * s.resVert)) junk nHt db) nWidth db) nLen db).bind fun db _ =>
    (loop (fun iHt db => loop (fun iWidth db =>
        gradeLine s (fun iLen => s.loc iLen iWidth iHt) (s.rd.double (s.gradientMax * s.resHoriz)) junk nLen db) nWidth db) nHt db).bind fun db _ =>
    loop (fun iHt db => loop (fun iLen db =>
        gradeLine s (fun iWidth => s.loc iLen iWidth iHt) (s.rd.double (s.gradientMax * s.resHoriz)) junk nWidth db) nLen db) nHt db
  | _, _, _ => .ub

/-! ### Extraction -/

/-- `VsGrader::_NODATAVAL`, extensions/applications/vsgrader/VsGrader.cc:35. -/
def noDataVal : K := 10000000000
/-- The payload of a point without a shear wave speed, extensions/applications/vsgrader/VsGrader.cc:35-37, 319-327;
`_NODATAVAL` is representable as a `float`. -/
def markPayload : Payload K :=
  ⟨noDataVal, noDataVal, noDataVal, noDataVal, noDataVal, noDataVal, 999, 999⟩

/-- `int16_t(v)`, extensions/applications/vsgrader/VsGrader.cc:317-318; a value out of range is undefined. -/
def toInt16 (v : K) : Outcome Int := if -32768 ≤ trunc v ∧ trunc v < 32768 then .ok (trunc v) else .ub

/-- The payload inserted for the values of a query, extensions/applications/vsgrader/VsGrader.cc:311-329.  The values
are `double`s, those of a payload `float`s. -/
def extractPayload (rd : Rd K) (minVs : K) (vals : List K) : Outcome (Payload K) :=
  match vals with
  | [vp, vs, density, qp, qs, depth, block, zone] =>
    match toInt16 block, toInt16 zone with
    | .ok b, .ok z =>
      if rd.single vs < 0 then .ok markPayload
      else .ok ⟨rd.single vp, if rd.single vs < minVs then rd.single minVs else rd.single vs, rd.single density, rd.single qp,
        rd.single qs, rd.single depth, b, z⟩
    | _, _ => .ub
  | _ => .ub

/-- The objects used by `_extract`: the query object with the log files, and the creator. -/
structure Work (K : Type) where
  q : VMQuery K
  fs : Files
  c : VMCreator.Creator K

/-- The body of the loops of `_extract`, extensions/applications/vsgrader/VsGrader.cc:307-331.  Longitude and latitude are
computed once per column in the code.  The status of the query is not looked at. -/
def extractPoint (fmt : Fmt K) (env : EtreeEnv) (s : Grid K) (iLen iWidth iHt : Nat) (w : Work K) : Run (Work K) Unit :=
  match s.loc iLen iWidth iHt with
  | .exc m => .exc m w
  | .ub => .ub
  | .ok r => match VMQuery.query fmt w.q w.fs 8 r.1 r.2.1 r.2.2 with
    | .exc m => .exc m w
    | .ub => .ub
    | .ok v => match extractPayload s.rd s.minVs v.2.2 with
      | .exc m => .exc m { w with q := v.1, fs := v.2.1 }
      | .ub => .ub
      | .ok p => match VMCreator.insert env w.c p r.1 r.2.1 r.2.2 s.resHoriz (some s.geom) with
        | .exc m c => .exc m ⟨v.1, v.2.1, c⟩
        | .ub => .ub
        | .ok c _ => .ok ⟨v.1, v.2.1, c⟩ ()

/-- The loops of `_extract`, extensions/applications/vsgrader/VsGrader.cc:303-334. -/
def extractLoops (fmt : Fmt K) (env : EtreeEnv) (s : Grid K) (w : Work K) : Run (Work K) Unit :=
  match s.numLen, s.numWidth, s.numHt with
  | .ok nLen, .ok nWidth, .ok nHt =>
    loop (fun iLen w => loop (fun iWidth w => loop (fun iHt w => extractPoint fmt env s iLen iWidth iHt w) nHt w) nWidth w) nLen w
  | _, _, _ => .ub

/-- The names of the values requested, extensions/applications/vsgrader/VsGrader.cc:299-300. -/
def valNames : List String := ["Vp", "Vs", "Density", "Qp", "Qs", "DepthFreeSurf", "FaultBlock", "Zone"]

/-- The query object set up by `_extract`, extensions/applications/vsgrader/VsGrader.cc:277-282, 301; `g` is the geometry
a new query object has. -/
def openQuery (rd : Rd K) (g : Geom K) (type : Int) (res : K) (cacheSize : Int) (filename : String) (disk : String → Option (Db K)) :
    Outcome (VMQuery K) :=
  let q := VMQuery.setFilename (VMQuery.setCacheSize (VMQuery.setQueryRes (VMQuery.queryType { VMQuery.init g with rd := rd } type) res) cacheSize)
    filename
  match VMQuery.openDb disk q with
  | .exc m => .exc m
  | .ub => .ub
  | .ok q => VMQuery.setQueryVals q valNames 8

/-- Names and query settings of a `VsGrader`. -/
structure Names (K : Type) where
  fileIn : String
  fileTmp : String
  fileOut : String
  queryType : Int
  queryRes : K
  cacheSize : Int
  description : String
  stamp : String

/-- `VsGrader::_extract`, extensions/applications/vsgrader/VsGrader.cc:269-342, on the files on disk.  Closing the query object
has no further effect.  Creating the temporary database truncates the file (288-290); if it is the input, which is open, what
libetree then does is not specified. -/
def extract (fmt : Fmt K) (env : EtreeEnv) (s : Grid K) (nm : Names K) (gq : Geom K) (fs : Files) (disk : EtreeDisk K) :
    Run (EtreeDisk K) Unit :=
  match openQuery s.rd gq nm.queryType nm.queryRes nm.cacheSize nm.fileIn (fun n => (disk n).map (·.db)) with
  | .exc m => .exc m disk
  | .ub => .ub
  | .ok q => match VMCreator.openDB env (VMCreator.init disk) nm.fileTmp nm.description nm.stamp with
    | .exc m c => .exc m (VMCreator.closeDB c).disk
    | .ub => .ub
    | .ok c _ => if nm.fileTmp = nm.fileIn then .ub else match extractLoops fmt env s ⟨q, fs, c⟩ with
      | .exc m w => .exc m (VMCreator.closeDB w.c).disk
      | .ub => .ub
      | .ok w _ => .ok (VMCreator.closeDB w.c).disk ()

/-- `VsGrader::run`, extensions/applications/vsgrader/VsGrader.cc:84-91, after the parameters were read and the corner
projected (86-87): `_extract`, `_pack` (347-352), `_grade`.  Failures of `etree_close` at the end of `_grade` are left
out. -/
def run (fmt : Fmt K) (env : EtreeEnv) (s : Grid K) (nm : Names K) (gq : Geom K) (junk : Payload K) (fs : Files)
    (disk : EtreeDisk K) : Run (EtreeDisk K) Unit :=
  (extract fmt env s nm gq fs disk).bind fun disk _ =>
  (VMCreator.packDB env disk nm.fileOut nm.fileTmp).bind fun disk _ =>
  match disk nm.fileOut with
  | none => .exc "Could not open etree database." disk
  | some f => match grade s junk f.db with
    | .exc m db => .exc m (disk.set nm.fileOut { f with db := db })
    | .ub => .ub
    | .ok db _ => .ok (disk.set nm.fileOut { f with db := db }) ()

end VsGrader
end CenCalVM
