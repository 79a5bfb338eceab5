/-
create/GridIngester: filling a database from grid files.
-/
import Verif.Model.Create
import Verif.Model.Stream

namespace CenCalVM
namespace GridIngester
open VMCreator
variable {K : Type} [Field K] [LinearOrder K]

/-- Header of a grid file, libsrc/cencalvm/create/GridIngester.cc:159-164. -/
structure Header (K : Type) where
  resHoriz : K
  resVert : K
  numX : Int
  numY : Int
  numZ : Int
  numTotal : Int
  deriving DecidableEq

/-- `fin >> v` for a `double`. -/
def readReal (nf : NumFmt K) (s : Stream) (old : K) : Stream × K := s.extract nf.scan nf.real 0 old
/-- `fin >> v` for a `float`. -/
def readReal32 (nf : NumFmt K) (s : Stream) (old : K) : Stream × K := s.extract nf.scan nf.real32 0 old
/-- `fin >> v` for an `int`. -/
def readInt (nf : NumFmt K) (s : Stream) (old : Int) : Stream × Int := s.extract nf.scan nf.int 0 old
/-- `fin >> v` for an `int16_t`. -/
def readInt16 (nf : NumFmt K) (s : Stream) (old : Int) : Stream × Int := s.extract nf.scan nf.int16 0 old

/-- Reading of the header, libsrc/cencalvm/create/GridIngester.cc:165. -/
def readHeader (nf : NumFmt K) (s : Stream) : Stream × Header K :=
  let (s, h) := readReal nf s 0
  let (s, v) := readReal nf s 0
  let (s, x) := readInt nf s 0
  let (s, y) := readInt nf s 0
  let (s, z) := readInt nf s 0
  let (s, t) := readInt nf s 0
  (s, ⟨h, v, x, y, z, t⟩)

/-- IEEE value of `fabs(1.0 - (h/v)/e) > tol` for finite `h`, `v` and nonzero finite `e`: with `v = 0` the quotient is
infinite, or NaN if `h = 0` too, and a comparison with NaN is false (libsrc/cencalvm/create/GridIngester.cc:178-180). -/
def ratioOff (rd : Rd K) (h v e tol : K) : Bool :=
  if v = 0 then decide (h ≠ 0) else decide (|rd.double (1 - rd.double (rd.double (h / v) / e))| > tol)

/-- One data line, libsrc/cencalvm/create/GridIngester.cc:199-216. -/
structure Point (K : Type) where
  lon : K
  lat : K
  elev : K
  payload : Payload K
  volID : Int

/-- Reading of a data line, libsrc/cencalvm/create/GridIngester.cc:199-216; `junk` is the uninitialised payload. -/
def readPoint (nf : NumFmt K) (junk : Payload K) (s : Stream) : Stream × Point K :=
  let (s, lon) := readReal nf s 0
  let (s, lat) := readReal nf s 0
  let (s, elev) := readReal nf s 0
  let (s, vp) := readReal32 nf s junk.vp
  let (s, vs) := readReal32 nf s junk.vs
  let (s, density) := readReal32 nf s junk.density
  let (s, qp) := readReal32 nf s junk.qp
  let (s, qs) := readReal32 nf s junk.qs
  let (s, depth) := readReal32 nf s junk.depth
  let (s, block) := readInt16 nf s junk.faultBlock
  let (s, zone) := readInt16 nf s junk.zone
  let (s, vol) := readInt nf s 0
  (s, ⟨lon, lat, elev, ⟨vp, vs, density, qp, qs, depth, block, zone⟩, vol⟩)

/-- Conversion of one value from km based units, libsrc/cencalvm/create/GridIngester.cc:222-235; `rnd` is the rounding of the
product. -/
def toMeters (rnd : K → K) (v : K) : K := if v ≠ NODATAVAL then rnd (v * 1000) else v

/-- Multiplication of a `float` by a `double`, stored in the `float` (`*=`, libsrc/cencalvm/create/GridIngester.cc:225-235). -/
def viaDouble (rd : Rd K) (v : K) : K := rd.single (rd.double v)

/-- The payload inserted, libsrc/cencalvm/create/GridIngester.cc:224-235. -/
def convert (rd : Rd K) (p : Payload K) : Payload K :=
  { p with
    depth := toMeters (viaDouble rd) p.depth
    vp := toMeters (viaDouble rd) p.vp
    vs := toMeters (viaDouble rd) p.vs
    density := toMeters (viaDouble rd) p.density }

/-- Whether a line is inserted, libsrc/cencalvm/create/GridIngester.cc:219-220. -/
def keeps (p : Payload K) : Bool := decide (p.faultBlock ≠ NODATABLOCK ∧ p.zone ≠ NODATAZONE)

/-- Number of points added and ignored, libsrc/cencalvm/create/GridIngester.cc:156-157. -/
structure Counts where
  added : Nat
  ignored : Nat
  deriving DecidableEq, Repr

/-- The loop over the data lines, libsrc/cencalvm/create/GridIngester.cc:198-265, with `n` lines left.  The messages about
ignored points are left out. -/
def pointLoop (env : EtreeEnv) (nf : NumFmt K) (junk : Payload K) (g : Geom K) (resHoriz : K) :
    Nat → Stream → Counts → Creator K → Run (Creator K) Counts
  | 0, _, n, c => .ok c n
  | k + 1, s, n, c =>
    let r := readPoint nf junk s
    if !r.1.good then .exc "Couldn't parse line." c
    else if keeps r.2.payload then
      (insert env c (convert nf.rd r.2.payload) r.2.lon r.2.lat (toMeters nf.rd.double r.2.elev) resHoriz (some g)).bind fun c _ =>
      pointLoop env nf junk g resHoriz k r.1 { n with added := n.added + 1 } c
    else pointLoop env nf junk g resHoriz k r.1 { n with ignored := n.ignored + 1 } c

/-- Tolerance of the header checks, libsrc/cencalvm/create/GridIngester.cc:177. -/
def tolerance (rd : Rd K) : K := rd.double (1 / 1000000)

/-- `GridIngester::_addGrid`, libsrc/cencalvm/create/GridIngester.cc:138-282, on the contents of the grid file.  The
message for a zero resolution is constructed but not thrown (166-172).  A level that is negative or above 31 is an
undefined shift in `edgeLen` (189).  The exception caught is thrown again with the same message (268-275); the messages
are abbreviated. -/
def addGrid (env : EtreeEnv) (nf : NumFmt K) (junk : Payload K) (g : Option (Geom K)) (files : String → Option (List Char))
    (c : Creator K) (filename : String) : Run (Creator K) Counts :=
  match g with
  | none => .ub
  | some g =>
    match files filename with
    | none => .exc ("Could not open grid file '" ++ filename ++ "' for reading.") c
    | some text =>
      let r := readHeader nf (Stream.ofText text)
      let resHoriz := nf.rd.double (r.2.resHoriz * 1000)
      let resVert := nf.rd.double (r.2.resVert * 1000)
      if ratioOff nf.rd resHoriz resVert g.vertExag (tolerance nf.rd) then
        .exc "Vertical exaggeration does not match velocity model vertical exaggeration." c
      else match g.level resHoriz with
        | .exc m => .exc m c
        | .ub => .ub
        | .ok n =>
          if n < 0 ∨ 31 < n then .ub
          else if |nf.rd.double (1 - nf.rd.double (resHoriz / g.edgeLen n.toNat))| > tolerance nf.rd then
            .exc "Horizontal resolution does not fit resolution of nearest level in database." c
          else pointLoop env nf junk g resHoriz r.2.numTotal.toNat r.1 ⟨0, 0⟩ c

/-- Reading of the grid file names with at most `n` words left, libsrc/cencalvm/create/GridIngester.cc:111-121: a name is
kept only if the stream is still good after reading it. -/
def readNames : Nat → Stream → List String
  | 0, _ => []
  | n + 1, s =>
    if s.good then
      let r := s.extract (List.span fun ch => !Stream.isSpace ch) (fun t => some (String.ofList t)) "" ""
      if r.1.good then r.2 :: readNames n r.1 else readNames n r.1
    else []

/-- `GridIngester::_readParams`, libsrc/cencalvm/create/GridIngester.cc:93-133. -/
def readParams (text : List Char) : List String := readNames (text.length + 1) (Stream.ofText text)

/-- Adding all grids, libsrc/cencalvm/create/GridIngester.cc:81-82. -/
def addGrids (env : EtreeEnv) (nf : NumFmt K) (junk : Payload K) (g : Option (Geom K)) (files : String → Option (List Char)) :
    List String → Creator K → Run (Creator K) Unit
  | [], c => .ok c ()
  | f :: fs, c => (addGrid env nf junk g files c f).bind fun c _ => addGrids env nf junk g files fs c

/-- `GridIngester::run`, libsrc/cencalvm/create/GridIngester.cc:64-88, for nonempty file names with the temporary file
different from the output.  An exception destroys the creator, which closes its database. -/
def run (env : EtreeEnv) (nf : NumFmt K) (junk : Payload K) (g : Option (Geom K)) (files : String → Option (List Char))
    (disk : EtreeDisk K) (params tmp out description stamp : String) : Run (EtreeDisk K) Unit :=
  match files params with
  | none => .exc ("Could not open parameter file '" ++ params ++ "' for reading.") disk
  | some text =>
    let r := (openDB env (init disk) tmp description stamp).bind fun c _ => addGrids env nf junk g files (readParams text) c
    match r with
    | .ub => .ub
    | .exc m c => .exc m (closeDB c).disk
    | .ok c _ => packDB env (closeDB c).disk out tmp

end GridIngester
end CenCalVM
