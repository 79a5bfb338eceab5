/-
What cencalvmgen, cencalvmpack and cencalvmavg write to the console.
-/
import Verif.Model.FileApps

namespace CenCalVM

/-- The text written to standard output and to standard error. -/
structure Console where
  out : String
  err : String
  deriving DecidableEq, Repr

namespace Console
open GridIngester (Counts Point Header readPoint readHeader keeps convert toMeters tolerance ratioOff)
open VMCreator (Creator)
variable {K : Type} [Field K] [LinearOrder K]

/-- Nothing written yet. -/
def start : Console := ⟨"", ""⟩
/-- `if (!_quiet) std::cout << text`, as in libsrc/cencalvm/create/VMCreator.cc:60-62. -/
def cout (con : Console) (quiet : Bool) (text : String) : Console := if quiet then con else { con with out := con.out ++ text }
/-- `std::cerr << text`, as in libsrc/cencalvm/create/GridIngester.cc:269-273. -/
def cerr (con : Console) (text : String) : Console := { con with err := con.err ++ text }

/-! ### Averaging -/

/-- `AvgEngine::printOctantInfo`, libsrc/cencalvm/average/AvgEngine.cc:128-146. -/
def octantInfo (c : AvgEngine.Counters) : String :=
  "Summary of etree averaging\n" ++
  "Number of octants\n" ++
  "  IN: " ++ toString c.input ++ "\n" ++
  "  OUT total: " ++ toString c.output ++
  ", interior: " ++ toString c.interior ++ "\n" ++
  "Incomplete octants\n" ++
  "  x: " ++ toString c.incX ++ "\n" ++
  "  y: " ++ toString c.incY ++ "\n" ++
  "  z: " ++ toString c.incZ ++ "\n" ++
  "  xy: " ++ toString c.incXY ++ "\n" ++
  "  yz: " ++ toString c.incYZ ++ "\n" ++
  "  xz: " ++ toString c.incXZ ++ "\n" ++
  "  xyz: " ++ toString c.incXYZ ++ "\n" ++
  "  invalid: " ++ toString c.incInvalid ++ "\n" ++ "\n"

/-- The messages of `Averager::average` before the engine is created, libsrc/cencalvm/average/Averager.cc:66-104, in full
(`payloadSize` is 28, the size of the octants in the file is a parameter); `etree_errno` is `env.str`.  `none` if there is no
such failure. -/
def averagerMessage (env : Averager.Env K) (size : String → Nat) (disk : EtreeDisk K) (fileIn fileOut : String) : Option String :=
  match disk fileIn with
  | none => some ("Could not open etree database '" ++ fileIn ++ "' for averaging.")
  | some f =>
    if env.otherSize fileIn then
      some ("Payload size of input etree database '" ++ fileIn ++ "' doesn't match the expected payload size.\n" ++
        "Expected payload size is 28, and database payload size is " ++ toString (size fileIn) ++ ".")
    else match f.schema with
      | none => none
      | some s =>
        if s ≠ SCHEMA then
          some ("Schema of input etree database '" ++ fileIn ++ "' doesn't match the expected schema.\n" ++
            "Expected schema is\n'" ++ SCHEMA ++ "'\nand database schema is\n'" ++ s ++ "'")
        else if env.create fileOut then
          some ("Could not open etree database '" ++ fileOut ++ "' for output of averaged etree database .")
        else none

/-- What `Averager::average` leaves on disk and writes, libsrc/cencalvm/average/Averager.cc:58-131: the counts of the engine
(126-128) after averaging. -/
def average (env : Averager.Env K) (size : String → Nat) (quiet : Bool) (disk : EtreeDisk K) (fileIn fileOut stamp : String)
    (con : Console) : Run (EtreeDisk K × Console) Unit :=
  match Averager.average env disk fileIn fileOut stamp with
  | .ub => .ub
  | .exc m d => .exc ((averagerMessage env size disk fileIn fileOut).getD m) (d, con)
  | .ok d _ =>
    match (disk fileIn).map fun f => AvgEngine.average env.engine f.db with
    | some (.ok s _) => .ok (d, con.cout quiet (octantInfo s.cnt)) ()
    | _ => .ok (d, con) ()

/-- Exit code, files and console of a program whose body is in a `try` block, with a handler that writes the message to
standard error and returns 1, applications/average/cencalvmavg.cc:97-102, applications/create/cencalvmpack.cc:98-103,
applications/create/cencalvmgen.cc:127-132. -/
def finish (r : Run (EtreeDisk K × Console) Unit) : Outcome (Int × EtreeDisk K × Console) :=
  match r with
  | .ok (disk, con) _ => .ok (0, disk, con)
  | .exc m (disk, con) => .ok (1, disk, con.cerr m)
  | .ub => .ub

/-- `usage()` of cencalvmavg, applications/average/cencalvmavg.cc:28-36. -/
def avgUsage : String :=
  "usage: cencalvmavg [-h] -i inFile -o outFile\n  -i inFile     Etree database to average.\n" ++
  "  -o outFile    Averaged Etree database.\n  -h            Display usage and exit.\n\n"

/-- cencalvmavg, applications/average/cencalvmavg.cc:83-105; an `Averager` is not quiet unless told so
(libsrc/cencalvm/average/Averager.cc:36). -/
def avgMain (env : Averager.Env K) (size : String → Nat) (stamp : String) (argv : List (List Char)) (disk : EtreeDisk K) :
    Outcome (Int × EtreeDisk K × Console) :=
  match FileApps.parseArgs FileApps.avgSpec ['i', 'o'] argv with
  | none => .ok (1, disk, start.cerr avgUsage)
  | some a => finish (average env size false disk (a 'i') (a 'o') stamp start)

/-! ### Packing -/

/-- `VMCreator::packDB`, libsrc/cencalvm/create/VMCreator.cc:112-175, with its output (116-120, 173-174). -/
def packDB (env : EtreeEnv) (quiet : Bool) (disk : EtreeDisk K) (packed unpacked : String) (con : Console) :
    Run (EtreeDisk K × Console) Unit :=
  let con := con.cout quiet ("Creating packed etree database '" ++ packed ++ "' from unpacked etree database '" ++ unpacked ++ "'.\n")
  match VMCreator.packDB env disk packed unpacked with
  | .ub => .ub
  | .exc m d => .exc m (d, con)
  | .ok d _ => .ok (d, con.cout quiet "Done packing etree database.\n") ()

/-- `usage()` of cencalvmpack, applications/create/cencalvmpack.cc:24-34. -/
def packUsage : String :=
  "usage: cencalvmpack [-h] -i inFile -o outFile\n  -i inFile  Parameter file with list of grid input files\n" ++
  "  -o outFile    Etree database file created.\n  -h            Display usage and exit.\n\n" ++
  "Parameter file is list of grid input files, one per line.\n"

/-- cencalvmpack, applications/create/cencalvmpack.cc:86-107. -/
def packMain (env : EtreeEnv) (argv : List (List Char)) (disk : EtreeDisk K) : Outcome (Int × EtreeDisk K × Console) :=
  match FileApps.parseArgs FileApps.packSpec ['i', 'o'] argv with
  | none => .ok (1, disk, start.cerr packUsage)
  | some a => finish (packDB env false disk (a 'o') (a 'i') start)

/-! ### Ingestion -/

/-- A creator, the console, and the numbers of points, while a grid is read, libsrc/cencalvm/create/GridIngester.cc:156-157. -/
structure Reading (K : Type) where
  creator : Creator K
  con : Console
  counts : Counts

/-- The line about a point left out, libsrc/cencalvm/create/GridIngester.cc:240-262.  The test at 246 asks whether there is a
fault block. -/
def ignoredLine (fmt : Fmt K) (rd : Rd K) (p : Point K) : String :=
  fmt.sci p.lon ++ ", " ++ fmt.sci p.lat ++ ", " ++ fmt.sci (toMeters rd.double p.elev) ++
    (if p.payload.faultBlock ≠ NODATABLOCK then ", No fault block\n" else ", Ignoring\n")

/-- The loop over the data lines, libsrc/cencalvm/create/GridIngester.cc:198-265, with `n` lines left. -/
def pointLoop (env : EtreeEnv) (fmt : Fmt K) (nf : NumFmt K) (junk : Payload K) (g : Geom K) (quiet : Bool) (resHoriz : K) :
    Nat → Stream → Reading K → Run (Reading K) Unit
  | 0, _, t => .ok t ()
  | k + 1, s, t =>
    let r := readPoint nf junk s
    if !r.1.good then .exc "Couldn't parse line." t
    else if keeps r.2.payload then
      match VMCreator.insert env t.creator (convert nf.rd r.2.payload) r.2.lon r.2.lat (toMeters nf.rd.double r.2.elev) resHoriz
          (some g) with
      | .ub => .ub
      | .exc m c => .exc m { t with creator := c }
      | .ok c _ =>
        pointLoop env fmt nf junk g quiet resHoriz k r.1
          { t with creator := c, counts := { t.counts with added := t.counts.added + 1 } }
    else
      pointLoop env fmt nf junk g quiet resHoriz k r.1
        { t with con := if quiet then t.con else t.con.cerr (ignoredLine fmt nf.rd r.2)
                 counts := { t.counts with ignored := t.counts.ignored + 1 } }

/-- The `try` block of `_addGrid`, libsrc/cencalvm/create/GridIngester.cc:158-267, with the messages in full; for a vertical
resolution of 0 the ratio, infinite in the code, is written as 0 here. -/
def tryGrid (env : EtreeEnv) (fmt : Fmt K) (nf : NumFmt K) (junk : Payload K) (g : Geom K) (quiet : Bool) (filename : String)
    (text : List Char) (t : Reading K) : Run (Reading K) Unit :=
  let r := readHeader nf (Stream.ofText text)
  let resHoriz := nf.rd.double (r.2.resHoriz * 1000)
  let resVert := nf.rd.double (r.2.resVert * 1000)
  if ratioOff nf.rd resHoriz resVert g.vertExag (tolerance nf.rd) then
    .exc ("Vertical exaggeration of " ++ fmt.gen (nf.rd.double (resHoriz / resVert)) ++ " in '" ++ filename ++
      "' does not match velocity model vertical exaggeration of " ++ fmt.gen g.vertExag ++ ".") t
  else match g.level resHoriz with
    | .exc m => .exc m t
    | .ub => .ub
    | .ok n =>
      if n < 0 ∨ 31 < n then .ub
      else if |nf.rd.double (1 - nf.rd.double (resHoriz / g.edgeLen n.toNat))| > tolerance nf.rd then
        .exc ("Horizontal resolution of " ++ fmt.gen resHoriz ++ " in '" ++ filename ++
          "' does not fit resolution of nearest level in database of " ++ fmt.gen (g.edgeLen n.toNat) ++ ".") t
      else pointLoop env fmt nf junk g quiet resHoriz r.2.numTotal.toNat r.1 t

/-- `GridIngester::_addGrid`, libsrc/cencalvm/create/GridIngester.cc:138-282: the output before (152-154), in the handler
(268-275) and after reading (277-281). -/
def addGrid (env : EtreeEnv) (fmt : Fmt K) (nf : NumFmt K) (junk : Payload K) (g : Option (Geom K)) (quiet : Bool)
    (files : String → Option (List Char)) (c : Creator K) (con : Console) (filename : String) : Run (Creator K × Console) Unit :=
  match g with
  | none => .ub
  | some g =>
    match files filename with
    | none => .exc ("Could not open grid file '" ++ filename ++ "' for reading.") (c, con)
    | some text =>
      match tryGrid env fmt nf junk g quiet filename text
          ⟨c, con.cout quiet ("Beginning processing of '" ++ filename ++ "'...\n"), ⟨0, 0⟩⟩ with
      | .ub => .ub
      | .exc m t => .exc m (t.creator, t.con.cerr
          ("Caught error while reading grid from '" ++ filename ++ "'.\n" ++ "Successfully added " ++ toString t.counts.added ++
            " points and ignored " ++ toString t.counts.ignored ++ " others.\n" ++ "Error message: " ++ m))
      | .ok t _ => .ok (t.creator, t.con.cout quiet
          ("Done procesing '" ++ filename ++ "'.  # points added: " ++ toString t.counts.added ++
            ",  # points ignored: " ++ toString t.counts.ignored ++ "\n")) ()

/-- Adding all grids, libsrc/cencalvm/create/GridIngester.cc:81-82. -/
def addGrids (env : EtreeEnv) (fmt : Fmt K) (nf : NumFmt K) (junk : Payload K) (g : Option (Geom K)) (quiet : Bool)
    (files : String → Option (List Char)) : List String → Creator K → Console → Run (Creator K × Console) Unit
  | [], c, con => .ok (c, con) ()
  | f :: fs, c, con =>
    match addGrid env fmt nf junk g quiet files c con f with
    | .ub => .ub
    | .exc m t => .exc m t
    | .ok (c, con) _ => addGrids env fmt nf junk g quiet files fs c con

/-- `VMCreator::openDB`, libsrc/cencalvm/create/VMCreator.cc:53-94, with its output (60-62, 92-93). -/
def openDB (env : EtreeEnv) (quiet : Bool) (c : Creator K) (filename description stamp : String) (con : Console) :
    Run (Creator K × Console) Unit :=
  let con := con.cout quiet ("Opening new etree database '" ++ filename ++ "'.\n")
  match VMCreator.openDB env c filename description stamp with
  | .ub => .ub
  | .exc m c => .exc m (c, con)
  | .ok c _ => .ok (c, con.cout quiet "Finished preparing database.\n") ()

/-- `GridIngester::run`, libsrc/cencalvm/create/GridIngester.cc:64-88, with the output of `_readParams` (125-127), and of
`VMCreator::closeDB` (libsrc/cencalvm/create/VMCreator.cc:101-102).  The destructor of a creator writes nothing. -/
def run (env : EtreeEnv) (fmt : Fmt K) (nf : NumFmt K) (junk : Payload K) (g : Option (Geom K)) (quiet : Bool)
    (files : String → Option (List Char)) (disk : EtreeDisk K) (params tmp out description stamp : String) (con : Console) :
    Run (EtreeDisk K × Console) Unit :=
  match files params with
  | none => .exc ("Could not open parameter file '" ++ params ++ "' for reading.") (disk, con)
  | some text =>
    let names := GridIngester.readParams text
    let con := con.cout quiet ("Starting processing of " ++ toString names.length ++ " grid files.\n")
    match openDB env quiet (VMCreator.init disk) tmp description stamp con with
    | .ub => .ub
    | .exc m (c, con) => .exc m ((VMCreator.closeDB c).disk, con)
    | .ok (c, con) _ =>
      match addGrids env fmt nf junk g quiet files names c con with
      | .ub => .ub
      | .exc m (c, con) => .exc m ((VMCreator.closeDB c).disk, con)
      | .ok (c, con) _ =>
        packDB env quiet (VMCreator.closeDB c).disk out tmp (con.cout quiet ("Closing database '" ++ c.filename ++ "'.\n"))

/-- `usage()` of cencalvmgen, applications/create/cencalvmgen.cc:26-39. -/
def genUsage : String :=
  "usage: cencalvmgen [-h] -i paramFile -o outFile -t tmpFile [-l logFile]\n" ++
  "  -i paramFile  Parameter file with list of grid input files\n  -o outFile    Etree database file created.\n" ++
  "  -t tmpFile    Name of scratch file used in database construction.\n  -h            Display usage and exit.\n" ++
  "  -l logFile    Log file for warnings about data.\n\nParameter file is list of grid input files, one per line.\n"

/-- cencalvmgen, applications/create/cencalvmgen.cc:99-135; a `GridIngester` is not quiet unless told so
(libsrc/cencalvm/create/GridIngester.cc:42). -/
def genMain (env : EtreeEnv) (fmt : Fmt K) (nf : NumFmt K) (junk : Payload K) (g : Geom K) (files : String → Option (List Char))
    (stamp : String) (argv : List (List Char)) (disk : EtreeDisk K) : Outcome (Int × EtreeDisk K × Console) :=
  match FileApps.parseArgs FileApps.genSpec ['i', 'o', 't'] argv with
  | none => .ok (1, disk, start.cerr genUsage)
  | some a => finish (run env fmt nf junk (some g) false files disk (a 'i') (a 't') (a 'o') FileApps.genDescription stamp start)

end Console
end CenCalVM
